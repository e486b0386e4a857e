import Verif.Lemmas.Buf
import Mathlib.Data.Nat.Bitwise
import Mathlib.Tactic.IntervalCases
import Mathlib.Tactic.Ring

/-! Outcome of the stages of the FFT, with any arithmetic. -/

namespace LC3

variable {R : Type}

/-- A complex number of a buffer. -/
def cAt (z : R) (l : List R) (k : Nat) : R × R := (l.getD (2 * k) z, l.getD (2 * k + 1) z)

/-- The outcome `r` of `fft_5` on 5 complex numbers. -/
def dft5 (A : Arith R) (T : MdctTables R) (x0 x1 x2 x3 x4 : R × R) (r : Nat) : R × R :=
  let s14r := A.add x1.1 x4.1; let s14i := A.add x1.2 x4.2
  let d14r := A.sub x1.1 x4.1; let d14i := A.sub x1.2 x4.2
  let s23r := A.add x2.1 x3.1; let s23i := A.add x2.2 x3.2
  let d23r := A.sub x2.1 x3.1; let d23i := A.sub x2.2 x3.2
  match r with
  | 0 => (A.add (A.add x0.1 s14r) s23r, A.add (A.add x0.2 s14i) s23i)
  | 1 => (A.sub (A.add (A.sub (A.add x0.1 (A.mul s14r T.cos1)) (A.mul d14i T.sin1)) (A.mul s23r T.cos2)) (A.mul d23i T.sin2),
          A.add (A.add (A.add (A.add x0.2 (A.mul s14i T.cos1)) (A.mul d14r T.sin1)) (A.mul s23i T.cos2)) (A.mul d23r T.sin2))
  | 2 => (A.add (A.add (A.sub (A.add x0.1 (A.mul s14r T.cos2)) (A.mul d14i T.sin2)) (A.mul s23r T.cos1)) (A.mul d23i T.sin1),
          A.sub (A.add (A.add (A.add x0.2 (A.mul s14i T.cos2)) (A.mul d14r T.sin2)) (A.mul s23i T.cos1)) (A.mul d23r T.sin1))
  | 3 => (A.sub (A.add (A.add (A.add x0.1 (A.mul s14r T.cos2)) (A.mul d14i T.sin2)) (A.mul s23r T.cos1)) (A.mul d23i T.sin1),
          A.add (A.add (A.sub (A.add x0.2 (A.mul s14i T.cos2)) (A.mul d14r T.sin2)) (A.mul s23i T.cos1)) (A.mul d23r T.sin1))
  | _ => (A.add (A.add (A.add (A.add x0.1 (A.mul s14r T.cos1)) (A.mul d14i T.sin1)) (A.mul s23r T.cos2)) (A.mul d23i T.sin2),
          A.sub (A.add (A.sub (A.add x0.2 (A.mul s14i T.cos1)) (A.mul d14r T.sin1)) (A.mul s23i T.cos2)) (A.mul d23r T.sin2))

theorem fft5_full (z : R) (A : Arith R) (T : MdctTables R) (n : Nat) (x y : List R) (hx : 10 * n ≤ x.length) (hy : 10 * n ≤ y.length) :
    ∃ y', fft5 A T n x y = some y' ∧ y'.length = y.length ∧
      (∀ i r, i < n → r < 5 → cAt z y' (5 * i + r) =
        dft5 A T (cAt z x i) (cAt z x (i + n)) (cAt z x (i + 2 * n)) (cAt z x (i + 3 * n)) (cAt z x (i + 4 * n)) r) ∧
      ∀ p, 10 * n ≤ p → y'.getD p z = y.getD p z := by
  unfold fft5
  obtain ⟨y', h1, h2, h3, h4⟩ := iter_inv (fft5Body A T n x)
    (fun m y' => y'.length = y.length ∧ (∀ i r, i < m → r < 5 → cAt z y' (5 * i + r) =
        dft5 A T (cAt z x i) (cAt z x (i + n)) (cAt z x (i + 2 * n)) (cAt z x (i + 3 * n)) (cAt z x (i + 4 * n)) r) ∧
        ∀ p, 10 * n ≤ p → y'.getD p z = y.getD p z)
    n 0 y ⟨rfl, fun i r h => absurd h (by omega), fun _ _ => rfl⟩ (by
      intro j s _ hj ⟨hl, hI, hF⟩
      rw [Nat.zero_add] at hj
      unfold fft5Body
      rw [rd_at z x _ (2 * j) (by omega) (by omega), rd_at z x _ (2 * j + 1) (by omega) (by omega)]
      rw [rd_at z x _ (2 * (j + n)) (by push_cast; omega) (by omega), rd_at z x _ (2 * (j + n) + 1) (by push_cast; omega) (by omega)]
      rw [rd_at z x _ (2 * (j + 2 * n)) (by push_cast; omega) (by omega), rd_at z x _ (2 * (j + 2 * n) + 1) (by push_cast; omega) (by omega)]
      rw [rd_at z x _ (2 * (j + 3 * n)) (by push_cast; omega) (by omega), rd_at z x _ (2 * (j + 3 * n) + 1) (by push_cast; omega) (by omega)]
      rw [rd_at z x _ (2 * (j + 4 * n)) (by push_cast; omega) (by omega), rd_at z x _ (2 * (j + 4 * n) + 1) (by push_cast; omega) (by omega)]
      dsimp only [bind, Option.bind]
      rw [wr_at _ _ (10 * j) _ (by omega) (by omega)]; dsimp only
      rw [wr_at _ _ (10 * j + 1) _ (by omega) (by simp only [List.length_set]; omega)]; dsimp only
      rw [wr_at _ _ (10 * j + 2) _ (by omega) (by simp only [List.length_set]; omega)]; dsimp only
      rw [wr_at _ _ (10 * j + 3) _ (by omega) (by simp only [List.length_set]; omega)]; dsimp only
      rw [wr_at _ _ (10 * j + 4) _ (by omega) (by simp only [List.length_set]; omega)]; dsimp only
      rw [wr_at _ _ (10 * j + 5) _ (by omega) (by simp only [List.length_set]; omega)]; dsimp only
      rw [wr_at _ _ (10 * j + 6) _ (by omega) (by simp only [List.length_set]; omega)]; dsimp only
      rw [wr_at _ _ (10 * j + 7) _ (by omega) (by simp only [List.length_set]; omega)]; dsimp only
      rw [wr_at _ _ (10 * j + 8) _ (by omega) (by simp only [List.length_set]; omega)]; dsimp only
      rw [wr_at _ _ (10 * j + 9) _ (by omega) (by simp only [List.length_set]; omega)]
      refine ⟨_, rfl, by simp only [List.length_set]; exact hl, ?_, fun p hp => by
        simp (disch := omega) only [getD_set_ne]; exact hF p hp⟩
      intro i r hi hr
      by_cases hij : i = j
      · subst hij
        unfold cAt
        interval_cases r <;>
        · simp only [List.getD_eq_getElem?_getD, List.getElem?_set, List.length_set]
          simp (disch := omega) only [if_pos, if_neg]
          rfl
      · have := hI i r (by omega) hr
        unfold cAt at this ⊢
        rw [← this]
        simp (disch := omega) only [getD_set_ne])
  exact ⟨y', h1, h2, fun i r hi hr => h3 i r (by omega) hr, h4⟩

theorem fft5_spec (z : R) (A : Arith R) (T : MdctTables R) (n : Nat) (x y : List R) (hx : 10 * n ≤ x.length) (hy : 10 * n ≤ y.length) :
    ∃ y', fft5 A T n x y = some y' ∧ y'.length = y.length ∧
      ∀ i r, i < n → r < 5 → cAt z y' (5 * i + r) =
        dft5 A T (cAt z x i) (cAt z x (i + n)) (cAt z x (i + 2 * n)) (cAt z x (i + 3 * n)) (cAt z x (i + 4 * n)) r := by
  obtain ⟨y', h1, h2, h3, -⟩ := fft5_full z A T n x y hx hy
  exact ⟨y', h1, h2, h3⟩

theorem pos_inj {b q q' j j' : Nat} (hj : j < b) (hj' : j' < b) (h : b * q + j = b * q' + j') : q = q' ∧ j = j' := by
  have h1 : (b * q + j) / b = q := by rw [Nat.mul_add_div (by omega), Nat.div_eq_of_lt hj]; omega
  have h2 : (b * q' + j') / b = q' := by rw [Nat.mul_add_div (by omega), Nat.div_eq_of_lt hj']; omega
  have h3 : q = q' := by rw [← h1, ← h2, h]
  subst h3
  exact ⟨rfl, by omega⟩

theorem cAt_set2 (z : R) (l : List R) (p k : Nat) (u v : R) (hp : 2 * p + 1 < l.length) :
    cAt z ((l.set (2 * p) u).set (2 * p + 1) v) k = if k = p then (u, v) else cAt z l k := by
  unfold cAt
  by_cases h : k = p
  · subst h
    rw [if_pos rfl, getD_set_ne z _ _ _ _ (by omega), getD_set_at z _ _ _ (by omega), if_pos rfl,
      getD_set_at z _ _ _ (by rw [List.length_set]; omega), if_pos rfl]
  · rw [if_neg h, getD_set_ne z _ _ _ _ (by omega), getD_set_ne z _ _ _ _ (by omega), getD_set_ne z _ _ _ _ (by omega),
      getD_set_ne z _ _ _ _ (by omega)]

/-- Write of a complex number. -/
theorem wr2_at (l : List R) (i i' : Int) (k : Nat) (u v : R) (hi : i = 2 * k) (hi' : i' = 2 * k + 1) (hk : 2 * k + 1 < l.length) :
    ((wr l i u).bind fun y => wr y i' v) = some ((l.set (2 * k) u).set (2 * k + 1) v) := by
  rw [wr_at l i (2 * k) u (by omega) (by omega), Option.bind_some, wr_at _ i' (2 * k + 1) v (by omega) (by rw [List.length_set]; omega)]

/-- The outcome of a butterfly of 3 points. -/
def out3 (A : Arith R) (x0 x1 x2 a b : R × R) : R × R := (cmac3Re A x0 x1 x2 a b, cmac3Im A x0 x1 x2 a b)

/-- The outcomes of a butterfly of 2 points. -/
def out2 (A : Arith R) (x0 x1 a : R × R) (s : Nat) : R × R :=
  if s = 0 then (A.sub (A.add x0.1 (A.mul x1.1 a.1)) (A.mul x1.2 a.2), A.add (A.add x0.2 (A.mul x1.2 a.1)) (A.mul x1.1 a.2))
  else (A.add (A.sub x0.1 (A.mul x1.1 a.1)) (A.mul x1.2 a.2), A.sub (A.sub x0.2 (A.mul x1.2 a.1)) (A.mul x1.1 a.2))

theorem mul_lt_of {a b c d : Nat} (h1 : a < b) (h2 : c < d) : a * d + c < b * d := by
  have : (a + 1) * d ≤ b * d := Nat.mul_le_mul_right d h1
  rw [Nat.add_mul] at this
  omega

theorem fftBf2_full (z : R) (A : Arith R) (n2 : Nat) (w : List R) (n : Nat) (x y : List R) (hw : 2 * n2 ≤ w.length)
    (hx : 4 * (n * n2) ≤ x.length) (hy : 4 * (n * n2) ≤ y.length) :
    ∃ y', fftBf2 A (n2, w) n x y = some y' ∧ y'.length = y.length ∧
      (∀ i j s, i < n → j < n2 → s < 2 → cAt z y' (n2 * (2 * i + s) + j) =
        out2 A (cAt z x (i * n2 + j)) (cAt z x (i * n2 + j + n * n2)) (cAt z w j) s) ∧
      ∀ p, 4 * (n * n2) ≤ p → y'.getD p z = y.getD p z := by
  unfold fftBf2
  obtain ⟨y', h1, h2, h3, h4⟩ := iter_inv (bf2Body A n2 w n x)
    (fun m y' => y'.length = y.length ∧ (∀ i j s, i * n2 + j < m → j < n2 → s < 2 → cAt z y' (n2 * (2 * i + s) + j) =
        out2 A (cAt z x (i * n2 + j)) (cAt z x (i * n2 + j + n * n2)) (cAt z w j) s) ∧
        ∀ p, 4 * (n * n2) ≤ p → y'.getD p z = y.getD p z)
    (n * n2) 0 y ⟨rfl, fun i j s h => absurd h (by omega), fun _ _ => rfl⟩ (by
      intro t y1 _ ht ⟨hl, hI, hF⟩
      rw [Nat.zero_add] at ht
      have hn2 : 0 < n2 := by
        rcases Nat.eq_zero_or_pos n2 with h | h
        · subst h; omega
        · exact h
      have hj : t % n2 < n2 := Nat.mod_lt _ hn2
      have hi : t / n2 < n := by rw [Nat.div_lt_iff_lt_mul hn2]; exact ht
      have ht' : t / n2 * n2 + t % n2 = t := by rw [Nat.mul_comm]; exact Nat.div_add_mod t n2
      unfold bf2Body
      generalize t / n2 = i at *
      generalize t % n2 = j at *
      have hb := mul_lt_of hi hj
      have e1 : 2 * n2 * i = 2 * (i * n2) := by rw [Nat.mul_assoc, Nat.mul_comm n2]
      have e2 : n2 * (2 * i) = 2 * (i * n2) := by rw [Nat.mul_left_comm, Nat.mul_comm n2]
      have e3 : n2 * (2 * i + 1) = 2 * (i * n2) + n2 := by rw [Nat.mul_add, e2, Nat.mul_one]
      have e4 : (i + 1) * n2 ≤ n * n2 := Nat.mul_le_mul_right n2 hi
      rw [Nat.add_mul, Nat.one_mul] at e4
      dsimp only
      rw [rdc_at z x _ t rfl (by omega), rdc_at z x _ (t + n * n2) (by push_cast; rfl) (by omega),
        rdc_at z w _ j rfl (by omega)]
      dsimp only [bind, Option.bind]
      rw [wr_at _ _ (2 * (n2 * (2 * i) + j)) _ (by push_cast; ring) (by omega)]; dsimp only
      rw [wr_at _ _ (2 * (n2 * (2 * i) + j) + 1) _ (by push_cast; ring) (by simp only [List.length_set]; omega)]; dsimp only
      rw [wr_at _ _ (2 * (n2 * (2 * i + 1) + j)) _ (by push_cast; ring) (by simp only [List.length_set]; omega)]; dsimp only
      rw [wr_at _ _ (2 * (n2 * (2 * i + 1) + j) + 1) _ (by push_cast; ring) (by simp only [List.length_set]; omega)]
      refine ⟨_, rfl, by simp only [List.length_set]; exact hl, ?_, fun p hp => by
        simp (disch := omega) only [getD_set_ne]; exact hF p hp⟩
      intro i' j' s' hij hj' hs'
      rw [cAt_set2 z _ _ _ _ _ (by simp only [List.length_set]; omega), cAt_set2 z _ _ _ _ _ (by omega)]
      by_cases heq : i' * n2 + j' = t
      · have := pos_inj (b := n2) (q := i') (q' := i) hj' hj (by rw [Nat.mul_comm, Nat.mul_comm n2]; omega)
        obtain ⟨rfl, rfl⟩ := this
        rw [heq]
        interval_cases s'
        · rw [if_neg (by rw [Nat.add_zero]; omega), if_pos (by rw [Nat.add_zero])]; rfl
        · rw [if_pos rfl]; rfl
      · have hne : ∀ s, s < 2 → n2 * (2 * i' + s') + j' ≠ n2 * (2 * i + s) + j := by
          intro s hs he
          have := pos_inj hj' hj he
          have hh : i' = i := by omega
          rw [hh, this.2] at heq
          exact heq ht'
        rw [if_neg (hne 1 (by omega)), if_neg (by simpa using hne 0 (by omega))]
        exact hI i' j' s' (by omega) hj' hs')
  exact ⟨y', h1, h2, fun i j s hi hj hs => h3 i j s (by have := mul_lt_of hi hj; omega) hj hs, h4⟩

theorem fftBf2_spec (z : R) (A : Arith R) (n2 : Nat) (w : List R) (n : Nat) (x y : List R) (hw : 2 * n2 ≤ w.length)
    (hx : 4 * (n * n2) ≤ x.length) (hy : 4 * (n * n2) ≤ y.length) :
    ∃ y', fftBf2 A (n2, w) n x y = some y' ∧ y'.length = y.length ∧
      ∀ i j s, i < n → j < n2 → s < 2 → cAt z y' (n2 * (2 * i + s) + j) =
        out2 A (cAt z x (i * n2 + j)) (cAt z x (i * n2 + j + n * n2)) (cAt z w j) s := by
  obtain ⟨y', h1, h2, h3, -⟩ := fftBf2_full z A n2 w n x y hw hx hy
  exact ⟨y', h1, h2, h3⟩

theorem fftBf3_full (z : R) (A : Arith R) (n3 : Nat) (w : List R) (n : Nat) (x y : List R) (hw : 12 * n3 ≤ w.length)
    (hx : 6 * (n * n3) ≤ x.length) (hy : 6 * (n * n3) ≤ y.length) :
    ∃ y', fftBf3 A (n3, w) n x y = some y' ∧ y'.length = y.length ∧
      (∀ i j s, i < n → j < n3 → s < 3 → cAt z y' (n3 * (3 * i + s) + j) =
        out3 A (cAt z x (i * n3 + j)) (cAt z x (i * n3 + j + n * n3)) (cAt z x (i * n3 + j + 2 * (n * n3)))
          (cAt z w (2 * (s * n3 + j))) (cAt z w (2 * (s * n3 + j) + 1))) ∧
      ∀ p, 6 * (n * n3) ≤ p → y'.getD p z = y.getD p z := by
  unfold fftBf3
  obtain ⟨y', h1, h2, h3, h4⟩ := iter_inv (bf3Body A n3 w n x)
    (fun m y' => y'.length = y.length ∧ (∀ i j s, i * n3 + j < m → j < n3 → s < 3 → cAt z y' (n3 * (3 * i + s) + j) =
        out3 A (cAt z x (i * n3 + j)) (cAt z x (i * n3 + j + n * n3)) (cAt z x (i * n3 + j + 2 * (n * n3)))
          (cAt z w (2 * (s * n3 + j))) (cAt z w (2 * (s * n3 + j) + 1))) ∧
        ∀ p, 6 * (n * n3) ≤ p → y'.getD p z = y.getD p z)
    (n * n3) 0 y ⟨rfl, fun i j s h => absurd h (by omega), fun _ _ => rfl⟩ (by
      intro t y1 _ ht ⟨hl, hI, hF⟩
      rw [Nat.zero_add] at ht
      have hn3 : 0 < n3 := by
        rcases Nat.eq_zero_or_pos n3 with h | h
        · subst h; omega
        · exact h
      have hj : t % n3 < n3 := Nat.mod_lt _ hn3
      have hi : t / n3 < n := by rw [Nat.div_lt_iff_lt_mul hn3]; exact ht
      have ht' : t / n3 * n3 + t % n3 = t := by rw [Nat.mul_comm]; exact Nat.div_add_mod t n3
      unfold bf3Body
      generalize t / n3 = i at *
      generalize t % n3 = j at *
      have hb := mul_lt_of hi hj
      have e1 : 3 * n3 * i = 3 * (i * n3) := by rw [Nat.mul_assoc, Nat.mul_comm n3]
      have e2 : n3 * (3 * i) = 3 * (i * n3) := by rw [Nat.mul_left_comm, Nat.mul_comm n3]
      have e3 : n3 * (3 * i + 1) = 3 * (i * n3) + n3 := by rw [Nat.mul_add, e2, Nat.mul_one]
      have e3' : n3 * (3 * i + 2) = 3 * (i * n3) + 2 * n3 := by rw [Nat.mul_add, e2, Nat.mul_comm n3 2]
      have e4 : (i + 1) * n3 ≤ n * n3 := Nat.mul_le_mul_right n3 hi
      rw [Nat.add_mul, Nat.one_mul] at e4
      dsimp only
      rw [rdc_at z x _ t rfl (by omega), rdc_at z x _ (t + n * n3) (by push_cast; rfl) (by omega),
        rdc_at z x _ (t + 2 * (n * n3)) (by push_cast; omega) (by omega),
        rdc_at z w _ (2 * j) (by push_cast; omega) (by omega), rdc_at z w _ (2 * j + 1) (by push_cast; omega) (by omega),
        rdc_at z w _ (2 * (n3 + j)) (by push_cast; omega) (by omega),
        rdc_at z w _ (2 * (n3 + j) + 1) (by push_cast; omega) (by omega),
        rdc_at z w _ (2 * (2 * n3 + j)) (by push_cast; omega) (by omega),
        rdc_at z w _ (2 * (2 * n3 + j) + 1) (by push_cast; omega) (by omega)]
      dsimp only [bind, Option.bind]
      rw [wr_at _ _ (2 * (n3 * (3 * i) + j)) _ (by push_cast; ring) (by omega)]; dsimp only
      rw [wr_at _ _ (2 * (n3 * (3 * i) + j) + 1) _ (by push_cast; ring) (by simp only [List.length_set]; omega)]; dsimp only
      rw [wr_at _ _ (2 * (n3 * (3 * i + 1) + j)) _ (by push_cast; ring) (by simp only [List.length_set]; omega)]; dsimp only
      rw [wr_at _ _ (2 * (n3 * (3 * i + 1) + j) + 1) _ (by push_cast; ring) (by simp only [List.length_set]; omega)]; dsimp only
      rw [wr_at _ _ (2 * (n3 * (3 * i + 2) + j)) _ (by push_cast; ring) (by simp only [List.length_set]; omega)]; dsimp only
      rw [wr_at _ _ (2 * (n3 * (3 * i + 2) + j) + 1) _ (by push_cast; ring) (by simp only [List.length_set]; omega)]
      refine ⟨_, rfl, by simp only [List.length_set]; exact hl, ?_, fun p hp => by
        simp (disch := omega) only [getD_set_ne]; exact hF p hp⟩
      intro i' j' s' hij hj' hs'
      rw [cAt_set2 z _ _ _ _ _ (by simp only [List.length_set]; omega),
        cAt_set2 z _ _ _ _ _ (by simp only [List.length_set]; omega), cAt_set2 z _ _ _ _ _ (by omega)]
      by_cases heq : i' * n3 + j' = t
      · have := pos_inj (b := n3) (q := i') (q' := i) hj' hj (by rw [Nat.mul_comm, Nat.mul_comm n3]; omega)
        obtain ⟨rfl, rfl⟩ := this
        rw [heq]
        interval_cases s'
        · rw [if_neg (by rw [Nat.add_zero]; omega), if_neg (by rw [Nat.add_zero]; omega), if_pos (by rw [Nat.add_zero]), Nat.zero_mul, Nat.zero_add]; rfl
        · rw [if_neg (by omega), if_pos rfl, Nat.one_mul]; rfl
        · rw [if_pos rfl]; rfl
      · have hne : ∀ s, s < 3 → n3 * (3 * i' + s') + j' ≠ n3 * (3 * i + s) + j := by
          intro s hs he
          have := pos_inj hj' hj he
          have hh : i' = i := by omega
          rw [hh, this.2] at heq
          exact heq ht'
        rw [if_neg (hne 2 (by omega)), if_neg (hne 1 (by omega)), if_neg (by simpa using hne 0 (by omega))]
        exact hI i' j' s' (by omega) hj' hs')
  exact ⟨y', h1, h2, fun i j s hi hj hs => h3 i j s (by have := mul_lt_of hi hj; omega) hj hs, h4⟩

theorem fftBf3_spec (z : R) (A : Arith R) (n3 : Nat) (w : List R) (n : Nat) (x y : List R) (hw : 12 * n3 ≤ w.length)
    (hx : 6 * (n * n3) ≤ x.length) (hy : 6 * (n * n3) ≤ y.length) :
    ∃ y', fftBf3 A (n3, w) n x y = some y' ∧ y'.length = y.length ∧
      ∀ i j s, i < n → j < n3 → s < 3 → cAt z y' (n3 * (3 * i + s) + j) =
        out3 A (cAt z x (i * n3 + j)) (cAt z x (i * n3 + j + n * n3)) (cAt z x (i * n3 + j + 2 * (n * n3)))
          (cAt z w (2 * (s * n3 + j))) (cAt z w (2 * (s * n3 + j) + 1)) := by
  obtain ⟨y', h1, h2, h3, -⟩ := fftBf3_full z A n3 w n x y hw hx hy
  exact ⟨y', h1, h2, h3⟩

/-! ### The accesses of the whole transform, with any arithmetic -/

theorem and_pred_pow2 (b : Nat) : 2 ^ b &&& (2 ^ b - 1) = 0 := by
  rw [Nat.and_two_pow_sub_one_eq_mod, Nat.mod_self]

theorem and_pred_two (m : Nat) (hm : 0 < m) (h : m &&& (m - 1) ≠ 0) : 2 * m &&& (2 * m - 1) ≠ 0 := by
  intro h0
  have h1 : (2 * m &&& (2 * m - 1)) / 2 = m &&& (m - 1) := by
    rw [Nat.and_div_two, show 2 * m / 2 = m by omega, show (2 * m - 1) / 2 = m - 1 by omega]
  rw [h0] at h1
  omega

theorem and_pred_odd (k : Nat) (hk : 0 < k) : (2 * k + 1) &&& (2 * k + 1 - 1) ≠ 0 := by
  intro h0
  have h1 : ((2 * k + 1) &&& (2 * k + 1 - 1)) / 2 = k := by
    rw [Nat.and_div_two, show (2 * k + 1) / 2 = k by omega, show (2 * k + 1 - 1) / 2 = k by omega, Nat.and_self]
  rw [h0] at h1
  omega

theorem and_pred_ne (a b : Nat) : 3 ^ (a + 1) * 2 ^ b &&& (3 ^ (a + 1) * 2 ^ b - 1) ≠ 0 := by
  induction b with
  | zero =>
    have h1 : 3 ^ (a + 1) % 2 = 1 := by rw [Nat.pow_mod]; simp
    have h2 : 3 ≤ 3 ^ (a + 1) := by rw [Nat.pow_succ]; have := Nat.pow_pos (n := a) (show 0 < 3 by decide); omega
    rw [Nat.pow_zero, Nat.mul_one]
    obtain ⟨k, hk⟩ : ∃ k, 3 ^ (a + 1) = 2 * k + 1 := ⟨3 ^ (a + 1) / 2, by omega⟩
    rw [hk] at h2 ⊢
    exact and_pred_odd k (by omega)
  | succ b ih =>
    rw [show 3 ^ (a + 1) * 2 ^ (b + 1) = 2 * (3 ^ (a + 1) * 2 ^ b) by ring]
    exact and_pred_two _ (Nat.mul_pos (Nat.pow_pos (by decide)) (Nat.pow_pos (by decide))) ih

/-- A table of twiddles for the 3 points butterfly of a transform of `3 * n3` points. -/
def HasBf3 (n3 : Nat) (tw : Option (Nat × List R)) : Prop := ∃ w, tw = some (n3, w) ∧ 12 * n3 ≤ w.length

/-- A table of twiddles for the 2 points butterfly of a transform of `2 * n2` points. -/
def HasBf2 (n2 : Nat) (tw : Option (Nat × List R)) : Prop := ∃ w, tw = some (n2, w) ∧ 2 * n2 ≤ w.length

theorem loop3_total (z : R) (A : Arith R) (T : MdctTables R) (b : Nat) : ∀ (a i3 fuel B : Nat) (swap : Bool) (src dst : List R), a < fuel → 0 < B →
    (∀ i, i < a → HasBf3 (B * 3 ^ i) (T.bf3 (i3 + i))) → 2 * (B * (3 ^ a * 2 ^ b)) ≤ src.length →
    2 * (B * (3 ^ a * 2 ^ b)) ≤ dst.length →
    ∃ swap' src' dst', fftLoop3 A T fuel (3 ^ a * 2 ^ b) i3 swap src dst = some (2 ^ b, i3 + a, swap', src', dst') ∧
      (if swap' = swap then src'.length = src.length ∧ dst'.length = dst.length else src'.length = dst.length ∧ dst'.length = src.length) := by
  intro a
  induction a with
  | zero =>
    intro i3 fuel B swap src dst hf _ _ _ _
    obtain ⟨f, rfl⟩ : ∃ f, fuel = f + 1 := ⟨fuel - 1, by omega⟩
    rw [Nat.pow_zero, Nat.one_mul]
    refine ⟨swap, src, dst, ?_, by rw [if_pos rfl]; exact ⟨rfl, rfl⟩⟩
    rw [fftLoop3, if_pos (and_pred_pow2 b)]; rfl
  | succ a ih =>
    intro i3 fuel B swap src dst hf hB hT hs hd
    obtain ⟨f, rfl⟩ : ∃ f, fuel = f + 1 := ⟨fuel - 1, by omega⟩
    have e : 3 ^ (a + 1) * 2 ^ b = 3 * (3 ^ a * 2 ^ b) := by ring
    have ht := hT 0 (by omega)
    rw [Nat.pow_zero, Nat.mul_one, Nat.add_zero] at ht
    obtain ⟨w, hw1, hw2⟩ := ht
    have e3 : 2 * (B * (3 ^ (a + 1) * 2 ^ b)) = 6 * (3 ^ a * 2 ^ b * B) := by ring
    obtain ⟨y', h2, h3, _⟩ := fftBf3_spec z A B w (3 ^ a * 2 ^ b) src dst hw2 (by rw [← e3]; exact hs) (by rw [← e3]; exact hd)
    have e2 : B * (3 ^ (a + 1) * 2 ^ b) = 3 * B * (3 ^ a * 2 ^ b) := by ring
    rw [e2] at hs hd
    obtain ⟨sw, src', dst', g1, g2⟩ := ih (i3 + 1) f (3 * B) (!swap) y' src (by omega) (by omega) (fun i hi => by
      have := hT (i + 1) (by omega)
      rw [show 3 * B * 3 ^ i = B * 3 ^ (i + 1) by ring, show i3 + 1 + i = i3 + (i + 1) by omega]
      exact this) (by rw [h3]; exact hd) hs
    refine ⟨sw, src', dst', ?_, ?_⟩
    · rw [fftLoop3, if_neg (and_pred_ne a b), hw1, Option.bind_some, show 3 ^ (a + 1) * 2 ^ b / 3 = 3 ^ a * 2 ^ b by omega, h2,
        Option.bind_some, g1, show i3 + 1 + a = i3 + (a + 1) by omega]
    · rw [h3] at g2
      by_cases hw : sw = swap
      · subst hw; rw [if_neg (by simp)] at g2; rw [if_pos rfl]; exact g2
      · rw [if_pos (by revert hw; cases sw <;> cases swap <;> simp)] at g2; rw [if_neg hw]; exact g2

theorem loop2_total (z : R) (A : Arith R) (T : MdctTables R) (i3 : Nat) : ∀ (b i2 fuel B : Nat) (swap : Bool) (src dst : List R), b < fuel → 0 < B →
    (∀ i, i < b → HasBf2 (B * 2 ^ i) (T.bf2 (i2 + i) i3)) → 2 * (B * 2 ^ b) ≤ src.length →
    2 * (B * 2 ^ b) ≤ dst.length →
    ∃ swap' src' dst', fftLoop2 A T i3 fuel (2 ^ b) i2 swap src dst = some (swap', src', dst') ∧
      (if swap' = swap then src'.length = src.length ∧ dst'.length = dst.length else src'.length = dst.length ∧ dst'.length = src.length) := by
  intro b
  induction b with
  | zero =>
    intro i2 fuel B swap src dst hf _ _ _ _
    obtain ⟨f, rfl⟩ : ∃ f, fuel = f + 1 := ⟨fuel - 1, by omega⟩
    refine ⟨swap, src, dst, ?_, by rw [if_pos rfl]; exact ⟨rfl, rfl⟩⟩
    rw [fftLoop2, if_pos (by decide)]
  | succ b ih =>
    intro i2 fuel B swap src dst hf hB hT hs hd
    obtain ⟨f, rfl⟩ : ∃ f, fuel = f + 1 := ⟨fuel - 1, by omega⟩
    have e : 2 ^ (b + 1) = 2 * 2 ^ b := by ring
    have ht := hT 0 (by omega)
    rw [Nat.pow_zero, Nat.mul_one, Nat.add_zero] at ht
    obtain ⟨w, hw1, hw2⟩ := ht
    have e3 : 2 * (B * 2 ^ (b + 1)) = 4 * (2 ^ b * B) := by ring
    obtain ⟨y', h2, h3, _⟩ := fftBf2_spec z A B w (2 ^ b) src dst hw2 (by rw [← e3]; exact hs) (by rw [← e3]; exact hd)
    have e2 : B * 2 ^ (b + 1) = 2 * B * 2 ^ b := by ring
    rw [e2] at hs hd
    obtain ⟨sw, src', dst', g1, g2⟩ := ih (i2 + 1) f (2 * B) (!swap) y' src (by omega) (by omega) (fun i hi => by
      have := hT (i + 1) (by omega)
      rw [show 2 * B * 2 ^ i = B * 2 ^ (i + 1) by ring, show i2 + 1 + i = i2 + (i + 1) by omega]
      exact this) (by rw [h3]; exact hd) hs
    have hpos := Nat.pow_pos (n := b) (show 0 < 2 by decide)
    refine ⟨sw, src', dst', ?_, ?_⟩
    · rw [fftLoop2, if_neg (by omega), hw1, Option.bind_some, show 2 ^ (b + 1) / 2 = 2 ^ b by omega, h2, Option.bind_some, g1]
    · rw [h3] at g2
      by_cases hw : sw = swap
      · subst hw; rw [if_neg (by simp)] at g2; rw [if_pos rfl]; exact g2
      · rw [if_pos (by revert hw; cases sw <;> cases swap <;> simp)] at g2; rw [if_neg hw]; exact g2

/-- Tables are available for the transform of `5 * 3^a * 2^b` points. -/
def HasFft (T : MdctTables R) (a b : Nat) : Prop :=
  (∀ i, i < a → HasBf3 (5 * 3 ^ i) (T.bf3 i)) ∧ ∀ i, i < b → HasBf2 (5 * 3 ^ a * 2 ^ i) (T.bf2 i a)

theorem fft_total (z : R) (A : Arith R) (T : MdctTables R) (a b : Nat) (hT : HasFft T a b) (y0 y1 : List R)
    (h0 : 2 * (5 * 3 ^ a * 2 ^ b) ≤ y0.length) (h1 : 2 * (5 * 3 ^ a * 2 ^ b) ≤ y1.length) :
    ∃ in0 z0 z1, fft A T (5 * 3 ^ a * 2 ^ b) y0 y1 = some (in0, z0, z1) ∧ z0.length = y0.length ∧ z1.length = y1.length := by
  have e : 5 * 3 ^ a * 2 ^ b = 5 * (3 ^ a * 2 ^ b) := by ring
  have hpa := Nat.pow_pos (n := a) (show 0 < 3 by decide)
  have ha : a < 3 ^ a * 2 ^ b + 1 := by
    have h2 : 3 ^ a ≤ 3 ^ a * 2 ^ b := Nat.le_mul_of_pos_right _ (Nat.pow_pos (by decide))
    have h3 : a < 3 ^ a := Nat.lt_pow_self (by decide)
    omega
  have hb : b < 2 ^ b + 1 := by have : b < 2 ^ b := Nat.lt_pow_self (by decide)
                                omega
  obtain ⟨u1, f1, f2, _⟩ := fft5_spec z A T (3 ^ a * 2 ^ b) y0 y1 (by omega) (by omega)
  obtain ⟨sw, s2, d2, g1, g2⟩ := loop3_total z A T b a 0 (3 ^ a * 2 ^ b + 1) 5 false u1 y0 ha (by decide)
    (fun i hi => by rw [Nat.zero_add]; exact hT.1 i hi) (by omega) (by omega)
  have hL : 2 * (5 * 3 ^ a * 2 ^ b) ≤ s2.length ∧ 2 * (5 * 3 ^ a * 2 ^ b) ≤ d2.length := by
    by_cases hsw : sw = false
    · rw [if_pos hsw] at g2; omega
    · rw [if_neg hsw] at g2; omega
  obtain ⟨sw', s3, d3, k1, k2⟩ := loop2_total z A T a b 0 (2 ^ b + 1) (5 * 3 ^ a) sw s2 d2 hb (by omega)
    (fun i hi => by rw [Nat.zero_add]; exact hT.2 i hi) hL.1 hL.2
  refine ⟨sw', if sw' then s3 else d3, if sw' then d3 else s3, ?_, ?_, ?_⟩
  · unfold fft
    rw [show 5 * 3 ^ a * 2 ^ b / 5 = 3 ^ a * 2 ^ b by omega, f1]
    dsimp only [bind, Option.bind]
    rw [g1]
    dsimp only
    rw [Nat.zero_add, k1]
    cases sw' <;> rfl
  · revert g2 k2; rw [f2]; cases sw <;> cases sw' <;> simp <;> intros <;> omega
  · revert g2 k2; rw [f2]; cases sw <;> cases sw' <;> simp <;> intros <;> omega

end LC3
