import Verif.Model.MdctNeon
import Verif.Lemmas.Fft

/-! Outcome of the stages of the FFT with vector instructions, with any arithmetic. -/

namespace LC3

variable {R : Type}

theorem ldq_at (z : R) (l : List R) (i : Int) (k : Nat) (hi : i = k) (hk : 2 * k + 3 < l.length) :
    ldq l i = some ⟨(cAt z l k).1, (cAt z l k).2, (cAt z l (k + 1)).1, (cAt z l (k + 1)).2⟩ := by
  unfold ldq
  rw [rd_at z l _ (2 * k) (by omega) (by omega), rd_at z l _ (2 * k + 1) (by omega) (by omega),
    rd_at z l _ (2 * (k + 1)) (by omega) (by omega), rd_at z l _ (2 * (k + 1) + 1) (by omega) (by omega)]
  rfl

theorem ld_at (z : R) (l : List R) (i : Int) (k : Nat) (hi : i = k) (hk : 2 * k + 1 < l.length) :
    ld l i = some ⟨(cAt z l k).1, (cAt z l k).2⟩ := by
  unfold ld
  rw [rd_at z l _ (2 * k) (by omega) (by omega), rd_at z l _ (2 * k + 1) (by omega) (by omega)]
  rfl

theorem st_at (z : R) (l : List R) (i : Int) (k : Nat) (v : V2 R) (hi : i = k) (hk : 2 * k + 1 < l.length) :
    ∃ l', st l i v = some l' ∧ l'.length = l.length ∧ (∀ p, cAt z l' p = if p = k then (v.a, v.b) else cAt z l p) ∧
      ∀ p, 2 * k + 2 ≤ p → l'.getD p z = l.getD p z := by
  unfold st
  rw [wr_at l _ (2 * k) _ (by omega) (by omega)]
  dsimp only [bind, Option.bind]
  rw [wr_at _ _ (2 * k + 1) _ (by omega) (by rw [List.length_set]; omega)]
  refine ⟨_, rfl, by simp only [List.length_set], fun p => cAt_set2 z l k p _ _ hk, fun p hp => ?_⟩
  simp (disch := omega) only [getD_set_ne]

theorem stq_at (z : R) (l : List R) (i : Int) (k : Nat) (v : V4 R) (hi : i = k) (hk : 2 * k + 3 < l.length) :
    ∃ l', stq l i v = some l' ∧ l'.length = l.length ∧
      (∀ p, cAt z l' p = if p = k then (v.a, v.b) else if p = k + 1 then (v.c, v.d) else cAt z l p) ∧
      ∀ p, 2 * k + 4 ≤ p → l'.getD p z = l.getD p z := by
  unfold stq
  rw [wr_at l _ (2 * k) _ (by omega) (by omega)]
  dsimp only [bind, Option.bind]
  rw [wr_at _ _ (2 * k + 1) _ (by omega) (by rw [List.length_set]; omega)]
  dsimp only
  rw [wr_at _ _ (2 * (k + 1)) _ (by omega) (by simp only [List.length_set]; omega)]
  dsimp only
  rw [wr_at _ _ (2 * (k + 1) + 1) _ (by omega) (by simp only [List.length_set]; omega)]
  refine ⟨_, rfl, by simp only [List.length_set], fun p => ?_, fun p hp => ?_⟩
  · rw [cAt_set2 z _ (k + 1) p _ _ (by simp only [List.length_set]; omega), cAt_set2 z _ k p _ _ (by omega)]
    by_cases h1 : p = k
    · rw [if_neg (by omega), if_pos h1, if_pos h1]
    · rw [if_neg h1, if_neg h1]
  · simp (disch := omega) only [getD_set_ne]

/-! ### 5 points -/

/-- The outcome `r` of `neon_fft_5` on 5 complex numbers. -/
def ndft5 (N : Neon R) (T : MdctTables R) (x0 x1 x2 x3 x4 : R × R) (r : Nat) : R × R :=
  let s14r := N.add x1.1 x4.1; let s14i := N.add x1.2 x4.2
  let d14r := N.sub x1.1 x4.1; let d14i := N.sub x1.2 x4.2
  let s23r := N.add x2.1 x3.1; let s23i := N.add x2.2 x3.2
  let d23r := N.sub x2.1 x3.1; let d23i := N.sub x2.2 x3.2
  let m1r := N.fneg T.sin1
  let m2r := N.fneg T.sin2
  let ar := N.fma (N.fma x0.1 s14r T.cos1) s23r T.cos2; let ai := N.fma (N.fma x0.2 s14i T.cos1) s23i T.cos2
  let br := N.fma (N.fma x0.1 s14r T.cos2) s23r T.cos1; let bi := N.fma (N.fma x0.2 s14i T.cos2) s23i T.cos1
  match r with
  | 0 => (N.add x0.1 (N.add s14r s23r), N.add x0.2 (N.add s14i s23i))
  | 1 => (N.fma (N.fma ar d14i m1r) d23i m2r, N.fma (N.fma ai d14r T.sin1) d23r T.sin2)
  | 2 => (N.fms (N.fma br d14i m2r) d23i m1r, N.fms (N.fma bi d14r T.sin2) d23r T.sin1)
  | 3 => (N.fma (N.fms br d14i m2r) d23i m1r, N.fma (N.fms bi d14r T.sin2) d23r T.sin1)
  | _ => (N.fms (N.fms ar d14i m1r) d23i m2r, N.fms (N.fms ai d14r T.sin1) d23r T.sin2)

theorem neonFft5_full (z : R) (N : Neon R) (T : MdctTables R) (n : Nat) (he : n % 2 = 0) (x y : List R) (hx : 10 * n ≤ x.length)
    (hy : 10 * n ≤ y.length) :
    ∃ y', neonFft5 N T n x y = some y' ∧ y'.length = y.length ∧
      (∀ i r, i < n → r < 5 → cAt z y' (5 * i + r) =
        ndft5 N T (cAt z x i) (cAt z x (i + n)) (cAt z x (i + 2 * n)) (cAt z x (i + 3 * n)) (cAt z x (i + 4 * n)) r) ∧
      ∀ p, 10 * n ≤ p → y'.getD p z = y.getD p z := by
  unfold neonFft5
  obtain ⟨y', h1, h2, h3, h4⟩ := iter_inv (neonFft5Body N T n x)
    (fun m y' => y'.length = y.length ∧ (∀ i r, i < 2 * m → r < 5 → cAt z y' (5 * i + r) =
        ndft5 N T (cAt z x i) (cAt z x (i + n)) (cAt z x (i + 2 * n)) (cAt z x (i + 3 * n)) (cAt z x (i + 4 * n)) r) ∧
        ∀ p, 10 * n ≤ p → y'.getD p z = y.getD p z)
    ((n + 1) / 2) 0 y ⟨rfl, fun i r h => absurd h (by omega), fun _ _ => rfl⟩ (by
      intro k s _ hj ⟨hl, hI, hF⟩
      rw [Nat.zero_add] at hj
      unfold neonFft5Body
      rw [ldq_at z x _ (2 * k) (by push_cast; omega) (by omega), ldq_at z x _ (2 * k + n) (by push_cast; omega) (by omega),
        ldq_at z x _ (2 * k + 2 * n) (by push_cast; omega) (by omega), ldq_at z x _ (2 * k + 3 * n) (by push_cast; omega) (by omega),
        ldq_at z x _ (2 * k + 4 * n) (by push_cast; omega) (by omega)]
      dsimp only [bind, Option.bind, V4.map2, V4.map3, V4.rev, V4.low, V4.high]
      obtain ⟨s0, e0, l0, c0, f0⟩ := st_at z s (10 * k + 0) (10 * k) ⟨_, _⟩ (by omega) (by omega)
      rw [e0]; dsimp only
      obtain ⟨s1, e1, l1, c1, f1⟩ := st_at z s0 (10 * k + 1) (10 * k + 1) ⟨_, _⟩ (by omega) (by omega)
      rw [e1]; dsimp only
      obtain ⟨s2, e2, l2, c2, f2⟩ := st_at z s1 (10 * k + 2) (10 * k + 2) ⟨_, _⟩ (by omega) (by omega)
      rw [e2]; dsimp only
      obtain ⟨s3, e3, l3, c3, f3⟩ := st_at z s2 (10 * k + 3) (10 * k + 3) ⟨_, _⟩ (by omega) (by omega)
      rw [e3]; dsimp only
      obtain ⟨s4, e4, l4, c4, f4⟩ := st_at z s3 (10 * k + 4) (10 * k + 4) ⟨_, _⟩ (by omega) (by omega)
      rw [e4]; dsimp only
      obtain ⟨s5, e5, l5, c5, f5⟩ := st_at z s4 (10 * k + 5) (10 * k + 5) ⟨_, _⟩ (by omega) (by omega)
      rw [e5]; dsimp only
      obtain ⟨s6, e6, l6, c6, f6⟩ := st_at z s5 (10 * k + 6) (10 * k + 6) ⟨_, _⟩ (by omega) (by omega)
      rw [e6]; dsimp only
      obtain ⟨s7, e7, l7, c7, f7⟩ := st_at z s6 (10 * k + 7) (10 * k + 7) ⟨_, _⟩ (by omega) (by omega)
      rw [e7]; dsimp only
      obtain ⟨s8, e8, l8, c8, f8⟩ := st_at z s7 (10 * k + 8) (10 * k + 8) ⟨_, _⟩ (by omega) (by omega)
      rw [e8]; dsimp only
      obtain ⟨s9, e9, l9, c9, f9⟩ := st_at z s8 (10 * k + 9) (10 * k + 9) ⟨_, _⟩ (by omega) (by omega)
      rw [e9]
      refine ⟨s9, rfl, by omega, ?_, fun p hp => by
        rw [f9 p (by omega), f8 p (by omega), f7 p (by omega), f6 p (by omega), f5 p (by omega), f4 p (by omega), f3 p (by omega),
          f2 p (by omega), f1 p (by omega), f0 p (by omega)]; exact hF p hp⟩
      intro i r hi hr
      rw [c9, c8, c7, c6, c5, c4, c3, c2, c1, c0]
      clear e0 e1 e2 e3 e4 e5 e6 e7 e8 e9 c0 c1 c2 c3 c4 c5 c6 c7 c8 c9 f0 f1 f2 f3 f4 f5 f6 f7 f8 f9
      by_cases hij : i = 2 * k
      · subst hij
        interval_cases r <;>
        · simp (disch := omega) only [if_pos, if_neg]
          rfl
      · by_cases hij' : i = 2 * k + 1
        · subst hij'
          interval_cases r <;>
          · simp (disch := omega) only [if_pos, if_neg]
            simp only [ndft5, show 2 * k + 1 + n = 2 * k + n + 1 by omega, show 2 * k + 1 + 2 * n = 2 * k + 2 * n + 1 by omega,
              show 2 * k + 1 + 3 * n = 2 * k + 3 * n + 1 by omega, show 2 * k + 1 + 4 * n = 2 * k + 4 * n + 1 by omega]
        · simp (disch := omega) only [if_neg]
          exact hI i r (by omega) hr)
  exact ⟨y', h1, h2, fun i r hi hr => h3 i r (by omega) hr, h4⟩

/-! ### Rows of the butterflies -/

theorem pos_iff {b q q' j j' : Nat} (hj : j < b) (hj' : j' < b) : b * q + j = b * q' + j' ↔ q = q' ∧ j = j' :=
  ⟨pos_inj hj hj', by rintro ⟨rfl, rfl⟩; rfl⟩

/-- The elements before the position `t`, in the order of the rows of `B` elements, are those of `f`; nothing is changed from the cell `L`. -/
def Done (z : R) (S B L : Nat) (f : Nat → Nat → Nat → R × R) (y : List R) (t : Nat) (y' : List R) : Prop :=
  y'.length = y.length ∧ (∀ i j s, i * B + j < t → j < B → s < S → cAt z y' (B * (S * i + s) + j) = f i j s) ∧
    ∀ p, L ≤ p → y'.getD p z = y.getD p z

/-- The rows, by pairs of elements and the last one of odd rows. -/
theorem rows_spec (z : R) (S B L n : Nat) (f : Nat → Nat → Nat → R × R) (y : List R) (pair last : Nat → Nat → List R → Option (List R))
    (hp : ∀ i j y1, i < n → 2 * j + 1 < B → Done z S B L f y (i * B + 2 * j) y1 → ∃ y2, pair i j y1 = some y2 ∧ Done z S B L f y (i * B + (2 * j + 2)) y2)
    (hq : ∀ i j y1, i < n → 2 * j + 1 = B → Done z S B L f y (i * B + 2 * j) y1 → ∃ y2, last i j y1 = some y2 ∧ Done z S B L f y (i * B + B) y2) :
    ∃ y', iter (fun i y => (iter (pair i) 0 (B / 2) y).bind fun y => if B % 2 = 1 then last i (B / 2) y else some y) 0 n y = some y' ∧
      Done z S B L f y (n * B) y' := by
  obtain ⟨y', h1, h2⟩ := iter_inv (fun i y => (iter (pair i) 0 (B / 2) y).bind fun y => if B % 2 = 1 then last i (B / 2) y else some y)
    (fun m y' => Done z S B L f y (m * B) y') n 0 y ⟨rfl, fun i j s h => absurd h (by omega), fun _ _ => rfl⟩ (by
      intro i y1 _ hi hy1
      rw [Nat.zero_add] at hi
      obtain ⟨y2, g1, g2⟩ := iter_inv (pair i) (fun m y' => Done z S B L f y (i * B + 2 * m) y') (B / 2) 0 y1 hy1 (by
        intro j y3 _ hj hy3
        rw [Nat.zero_add] at hj
        exact hp i j y3 hi (by omega) hy3)
      rw [Nat.zero_add] at g2
      rw [Nat.add_mul, Nat.one_mul]
      rw [g1, Option.bind_some]
      by_cases hB : B % 2 = 1
      · rw [if_pos hB]
        exact hq i (B / 2) y2 hi (by omega) g2
      · rw [if_neg hB]
        refine ⟨y2, rfl, ?_⟩
        rwa [show 2 * (B / 2) = B by omega] at g2)
  rw [Nat.zero_add] at h2
  exact ⟨y', h1, h2⟩

/-- Two elements of each of the `S` rows are written. -/
theorem done_pair (z : R) (S B L : Nat) (f : Nat → Nat → Nat → R × R) (y y1 y2 : List R) (i j : Nat) (hj : 2 * j + 1 < B)
    (h : Done z S B L f y (i * B + 2 * j) y1) (hl : y2.length = y1.length)
    (h0 : ∀ s, s < S → cAt z y2 (B * (S * i + s) + 2 * j) = f i (2 * j) s)
    (h1 : ∀ s, s < S → cAt z y2 (B * (S * i + s) + (2 * j + 1)) = f i (2 * j + 1) s)
    (h2 : ∀ i' j' s, i' * B + j' < i * B + 2 * j → j' < B → s < S →
      cAt z y2 (B * (S * i' + s) + j') = cAt z y1 (B * (S * i' + s) + j'))
    (h3 : ∀ p, L ≤ p → y2.getD p z = y1.getD p z) : Done z S B L f y (i * B + (2 * j + 2)) y2 := by
  obtain ⟨d1, d2, d3⟩ := h
  refine ⟨by omega, ?_, fun p hp => by rw [h3 p hp, d3 p hp]⟩
  intro i' j' s' hij hj' hs
  by_cases a : i' * B + j' < i * B + 2 * j
  · rw [h2 i' j' s' a hj' hs]; exact d2 i' j' s' a hj' hs
  · have hcase : B * i' + j' = B * i + 2 * j ∨ B * i' + j' = B * i + (2 * j + 1) := by
      rw [Nat.mul_comm B, Nat.mul_comm B]; omega
    rcases hcase with c | c
    · obtain ⟨rfl, rfl⟩ := pos_inj hj' (by omega) c
      exact h0 s' hs
    · obtain ⟨rfl, rfl⟩ := pos_inj hj' (by omega) c
      exact h1 s' hs

/-- The last element of each of the `S` rows is written. -/
theorem done_last (z : R) (S B L : Nat) (f : Nat → Nat → Nat → R × R) (y y1 y2 : List R) (i j : Nat) (hj : 2 * j + 1 = B)
    (h : Done z S B L f y (i * B + 2 * j) y1) (hl : y2.length = y1.length)
    (h0 : ∀ s, s < S → cAt z y2 (B * (S * i + s) + 2 * j) = f i (2 * j) s)
    (h2 : ∀ i' j' s, i' * B + j' < i * B + 2 * j → j' < B → s < S →
      cAt z y2 (B * (S * i' + s) + j') = cAt z y1 (B * (S * i' + s) + j'))
    (h3 : ∀ p, L ≤ p → y2.getD p z = y1.getD p z) : Done z S B L f y (i * B + B) y2 := by
  obtain ⟨d1, d2, d3⟩ := h
  refine ⟨by omega, ?_, fun p hp => by rw [h3 p hp, d3 p hp]⟩
  intro i' j' s' hij hj' hs
  by_cases a : i' * B + j' < i * B + 2 * j
  · rw [h2 i' j' s' a hj' hs]; exact d2 i' j' s' a hj' hs
  · have c : B * i' + j' = B * i + 2 * j := by
      rw [Nat.mul_comm B, Nat.mul_comm B]; omega
    obtain ⟨rfl, rfl⟩ := pos_inj hj' (by omega) c
    exact h0 s' hs

/-- A position before those of a step is none of them. -/
theorem before_ne {S B i i' j j' s s' q : Nat} (hj' : j' < B) (hq : q < B) (hjq : j ≤ q) (hs : s < S) (hs' : s' < S)
    (h : i' * B + j' < i * B + j) : B * (S * i' + s') + j' ≠ B * (S * i + s) + q := by
  intro e
  obtain ⟨e1, e2⟩ := pos_inj hj' hq e
  obtain ⟨e3, -⟩ := pos_inj hs' hs e1
  subst e3
  omega

/-- The outcomes of a butterfly of 2 points. -/
def nout2 (N : Neon R) (x0 x1 a : R × R) (s : Nat) : R × R :=
  if s = 0 then (N.fma (N.fma x0.1 x1.1 a.1) (N.fneg x1.2) a.2, N.fma (N.fma x0.2 x1.2 a.1) x1.1 a.2)
  else (N.fms (N.fms x0.1 x1.1 a.1) (N.fneg x1.2) a.2, N.fms (N.fms x0.2 x1.2 a.1) x1.1 a.2)

/-- The outcome of a butterfly of 3 points. -/
def nout3 (N : Neon R) (x0 x1 x2 a b : R × R) : R × R :=
  (N.fma (N.fma (N.fma (N.fma x0.1 x1.1 a.1) (N.fneg x1.2) a.2) x2.1 b.1) (N.fneg x2.2) b.2,
   N.fma (N.fma (N.fma (N.fma x0.2 x1.2 a.1) x1.1 a.2) x2.2 b.1) x2.1 b.2)

theorem neonBf2_full (z : R) (N : Neon R) (n2 : Nat) (w : List R) (n : Nat) (x y : List R) (hw : 2 * n2 ≤ w.length)
    (hx : 4 * (n * n2) ≤ x.length) (hy : 4 * (n * n2) ≤ y.length) :
    ∃ y', neonFftBf2 N (n2, w) n x y = some y' ∧ y'.length = y.length ∧
      (∀ i j s, i < n → j < n2 → s < 2 → cAt z y' (n2 * (2 * i + s) + j) =
        nout2 N (cAt z x (i * n2 + j)) (cAt z x (i * n2 + j + n * n2)) (cAt z w j) s) ∧
      ∀ p, 4 * (n * n2) ≤ p → y'.getD p z = y.getD p z := by
  have e2 : ∀ i, n2 * (2 * i + 0) = 2 * (i * n2) := fun i => by ring
  have e3 : ∀ i, n2 * (2 * i + 1) = 2 * (i * n2) + n2 := fun i => by ring
  have e4 : ∀ i, i < n → i * n2 + n2 ≤ n * n2 := fun i hi => by
    have : (i + 1) * n2 ≤ n * n2 := Nat.mul_le_mul_right n2 hi
    rwa [Nat.add_mul, Nat.one_mul] at this
  obtain ⟨y', h1, d1, d2, d3⟩ := rows_spec z 2 n2 (4 * (n * n2)) n
    (fun i j s => nout2 N (cAt z x (i * n2 + j)) (cAt z x (i * n2 + j + n * n2)) (cAt z w j) s) y (neonBf2Pair N n2 w n x) (neonBf2Last N n2 w n x)
    (by
      intro i j y1 hi hj hd
      have g := e4 i hi
      have a2 := e2 i; have a3 := e3 i
      have hl1 := hd.1
      unfold neonBf2Pair
      dsimp only
      rw [ldq_at z x _ (i * n2 + 2 * j) (by push_cast; ring) (by omega), ldq_at z x _ (i * n2 + 2 * j + n * n2) (by push_cast; ring) (by omega),
        ldq_at z w _ (2 * j) (by push_cast; ring) (by omega)]
      dsimp only [bind, Option.bind, V4.map, V4.map3, V4.rev, V4.trn1, V4.trn2]
      obtain ⟨s0, f0, l0, c0, k0⟩ := stq_at z y1 ((2 * n2 * i + 2 * j : Nat) : Int) (n2 * (2 * i + 0) + 2 * j) ⟨_, _, _, _⟩ (by push_cast; ring) (by omega)
      rw [f0]; dsimp only
      obtain ⟨s1, f1, l1, c1, k1⟩ := stq_at z s0 (((2 * n2 * i + 2 * j : Nat) : Int) + n2) (n2 * (2 * i + 1) + 2 * j) ⟨_, _, _, _⟩ (by push_cast; ring) (by omega)
      rw [f1]
      refine ⟨s1, rfl, done_pair z 2 n2 _ _ y y1 s1 i j hj hd (by omega) ?_ ?_ ?_ ?_⟩
      · intro s hs
        rw [c1, c0]
        clear c0 c1 f0 f1
        interval_cases s
        · rw [if_neg (by omega), if_neg (by omega), if_pos (by omega)]; rfl
        · rw [if_pos (by omega)]; rfl
      · intro s hs
        rw [c1, c0]
        clear c0 c1 f0 f1
        interval_cases s
        · rw [if_neg (by omega), if_neg (by omega), if_neg (by omega), if_pos (by omega)]
          simp only [nout2, if_true, show i * n2 + (2 * j + 1) + n * n2 = i * n2 + 2 * j + n * n2 + 1 by omega]
          rfl
        · rw [if_neg (by omega), if_pos (by omega)]
          simp only [nout2, show i * n2 + (2 * j + 1) + n * n2 = i * n2 + 2 * j + n * n2 + 1 by omega]
          rfl
      · intro i' j' s' hlt hj' hs'
        rw [c1, c0]
        have q := fun s q (h : s < 2) (hq : q < n2) (h2 : 2 * j ≤ q) => before_ne (s := s) hj' hq h2 h hs' hlt
        rw [if_neg (q 1 (2 * j) (by omega) (by omega) (by omega)), if_neg (by have := q 1 (2 * j + 1) (by omega) (by omega) (by omega); omega),
          if_neg (q 0 (2 * j) (by omega) (by omega) (by omega)), if_neg (by have := q 0 (2 * j + 1) (by omega) (by omega) (by omega); omega)]
      · intro p hp
        rw [k1 p (by omega), k0 p (by omega)])
    (by
      intro i j y1 hi hj hd
      have g := e4 i hi
      have a2 := e2 i; have a3 := e3 i
      have hl1 := hd.1
      unfold neonBf2Last
      dsimp only
      rw [ld_at z x _ (i * n2 + 2 * j) (by push_cast; ring) (by omega), ld_at z x _ (i * n2 + 2 * j + n * n2) (by push_cast; ring) (by omega),
        ld_at z w _ (2 * j) (by push_cast; ring) (by omega)]
      dsimp only [bind, Option.bind, V2.map, V2.map3, V2.rev, V2.trn1, V2.trn2]
      obtain ⟨s0, f0, l0, c0, k0⟩ := st_at z y1 ((2 * n2 * i + 2 * j : Nat) : Int) (n2 * (2 * i + 0) + 2 * j) ⟨_, _⟩ (by push_cast; ring) (by omega)
      rw [f0]; dsimp only
      obtain ⟨s1, f1, l1, c1, k1⟩ := st_at z s0 (((2 * n2 * i + 2 * j : Nat) : Int) + n2) (n2 * (2 * i + 1) + 2 * j) ⟨_, _⟩ (by push_cast; ring) (by omega)
      rw [f1]
      refine ⟨s1, rfl, done_last z 2 n2 _ _ y y1 s1 i j hj hd (by omega) ?_ ?_ ?_⟩
      · intro s hs
        rw [c1, c0]
        clear c0 c1 f0 f1
        interval_cases s
        · rw [if_neg (by omega), if_pos (by omega)]; rfl
        · rw [if_pos (by omega)]; rfl
      · intro i' j' s' hlt hj' hs'
        rw [c1, c0]
        have q := fun s q (h : s < 2) (hq : q < n2) (h2 : 2 * j ≤ q) => before_ne (s := s) hj' hq h2 h hs' hlt
        rw [if_neg (q 1 (2 * j) (by omega) (by omega) (by omega)),
          if_neg (q 0 (2 * j) (by omega) (by omega) (by omega))]
      · intro p hp
        rw [k1 p (by omega), k0 p (by omega)])
  exact ⟨y', h1, d1, fun i j s hi hj hs => d2 i j s (by have := e4 i hi; omega) hj hs, d3⟩

theorem neonBf3_full (z : R) (N : Neon R) (n3 : Nat) (w : List R) (n : Nat) (x y : List R) (hw : 12 * n3 ≤ w.length)
    (hx : 6 * (n * n3) ≤ x.length) (hy : 6 * (n * n3) ≤ y.length) :
    ∃ y', neonFftBf3 N (n3, w) n x y = some y' ∧ y'.length = y.length ∧
      (∀ i j s, i < n → j < n3 → s < 3 → cAt z y' (n3 * (3 * i + s) + j) =
        nout3 N (cAt z x (i * n3 + j)) (cAt z x (i * n3 + j + n * n3)) (cAt z x (i * n3 + j + 2 * (n * n3)))
          (cAt z w (2 * (s * n3 + j))) (cAt z w (2 * (s * n3 + j) + 1))) ∧
      ∀ p, 6 * (n * n3) ≤ p → y'.getD p z = y.getD p z := by
  have e2 : ∀ i, n3 * (3 * i + 0) = 3 * (i * n3) := fun i => by ring
  have e3 : ∀ i, n3 * (3 * i + 1) = 3 * (i * n3) + n3 := fun i => by ring
  have e5 : ∀ i, n3 * (3 * i + 2) = 3 * (i * n3) + 2 * n3 := fun i => by ring
  have e4 : ∀ i, i < n → i * n3 + n3 ≤ n * n3 := fun i hi => by
    have : (i + 1) * n3 ≤ n * n3 := Nat.mul_le_mul_right n3 hi
    rwa [Nat.add_mul, Nat.one_mul] at this
  obtain ⟨y', h1, d1, d2, d3⟩ := rows_spec z 3 n3 (6 * (n * n3)) n
    (fun i j s => nout3 N (cAt z x (i * n3 + j)) (cAt z x (i * n3 + j + n * n3)) (cAt z x (i * n3 + j + 2 * (n * n3)))
          (cAt z w (2 * (s * n3 + j))) (cAt z w (2 * (s * n3 + j) + 1))) y (neonBf3Pair N n3 w n x) (neonBf3Last N n3 w n x)
    (by
      intro i j y1 hi hj hd
      have g := e4 i hi
      have a2 := e2 i; have a3 := e3 i; have a5 := e5 i
      have hl1 := hd.1
      unfold neonBf3Pair ld2q
      dsimp only
      rw [ldq_at z x _ (i * n3 + 2 * j) (by push_cast; ring) (by omega), ldq_at z x _ (i * n3 + 2 * j + n * n3) (by push_cast; ring) (by omega),
        ldq_at z x _ (i * n3 + 2 * j + 2 * (n * n3)) (by push_cast; ring) (by omega),
        ldq_at z w _ (2 * (2 * j)) (by push_cast; ring) (by omega), ldq_at z w _ (2 * (2 * j + 1)) (by push_cast; ring) (by omega),
        ldq_at z w _ (2 * (n3 + 2 * j)) (by push_cast; ring) (by omega), ldq_at z w _ (2 * (n3 + 2 * j + 1)) (by push_cast; ring) (by omega),
        ldq_at z w _ (2 * (2 * n3 + 2 * j)) (by push_cast; ring) (by omega),
        ldq_at z w _ (2 * (2 * n3 + 2 * j + 1)) (by push_cast; ring) (by omega)]
      dsimp only [bind, Option.bind, pure, neon3q, V4.map, V4.map3, V4.rev, V4.trn1, V4.trn2]
      obtain ⟨s0, f0, l0, c0, k0⟩ := stq_at z y1 ((3 * n3 * i + 2 * j : Nat) : Int) (n3 * (3 * i + 0) + 2 * j) ⟨_, _, _, _⟩ (by push_cast; ring) (by omega)
      rw [f0]; dsimp only
      obtain ⟨s1, f1, l1, c1, k1⟩ := stq_at z s0 (((3 * n3 * i + 2 * j : Nat) : Int) + n3) (n3 * (3 * i + 1) + 2 * j) ⟨_, _, _, _⟩ (by push_cast; ring) (by omega)
      rw [f1]; dsimp only
      obtain ⟨s2, f2, l2, c2, k2⟩ := stq_at z s1 (((3 * n3 * i + 2 * j : Nat) : Int) + 2 * n3) (n3 * (3 * i + 2) + 2 * j) ⟨_, _, _, _⟩ (by push_cast; ring) (by omega)
      rw [f2]
      refine ⟨s2, rfl, done_pair z 3 n3 _ _ y y1 s2 i j hj hd (by omega) ?_ ?_ ?_ ?_⟩
      · intro s hs
        rw [c2, c1, c0]
        clear c0 c1 c2 f0 f1 f2
        interval_cases s
        · rw [if_neg (by omega), if_neg (by omega), if_neg (by omega), if_neg (by omega), if_pos (by omega)]
          simp only [nout3, Nat.zero_mul, Nat.zero_add]
        · rw [if_neg (by omega), if_neg (by omega), if_pos (by omega)]
          simp only [nout3, Nat.one_mul]
        · rw [if_pos (by omega)]
          simp only [nout3]
      · intro s hs
        rw [c2, c1, c0]
        clear c0 c1 c2 f0 f1 f2
        have r1 : i * n3 + (2 * j + 1) + n * n3 = i * n3 + 2 * j + n * n3 + 1 := by omega
        have r2 : i * n3 + (2 * j + 1) + 2 * (n * n3) = i * n3 + 2 * j + 2 * (n * n3) + 1 := by omega
        interval_cases s
        · rw [if_neg (by omega), if_neg (by omega), if_neg (by omega), if_neg (by omega), if_neg (by omega), if_pos (by omega)]
          simp only [nout3, Nat.zero_mul, Nat.zero_add, r1, r2]
          rfl
        · rw [if_neg (by omega), if_neg (by omega), if_neg (by omega), if_pos (by omega)]
          simp only [nout3, Nat.one_mul, r1, r2]
          rfl
        · rw [if_neg (by omega), if_pos (by omega)]
          simp only [nout3, r1, r2]
          rfl
      · intro i' j' s' hlt hj' hs'
        rw [c2, c1, c0]
        have q := fun s q (h : s < 3) (hq : q < n3) (h2 : 2 * j ≤ q) => before_ne (s := s) hj' hq h2 h hs' hlt
        rw [if_neg (q 2 (2 * j) (by omega) (by omega) (by omega)), if_neg (by have := q 2 (2 * j + 1) (by omega) (by omega) (by omega); omega),
          if_neg (q 1 (2 * j) (by omega) (by omega) (by omega)), if_neg (by have := q 1 (2 * j + 1) (by omega) (by omega) (by omega); omega),
          if_neg (q 0 (2 * j) (by omega) (by omega) (by omega)), if_neg (by have := q 0 (2 * j + 1) (by omega) (by omega) (by omega); omega)]
      · intro p hp
        rw [k2 p (by omega), k1 p (by omega), k0 p (by omega)])
    (by
      intro i j y1 hi hj hd
      have g := e4 i hi
      have a2 := e2 i; have a3 := e3 i; have a5 := e5 i
      have hl1 := hd.1
      unfold neonBf3Last ld2
      dsimp only
      rw [ld_at z x _ (i * n3 + 2 * j) (by push_cast; ring) (by omega), ld_at z x _ (i * n3 + 2 * j + n * n3) (by push_cast; ring) (by omega),
        ld_at z x _ (i * n3 + 2 * j + 2 * (n * n3)) (by push_cast; ring) (by omega),
        ldq_at z w _ (2 * (2 * j)) (by push_cast; ring) (by omega),
        ldq_at z w _ (2 * (n3 + 2 * j)) (by push_cast; ring) (by omega),
        ldq_at z w _ (2 * (2 * n3 + 2 * j)) (by push_cast; ring) (by omega)]
      dsimp only [bind, Option.bind, pure, neon3, V2.map, V2.map3, V2.rev, V2.trn1, V2.trn2]
      obtain ⟨s0, f0, l0, c0, k0⟩ := st_at z y1 ((3 * n3 * i + 2 * j : Nat) : Int) (n3 * (3 * i + 0) + 2 * j) ⟨_, _⟩ (by push_cast; ring) (by omega)
      rw [f0]; dsimp only
      obtain ⟨s1, f1, l1, c1, k1⟩ := st_at z s0 (((3 * n3 * i + 2 * j : Nat) : Int) + n3) (n3 * (3 * i + 1) + 2 * j) ⟨_, _⟩ (by push_cast; ring) (by omega)
      rw [f1]; dsimp only
      obtain ⟨s2, f2, l2, c2, k2⟩ := st_at z s1 (((3 * n3 * i + 2 * j : Nat) : Int) + 2 * n3) (n3 * (3 * i + 2) + 2 * j) ⟨_, _⟩ (by push_cast; ring) (by omega)
      rw [f2]
      refine ⟨s2, rfl, done_last z 3 n3 _ _ y y1 s2 i j hj hd (by omega) ?_ ?_ ?_⟩
      · intro s hs
        rw [c2, c1, c0]
        clear c0 c1 c2 f0 f1 f2
        interval_cases s
        · rw [if_neg (by omega), if_neg (by omega), if_pos (by omega)]
          simp only [nout3, Nat.zero_mul, Nat.zero_add]
        · rw [if_neg (by omega), if_pos (by omega)]
          simp only [nout3, Nat.one_mul]
        · rw [if_pos (by omega)]
          simp only [nout3]
      · intro i' j' s' hlt hj' hs'
        rw [c2, c1, c0]
        have q := fun s q (h : s < 3) (hq : q < n3) (h2 : 2 * j ≤ q) => before_ne (s := s) hj' hq h2 h hs' hlt
        rw [if_neg (q 2 (2 * j) (by omega) (by omega) (by omega)),
          if_neg (q 1 (2 * j) (by omega) (by omega) (by omega)),
          if_neg (q 0 (2 * j) (by omega) (by omega) (by omega))]
      · intro p hp
        rw [k2 p (by omega), k1 p (by omega), k0 p (by omega)])
  exact ⟨y', h1, d1, fun i j s hi hj hs => d2 i j s (by have := e4 i hi; omega) hj hs, d3⟩

end LC3
