import Verif.Lemmas.RoundF
import Verif.Lemmas.FrameSafe

/-! The spectrum decoded from any frame is bounded, whatever the rounding of the single precision. -/

namespace LC3

variable {rnd : Rat → Rat}

/-! ### Gain -/

theorem gainDown_mag (h : RoundF rnd) (f : Nat) (i : Int) (g : Rat) (hg : |g| ≤ 1 + 1 / 2 ^ 20) :
    |(gainDown (Arith.rounded rnd) f i g).2| ≤ 1 + 1 / 2 ^ 20 ∧
    ((gainDown (Arith.rounded rnd) f i g).1 = i ∨ (gainDown (Arith.rounded rnd) f i g).1 < 28) := by
  induction f generalizing i g with
  | zero => exact ⟨hg, .inl rfl⟩
  | succ f ih =>
    rw [gainDown]
    split
    · have h1 : |rnd (1 / 10)| ≤ 11 / 100 := by
        have := h.mag (x := 1 / 10) (b := 1 / 10) (by norm_num [abs_of_pos]) (by norm_num)
        refine this.trans (by norm_num)
      have h2 : |g * rnd (1 / 10)| ≤ 1 / 2 := by
        rw [abs_mul]
        have := mul_le_mul hg h1 (abs_nonneg _) (by norm_num)
        refine this.trans (by norm_num)
      have h3 := (h.mag h2 (by norm_num)).trans (show _ ≤ (1 : Rat) + 1 / 2 ^ 20 by norm_num)
      obtain ⟨a, b⟩ := ih (i + 28) _ h3
      refine ⟨a, .inr ?_⟩
      rcases b with b | b
      · refine lt_of_eq_of_lt b (by omega)
      · exact b
    · exact ⟨hg, .inl rfl⟩

theorem gainUp_mag (h : RoundF rnd) (f : Nat) (i : Int) (g B : Rat) (hB : 1 ≤ B) (hB2 : ∀ j : Nat, 28 * j ≤ i → B * (100001 / 10000) ^ j ≤ 2 ^ 100) (hg : |g| ≤ B) :
    ∃ j : Nat, (gainUp (Arith.rounded rnd) f i g).1 = i - 28 * j ∧ (j = 0 ∨ 28 * j ≤ i) ∧
      |(gainUp (Arith.rounded rnd) f i g).2| ≤ B * (100001 / 10000) ^ j := by
  induction f generalizing i g B with
  | zero => exact ⟨0, by simp [gainUp], .inl rfl, by simpa [gainUp] using hg⟩
  | succ f ih =>
    rw [gainUp]
    split
    · rename_i hi
      have hBb := hB2 0 (by omega)
      rw [pow_zero, mul_one] at hBb
      have h1 : |rnd 10| ≤ 10 + 1 / 2 ^ 20 := by
        have := h.mag (x := 10) (b := 10) (by norm_num [abs_of_pos]) (by norm_num)
        refine this.trans (by norm_num)
      have h2 : |g * rnd 10| ≤ B * (10 + 1 / 2 ^ 20) := by
        rw [abs_mul]
        exact mul_le_mul hg h1 (abs_nonneg _) (by linarith)
      have h3 := h.mag h2 (by norm_num at hBb ⊢; linarith)
      have h4 : |rnd (g * rnd 10)| ≤ B * (100001 / 10000) := by
        norm_num at h3 ⊢; linarith
      obtain ⟨j, a, b, c⟩ := ih (i - 28) _ (B * (100001 / 10000)) (by linarith) (fun j hj => by
        have := hB2 (j + 1) (by push_cast; omega)
        rw [pow_succ'] at this
        linarith) h4
      refine ⟨j + 1, ?_, .inr ?_, ?_⟩
      · refine Eq.trans a ?_
        push_cast; ring
      · push_cast
        rcases b with b | b
        · subst b; push_cast; omega
        · omega
      · rw [pow_succ']
        refine le_trans c (le_of_eq ?_)
        ring
    · exact ⟨0, by simp, .inl rfl, by simpa using hg⟩

theorem iqTable_le (i : Nat) (v : Rat) (h : iqTable[i]? = some v) : 0 ≤ v ∧ v ≤ 922 / 100 ∧ (i ≤ 10 → v ≤ 2276 / 1000) ∧ (i ≤ 20 → v ≤ 518 / 100) := by
  have hi : i < iqTable.length := (List.getElem?_eq_some_iff.1 h).1
  have : ∀ i < iqTable.length, 0 ≤ iqTable.getD i 0 ∧ iqTable.getD i 0 ≤ 922 / 100 ∧ (i ≤ 10 → iqTable.getD i 0 ≤ 2276 / 1000) ∧
      (i ≤ 20 → iqTable.getD i 0 ≤ 518 / 100) := by decide +kernel
  have := this i hi
  rw [List.getD_eq_getElem?_getD, h] at this
  exact this

/-- The gain of a frame. -/
theorem unquantizeGain_mag (h : RoundF rnd) (i : Int) (hi : i ≤ 132) (g : Rat) (hg : unquantizeGain (Arith.rounded rnd) i = some g) :
    |g| ≤ 51900 ∧ (i ≤ 122 → |g| ≤ 22800) := by
  unfold unquantizeGain at hg
  dsimp only at hg
  have h1 : |rnd 1| ≤ 1 + 1 / 2 ^ 20 := by
    have := h.mag (x := 1) (b := 1) (by norm_num) (by norm_num)
    refine this.trans (by norm_num)
  obtain ⟨a1, a2⟩ := gainDown_mag h i.natAbs i (rnd 1) h1
  rw [show (Arith.rounded rnd).ofRat 1 = rnd 1 from rfl] at hg
  generalize gainDown (Arith.rounded rnd) i.natAbs i (rnd 1) = q at *
  obtain ⟨i1, g1⟩ := q
  dsimp only at *
  have hi1 : i1 ≤ 132 ∧ (i ≤ 122 → i1 ≤ 122) := by omega
  have hj4 : ∀ j : Nat, 28 * (j : Int) ≤ i1 → j ≤ 4 := by intro j hj; omega
  obtain ⟨j, b1, b2, b3⟩ := gainUp_mag h i.natAbs i1 g1 (1 + 1 / 2 ^ 20) (by norm_num) (fun j hj => by
    have := hj4 j hj
    have : (100001 / 10000 : Rat) ^ j ≤ (100001 / 10000) ^ 4 := pow_le_pow_right₀ (by norm_num) this
    norm_num at this ⊢; linarith) a1
  generalize gainUp (Arith.rounded rnd) i.natAbs i1 g1 = q at *
  obtain ⟨i2, g2⟩ := q
  dsimp only at *
  split at hg
  · cases hg
  rename_i hneg
  obtain ⟨v, hv, hg⟩ := Option.map_eq_some_iff.mp hg
  obtain ⟨c1, c2, c3, c4⟩ := iqTable_le _ v hv
  have hrv : |rnd v| ≤ v + 1 / 2 ^ 20 := by
    have := h.mag (x := v) (b := v) (by rw [abs_of_nonneg c1]) (by norm_num; linarith)
    refine this.trans ?_
    norm_num; linarith
  have hgv : |g2 * rnd v| ≤ (1 + 1 / 2 ^ 20) * (100001 / 10000) ^ j * (v + 1 / 2 ^ 20) := by
    rw [abs_mul]
    exact mul_le_mul b3 hrv (abs_nonneg _) (by positivity)
  have hj : j ≤ 4 := by
    rcases b2 with b | b
    · omega
    · exact hj4 j b
  have key : ∀ G : Rat, G ≤ 60000 → (1 + 1 / 2 ^ 20) * (100001 / 10000) ^ j * (v + 1 / 2 ^ 20) ≤ G → |g| ≤ G + 1 := by
    intro G hG hle
    rw [← hg]
    have := h.mag (hgv.trans hle) (by norm_num; linarith)
    refine le_trans this ?_
    norm_num; linarith
  by_cases hj3 : j ≤ 3
  · have hp : (1 + 1 / 2 ^ 20) * (100001 / 10000 : Rat) ^ j ≤ (1 + 1 / 2 ^ 20) * (100001 / 10000) ^ 3 :=
      mul_le_mul_of_nonneg_left (pow_le_pow_right₀ (by norm_num) hj3) (by norm_num)
    have := mul_le_mul hp (show v + 1 / 2 ^ 20 ≤ 923 / 100 by norm_num; linarith) (by positivity) (by norm_num)
    have := key 10000 (by norm_num) (this.trans (by norm_num))
    exact ⟨by linarith, fun _ => by linarith⟩
  · obtain rfl : j = 4 := by omega
    constructor
    · have h20 : i2.toNat ≤ 20 := by omega
      have := c4 h20
      have := key 51899 (by norm_num) (by norm_num; linarith)
      linarith
    · intro h122
      have h10 : i2.toNat ≤ 10 := by have := hi1.2 h122; omega
      have := c3 h10
      have := key 22799 (by norm_num) (by norm_num; linarith)
      linarith

theorem gainOffset_low (sr : Srate) (nbytes : Nat) (h : 20 ≤ nbytes) : 123 ≤ gainOffset sr nbytes ∧ (sr.hr = true → 133 ≤ gainOffset sr nbytes) := by
  unfold gainOffset
  have hm : ∀ m, 8 * 20 / m ≤ nbytes * 8 / m := fun m => Nat.div_le_div_right (by omega)
  cases sr <;> (constructor <;> (try intro hh) <;> (try cases hh)) <;> simp only [srInd, Srate.hr, Srate.idx] <;> (have := hm 10; have := hm 20; have := hm 30; have := hm 40; have := hm 50; have := hm 60; norm_num at * <;> omega)

/-! ### Residual -/

theorem residualMove_mag (h : RoundF rnd) (o1 o2 x B : Rat) (v : Nat) (h1 : |o1| ≤ 1 / 2) (h2 : |o2| ≤ 1 / 2) (hx : |x| ≤ B) (hB : B ≤ 2 ^ 24 + 100) :
    |residualMove (Arith.rounded rnd) o1 o2 x v| ≤ B + 2 := by
  have key : ∀ o : Rat, |o| ≤ 1 / 2 → |rnd (x + o)| ≤ B + 2 ∧ |rnd (x - o)| ≤ B + 2 := by
    intro o ho
    have e1 : |x + o| ≤ B + 1 / 2 := (abs_add_le _ _).trans (by linarith)
    have e2 : |x - o| ≤ B + 1 / 2 := (abs_sub _ _).trans (by linarith)
    refine ⟨(h.mag e1 ?_).trans ?_, (h.mag e2 ?_).trans ?_⟩ <;> norm_num at hB ⊢ <;> linarith
  unfold residualMove
  split
  · split
    · exact (key o1 h1).2
    · exact (key o2 h2).2
  · split
    · exact (key o1 h1).1
    · exact (key o2 h2).1

theorem getResidualPass_mag (h : RoundF rnd) (o1 o2 B : Rat) (h1 : |o1| ≤ 1 / 2) (h2 : |o2| ≤ 1 / 2) (hB : B ≤ 2 ^ 24 + 100) (n : Nat) (l : List Rat) (r : Bits)
    (hl : ∀ x ∈ l, |x| ≤ B) : ∀ x ∈ (getResidualPass (Arith.rounded rnd) o1 o2 n l r).2.1, |x| ≤ B + 2 := by
  induction l generalizing n r with
  | nil => cases n <;> simp [getResidualPass]
  | cons x l ih =>
    have hx := hl x (by simp)
    have hl' : ∀ y ∈ l, |y| ≤ B := fun y hy => hl y (by simp [hy])
    cases n with
    | zero =>
      intro y hy
      exact (hl y hy).trans (by linarith)
    | succ n =>
      rw [getResidualPass]
      split
      · intro y hy
        rcases List.mem_cons.1 hy with rfl | hy
        · linarith
        · exact ih (n + 1) r hl' y hy
      · intro y hy
        dsimp only at hy
        rcases List.mem_cons.1 hy with rfl | hy
        · exact residualMove_mag h o1 o2 x B _ h1 h2 hx hB
        · exact ih n _ hl' y hy

theorem getResidualIter_mag (h : RoundF rnd) (f : Nat) (o1 o2 B : Rat) (h1 : |o1| ≤ 1 / 2) (h2 : |o2| ≤ 1 / 2) (hB : B + 2 * f ≤ 2 ^ 24 + 100) (n : Nat)
    (l : List Rat) (r : Bits) (hl : ∀ x ∈ l, |x| ≤ B) :
    ∀ x ∈ (getResidualIter (Arith.rounded rnd) f o1 o2 n l r).1, |x| ≤ B + 2 * f := by
  induction f generalizing o1 o2 B n l r with
  | zero => simpa [getResidualIter] using hl
  | succ f ih =>
    push_cast at hB ⊢
    have f0 : (0 : Rat) ≤ f := Nat.cast_nonneg f
    rw [getResidualIter]
    split
    · intro x hx
      exact (hl x hx).trans (by linarith)
    · have hh : ∀ o : Rat, |o| ≤ 1 / 2 → |rnd (o * rnd (1 / 2))| ≤ 1 / 2 := by
        intro o ho
        have e1 : |rnd (1 / 2)| ≤ 3 / 4 := by
          have := h.mag (x := 1 / 2) (b := 1 / 2) (by norm_num [abs_of_pos]) (by norm_num)
          refine this.trans (by norm_num)
        have e2 : |o * rnd (1 / 2)| ≤ 3 / 8 := by
          rw [abs_mul]
          have := mul_le_mul ho e1 (abs_nonneg _) (by norm_num)
          refine this.trans (by norm_num)
        refine (h.mag e2 (by norm_num)).trans (by norm_num)
      have := ih (rnd (o1 * rnd (1 / 2))) (rnd (o2 * rnd (1 / 2))) (B + 2) (hh o1 h1) (hh o2 h2) (by linarith) (getResidualPass (Arith.rounded rnd) o1 o2 n l r).1 _
        (getResidualPass (Arith.rounded rnd) o1 o2 n l r).2.2
        (getResidualPass_mag h o1 o2 B h1 h2 (by linarith) n l r hl)
      intro x hx
      refine (this x hx).trans (le_of_eq ?_)
      ring

theorem getResidual_mag (h : RoundF rnd) (hr : Bool) (B : Rat) (hB : B ≤ 2 ^ 24 + 50) (n : Nat) (l : List Rat) (r : Bits) (hl : ∀ x ∈ l, |x| ≤ B) :
    ∀ x ∈ (getResidual (Arith.rounded rnd) hr n l r).1, |x| ≤ B + 40 := by
  have hc : ∀ q : Rat, 0 ≤ q → q ≤ 5 / 16 → |(Arith.rounded rnd).ofRat q| ≤ 1 / 2 := by
    intro q h0 h1
    refine (h.mag (x := q) (b := 5 / 16) (by rw [abs_of_nonneg h0]; exact h1) (by norm_num)).trans (by norm_num)
  unfold getResidual
  cases hr
  · intro x hx
    have := getResidualIter_mag h 1 _ _ B (hc _ (by norm_num) (by norm_num)) (hc _ (by norm_num) (by norm_num)) (by push_cast; linarith) n l r hl x hx
    push_cast at this
    linarith
  · intro x hx
    have := getResidualIter_mag h 20 _ _ B (hc _ (by norm_num) (by norm_num)) (hc _ (by norm_num) (by norm_num)) (by push_cast; linarith) n l r hl x hx
    push_cast at this
    linarith

/-! ### Noise -/

theorem fillNoise_mag (h : RoundF rnd) (dt : Dt) (bw nf seed : Nat) (hnf : nf ≤ 8) (g : Rat) (hg : |g| ≤ 51900) (nq : Nat) (x y : List Rat) (X : Rat) (hX : 40000 ≤ X)
    (hx : ∀ v ∈ x, |v| ≤ X) (hy : fillNoise (Arith.rounded rnd) dt bw nf seed g nq x = some y) : ∀ v ∈ y, |v| ≤ X := by
  unfold fillNoise at hy
  dsimp only at hy
  have h8 : |rnd (((8 - (nf : Int) : Int)) : Rat)| ≤ 9 := by
    have e : |(((8 - (nf : Int) : Int)) : Rat)| ≤ 8 := by
      have : (nf : Rat) ≤ 8 := by exact_mod_cast hnf
      have : (0 : Rat) ≤ nf := Nat.cast_nonneg _
      push_cast
      rw [abs_of_nonneg (by linarith)]
      linarith
    exact (h.mag e (by norm_num)).trans (by norm_num)
  have h16 : 15 ≤ |rnd 16| := by
    have := h.err (x := 16) (b := 16) (by norm_num [abs_of_pos]) (by norm_num)
    have h2 := abs_sub_abs_le_abs_sub (16 : Rat) (rnd 16)
    rw [abs_sub_comm, abs_of_pos (show (0 : Rat) < 16 by norm_num)] at h2
    norm_num at this
    linarith
  have hm : |rnd (g * rnd (((8 - (nf : Int) : Int)) : Rat))| ≤ 500000 := by
    have : |g * rnd (((8 - (nf : Int) : Int)) : Rat)| ≤ 51900 * 9 := by
      rw [abs_mul]
      exact mul_le_mul hg h8 (abs_nonneg _) (by norm_num)
    exact (h.mag this (by norm_num)).trans (by norm_num)
  have hs : |(Arith.rounded rnd).div ((Arith.rounded rnd).mul g ((Arith.rounded rnd).ofInt (8 - (nf : Int)))) ((Arith.rounded rnd).ofRat 16)| ≤ 34000 := by
    change |rnd (rnd (g * rnd (((8 - (nf : Int) : Int)) : Rat)) / rnd 16)| ≤ 34000
    have : |rnd (g * rnd (((8 - (nf : Int) : Int)) : Rat)) / rnd 16| ≤ 500000 / 15 := by
      rw [abs_div]
      exact div_le_div₀ (by norm_num) hm (by norm_num) h16
    exact (h.mag this (by norm_num)).trans (by norm_num)
  generalize (Arith.rounded rnd).div ((Arith.rounded rnd).mul g ((Arith.rounded rnd).ofInt (8 - (nf : Int)))) ((Arith.rounded rnd).ofRat 16) = s at *
  have hs' : |(Arith.rounded rnd).sub ((Arith.rounded rnd).ofRat 0) s| ≤ 40000 := by
    change |rnd (rnd 0 - s)| ≤ _
    rw [h.zero, zero_sub]
    exact (h.mag (x := -s) (b := 34000) (by rw [abs_neg]; exact hs) (by norm_num)).trans (by norm_num)
  have hst : ∀ w z i (q q' : Nat × List Rat), (∀ v ∈ q.2, |v| ≤ X) → fillStep (Arith.rounded rnd) s w z i q = some q' → ∀ v ∈ q'.2, |v| ≤ X := by
    intro w z i q q' hq h
    unfold fillStep at h
    split at h
    · dsimp only at h
      split at h
      · rw [← Option.some.inj h]
        intro v hv
        rcases List.mem_or_eq_of_mem_set hv with hv | hv
        · exact hq v hv
        · rw [hv]
          split
          · linarith
          · linarith
      · cases h
    · rw [← Option.some.inj h]; exact hq
  have h1 : ∀ w n i z (q : Nat × List Rat) q', (∀ v ∈ q.2, |v| ≤ X) → fillLoop1 (Arith.rounded rnd) s w n i z q = some q' → ∀ v ∈ q'.2.2, |v| ≤ X := by
    intro w n
    induction n with
    | zero => intro i z q q' hq h; rw [← Option.some.inj h]; exact hq
    | succ n ih =>
      intro i z q q' hq h
      rw [fillLoop1] at h
      obtain ⟨v, hv, h⟩ := Option.bind_eq_some_iff.mp h
      obtain ⟨q1, hq1, h⟩ := Option.bind_eq_some_iff.mp h
      exact ih _ _ _ _ (hst _ _ _ _ _ hq hq1) h
  have h2 : ∀ w n i z (q : Nat × List Rat) q', (∀ v ∈ q.2, |v| ≤ X) → fillLoop2 (Arith.rounded rnd) s w n i z q = some q' → ∀ v ∈ q'.2, |v| ≤ X := by
    intro w n
    induction n with
    | zero => intro i z q q' hq h; rw [← Option.some.inj h]; exact hq
    | succ n ih =>
      intro i z q q' hq h
      rw [fillLoop2] at h
      obtain ⟨q1, hq1, h⟩ := Option.bind_eq_some_iff.mp h
      exact ih _ _ _ _ (hst _ _ _ _ _ hq hq1) h
  obtain ⟨q, hq, hy⟩ := Option.bind_eq_some_iff.mp hy
  obtain ⟨q', hq', hy⟩ := Option.map_eq_some_iff.mp hy
  rw [← hy]
  exact h2 _ _ _ _ _ _ (h1 _ _ _ _ _ _ hx hq) hq'

/-! ### Spectrum -/

theorem specFinish_mag (h : RoundF rnd) (dt : Dt) (sr : Srate) (bw nbytes : Nat) (hn : 20 ≤ nbytes) (side : SpecSide) (hs : side.Valid dt sr) (nf seed : Nat) (hnf : nf ≤ 8)
    (xq x : List Rat) (hx : ∀ v ∈ xq, |v| ≤ if sr.hr then 2 ^ 24 + 42 else 2 ^ 16 + 42)
    (hf : specFinish (Arith.rounded rnd) dt sr bw nbytes side nf seed xq = some x) : ∀ v ∈ x, |v| ≤ 383 * 10 ^ 9 := by
  unfold specFinish at hf
  obtain ⟨g, hg, hf⟩ := Option.bind_eq_some_iff.mp hf
  obtain ⟨x0, h0, hf⟩ := Option.bind_eq_some_iff.mp hf
  obtain ⟨x1, h1, hf⟩ := Option.bind_eq_some_iff.mp hf
  obtain ⟨o1, o2⟩ := gainOffset_low sr nbytes hn
  have hgi := hs.gIdx
  obtain ⟨g1, g2⟩ := unquantizeGain_mag h _ (by omega) g hg
  have hu : ∀ v ∈ unquantize (Arith.rounded rnd) (ne dt sr) g xq, |v| ≤ 383 * 10 ^ 9 := by
    intro v hv
    unfold unquantize at hv
    rcases List.mem_append.1 hv with hv | hv
    · obtain ⟨w, hw, rfl⟩ := List.mem_map.1 hv
      have hw' := hx w hw
      change |rnd (w * g)| ≤ _
      have : |w * g| ≤ 3826 * 10 ^ 8 := by
        rw [abs_mul]
        cases hc : sr.hr
        · rw [hc] at hw'
          have := mul_le_mul (show |w| ≤ 2 ^ 16 + 42 from hw') g1 (abs_nonneg _) (by norm_num)
          exact this.trans (by norm_num)
        · rw [hc] at hw'
          have := mul_le_mul (show |w| ≤ 2 ^ 24 + 42 from hw') (g2 (by have := o2 hc; omega)) (abs_nonneg _) (by norm_num)
          exact this.trans (by norm_num)
      exact (h.mag this (by norm_num)).trans (by norm_num)
    · rw [(List.mem_replicate.1 hv).2]
      change |rnd 0| ≤ _
      rw [h.zero, abs_zero]; norm_num
  split at hf
  · exact fillNoise_mag h dt bw nf seed hnf g g1 side.nq _ x _ (by norm_num) hu hf
  · rw [← Option.some.inj hf]; exact hu

theorem ofInt_mag (h : RoundF rnd) (hr : Bool) (v : Int) (hv : v.natAbs ≤ if hr then 2 ^ 24 else 2 ^ 16) :
    |(Arith.rounded rnd).ofInt v| ≤ if hr then 2 ^ 24 + 2 else 2 ^ 16 + 2 := by
  change |rnd (v : Rat)| ≤ _
  cases hr
  · have e : |(v : Rat)| ≤ 2 ^ 16 := by
      rw [← Int.cast_abs, Int.abs_eq_natAbs]
      exact_mod_cast hv
    exact (h.mag e (by norm_num)).trans (by norm_num)
  · have e : |(v : Rat)| ≤ 2 ^ 24 := by
      rw [← Int.cast_abs, Int.abs_eq_natAbs]
      exact_mod_cast hv
    exact (h.mag e (by norm_num)).trans (by norm_num)

/-- Every line of the spectrum read from a frame. -/
theorem specDecode_mag (h : RoundF rnd) (F : List Nat) (hF : Bytes F) (dt : Dt) (sr : Srate) (bw nbytes : Nat) (hn : 20 ≤ nbytes) (side : SpecSide)
    (hs : side.Valid dt sr) (r : Bits) (hr : RInv F r) (s : SpecData Rat) (hok : (specDecode (Arith.rounded rnd) dt sr bw nbytes side r).1 = .ok s) :
    ∀ v ∈ s.x, |v| ≤ 383 * 10 ^ 9 := by
  unfold specDecode at hok
  obtain ⟨a1, a2⟩ := getBits_safe F 3 r hr (by decide)
  generalize getBits r 3 = g at *
  obtain ⟨nf, r1⟩ := g
  dsimp only at *
  obtain ⟨b1, b2⟩ := getQuantized_safe F hF (highRate sr nbytes) side.lsbMode sr.hr (ne dt sr) (side.nq / 2) 0 0 0
    (by decide) (by decide) r1 a2
  generalize getQuantized (highRate sr nbytes) side.lsbMode sr.hr (ne dt sr) (side.nq / 2) 0 0 0 r1 = g at *
  obtain ⟨o, r2⟩ := g
  dsimp only at *
  cases o with
  | none => cases hok
  | some t =>
    obtain ⟨l, seed⟩ := t
    dsimp only at *
    obtain ⟨l1, l2, l3⟩ := b2 l seed rfl
    have hM : 2 ^ (maxShl sr.hr + 2) = if sr.hr then 2 ^ 24 else 2 ^ 16 := by cases sr.hr <;> rfl
    by_cases hm : side.lsbMode = true
    · rw [if_pos hm] at hok
      obtain ⟨c1, c2, c3, c4⟩ := getLsb_safe (2 ^ (maxShl sr.hr + 2)) 0 (getBitsLeft r2) l seed l2 r2 l3
      generalize getLsb 0 (getBitsLeft r2) l seed r2 = g at *
      obtain ⟨l', seed', r3⟩ := g
      dsimp only at *
      split at hok
      · cases hok
      · rename_i x hx
        injection hok with hok
        subst hok
        refine specFinish_mag h dt sr bw nbytes hn side hs nf seed' (by omega) _ x ?_ hx
        intro v hv
        obtain ⟨w, hw, rfl⟩ := List.mem_map.1 hv
        refine (ofInt_mag h sr.hr w (by rw [← hM]; exact c4 w hw)).trans ?_
        cases sr.hr <;> norm_num
    · rw [if_neg hm] at hok
      have d1 : ∀ v ∈ l.map (Arith.rounded rnd).ofInt, |v| ≤ if sr.hr then 2 ^ 24 + 2 else 2 ^ 16 + 2 := by
        intro v hv
        obtain ⟨w, hw, rfl⟩ := List.mem_map.1 hv
        exact ofInt_mag h sr.hr w (by rw [← hM]; exact Nat.le_of_lt (l3 w hw))
      have d2 := getResidual_mag h sr.hr _ (by cases sr.hr <;> norm_num) (getBitsLeft r2).toNat _ r2 d1
      generalize getResidual (Arith.rounded rnd) sr.hr (getBitsLeft r2).toNat (l.map (Arith.rounded rnd).ofInt) r2 = g at *
      obtain ⟨xq, r3⟩ := g
      dsimp only at *
      split at hok
      · cases hok
      · rename_i x hx
        injection hok with hok
        subst hok
        refine specFinish_mag h dt sr bw nbytes hn side hs nf seed (by omega) _ x ?_ hx
        intro v hv
        refine (d2 v hv).trans ?_
        cases sr.hr <;> norm_num

end LC3
