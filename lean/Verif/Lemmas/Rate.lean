import Verif.Lemmas.Cost

/-!
The rate loop against the writer: prices of the tables, of a pair, of a spectrum, of the TNS data.
-/

namespace LC3

/-- Unit of the tabulated costs: `1/2048` bit. -/
def costE : Nat := 2048

/-- The tabulated cost `c` of a symbol of share `range/1024` is rounded up. -/
def costOk (range c : Nat) : Bool :=
  decide (1024 ^ costE ≤ range ^ costE * 2 ^ c) && decide (range ^ costE * 2 ^ c < 2 * 1024 ^ costE)

/-- All the costs of a model, up to the symbol `n - 1`. -/
def costsOk (n : Nat) (m : AcModel) (t : List Nat) : Bool :=
  decide (t.length = n) && (List.range n).all fun s => costOk (m.sym s).range (t.getD s 0)

theorem spectrum_costs : (List.range 64).all (fun i =>
    costsOk 17 (spectrumModels.getD i []) (spectrumBits.getD i [])) = true := by decide +kernel

theorem tnsOrder_costs : (List.range 2).all (fun i =>
    costsOk 8 (tnsOrderModels.getD i []) (tnsOrderBits.getD i [])) = true := by decide +kernel

theorem tnsCoeffs_costs : (List.range 8).all (fun i =>
    costsOk 17 (tnsCoeffsModels.getD i []) (tnsCoeffsBits.getD i [])) = true := by decide +kernel

theorem cost_of (N n : Nat) (M : List AcModel) (T : List (List Nat))
    (h : (List.range N).all (fun i => costsOk n (M.getD i []) (T.getD i [])) = true) (i s : Nat) (hi : i < N)
    (hs : s < n) : costOk ((M.getD i []).sym s).range ((T.getD i []).getD s 0) = true := by
  have h1 := List.all_eq_true.mp h i (List.mem_range.mpr hi)
  unfold costsOk at h1
  rw [Bool.and_eq_true] at h1
  exact List.all_eq_true.mp h1.2 s (List.mem_range.mpr hs)

theorem costOk_le {r c : Nat} (h : costOk r c = true) : 1024 ^ costE ≤ r ^ costE * 2 ^ c := by
  unfold costOk at h
  rw [Bool.and_eq_true] at h
  exact of_decide_eq_true h.1

/-- A row of the lookup table, with the costs. -/
def LutCost (lut : List Nat) : Prop :=
  ∀ k < 4, ∀ s ≤ 16, costOk ((specModel lut k).sym s).range (specBits lut k s) = true

theorem lutOf_cost (hrate : Bool) (ne i state : Nat) (h : state < 256) : LutCost (lutOf hrate ne i state) := by
  intro k hk s hs
  unfold lutOf
  obtain ⟨h1, h2⟩ := spectrumLookup_all hrate (if i < (ne + 2) >>> 1 then 0 else 1)
  generalize spectrumLookup hrate (if i < (ne + 2) >>> 1 then 0 else 1) = t at *
  rw [getD_of_lt _ _ _ (by omega : state < t.length)]
  have h3 := List.all_eq_true.mp h2 t[state] (List.getElem_mem _)
  rw [Bool.and_eq_true, decide_eq_true_eq] at h3
  obtain ⟨h3, h4⟩ := h3
  unfold specModel specBits
  rw [getD_of_lt _ _ _ (by omega : k < t[state].length)]
  have h5 := List.all_eq_true.mp h4 t[state][k] (List.getElem_mem _)
  rw [decide_eq_true_eq] at h5
  exact cost_of 64 17 _ _ spectrum_costs _ _ h5 (by omega)

/-! ### A pair -/

theorem Priced.cast {E : Nat} {ops : List Op} {P N P' N' : Nat} (h : Priced E ops P N) (hP : P = P') (hN : N = N') :
    Priced E ops P' N' := by subst hP; subst hN; exact h

theorem priced_bit {ops : List Op} {P N v : Nat} (h : Priced costE ops P N) :
    Priced costE (.bits v 1 :: ops) (2048 + P) N := h.bits (v := v) (n := 1)

theorem priced_sym {m : AcModel} {s c : Nat} {ops : List Op} {P N : Nat} (hc : costOk (m.sym s).range c = true)
    (h : Priced costE ops P N) : Priced costE (.sym m s :: ops) (c + P) (N + 1) := h.sym (costOk_le hc)

theorem rateEsc_k (lut : List Nat) (f m k : Nat) : (rateEsc lut f m k).2 = k + escN f m := by
  induction f generalizing m k with
  | zero => rfl
  | succ f ih =>
    unfold rateEsc escN
    by_cases h : m = 0
    · rw [if_pos h, if_pos h]; rfl
    · rw [if_neg h, if_neg h]
      dsimp only
      rw [ih]; omega

theorem wEsc_priced (lut : List Nat) (hl : LutCost lut) (a c f m k : Nat) :
    Priced costE (wEsc lut a c k (escN f m)) ((rateEsc lut f m k).1 + 4096 * escN f m) (escN f m) := by
  induction f generalizing m k with
  | zero => exact Priced.nil
  | succ f ih =>
    unfold rateEsc escN
    by_cases h : m = 0
    · rw [if_pos h, if_pos h]; exact Priced.nil
    · rw [if_neg h, if_neg h]
      dsimp only
      unfold wEsc
      refine (priced_bit (priced_bit (priced_sym (hl (min k 3) (by omega) 16 (by omega)) (ih (m >>> 1) (k + 1))))).cast ?_ rfl
      omega

theorem opsSign_priced (a : Nat) (neg : Bool) : Priced costE (opsSign a neg) (2048 * b2n (decide (a ≠ 0))) 0 := by
  unfold opsSign
  by_cases h : a ≠ 0
  · rw [if_pos h, decide_eq_true h]
    exact priced_bit Priced.nil
  · rw [if_neg h, decide_eq_false h]
    exact Priced.nil

/-- Number of symbols of a pair. -/
def pairSyms (a b : Nat) : Nat := 1 + (Nat.log2 (max a b) - 1)

theorem escN_log2 (f m : Nat) (h : m < 2 ^ f) : escN f m = if m = 0 then 0 else Nat.log2 m + 1 := by
  induction f generalizing m with
  | zero => simp at h; subst h; rfl
  | succ f ih =>
    unfold escN
    by_cases h0 : m = 0
    · rw [if_pos h0, if_pos h0]
    · rw [if_neg h0, if_neg h0, ih]
      · rw [Nat.shiftRight_eq_div_pow, Nat.pow_one]
        by_cases h1 : m / 2 = 0
        · rw [if_pos h1, Nat.log2_def, if_neg (by omega)]
        · rw [if_neg h1, Nat.log2_def m, if_pos (by omega)]
      · rw [Nat.shiftRight_eq_div_pow, Nat.pow_one]
        rw [Nat.pow_succ] at h
        omega

/-- The number of escapes does not depend on the LSB mode. -/
theorem pairEsc_eq (lsb : Bool) (a c : Nat) (ha : a < 2 ^ 32) (hc : c < 2 ^ 32) :
    pairEsc lsb a c = escN 32 ((a ||| c) >>> 2) := by
  have hlt : (a ||| c) >>> 2 < 2 ^ 30 := by
    have := or_lt ha hc
    rw [Nat.shiftRight_eq_div_pow]
    omega
  unfold pairEsc
  by_cases h : (a ||| c) >>> 2 ≠ 0
  · rw [if_pos h]
    cases lsb
    · simp [b2n]
    · have h1 : ((a ||| c) >>> 2) >>> 1 < 2 ^ 32 := by
        rw [Nat.shiftRight_eq_div_pow _ 1]; omega
      change 1 + escN 32 (((a ||| c) >>> 2) >>> 1) = escN 32 ((a ||| c) >>> 2)
      rw [escN_log2 32 _ h1, escN_log2 32 _ (by omega), if_neg h]
      generalize (a ||| c) >>> 2 = m at *
      rw [Nat.shiftRight_eq_div_pow, Nat.pow_one]
      by_cases h2 : m / 2 = 0
      · rw [if_pos h2, Nat.log2_def, if_neg (by omega)]
      · rw [if_neg h2, Nat.log2_def m, if_pos (by omega)]; omega
  · rw [if_neg h]
    rw [not_not.mp h]; rfl

theorem escN_or (a c : Nat) (ha : a < 2 ^ 32) (hc : c < 2 ^ 32) :
    1 + escN 32 ((a ||| c) >>> 2) = pairSyms a c := by
  have hlt : (a ||| c) >>> 2 < 2 ^ 32 := by
    have := or_lt ha hc
    rw [Nat.shiftRight_eq_div_pow]
    omega
  rw [escN_log2 32 _ hlt]
  unfold pairSyms
  congr 1
  have hmax : ∀ j, max a c < 2 ^ j ↔ (a ||| c) < 2 ^ j := by
    intro j
    constructor
    · intro h; exact Nat.or_lt_two_pow (by omega) (by omega)
    · intro h
      have h1 : a ≤ a ||| c := Nat.left_le_or
      have h2 : c ≤ a ||| c := Nat.right_le_or
      omega
  have hlog : a ||| c ≠ 0 → Nat.log2 (a ||| c) = Nat.log2 (max a c) := by
    intro h0
    have hm0 : max a c ≠ 0 := by
      intro h
      have : a = 0 ∧ c = 0 := by omega
      rw [this.1, this.2] at h0
      exact h0 rfl
    apply Nat.le_antisymm
    · have := (Nat.log2_lt hm0).mp (Nat.lt_succ_self _)
      exact Nat.lt_succ_iff.mp ((Nat.log2_lt h0).mpr ((hmax _).mp this))
    · have := (Nat.log2_lt h0).mp (Nat.lt_succ_self _)
      exact Nat.lt_succ_iff.mp ((Nat.log2_lt hm0).mpr ((hmax _).mpr this))
  by_cases h0 : a ||| c = 0
  · have h1 : a ≤ a ||| c := Nat.left_le_or
    have h2 : c ≤ a ||| c := Nat.right_le_or
    have ha0 : a = 0 := by omega
    have hc0 : c = 0 := by omega
    subst ha0; subst hc0
    rfl
  · rw [← hlog h0]
    generalize a ||| c = x at *
    rw [Nat.shiftRight_eq_div_pow]
    by_cases h4 : x / 2 ^ 2 = 0
    · rw [if_pos h4]
      have : Nat.log2 x < 2 := (Nat.log2_lt h0).mpr (by omega)
      omega
    · rw [if_neg h4]
      rw [Nat.log2_def x, if_pos (by omega), Nat.log2_def (x / 2), if_pos (by omega), Nat.div_div_eq_div_mul,
        show 2 * 2 = 2 ^ 2 by rfl]
      omega

/-- The rate of a pair agrees with what is written: same context, price not lower. `lw` is the mode of the writer, `lr` the
mode of the rate loop. -/
theorem pair_priced (lut : List Nat) (hl : LutCost lut) (lw lr : Bool) (hm : lw = true → lr = true) (p q : Coef)
    (hp : p.1 < 2 ^ 32) (hq : q.1 < 2 ^ 32) :
    let w := ratePair lut lr p.1 q.1
    w.k = min (pairEsc lw p.1 q.1) 3 ∧ w.a = p.1 >>> pairEsc lw p.1 q.1 ∧ w.b = q.1 >>> pairEsc lw p.1 q.1 ∧
    ∃ P, Priced costE (opsPair lut lw p q) P (pairSyms p.1 q.1) ∧
      (P : Int) ≤ w.nbits + (if lw = lr then 0 else 2048 * (w.lsb : Int)) ∧ (lr = false → (P : Int) = w.nbits) := by
  intro w
  by_cases h : (p.1 ||| q.1) >>> 2 = 0
  · have e : ∀ l, pairEsc l p.1 q.1 = 0 := by
      intro l; unfold pairEsc; rw [if_neg (by simpa using h)]
    have ew : w = ⟨2048 * ((b2n (decide (p.1 ≠ 0)) + b2n (decide (q.1 ≠ 0)) : Nat) : Int) +
        (specBits lut 0 (p.1 + 4 * q.1) : Nat), 0, 0, p.1, q.1, b2n (decide (p.1 ≠ 0)) + b2n (decide (q.1 ≠ 0))⟩ := by
      show ratePair lut lr p.1 q.1 = _
      unfold ratePair
      dsimp only
      rw [if_pos h]
    rw [e, ew]
    refine ⟨rfl, rfl, rfl, 2048 * b2n (decide (p.1 ≠ 0)) + 2048 * b2n (decide (q.1 ≠ 0)) + (specBits lut 0 (p.1 + 4 * q.1) + 0), ?_, ?_⟩
    · unfold opsPair
      rw [if_neg (by simpa using h)]
      have h4 := shr_lt4 p.1 q.1 0 h
      simp only [Nat.shiftRight_zero] at h4
      refine (((opsSign_priced p.1 p.2).append (opsSign_priced q.1 q.2)).append
        (priced_sym (hl 0 (by omega) _ (by omega)) Priced.nil)).cast rfl ?_
      rw [← escN_or _ _ hp hq, h]
      rfl
    · dsimp only
      split <;> push_cast <;> omega
  · have hesc := pairEsc_eq lw p.1 q.1 hp hq
    have hescr := pairEsc_eq lr p.1 q.1 hp hq
    have hsum : ∀ l, pairEsc l p.1 q.1 = b2n l + escN 32 (((p.1 ||| q.1) >>> 2) >>> b2n l) := by
      intro l; unfold pairEsc; rw [if_pos h]
    have hk : (rateEsc lut 32 (((p.1 ||| q.1) >>> 2) >>> b2n lr) (b2n lr)).2 = pairEsc lw p.1 q.1 := by
      rw [rateEsc_k, ← hsum, hescr, hesc]
    have hne : 1 ≤ pairEsc lw p.1 q.1 := by
      rw [hesc, show (32 : Nat) = 31 + 1 by rfl]
      unfold escN
      rw [if_neg h]; omega
    have hw : w = ⟨2048 * ((b2n (decide (p.1 ≠ 0)) + b2n (decide (q.1 ≠ 0)) : Nat) : Int) +
        (if lr then ((specBits lut 0 16 : Nat) : Int) - 2 * 2048 else 0) +
        ((rateEsc lut 32 (((p.1 ||| q.1) >>> 2) >>> b2n lr) (b2n lr)).1 : Nat) + 2 * 2048 * ((pairEsc lw p.1 q.1 : Nat) : Int) +
        ((specBits lut (min (pairEsc lw p.1 q.1) 3) (p.1 >>> pairEsc lw p.1 q.1 + 4 * (q.1 >>> pairEsc lw p.1 q.1)) : Nat) : Int),
        (if lr then 2 + b2n (decide (p.1 = 1)) + b2n (decide (q.1 = 1)) else 0), min (pairEsc lw p.1 q.1) 3,
        p.1 >>> pairEsc lw p.1 q.1, q.1 >>> pairEsc lw p.1 q.1, b2n (decide (p.1 ≠ 0)) + b2n (decide (q.1 ≠ 0))⟩ := by
      show ratePair lut lr p.1 q.1 = _
      unfold ratePair
      dsimp only
      rw [if_neg h, hk]
      rfl
    have hz : (p.1 ||| q.1) >>> (2 + pairEsc lw p.1 q.1) = 0 := by
      rw [Nat.shiftRight_add, hesc]
      apply escN_zero
      have := or_lt hp hq
      rw [Nat.shiftRight_eq_div_pow]
      omega
    have h4 := shr_lt4 p.1 q.1 _ hz
    rw [hw]
    refine ⟨rfl, rfl, rfl, ?_⟩
    -- the writer
    have hE := wEsc_priced lut hl p.1 q.1 32 (((p.1 ||| q.1) >>> 2) >>> b2n lw) (b2n lw)
    have hS := (opsSign_priced (p.1 >>> b2n lw) p.2).append (opsSign_priced (q.1 >>> b2n lw) q.2)
    have hM := priced_sym (hl (min (pairEsc lw p.1 q.1) 3) (by omega)
      (p.1 >>> pairEsc lw p.1 q.1 + 4 * (q.1 >>> pairEsc lw p.1 q.1)) (by omega)) Priced.nil
    have hT := (hE.append hS).append hM
    have hF : Priced costE (if lw then [Op.sym (specModel lut 0) 16] else []) (if lw then specBits lut 0 16 else 0)
        (b2n lw) := by
      cases lw
      · exact Priced.nil
      · exact priced_sym (hl 0 (by omega) 16 (by omega)) Priced.nil
    have hA := hF.append hT
    unfold opsPair
    rw [if_pos h]
    refine ⟨_, hA.cast rfl ?_, ?_⟩
    · rw [← escN_or _ _ hp hq, ← hesc, hsum]
      omega
    · have hb1 : b2n (decide (p.1 >>> b2n lw ≠ 0)) ≤ b2n (decide (p.1 ≠ 0)) := by
        by_cases h0 : p.1 = 0
        · rw [h0]; simp [b2n]
        · rw [decide_eq_true h0]; exact Nat.le_of_lt_succ (b2n_lt _)
      have hb2 : b2n (decide (q.1 >>> b2n lw ≠ 0)) ≤ b2n (decide (q.1 ≠ 0)) := by
        by_cases h0 : q.1 = 0
        · rw [h0]; simp [b2n]
        · rw [decide_eq_true h0]; exact Nat.le_of_lt_succ (b2n_lt _)
      have hb3 : lw = false → b2n (decide (p.1 >>> b2n lw ≠ 0)) = b2n (decide (p.1 ≠ 0)) ∧
          b2n (decide (q.1 >>> b2n lw ≠ 0)) = b2n (decide (q.1 ≠ 0)) := by
        intro h; rw [h]; exact ⟨rfl, rfl⟩
      have hsw := hsum lw
      generalize b2n (decide (p.1 >>> b2n lw ≠ 0)) = u1 at *
      generalize b2n (decide (q.1 >>> b2n lw ≠ 0)) = u2 at *
      generalize b2n (decide (p.1 ≠ 0)) = v1 at *
      generalize b2n (decide (q.1 ≠ 0)) = v2 at *
      generalize specBits lut (min (pairEsc lw p.1 q.1) 3) _ = z at *
      generalize b2n (decide (p.1 = 1)) = z1 at *
      generalize b2n (decide (q.1 = 1)) = z2 at *
      cases lw
      · cases lr
        · simp only [Bool.false_eq_true, if_false, if_true, b2n, forall_const] at *
          push_cast
          exact ⟨by omega, by omega⟩
        · -- the first escape
          simp only [Bool.false_eq_true, if_false, if_true, b2n] at *
          have hr : (rateEsc lut 32 ((p.1 ||| q.1) >>> 2 >>> 0) 0).1 =
              specBits lut 0 16 + (rateEsc lut 32 ((p.1 ||| q.1) >>> 2 >>> 1) 1).1 := by
            have hx : ∀ f m k, m < 2 ^ f → (rateEsc lut (f + 1) m k).1 = (rateEsc lut f m k).1 := by
              intro f
              induction f with
              | zero => intro m k hm; simp at hm; subst hm; rfl
              | succ f ih =>
                intro m k hm
                unfold rateEsc
                by_cases h0 : m = 0
                · rw [if_pos h0, if_pos h0]
                · rw [if_neg h0, if_neg h0]
                  dsimp only
                  rw [ih]
                  rw [Nat.shiftRight_eq_div_pow, Nat.pow_one]
                  rw [Nat.pow_succ] at hm
                  omega
            have hlt : (p.1 ||| q.1) >>> 2 >>> 1 < 2 ^ 31 := by
              have := or_lt hp hq
              rw [← Nat.shiftRight_add, Nat.shiftRight_eq_div_pow]
              omega
            rw [hx 31 _ 1 hlt, Nat.shiftRight_zero, show (32 : Nat) = 31 + 1 by rfl]
            conv => lhs; unfold rateEsc
            rw [if_neg h]
            rfl
          push_cast
          exact ⟨by omega, fun h => by cases h⟩
      · have := hm rfl
        subst this
        simp only [if_true, b2n] at *
        push_cast
        exact ⟨by omega, fun h => by cases h⟩

end LC3
