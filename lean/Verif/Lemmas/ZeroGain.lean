import Verif.Lemmas.Zero
import Verif.Lemmas.RoundF
import Verif.Lemmas.Gain

/-! The rate control on a null spectrum, in single precision: the lowest gain, and no coefficient. -/

namespace LC3

variable {rnd : Rat → Rat}

/-- The rounding of a positive number is positive, within a factor 2. -/
theorem RoundF.pos (h : RoundF rnd) {x : Rat} (h1 : 1 / 2 ^ 126 ≤ x) (h2 : x ≤ 2 ^ 126) : x / 2 ≤ rnd x ∧ rnd x ≤ 2 * x := by
  have hx : 0 < x := lt_of_lt_of_le (by norm_num) h1
  have := h.rel x (by rw [abs_of_pos hx]; exact h1) (by rw [abs_of_pos hx]; exact h2)
  rw [abs_of_pos hx, abs_le] at this
  have h3 : x / 2 ^ 24 ≤ x / 2 := div_le_div_of_nonneg_left hx.le (by norm_num) (by norm_num)
  constructor <;> linarith

theorem gainDown_low (h : RoundF rnd) : ∀ (f n : Nat) (i : Int) (g lo : Rat), -(28 * (n : Int)) ≤ i → 1 / 2 ^ 60 * 40 ^ n ≤ lo → lo ≤ g → g ≤ 2 →
    1 / 2 ^ 60 ≤ (gainDown (Arith.rounded rnd) f i g).2 ∧ (gainDown (Arith.rounded rnd) f i g).2 ≤ 2 ∧
      (gainDown (Arith.rounded rnd) f i g).1 ≤ max i 27 := by
  intro f
  induction f with
  | zero =>
    intro n i g lo _ h2 h3 h4
    have : (1 : Rat) ≤ 40 ^ n := one_le_pow₀ (by norm_num)
    refine ⟨?_, h4, le_max_left _ _⟩
    show 1 / 2 ^ 60 ≤ g
    linarith
  | succ f ih =>
    intro n i g lo h1 h2 h3 h4
    unfold gainDown
    have h40 : (1 : Rat) ≤ 40 ^ n := one_le_pow₀ (by norm_num)
    split
    · rename_i hi
      obtain ⟨m, rfl⟩ : ∃ m, n = m + 1 := ⟨n - 1, by omega⟩
      obtain ⟨a1, a2⟩ := h.pos (x := 1 / 10) (by norm_num) (by norm_num)
      have hg : 0 < g := by linarith
      have b1 : 1 / 20 * g ≤ g * rnd (1 / 10) := by nlinarith
      have b2 : g * rnd (1 / 10) ≤ 1 / 5 * g := by nlinarith
      have hm : (1 : Rat) ≤ 40 ^ m := one_le_pow₀ (by norm_num)
      rw [pow_succ (40 : Rat)] at h2
      obtain ⟨c1, c2⟩ := h.pos (x := g * rnd (1 / 10)) (by norm_num at h2 ⊢; linarith) (by norm_num; linarith)
      obtain ⟨d1, d2, d3⟩ := ih m (i + 28) (rnd (g * rnd (1 / 10))) (lo / 40) (by push_cast at h1; omega) (by linarith) (by linarith) (by linarith)
      refine ⟨d1, d2, d3.trans ?_⟩
      omega
    · exact ⟨by linarith, h4, le_max_left _ _⟩

theorem gainUp_low (h : RoundF rnd) : ∀ (f n : Nat) (i : Int) (g hi : Rat), i < 28 * (n : Int) + 28 → hi * 40 ^ n ≤ 2 ^ 60 → g ≤ hi → 1 / 2 ^ 60 ≤ g →
    1 / 2 ^ 60 ≤ (gainUp (Arith.rounded rnd) f i g).2 ∧ (gainUp (Arith.rounded rnd) f i g).2 ≤ 2 ^ 60 := by
  intro f
  induction f with
  | zero =>
    intro n i g hi _ h2 h3 h4
    have : (1 : Rat) ≤ 40 ^ n := one_le_pow₀ (by norm_num)
    refine ⟨h4, ?_⟩
    show g ≤ 2 ^ 60
    nlinarith
  | succ f ih =>
    intro n i g hi h1 h2 h3 h4
    unfold gainUp
    have h40 : (1 : Rat) ≤ 40 ^ n := one_le_pow₀ (by norm_num)
    have hg : 0 < g := by linarith [show (0 : Rat) < 1 / 2 ^ 60 by norm_num]
    split
    · rename_i hi2
      obtain ⟨m, rfl⟩ : ∃ m, n = m + 1 := ⟨n - 1, by omega⟩
      obtain ⟨a1, a2⟩ := h.pos (x := 10) (by norm_num) (by norm_num)
      have b1 : 5 * g ≤ g * rnd 10 := by nlinarith
      have b2 : g * rnd 10 ≤ 20 * g := by nlinarith
      have hm : (1 : Rat) ≤ 40 ^ m := one_le_pow₀ (by norm_num)
      rw [pow_succ (40 : Rat)] at h2
      have hh : hi * 40 ≤ 2 ^ 60 := by nlinarith
      obtain ⟨c1, c2⟩ := h.pos (x := g * rnd 10) (by norm_num at h4 ⊢; linarith) (by norm_num at hh ⊢; linarith)
      exact ih m (i - 28) (rnd (g * rnd 10)) (hi * 40) (by push_cast at h1; omega) (by linarith) (by linarith) (by linarith)
    · exact ⟨h4, by nlinarith⟩

/-- The gains are positive. -/
theorem unquantizeGain_lo (h : RoundF rnd) (i : Int) (h1 : -280 ≤ i) (h2 : i < 252) (g : Rat) (hg : unquantizeGain (Arith.rounded rnd) i = some g) :
    1 / 2 ^ 62 ≤ g ∧ g ≤ 2 ^ 66 := by
  unfold unquantizeGain at hg
  dsimp only at hg
  obtain ⟨r1, r2⟩ := h.pos (x := 1) (by norm_num) (by norm_num)
  obtain ⟨a1, a2, a3⟩ := gainDown_low h i.natAbs 10 i (rnd 1) (1 / 2) (by omega) (by norm_num) (by linarith) (by linarith)
  rw [show (Arith.rounded rnd).ofRat 1 = rnd 1 from rfl] at hg
  generalize gainDown (Arith.rounded rnd) i.natAbs i (rnd 1) = q at *
  obtain ⟨b1, b2⟩ := gainUp_low h i.natAbs 8 q.1 q.2 2 (by push_cast; omega) (by norm_num) a2 a1
  generalize gainUp (Arith.rounded rnd) i.natAbs q.1 q.2 = q at *
  split at hg
  · cases hg
  obtain ⟨v, hv, rfl⟩ := Option.map_eq_some_iff.mp hg
  have hv2 : ∀ v ∈ iqTable, 1 ≤ v ∧ v ≤ 10 := by decide +kernel
  obtain ⟨v1, v2⟩ := hv2 v (List.mem_of_getElem? hv)
  obtain ⟨c1, c2⟩ := h.pos (x := v) (by norm_num; linarith) (by norm_num; linarith)
  have hq : 0 < q.2 := by linarith [show (0 : Rat) < 1 / 2 ^ 60 by norm_num]
  have d1 : 1 / 2 * q.2 ≤ q.2 * rnd v := by nlinarith
  have d2 : q.2 * rnd v ≤ 20 * q.2 := by nlinarith
  obtain ⟨e1, e2⟩ := h.pos (x := q.2 * rnd v) (by norm_num at b1 ⊢; linarith) (by norm_num at b2 ⊢; linarith)
  show 1 / 2 ^ 62 ≤ rnd (q.2 * rnd v) ∧ rnd (q.2 * rnd v) ≤ 2 ^ 66
  norm_num at b1 b2 ⊢
  constructor <;> linarith

/-- With a null spectrum, the search of the lower bound of the gain reaches the lowest one. -/
theorem gainMin_zero (h : RoundF rnd) (lim : Rat) (hl1 : 1 ≤ lim) (hl2 : lim ≤ 2 ^ 30) (steps : List Nat) : ∀ (g r : Int),
    -280 ≤ g - (steps.map fun i : Nat => (i : Int)).sum → g < 252 → gainMin (Arith.rounded rnd) lim 0 steps g = some r →
    r = g - (steps.map fun i : Nat => (i : Int)).sum := by
  induction steps with
  | nil => intro g r _ _ hr; cases hr; simp
  | cons i is ih =>
    intro g r h1 h2 hr
    unfold gainMin at hr
    obtain ⟨u, hu, hr⟩ := Option.bind_eq_some_iff.1 hr
    have hs : 0 ≤ (is.map fun i : Nat => (i : Int)).sum := List.sum_nonneg (by intro x hx; obtain ⟨n, -, rfl⟩ := List.mem_map.1 hx; omega)
    rw [List.map_cons, List.sum_cons] at h1 ⊢
    obtain ⟨u1, u2⟩ := unquantizeGain_lo h (g - i) (by omega) (by omega) u hu
    have hu0 : 0 < u := by linarith [show (0 : Rat) < 1 / 2 ^ 62 by norm_num]
    have hm1 : u ≤ lim * u := by nlinarith
    have hm2 : lim * u ≤ 2 ^ 30 * u := by nlinarith
    obtain ⟨p1, -⟩ := h.pos (x := lim * u) (by norm_num at u1 ⊢; linarith) (by norm_num at u2 hm2 ⊢; linarith)
    have hlt : (Arith.rounded rnd).lt 0 ((Arith.rounded rnd).mul lim u) = true := by
      show decide (0 < rnd (lim * u)) = true
      rw [decide_eq_true_eq]
      linarith
    rw [hlt, if_pos rfl] at hr
    rw [ih (g - i) r (by omega) (by omega) hr]
    ring

theorem gainBlocks_null (h0 : rnd 0 = 0) : ∀ (n : Nat) (l : List Rat), l.length ≤ n → AllZ (Arith.rounded rnd) l →
    (gainBlocks (Arith.rounded rnd) l 0).1 = 0 := by
  have hz : (Arith.rounded rnd).ofRat 0 = 0 := h0
  have hmul : (Arith.rounded rnd).mul 0 0 = 0 := by show rnd (0 * 0) = 0; rw [mul_zero, h0]
  have hmax : (Arith.rounded rnd).max 0 0 = 0 := rfl
  intro n
  induction n with
  | zero =>
    intro l hl _
    have e : l = [] := List.length_eq_zero_iff.1 (by omega)
    rw [e]
    rfl
  | succ n ih =>
    intro l hl h
    match l with
    | x0 :: x1 :: x2 :: x3 :: l =>
      unfold AllZ at h
      rw [hz] at h
      have e0 := h x0 (by simp)
      have e1 := h x1 (by simp)
      have e2 := h x2 (by simp)
      have e3 := h x3 (by simp)
      subst e0 e1 e2 e3
      unfold gainBlocks
      dsimp only
      rw [hmul, hmax, hmax, hmax, hmax]
      exact ih l (by simp at hl; omega) (fun v hv => by rw [hz]; exact h v (by simp [hv]))
    | [] => rfl
    | [_] => rfl
    | [_, _] => rfl
    | [_, _, _] => rfl

theorem quantCount_zero (h : RoundF rnd) (sr : Srate) (ne : Nat) : ∀ (m : Nat) (l : List Rat) (n : Int), l.length = 2 * m → AllZ (Arith.rounded rnd) l →
    quantCount (Arith.rounded rnd) sr ne l n = n - 2 * m := by
  have hle : (Arith.rounded rnd).le ((Arith.rounded rnd).ofRat (xqMin sr)) ((Arith.rounded rnd).abs 0) = false := by
    show decide (rnd (xqMin sr) ≤ if (0 : Rat) < 0 then -0 else 0) = false
    rw [if_neg (lt_irrefl _), decide_eq_false_iff_not, not_le]
    unfold xqMin
    split
    · have := (h.pos (x := 1 / 2) (by norm_num) (by norm_num)).1
      linarith
    · have := (h.pos (x := 10 / 16) (by norm_num) (by norm_num)).1
      linarith
  have hz : (Arith.rounded rnd).ofRat 0 = 0 := h.zero
  intro m
  induction m with
  | zero =>
    intro l n hl _
    have e : l = [] := List.length_eq_zero_iff.1 (by omega)
    rw [e]
    unfold quantCount
    omega
  | succ m ih =>
    intro l n hl hA
    match l with
    | a :: b :: l =>
      unfold AllZ at hA
      rw [hz] at hA
      have e0 := hA a (by simp)
      have e1 := hA b (by simp)
      subst e0 e1
      unfold quantCount
      rw [hle, Bool.or_false, if_neg (by decide), ih l (n - 2) (by simp at hl; omega) (fun v hv => by rw [hz]; exact hA v (by simp [hv]))]
      push_cast; ring
    | [] => simp at hl
    | [_] => simp at hl; omega

/-- The bits left to the spectrum are not negative without filter. -/
theorem specBudget_silent (dt : Dt) (sr : Srate) (n : Nat) (hn : 20 ≤ n) (pitch : Bool) (tns : TnsData) (ht : ∀ f ∈ tns.filters, f = [])
    (hl : tns.filters.length ≤ 2) : 0 ≤ specBudget dt sr n pitch tns := by
  have h1 : tnsNbits tns ≤ 2 := by
    have : ∀ l : List (List Int), (∀ f ∈ l, f = []) → (l.map (tnsFilterBits tns.lpcWeighting)).sum ≤ l.length := by
      intro l
      induction l with
      | nil => intro _; exact Nat.le_refl _
      | cons f l ih =>
        intro hf
        have := ih fun g hg => hf g (List.mem_cons_of_mem _ hg)
        rw [hf f (List.mem_cons_self ..), List.map_cons, List.sum_cons, List.length_cons]
        have e : tnsFilterBits tns.lpcWeighting [] = 1 := by cases tns.lpcWeighting <;> decide
        omega
    have := this _ ht
    unfold tnsNbits
    omega
  have h2 : nbitsAc dt sr n ≤ 16 := by
    unfold nbitsAc
    have : nbitsNq dt sr ≤ 10 := by cases dt <;> cases sr <;> decide
    have : b2n sr.hr ≤ 1 := by cases sr <;> decide
    omega
  have h3 : bwNbits sr ≤ 3 := by cases sr <;> decide
  have h4 : b2n pitch ≤ 1 := by cases pitch <;> decide
  unfold specBudget
  omega

/-- The gain estimated for a null spectrum is the lowest one. -/
theorem estimateGain_silent (h : RoundF rnd) (G : GainMath Rat) (hG : G.sqrt 0 = 0) (dt : Dt) (sr : Srate) (n : Nat) (x : List Rat) (budget : Int) (off : Rat)
    (hz : AllZ (Arith.rounded rnd) x) (est : GainEst)
    (hest : estimateGain (Arith.rounded rnd) G dt sr x n budget off (gainOffset sr n) = some est) :
    est = ⟨-(gainOffset sr n : Int), true, -(gainOffset sr n : Int)⟩ := by
  have h0 : (Arith.rounded rnd).ofRat 0 = 0 := h.zero
  have hgo : gainOffset sr n ≤ 255 := by unfold gainOffset; dsimp only; generalize n * 8 / (10 * (1 + srInd sr)) = q; split <;> omega
  have hgo2 : 105 ≤ gainOffset sr n := by unfold gainOffset; dsimp only; generalize n * 8 / (10 * (1 + srInd sr)) = q; split <;> omega
  unfold estimateGain at hest
  rw [h0] at hest
  dsimp only at hest
  rw [gainBlocks_null h.zero _ x (Nat.le_refl _) hz, hG] at hest
  obtain ⟨nf, -, hest⟩ := Option.bind_eq_some_iff.1 hest
  obtain ⟨nb, -, hest⟩ := Option.bind_eq_some_iff.1 hest
  obtain ⟨g, -, hest⟩ := Option.bind_eq_some_iff.1 hest
  obtain ⟨gm, hgm, hest⟩ := Option.map_eq_some_iff.1 hest
  have hlim : 1 ≤ rnd (xLim sr) ∧ rnd (xLim sr) ≤ 2 ^ 30 := by
    unfold xLim
    split
    · have := h.pos (x := 32767 * 256) (by norm_num) (by norm_num)
      norm_num at this ⊢; constructor <;> linarith
    · have := h.pos (x := 32767) (by norm_num) (by norm_num)
      norm_num at this ⊢; constructor <;> linarith
  have e : ((gainSteps.map fun i : Nat => (i : Int)).sum) = 255 := by decide
  have := gainMin_zero h (rnd (xLim sr)) hlim.1 hlim.2 gainSteps (255 - gainOffset sr n) gm (by rw [e]; omega) (by omega) hgm
  rw [e] at this
  have hz0 : (Arith.rounded rnd).isZero 0 = true := by
    unfold Arith.isZero
    rw [h0]; rfl
  rw [hz0, Bool.or_true] at hest
  rw [if_pos rfl] at hest
  rw [← hest, this]
  congr 1 <;> omega


/-- Nothing to code takes no bit. -/
theorem computeNbits_nil (dt : Dt) (sr : Srate) (n : Nat) (b : Int) (hb : 0 ≤ b) : computeNbits dt sr n [] b = ⟨0, false, 0⟩ := by
  have e1 : ∀ (lim : Int), rateLoop (highRate sr n) (lsbAllowed sr n) (ne dt sr) lim 0 {} [] = {} := fun _ => rfl
  unfold computeNbits
  dsimp only
  rw [e1]
  have : (if b ≠ 0 then b * 2048 else (2147483647 : Int)) ≥ 0 := by split <;> omega
  congr 1
  · rw [show ((0 : Int) + 2048 * ((0 : Nat) : Int)) = 0 by norm_num]
    rw [decide_eq_false (by omega), Bool.and_false]
  · have : ((if (if b ≠ 0 then b * 2048 else (2147483647 : Int)) ≥ 2147483647 then (0 : Int) + 2048 * ((0 : Nat) : Int) else 0) + 2047) / 2048 = 0 := by
      split <;> norm_num
    exact this


/-- The rate control of a null spectrum without filter: the gain of index 0, no coefficient, and the state is forgotten. -/
theorem specAnalyze_silent (h : RoundF rnd) (G : GainMath Rat) (hG : G.sqrt 0 = 0) (dt : Dt) (sr : Srate) (n : Nat) (hn : 20 ≤ n) (pitch : Bool)
    (tns : TnsData) (ht : ∀ f ∈ tns.filters, f = []) (hl : tns.filters.length ≤ 2) (st st' : SpecSt Rat) (x y : List Rat) (hx : x.length = ne dt sr)
    (hz : AllZ (Arith.rounded rnd) x) (side : SpecSide)
    (hs : specAnalyze (Arith.rounded rnd) G dt sr n pitch tns st x = some (st', y, side)) :
    side = ⟨0, 0, false⟩ ∧ AllZ (Arith.rounded rnd) y ∧ st' = ⟨0, 0⟩ := by
  have hA := zeroOk_rounded h.zero
  have h0 : (Arith.rounded rnd).ofRat 0 = 0 := h.zero
  obtain ⟨m, hm⟩ : ∃ m, ne dt sr = 2 * m := ⟨ne dt sr / 2, by have := (nbitsNq_spec dt sr).2.2.2.1; omega⟩
  unfold specAnalyze at hs
  dsimp only at hs
  obtain ⟨est, hest, hs⟩ := Option.bind_eq_some_iff.1 hs
  have hb := specBudget_silent dt sr n hn pitch tns ht hl
  have hgo : gainOffset sr n ≤ 255 := by unfold gainOffset; dsimp only; generalize n * 8 / (10 * (1 + srInd sr)) = q; split <;> omega
  have hgo2 : 105 ≤ gainOffset sr n := by unfold gainOffset; dsimp only; generalize n * 8 / (10 * (1 + srInd sr)) = q; split <;> omega
  have hE := estimateGain_silent h G hG dt sr n x _ _ hz est hest
  subst hE
  dsimp only at hs
  obtain ⟨⟨q, k⟩, hq, hs⟩ := Option.bind_eq_some_iff.1 hs
  unfold quantize at hq
  obtain ⟨gi, -, hq⟩ := Option.map_eq_some_iff.1 hq
  dsimp only at hq
  rw [Prod.mk.injEq] at hq
  obtain ⟨rfl, hk⟩ := hq
  have hqz : AllZ (Arith.rounded rnd) (x.map fun v => (Arith.rounded rnd).mul v gi) := hz.map_mul hA gi
  rw [quantCount_zero h sr (ne dt sr) m _ _ (by rw [List.length_map]; omega) hqz, hm] at hk
  have hk : k = 0 := by push_cast at hk; omega
  subst hk
  dsimp only at hs
  rw [if_neg (by omega)] at hs
  obtain ⟨mags, hmg, hs⟩ := Option.bind_eq_some_iff.1 hs
  have hm0 : mags = [] := by
    unfold magnitudes at hmg
    dsimp only at hmg
    split at hmg
    · cases hmg; rfl
    · cases hmg
  subst hm0
  have hr := computeNbits_nil dt sr n
  rw [hr 0 (le_refl _)] at hs
  have hadj : adjustGain dt sr (↑(gainOffset sr n) + -(gainOffset sr n : Int)) 0 (specBudget dt sr n pitch tns)
      (↑(gainOffset sr n) + -(gainOffset sr n : Int)) = 0 := by
    unfold adjustGain
    rw [if_neg (by rintro ⟨-, hh⟩; omega)]
    split
    · rw [decide_eq_false (lt_irrefl _)]; rfl
    · rw [if_neg (by rintro ⟨-, hh⟩; omega)]
  rw [hadj] at hs
  rw [if_neg (by decide)] at hs
  dsimp only [Option.bind_some] at hs
  split at hs
  · cases hs
  obtain ⟨mags, hmg, hs⟩ := Option.bind_eq_some_iff.1 hs
  have hm0 : mags = [] := by
    unfold magnitudes at hmg
    dsimp only at hmg
    split at hmg
    · cases hmg; rfl
    · cases hmg
  subst hm0
  rw [hr _ hb] at hs
  split at hs
  · cases hs
  cases hs
  refine ⟨?_, hqz, ?_⟩
  · congr 1; omega
  · rw [if_pos rfl, h0]

end LC3
