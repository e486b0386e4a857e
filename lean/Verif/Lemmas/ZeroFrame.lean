import Verif.Lemmas.ZeroGain
import Verif.Lemmas.Decoder
import Verif.Model.Shaping

/-! The noise shaping and the noise level of a null spectrum. -/

namespace LC3

section
variable {R : Type} {A : Arith R}

/-! ### Spectral noise shaping -/

theorem shapeLoop_z (hA : ZeroOk A) (M : SnsMath R) (x : Option (List R)) (hx : ∀ l, x = some l → AllZ A l) : ∀ (l : List (R × Nat)) (i : Nat) (y : List R),
    AllZ A y → Outs (AllZ A) (shapeLoop A M x l i y) := by
  intro l
  induction l with
  | nil => intro i y hy; exact outs_some hy
  | cons p l ih =>
    intro i y hy
    obtain ⟨s, lim⟩ := p
    unfold shapeLoop
    dsimp only
    refine outs_bind (q := AllZ A) (iter_z (fun i y hy => ?_) _ _ _ hy) fun t ht => ih _ _ ht
    refine outs_rd (A := A) (f := fun v => wr y i (A.mul v (M.exp2 (A.neg s)))) ?_ _ (wr_z hy _ (hA.mul _))
    intro v hv
    cases hx' : x with
    | none => rw [hx'] at hv; exact hy v hv
    | some l => rw [hx'] at hv; exact hx l hx' v hv

theorem spectralShaping_z (hA : ZeroOk A) (M : SnsMath R) (dt : Dt) (sr : Srate) (scf : List R) (inv : Bool) (x : Option (List R))
    (hx : ∀ l, x = some l → AllZ A l) (y : List R) (hy : AllZ A y) : Outs (AllZ A) (spectralShaping A M dt sr scf inv x y) := by
  unfold spectralShaping
  exact outs_any fun _ => outs_any fun _ => shapeLoop_z hA M x hx _ _ _ hy

theorem snsAnalyzeFull_z [Inhabited R] (hA : ZeroOk A) (M : SnsMath R) (dt : Dt) (sr : Srate) (nbytes : Nat) (eb : List R) (att : Bool) (y : List R)
    (hy : AllZ A y) : Outs (fun q => AllZ A q.2) (snsAnalyzeFull A M dt sr nbytes eb att y) := by
  unfold snsAnalyzeFull
  refine outs_any fun _ => outs_any fun q => outs_any fun _ => outs_bind (spectralShaping_z hA M dt sr _ _ none (by intro l h; cases h) y hy) fun t ht => ?_
  exact outs_some ht

theorem snsSynthesize_z (hA : ZeroOk A) (M : SnsMath R) (dt : Dt) (sr : Srate) (d : SnsData) (x y : List R) (hx : AllZ A x) (hy : AllZ A y) :
    Outs (AllZ A) (snsSynthesize A M dt sr d (some x) y) := by
  unfold snsSynthesize
  exact outs_any fun _ => spectralShaping_z hA M dt sr _ _ _ (by intro l h; cases h; exact hx) y hy

/-! ### Temporal noise shaping -/

theorem mapM_unquantize_nil (A : Arith R) : ∀ l : List (List Int), (∀ f ∈ l, f = []) → l.mapM (unquantizeRc A) = some (l.map fun _ => []) := by
  intro l
  induction l with
  | nil => intro _; rfl
  | cons f l ih =>
    intro h
    rw [List.mapM_cons, ih fun g hg => h g (List.mem_cons_of_mem _ hg), h f (List.mem_cons_self ..)]
    rfl

theorem fwdFilters_none (nf : Nat) : ∀ (l : List (List R)) (f i0 : Nat) (s x : List R), (∀ r ∈ l, r = []) → fwdFilters A nf l f i0 s x = some x := by
  intro l
  induction l with
  | nil => intros; rfl
  | cons r l ih =>
    intro f i0 s x h
    unfold fwdFilters
    dsimp only
    rw [if_pos (by rw [h r (List.mem_cons_self ..)]; rfl)]
    exact ih _ _ _ _ fun g hg => h g (List.mem_cons_of_mem _ hg)

theorem invFilters_none (nf : Nat) : ∀ (l : List (List R)) (f i0 : Nat) (s x : List R), (∀ r ∈ l, r = []) → invFilters A nf l f i0 s x = some x := by
  intro l
  induction l with
  | nil => intros; rfl
  | cons r l ih =>
    intro f i0 s x h
    unfold invFilters
    dsimp only
    rw [if_pos (by rw [h r (List.mem_cons_self ..)]; rfl)]
    exact ih _ _ _ _ fun g hg => h g (List.mem_cons_of_mem _ hg)

/-- Without filter, the synthesis is the identity. -/
theorem tnsSynthesize_none (dt : Dt) (bw : Nat) (d : TnsData) (h : ∀ f ∈ d.filters, f = []) (x : List R) : tnsSynthesize A dt bw d x = some x := by
  unfold tnsSynthesize
  rw [mapM_unquantize_nil A _ h, Option.bind_some]
  unfold inverseFiltering
  refine invFilters_none _ _ _ _ _ _ ?_
  intro r hr
  obtain ⟨f, -, rfl⟩ := List.mem_map.1 hr
  rfl

theorem tnsDot_z (hA : ZeroOk A) (x : List R) (hx : AllZ A x) : ∀ (n i j : Nat), Outs (fun v => v = A.ofRat 0) (tnsDot A x n i j (A.ofRat 0)) := by
  intro n
  induction n with
  | zero => intro i j; exact outs_some rfl
  | succ n ih =>
    intro i j v hv
    unfold tnsDot at hv
    obtain ⟨a, ha, hv⟩ := Option.bind_eq_some_iff.1 hv
    obtain ⟨b, hb, hv⟩ := Option.bind_eq_some_iff.1 hv
    rw [hx a (List.mem_of_getElem? ha), hA.mul, hA.add] at hv
    exact ih _ _ v hv

theorem mapM_outs {S T : Type} {p : T → Prop} {f : S → Option T} : ∀ (l : List S) (m : List T), l.mapM f = some m → (∀ a ∈ l, Outs p (f a)) →
    m.length = l.length ∧ ∀ v ∈ m, p v := by
  intro l
  induction l with
  | nil => intro m h _; rw [List.mapM_nil] at h; cases h; exact ⟨rfl, by simp⟩
  | cons a l ih =>
    intro m h hp
    rw [List.mapM_cons] at h
    obtain ⟨b, hb, h⟩ := Option.bind_eq_some_iff.1 h
    obtain ⟨t, ht, h⟩ := Option.bind_eq_some_iff.1 h
    cases h
    obtain ⟨i1, i2⟩ := ih t ht fun c hc => hp c (List.mem_cons_of_mem _ hc)
    refine ⟨by rw [List.length_cons, List.length_cons, i1], ?_⟩
    intro v hv
    rcases List.mem_cons.1 hv with rfl | hv
    · exact hp a (List.mem_cons_self ..) _ hb
    · exact i2 v hv

theorem tnsCorrs_z (hA : ZeroOk A) (x : List R) (hx : AllZ A x) (m : Nat) : ∀ (n : Nat) (sub : List Nat),
    Outs (fun c => c.length = n ∧ ∀ l ∈ c, AllZ A l) (tnsCorrs A x m n sub) := by
  intro n
  induction n with
  | zero => intro sub c hc; cases hc; exact ⟨rfl, by simp⟩
  | succ n ih =>
    intro sub c hc
    match sub with
    | xs :: xe :: sub =>
      unfold tnsCorrs at hc
      obtain ⟨c0, h0, hc⟩ := Option.bind_eq_some_iff.1 hc
      obtain ⟨l, hl, rfl⟩ := Option.map_eq_some_iff.1 hc
      obtain ⟨i1, i2⟩ := ih _ l hl
      refine ⟨by rw [List.length_cons, i1], ?_⟩
      intro l' hl'
      rcases List.mem_cons.1 hl' with rfl | hl'
      · unfold tnsCorr at h0
        refine (mapM_outs (p := fun v => v = A.ofRat 0) _ _ h0 ?_).2
        intro k _
        split
        · intro v hv; cases hv
        · exact tnsDot_z hA x hx _ _ _
      · exact i2 l' hl'
    | [] => cases hc
    | [_] => cases hc

theorem tnsNorm_z (h0 : A.isZero (A.ofRat 0) = true) (c : List (List R)) (hc : c ≠ []) (hz : ∀ l ∈ c, AllZ A l) (k : Nat) :
    Outs (fun v => v = A.ofRat 0) (tnsNorm A c k) := by
  intro v hv
  unfold tnsNorm at hv
  obtain ⟨q, hq, hv⟩ := Option.bind_eq_some_iff.1 hv
  obtain ⟨q1, q2⟩ := mapM_outs (p := fun p : R × R => p.2 = A.ofRat 0) _ _ hq (by
    intro l hl p hp
    obtain ⟨e, he, hp⟩ := Option.bind_eq_some_iff.1 hp
    obtain ⟨w, hw, rfl⟩ := Option.map_eq_some_iff.1 hp
    exact hz l hl e (List.mem_of_getElem? he))
  rw [if_pos] at hv
  · cases hv; rfl
  · match q with
    | [] => exact absurd (List.length_eq_zero_iff.1 q1.symm) hc
    | p :: q =>
      rw [List.any_cons, q2 p (List.mem_cons_self ..), h0]; rfl

theorem tnsAutocorr_z (hA : ZeroOk A) (h0 : A.isZero (A.ofRat 0) = true) (x : List R) (hx : AllZ A x) (m nsub : Nat) (hs : nsub ≠ 0) :
    ∀ (n : Nat) (sub : List Nat), Outs (fun r => ∀ l ∈ r, AllZ A l) (tnsAutocorr A x m nsub n sub) := by
  intro n
  induction n with
  | zero => intro sub r hr; cases hr; simp
  | succ n ih =>
    intro sub r hr
    unfold tnsAutocorr at hr
    obtain ⟨c, hc, hr⟩ := Option.bind_eq_some_iff.1 hr
    obtain ⟨r0, h0', hr⟩ := Option.bind_eq_some_iff.1 hr
    obtain ⟨l, hl, rfl⟩ := Option.map_eq_some_iff.1 hr
    obtain ⟨c1, c2⟩ := tnsCorrs_z hA x hx m nsub sub c hc
    intro l' hl'
    rcases List.mem_cons.1 hl' with rfl | hl'
    · refine (mapM_outs (p := fun v => v = A.ofRat 0) _ _ h0' ?_).2
      intro k _
      exact tnsNorm_z h0 c (by rintro rfl; simp at c1; omega) c2 k
    · exact ih _ l hl l' hl'

end

section
variable {rnd : Rat → Rat}

theorem RoundF.tight (h : RoundF rnd) {x : Rat} (h1 : 1 / 2 ^ 20 ≤ x) (h2 : x ≤ 2 ^ 20) : |rnd x - x| ≤ 1 / 2 ^ 24 * x := by
  have hx : 0 < x := lt_of_lt_of_le (by norm_num) h1
  have := h.rel x (by rw [abs_of_pos hx]; exact le_trans (by norm_num) h1) (by rw [abs_of_pos hx]; exact h2.trans (by norm_num))
  rw [abs_of_pos hx] at this
  rw [div_mul_eq_mul_div, one_mul]; exact this

theorem levinsonStep_zero (h : RoundF rnd) (r : List Rat) (hr : AllZ (Arith.rounded rnd) r) (q q' : List Rat × Rat)
    (hq : ∀ v ∈ q.1, v = 0) (h1 : 1 ≤ q.2) (h2 : q.2 ≤ 4)
    (hs : levinsonStep (Arith.rounded rnd) r q = some q') : (∀ v ∈ q'.1, v = 0) ∧ |q'.2 - q.2| ≤ 1 / 2 ^ 10 := by
  have h0 : rnd 0 = 0 := h.zero
  unfold levinsonStep at hs
  dsimp only at hs
  obtain ⟨rk, hrk, hs⟩ := Option.map_eq_some_iff.1 hs
  have hrk : rk = 0 := by rw [hr rk (List.mem_of_getElem? hrk)]; exact h0
  subst hrk
  have hf : ∀ l : List (Rat × Rat), (∀ p ∈ l, p.1 = 0) → l.foldl (fun s p => (Arith.rounded rnd).sub s ((Arith.rounded rnd).mul p.1 p.2)) 0 = 0 := by
    intro l
    induction l with
    | nil => intro _; rfl
    | cons p l ih =>
      intro hp
      rw [List.foldl_cons, hp p (List.mem_cons_self ..)]
      have : (Arith.rounded rnd).sub 0 ((Arith.rounded rnd).mul 0 p.2) = 0 := by
        show rnd (0 - rnd (0 * p.2)) = 0
        rw [zero_mul, h0, sub_zero, h0]
      rw [this]
      exact ih fun a ha => hp a (List.mem_cons_of_mem _ ha)
  have e1 : (Arith.rounded rnd).sub ((Arith.rounded rnd).ofRat 0) 0 = 0 := by
    show rnd (rnd 0 - 0) = 0
    rw [h0, sub_zero, h0]
  rw [e1, hf _ (by
    intro p hp
    exact hq _ (List.of_mem_zip (a := p.1) (b := p.2) hp).1)] at hs
  have e2 : (Arith.rounded rnd).div 0 q.2 = 0 := by
    show rnd (0 / q.2) = 0
    rw [zero_div, h0]
  rw [e2] at hs
  rw [← hs]
  constructor
  · intro v hv
    dsimp only at hv
    rcases List.mem_append.1 hv with hv | hv
    · obtain ⟨i, hi, rfl⟩ := List.getElem_of_mem hv
      rw [List.getElem_zipWith, hq _ (List.getElem_mem _)]
      show rnd (0 + rnd (0 * _)) = 0
      rw [zero_mul, h0, add_zero, h0]
    · rw [List.mem_singleton.1 hv]
  · show |rnd (q.2 * rnd (rnd 1 - rnd (0 * 0))) - q.2| ≤ 1 / 2 ^ 10
    rw [mul_zero, h0, sub_zero]
    have a1 := h.tight (x := 1) (by norm_num) (by norm_num)
    rw [abs_le] at a1
    have b1 : 1 / 2 ≤ rnd 1 := by norm_num at a1 ⊢; linarith
    have b2 : rnd 1 ≤ 2 := by norm_num at a1 ⊢; linarith
    have a2 := h.tight (x := rnd 1) (by norm_num; linarith) (by norm_num; linarith)
    rw [abs_le] at a2
    obtain ⟨u, hu⟩ : ∃ u, u = rnd (rnd 1) := ⟨_, rfl⟩
    have c1 : 1 - 1 / 2 ^ 20 ≤ u := by rw [hu]; norm_num at a1 a2 ⊢; linarith
    have c2 : u ≤ 1 + 1 / 2 ^ 20 := by rw [hu]; norm_num at a1 a2 ⊢; linarith
    rw [← hu]
    have d1 : q.2 - 4 / 2 ^ 20 ≤ q.2 * u := by norm_num at c1 c2 ⊢; nlinarith
    have d2 : q.2 * u ≤ q.2 + 4 / 2 ^ 20 := by norm_num at c1 c2 ⊢; nlinarith
    have a3 := h.tight (x := q.2 * u) (by norm_num at d1 ⊢; linarith) (by norm_num at d2 ⊢; linarith)
    rw [abs_le] at a3 ⊢
    norm_num at a3 d1 d2 ⊢
    constructor <;> linarith

theorem levinson_zero (h : RoundF rnd) (r : List Rat) (hr : AllZ (Arith.rounded rnd) r) (e0 : Rat) (he1 : 3 / 2 ≤ e0) (he2 : e0 ≤ 7 / 2) :
    ∀ (n m : Nat) (q q' : List Rat × Rat), m + n ≤ 8 → (∀ v ∈ q.1, v = 0) → |q.2 - e0| ≤ m * (1 / 2 ^ 10) → levinson (Arith.rounded rnd) r n q = some q' →
    |q'.2 - e0| ≤ 1 / 2 ^ 7 := by
  intro n
  induction n with
  | zero =>
    intro m q q' hm _ hq hs
    cases hs
    refine hq.trans ?_
    have : (m : Rat) ≤ 8 := by exact_mod_cast hm
    calc (m : Rat) * (1 / 2 ^ 10) ≤ 8 * (1 / 2 ^ 10) := by apply mul_le_mul_of_nonneg_right this; norm_num
      _ ≤ 1 / 2 ^ 7 := by norm_num
  | succ n ih =>
    intro m q q' hm hz hq hs
    unfold levinson at hs
    obtain ⟨q1, h1, hs⟩ := Option.bind_eq_some_iff.1 hs
    have hm8 : (m : Rat) ≤ 8 := by exact_mod_cast (by omega : m ≤ 8)
    have hb := hq
    rw [abs_le] at hb
    norm_num at hb
    obtain ⟨s1, s2⟩ := levinsonStep_zero h r hr q q1 hz (by linarith) (by linarith) h1
    refine ih (m + 1) q1 q' (by omega) s1 ?_ hs
    have : q1.2 - e0 = (q1.2 - q.2) + (q.2 - e0) := by ring
    rw [this]
    refine (abs_add_le _ _).trans ?_
    push_cast
    linarith

/-- The analysis of a null spectrum gives no filter, and leaves it. -/
theorem tnsAnalyze_silent (h : RoundF rnd) (dt : Dt) (bw : Nat) (nn : Bool) (nbytes : Nat) (x y : List Rat) (d : TnsData)
    (hx : AllZ (Arith.rounded rnd) x) (hs : tnsAnalyze (Arith.rounded rnd) dt bw nn nbytes x = some (d, y)) : (∀ f ∈ d.filters, f = []) ∧ y = x := by
  have h0 : rnd 0 = 0 := h.zero
  have hz0 : (Arith.rounded rnd).isZero ((Arith.rounded rnd).ofRat 0) = true := by
    show ((decide (rnd 0 ≤ rnd 0)) && (decide (rnd 0 ≤ rnd 0))) = true
    simp
  unfold tnsAnalyze at hs
  dsimp only at hs
  obtain ⟨g, hg, hs⟩ := Option.bind_eq_some_iff.1 hs
  obtain ⟨filters, hf, hs⟩ := Option.bind_eq_some_iff.1 hs
  obtain ⟨rc, hrc, hs⟩ := Option.bind_eq_some_iff.1 hs
  obtain ⟨y', hy, hs⟩ := Option.map_eq_some_iff.1 hs
  rw [Prod.mk.injEq] at hs
  obtain ⟨rfl, rfl⟩ := hs
  unfold computeLpcCoeffs at hg
  dsimp only at hg
  obtain ⟨sub, -, hg⟩ := Option.bind_eq_some_iff.1 hg
  obtain ⟨r, hr, hg⟩ := Option.bind_eq_some_iff.1 hg
  have hrz := tnsAutocorr_z (zeroOk_rounded h0) hz0 x hx _ _ (by omega) _ _ r hr
  obtain ⟨nsub, hnsub⟩ : ∃ n, n = 2 + b2n (decide (dt.idx ≥ 2)) := ⟨_, rfl⟩
  have hn2 : nsub = 2 ∨ nsub = 3 := by rw [hnsub]; cases dt <;> decide
  rw [← hnsub] at hg
  have hmax : (if dt.idx ≤ 1 then 4 else 8) ≤ 8 := by split <;> omega
  have herr : 3 / 2 ≤ rnd ((nsub : Int) : Rat) ∧ rnd ((nsub : Int) : Rat) ≤ 7 / 2 := by
    rcases hn2 with rfl | rfl
    · have := h.tight (x := 2) (by norm_num) (by norm_num)
      rw [abs_le] at this
      norm_num at this ⊢
      constructor <;> linarith
    · have := h.tight (x := 3) (by norm_num) (by norm_num)
      rw [abs_le] at this
      norm_num at this ⊢
      constructor <;> linarith
  have hgain : ∀ q ∈ g, (Arith.rounded rnd).le q.1 ((Arith.rounded rnd).ofRat (3 / 2)) = true := by
    refine (mapM_outs (p := fun q : Rat × List Rat => (Arith.rounded rnd).le q.1 ((Arith.rounded rnd).ofRat (3 / 2)) = true) _ _ hg ?_).2
    intro rf hrf p hp
    obtain ⟨q, hq, rfl⟩ := Option.map_eq_some_iff.1 hp
    have e : (Arith.rounded rnd).ofInt (nsub : Int) = rnd ((nsub : Int) : Rat) := rfl
    rw [e] at hq ⊢
    have hk := levinson_zero h rf (hrz rf hrf) _ herr.1 herr.2 _ 0 _ q (by omega) (by simp) (by simp) hq
    obtain ⟨e0, he0⟩ : ∃ e0, e0 = rnd ((nsub : Int) : Rat) := ⟨_, rfl⟩
    rw [← he0] at hk herr ⊢
    rw [abs_le] at hk
    norm_num at hk
    show decide (rnd (e0 / q.2) ≤ rnd (3 / 2)) = true
    have hq0 : 1 ≤ q.2 := by linarith
    have d1 : e0 / q.2 ≤ 11 / 10 := by rw [div_le_iff₀ (by linarith)]; linarith
    have d2 : 1 / 10 ≤ e0 / q.2 := by rw [le_div_iff₀ (by linarith)]; linarith
    have t1 := h.tight (x := e0 / q.2) (by norm_num; linarith) (by norm_num; linarith)
    have t2 := h.tight (x := 3 / 2) (by norm_num) (by norm_num)
    rw [abs_le] at t1 t2
    norm_num at t1 t2
    rw [decide_eq_true_eq]
    linarith
  have hfil : ∀ f ∈ filters, f = [] := by
    refine (mapM_outs (p := fun f : List Int => f = []) _ _ hf ?_).2
    intro q hq f hf
    unfold tnsFilterParams at hf
    rw [if_pos (Or.inr (hgain q hq))] at hf
    cases hf; rfl
  refine ⟨hfil, ?_⟩
  rw [mapM_unquantize_nil _ _ hfil] at hrc
  cases hrc
  unfold forwardFiltering at hy
  rw [fwdFilters_none _ _ _ _ _ _ (by
    intro r hr
    obtain ⟨f, -, rfl⟩ := List.mem_map.1 hr
    rfl)] at hy
  cases hy; rfl

/-! ### Noise level -/

theorem noiseLoop2_zero (h0 : rnd 0 = 0) (x : List Rat) (hx : AllZ (Arith.rounded rnd) x) (w : Nat) : ∀ (n i z : Nat) (q q' : Rat × Nat), q.1 = 0 →
    noiseLoop2 (Arith.rounded rnd) x w n i z q = some q' → q'.1 = 0 := by
  intro n
  induction n with
  | zero => intro i z q q' hq hs; cases hs; exact hq
  | succ n ih =>
    intro i z q q' hq hs
    unfold noiseLoop2 at hs
    obtain ⟨q1, h1, hs⟩ := Option.bind_eq_some_iff.1 hs
    refine ih _ _ q1 q' ?_ hs
    unfold noiseStep at h1
    split at h1
    · split at h1
      · obtain ⟨v, hv, rfl⟩ := Option.map_eq_some_iff.1 h1
        dsimp only
        rw [hx v (List.mem_of_getElem? hv), hq]
        show rnd (0 + if rnd 0 < 0 then -rnd 0 else rnd 0) = 0
        rw [h0, if_neg (lt_irrefl _), add_zero, h0]
      · cases h1
    · cases h1; exact hq

/-- The noise level of a null spectrum is the lowest. -/
theorem estimateNoise_silent (h : RoundF rnd) (dt : Dt) (bw : Nat) (hr : Bool) (x : List Rat) (hx : AllZ (Arith.rounded rnd) x) (nf : Nat)
    (hs : estimateNoise (Arith.rounded rnd) dt bw hr x 0 = some nf) : nf = 7 := by
  have h0 : rnd 0 = 0 := h.zero
  unfold estimateNoise at hs
  dsimp only at hs
  obtain ⟨q1, h1, hs'⟩ := Option.bind_eq_some_iff.1 hs
  clear hs
  have e : max (noiseStart dt) (min 0 (bwStop dt bw)) - noiseStart dt = 0 := by omega
  rw [e] at h1
  cases h1
  obtain ⟨q2, h2, hs⟩ := Option.map_eq_some_iff.1 hs'
  have hz := noiseLoop2_zero h0 x hx _ _ _ _ _ q2 h0 h2
  rw [hz] at hs
  have ht : (Arith.rounded rnd).trunc ((Arith.rounded rnd).add ((Arith.rounded rnd).div ((Arith.rounded rnd).mul ((Arith.rounded rnd).ofRat 16) 0)
      ((Arith.rounded rnd).ofInt q2.2)) ((Arith.rounded rnd).ofRat (1/2))) = 0 := by
    have e : (Arith.rounded rnd).add ((Arith.rounded rnd).div ((Arith.rounded rnd).mul ((Arith.rounded rnd).ofRat 16) 0)
        ((Arith.rounded rnd).ofInt q2.2)) ((Arith.rounded rnd).ofRat (1/2)) = rnd (rnd (1 / 2)) := by
      show rnd (rnd (rnd (rnd 16 * 0) / _) + rnd (1 / 2)) = _
      rw [mul_zero, h0, zero_div, h0, zero_add]
    rw [e]
    have a1 := h.tight (x := 1 / 2) (by norm_num) (by norm_num)
    rw [abs_le] at a1
    norm_num at a1
    have a2 := h.tight (x := rnd (1 / 2)) (by norm_num; linarith) (by norm_num; linarith)
    rw [abs_le] at a2
    norm_num at a2
    have b1 : 0 ≤ rnd (rnd (1 / 2)) := by norm_num; linarith
    have b2 : rnd (rnd (1 / 2)) < 1 := by norm_num; linarith
    show (if rnd (rnd (1 / 2)) < 0 then -(Rat.floor (-rnd (rnd (1 / 2)))) else Rat.floor (rnd (rnd (1 / 2)))) = 0
    rw [if_neg (by linarith)]
    show ⌊rnd (rnd (1 / 2))⌋ = 0
    rw [Int.floor_eq_zero_iff]
    exact ⟨b1, b2⟩
  rw [ht] at hs
  rw [← hs]
  split <;> decide

end

end LC3
