import Verif.Lemmas.Tns

/-!
# C28: the temporal noise shaping is undone by the decoder

The results on the definedness and on the untouched coefficients hold for any arithmetic, the inversion for the exact one.
-/

namespace LC3

variable {R : Type}

/-- C28: with the same reflection coefficients, whatever they are, the filter of the decoder undoes the one of the
encoder: both are defined, and the spectrum is recovered exactly. -/
theorem C28_filter_inverse (dt : Dt) (bw : Nat) (rc : List (List Rat)) (hn : rc.length = tnsNfilters dt bw)
    (h8 : ∀ l ∈ rc, l.length ≤ 8) (x : List Rat) (hx : bwStop dt bw ≤ x.length) :
    ∃ y, forwardFiltering Arith.exact dt bw rc x = some y ∧ y.length = x.length ∧
      inverseFiltering Arith.exact dt bw rc y = some x := by
  have hb := tns_bounds dt bw
  rw [← hn] at hb
  have hbx := boundsOk_mono _ _ _ _ _ _ hx hb
  obtain ⟨y, h1, h2, -⟩ := fwdFilters_some Arith.exact (tnsNf dt bw) rc h8 0 (3 * (1 + dt.idx)) _ x List.length_replicate hbx _ hb
  refine ⟨y, h1, h2, filters_inverse _ _ _ h8 ?_ _ _ hbx h1⟩
  rw [hn]
  unfold tnsNfilters b2n
  split <;> omega

/-- C28: in any arithmetic the filters keep the coefficients below `3 (1 + dt)` and from the end of the band. -/
theorem C28_untouched (A : Arith R) (dt : Dt) (bw : Nat) (rc : List (List R)) (hn : rc.length = tnsNfilters dt bw)
    (h8 : ∀ l ∈ rc, l.length ≤ 8) (x : List R) (hx : bwStop dt bw ≤ x.length) :
    (∃ y, forwardFiltering A dt bw rc x = some y ∧ y.length = x.length ∧
      ∀ j, j < 3 * (1 + dt.idx) ∨ bwStop dt bw ≤ j → y[j]? = x[j]?) ∧
    (∃ y, inverseFiltering A dt bw rc x = some y ∧ y.length = x.length ∧
      ∀ j, j < 3 * (1 + dt.idx) ∨ bwStop dt bw ≤ j → y[j]? = x[j]?) := by
  have hb := tns_bounds dt bw
  rw [← hn] at hb
  have hbx := boundsOk_mono _ _ _ _ _ _ hx hb
  exact ⟨fwdFilters_some A _ rc h8 0 _ _ x List.length_replicate hbx _ hb,
    invFilters_some A _ rc h8 0 _ _ x List.length_replicate hbx _ hb⟩

/-- C28: the analysis is defined in any arithmetic, on any spectrum that covers the band. Its parameters are
accepted by the coding of the frame (C11), it keeps the length of the spectrum. -/
theorem C28_analyze_defined (A : Arith R) (dt : Dt) (bw : Nat) (hbw : bw ≤ 6) (h7 : dt = .m7_5 → bw ≤ 4) (nn : Bool)
    (nbytes : Nat) (x : List R) (hx : bwStop dt bw ≤ x.length) :
    ∃ d y, tnsAnalyze A dt bw nn nbytes x = some (d, y) ∧ d.Valid dt bw nbytes ∧ y.length = x.length ∧
      (∀ j, j < 3 * (1 + dt.idx) ∨ bwStop dt bw ≤ j → y[j]? = x[j]?) ∧
      (nn = true → d.filters = List.replicate (tnsNfilters dt bw) [] ∧ y = x) := by
  obtain ⟨g, g1, g2, g3⟩ := computeLpcCoeffs_some A dt bw hbw h7 x hx
  obtain ⟨f, f1, f2, f3⟩ := mapM_prop (tnsFilterParams A nn (resolveLpcWeighting dt nbytes) (if dt.idx ≤ 1 then 4 else 8))
    (fun l => TnsFilterValid dt l ∧ (nn = true → l = [])) g (by
      intro v hv
      obtain ⟨l, l1, l2⟩ := tnsFilterParams_some A dt nn (resolveLpcWeighting dt nbytes) v (g3 v hv)
      refine ⟨l, l1, l2, fun hn => ?_⟩
      unfold tnsFilterParams at l1
      rw [if_pos (Or.inl hn)] at l1
      exact (Option.some.inj l1).symm)
  obtain ⟨rc, r1, r2, r3⟩ := unquantizeFilters_some A dt f (fun rc h => (f3 rc h).1)
  obtain ⟨y, y1, y2, y3⟩ := (C28_untouched A dt bw rc (by omega) r3 x hx).1
  refine ⟨⟨resolveLpcWeighting dt nbytes, f⟩, y, ?_, ⟨rfl, by rw [f2, g2], fun rc h => (f3 rc h).1⟩, y2, y3, fun hn => ?_⟩
  · unfold tnsAnalyze
    dsimp only
    rw [g1]
    dsimp only [Option.bind_some]
    rw [f1]
    dsimp only [Option.bind_some]
    rw [r1]
    dsimp only [Option.bind_some]
    rw [y1]; rfl
  · have ef : f = List.replicate (tnsNfilters dt bw) [] := by
      rw [List.eq_replicate_iff]
      exact ⟨by omega, fun l hl => (f3 l hl).2 hn⟩
    refine ⟨ef, ?_⟩
    have hrc : ∀ l ∈ rc, l = [] := by
      intro l hl
      have h2 := mapM_forall₂ _ _ _ r1
      obtain ⟨a, ha, e⟩ : ∃ a ∈ f, unquantizeRc A a = some l := by
        clear r1 r2 r3 y1 ef f1 f2 f3
        induction h2 with
        | nil => cases hl
        | cons e h ih =>
          rcases List.mem_cons.mp hl with rfl | hl
          · exact ⟨_, List.mem_cons_self, e⟩
          · obtain ⟨a, ha, e⟩ := ih hl
            exact ⟨a, List.mem_cons_of_mem _ ha, e⟩
      rw [(f3 a ha).2 hn] at e
      exact (Option.some.inj e).symm
    have hid : ∀ (rc : List (List R)) (nf f i0 : Nat) (s x : List R), (∀ l ∈ rc, l = []) → fwdFilters A nf rc f i0 s x = some x := by
      intro rc
      induction rc with
      | nil => intro _ _ _ _ _ _; rfl
      | cons l rc ih =>
        intro nf f i0 s x h
        obtain rfl := h l List.mem_cons_self
        rw [fwdFilters, if_pos List.length_nil]
        exact ih _ _ _ _ _ (fun l hl => h l (List.mem_cons_of_mem _ hl))
    unfold forwardFiltering at y1
    rw [hid rc _ _ _ _ x hrc] at y1
    exact (Option.some.inj y1).symm

/-- C28: the synthesis is defined in any arithmetic with any parameters that a frame can carry. -/
theorem C28_synthesize_defined (A : Arith R) (dt : Dt) (bw nbytes : Nat) (d : TnsData) (hd : d.Valid dt bw nbytes)
    (x : List R) (hx : bwStop dt bw ≤ x.length) :
    ∃ y, tnsSynthesize A dt bw d x = some y ∧ y.length = x.length ∧
      ∀ j, j < 3 * (1 + dt.idx) ∨ bwStop dt bw ≤ j → y[j]? = x[j]? := by
  obtain ⟨rc, r1, r2, r3⟩ := unquantizeFilters_some A dt d.filters hd.filters
  obtain ⟨y, y1, y2, y3⟩ := (C28_untouched A dt bw rc (by have := hd.count; omega) r3 x hx).2
  refine ⟨y, ?_, y2, y3⟩
  unfold tnsSynthesize
  rw [r1]
  exact y1

/-- C28: the synthesis with the parameters of the analysis gives back the spectrum before the analysis. -/
theorem C28_round_trip (dt : Dt) (bw : Nat) (hbw : bw ≤ 6) (h7 : dt = .m7_5 → bw ≤ 4) (nn : Bool) (nbytes : Nat)
    (x : List Rat) (hx : bwStop dt bw ≤ x.length) :
    ∃ d y, tnsAnalyze Arith.exact dt bw nn nbytes x = some (d, y) ∧ tnsSynthesize Arith.exact dt bw d y = some x := by
  obtain ⟨d, y, h, hd, -⟩ := C28_analyze_defined Arith.exact dt bw hbw h7 nn nbytes x hx
  refine ⟨d, y, h, ?_⟩
  obtain ⟨rc, r1, r2, r3⟩ := unquantizeFilters_some Arith.exact dt d.filters hd.filters
  obtain ⟨z, z1, -, z3⟩ := C28_filter_inverse dt bw rc (by have := hd.count; omega) r3 x hx
  unfold tnsAnalyze at h
  obtain ⟨g, -, h⟩ := Option.bind_eq_some_iff.mp h
  obtain ⟨f, -, h⟩ := Option.bind_eq_some_iff.mp h
  obtain ⟨rc', e1, h⟩ := Option.bind_eq_some_iff.mp h
  obtain ⟨y', e2, h⟩ := Option.map_eq_some_iff.mp h
  obtain ⟨rfl, rfl⟩ := Prod.mk.inj h
  dsimp only at r1
  rw [r1] at e1
  obtain rfl := Option.some.inj e1
  rw [z1] at e2
  obtain rfl := Option.some.inj e2
  unfold tnsSynthesize
  dsimp only
  rw [r1]
  exact z3

/-- A spectrum on which a filter is used: the parameters found, and the coefficients changed. -/
example : (tnsAnalyze Arith.exact .m2_5 0 false 40 (List.replicate 20 (3 : Rat))).map (fun q => (q.1.filters, (q.2.drop 5).take 2)) =
    some ([[-6]], [10305/32768, 10305/32768]) := by
  decide +kernel

/-- Two filters of different orders, the spectrum is changed and recovered. -/
example : forwardFiltering Arith.exact .m5 3 [[1/2, -1/4, 1/3], [2/3]] ((List.range 160).map fun (n : Nat) => (n : Rat)) ≠
    some ((List.range 160).map fun (n : Nat) => (n : Rat)) := by
  decide +kernel

end LC3
