import Verif.Props.Shaping
import Verif.Props.Sns

/-! Properties of the scale factors of the spectral noise shaping. -/

namespace LC3

open Finset

variable {R : Type}

/-- The candidates of the quantisation have the pulses of their shapes (`C40_pulses`, `candidatesOk_real`). -/
def CandidatesOk [Inhabited R] (A : Arith R) : Prop :=
  ∀ x : List R, x.length = 16 → ∀ shape, shape < 4 → ShapeVec shape ((candidates A x).getD shape [])

theorem candidatesOk_rounds [Inhabited R] (A : Arith R) (val : R → Rat) (hA : A.Rounds val) : CandidatesOk A :=
  fun x hx shape hs => C40_pulses A val hA x hx shape hs

theorem foldl_add_real : ∀ (l : List ℝ) (s : ℝ), l.foldl Arith.real.add s = s + l.sum
  | [], s => by simp
  | a :: l, s => by
    rw [List.foldl_cons, foldl_add_real l]
    simp only [Arith.real, List.sum_cons]
    ring

theorem sum_floor_le (f : ℝ) : ∀ l : List ℝ, (((l.map fun v => ⌊v * f⌋).sum : Int) : ℝ) ≤ l.sum * f
  | [] => by simp
  | a :: l => by
    have := sum_floor_le f l
    have := Int.floor_le (a * f)
    simp only [List.map_cons, List.sum_cons, Int.cast_add]
    linarith

/-- In the real numbers as well. -/
theorem candidatesOk_real : CandidatesOk Arith.real := by
  intro x hx shape hs
  have hsum : sumAbs Arith.real (x.map Arith.real.abs) = (x.map fun v => |v|).sum := by
    unfold sumAbs
    rw [foldl_add_real]
    simp [Arith.ofInt, Arith.real]
  have h0 : 0 ≤ (x.map fun v => |v|).sum := by
    apply List.sum_nonneg
    intro v hv
    obtain ⟨w, -, rfl⟩ := List.mem_map.1 hv
    exact abs_nonneg w
  obtain ⟨S, hS⟩ : ∃ S, S = (x.map fun v => |v|).sum := ⟨_, rfl⟩
  have hf : projFactor Arith.real (x.map Arith.real.abs) = 5 / max S (((1 / 10 ^ 31 : Rat) : ℝ)) := by
    unfold projFactor
    rw [hsum, ← hS]
    simp only [Arith.ofInt, Arith.real]
    norm_num
  have hmax : 0 < max S (((1 / 10 ^ 31 : Rat) : ℝ)) := lt_of_lt_of_le (by norm_num) (le_max_right _ _)
  refine C40_pulses_any Arith.real x hx ?_ ?_ shape hs
  · intro v hv
    unfold initPulses at hv
    rw [hf] at hv
    obtain ⟨w, hw, rfl⟩ := List.mem_map.1 hv
    obtain ⟨u, -, rfl⟩ := List.mem_map.1 hw
    apply Int.floor_nonneg.2
    have : 0 ≤ |u| := abs_nonneg u
    change 0 ≤ |u| * (5 / _)
    positivity
  · have h1 := sum_floor_le (5 / max S (((1 / 10 ^ 31 : Rat) : ℝ))) (x.map fun v => |v|)
    have h2 : (initPulses Arith.real (x.map Arith.real.abs)) = (x.map fun v => |v|).map fun v => ⌊v * (5 / max S (((1 / 10 ^ 31 : Rat) : ℝ)))⌋ := by
      unfold initPulses
      rw [hf]
      rfl
    rw [h2]
    rw [← hS] at h1
    have h3 : S * (5 / max S (((1 / 10 ^ 31 : Rat) : ℝ))) ≤ 5 := by
      rw [mul_div_assoc', div_le_iff₀ hmax]
      have := le_max_left S (((1 / 10 ^ 31 : Rat) : ℝ))
      linarith
    have h4 := h1.trans h3
    have h5 : ((((x.map fun v => |v|).map fun v => ⌊v * (5 / max S (((1 / 10 ^ 31 : Rat) : ℝ)))⌋).sum : Int) : ℝ) ≤ ((5 : Int) : ℝ) := by
      simpa using h4
    have := Int.cast_le.1 h5
    omega

/-- The quantisation of the scale factors: valid data, and the decoder gets the same scale factors. -/
theorem snsQuantize_some [Inhabited R] (A : Arith R) (M : SnsMath R) (hA : CandidatesOk A) (scf : List R) (hs : scf.length = 16) :
    ∃ d cn scf', snsQuantize A M scf = some (d, cn) ∧ SnsValid d ∧ (d.shape ≠ 0 → d.idxB = 0 ∧ d.lsB = false) ∧
      unquantizeScf A d.lfcb d.hfcb cn d.shape d.gain = some scf' ∧ snsDecodeScf A M d = some scf' ∧ scf'.length = 16 := by
  obtain ⟨l1, l2, l3, l4⟩ := codebooks
  unfold snsQuantize
  simp only [Option.bind_eq_bind]
  have i1 := selectCodebook_lt A fun icb => codeDist A (scf.take 8) (snsLfcb.getD icb [])
  have i2 := selectCodebook_lt A fun icb => codeDist A (scf.drop 8) (snsHfcb.getD icb [])
  rw [List.getElem?_eq_getElem (by rw [l1]; exact i1), List.getElem?_eq_getElem (by rw [l2]; exact i2), Option.bind_some, Option.bind_some]
  obtain ⟨lf, hlf⟩ : ∃ lf, lf = snsLfcb[selectCodebook A fun icb => codeDist A (scf.take 8) (snsLfcb.getD icb [])]'(by rw [l1]; exact i1) := ⟨_, rfl⟩
  obtain ⟨hf, hhf⟩ : ∃ hf, hf = snsHfcb[selectCodebook A fun icb => codeDist A (scf.drop 8) (snsHfcb.getD icb [])]'(by rw [l2]; exact i2) := ⟨_, rfl⟩
  rw [← hlf, ← hhf]
  have e1 : lf.length = 8 := by rw [hlf]; exact l3 _ (List.getElem_mem _)
  have e2 : hf.length = 8 := by rw [hhf]; exact l4 _ (List.getElem_mem _)
  obtain ⟨x, x1, x2⟩ := dct16Forward_some A (residualScf A scf lf hf) (by simp [residualScf, hs, e1, e2])
  rw [x1, Option.bind_some]
  obtain ⟨d, d1, d2, d3, d4, d5, d6, d7, d8⟩ := C40_analyze_any A (fun icb => codeDist A (scf.take 8) (snsLfcb.getD icb []))
    (fun icb => codeDist A (scf.drop 8) (snsHfcb.getD icb [])) x (fun ic ig => quantMse A x (((candidates A x).map (normalizePulses A M)).getD ic [])
      (A.ofRat ((snsGainValues.getD ic []).getD ig 0))) M.fltMax (hA x x2)
  rw [d1, Option.bind_some]
  have hv : SnsValid d := ⟨d2, d3, d4, d5, d6, by
    by_cases c : d.shape = 0
    · rw [if_pos c] at d7; exact d7
    · rw [if_neg c] at d7; omega⟩
  obtain ⟨c, c1, c2⟩ := deenumerate_some d hv
  have hc : (candidates A x)[d.shape]? = some c := by rw [← d8, c1]
  have hcn : ((candidates A x).map (normalizePulses A M)).getD d.shape [] = normalizePulses A M c := by
    rw [List.getD_eq_getElem?_getD, List.getElem?_map, hc]
    rfl
  obtain ⟨scf', s1, s2⟩ := unquantizeScf_some A d.lfcb d.hfcb (normalizePulses A M c) d.shape d.gain d2 d3 (by simp [normalizePulses, c2.1]) d4 d5
  refine ⟨d, _, scf', rfl, hv, fun h => by rw [if_neg h] at d7; exact d7, ?_, ?_, s2⟩
  · rw [hcn, s1]
  · unfold snsDecodeScf
    simp only [Option.bind_eq_bind]
    rw [c1, Option.bind_some, s1]

/-- **C54.** For all the configurations, any frame size, energies of bands, attack flag and spectrum, in any arithmetic with the property
`C40_pulses`: the analysis accesses its buffers and tables only, gives data that the bitstream can carry, and divides the spectrum, band by
band, exactly as told by the scale factors the decoder finds in these data. -/
theorem C54_analysis [Inhabited R] (A : Arith R) (M : SnsMath R) (hA : CandidatesOk A) (dt : Dt) (sr : Srate) (hc : Config dt sr) (nbytes : Nat)
    (eb : List R) (heb : numBands dt sr ≤ eb.length) (att : Bool) (x : List R) (hx : ne dt sr ≤ x.length) :
    ∃ d y scf, snsAnalyzeFull A M dt sr nbytes eb att x = some (d, y) ∧ SnsValid d ∧ (d.shape ≠ 0 → d.idxB = 0 ∧ d.lsB = false) ∧
      y.length = x.length ∧ (∀ k, ne dt sr ≤ k → y[k]? = x[k]?) ∧
      snsDecodeScf A M d = some scf ∧ spectralShaping A M dt sr scf false none x = some y := by
  obtain ⟨s0, a1, a2⟩ := computeScf_some A M dt sr hc nbytes eb att heb
  obtain ⟨d, cn, scf, b1, b2, b3, b4, b5, b6⟩ := snsQuantize_some A M hA s0 a2
  obtain ⟨y, c1, c2, c3, -⟩ := shaping_spec A M (A.ofInt 0) dt sr hc scf b6 false none x (by simp) hx
  refine ⟨d, y, scf, ?_, b2, b3, c2, c3, b5, c1⟩
  unfold snsAnalyzeFull
  simp only [Option.bind_eq_bind]
  rw [a1, Option.bind_some, b1, Option.bind_some]
  dsimp only
  rw [b4, Option.bind_some, c1, Option.bind_some]
  rfl

/-- **C54.** In exact arithmetic, the synthesis from the data of the analysis gives back the spectrum, whatever these data are: the noise
shaping is transparent, only the quantisation of the spectrum is lossy. -/
theorem C54_transparent (dt : Dt) (sr : Srate) (hc : Config dt sr) (nbytes : Nat) (eb : List ℝ) (heb : numBands dt sr ≤ eb.length) (att : Bool)
    (x w : List ℝ) (hx : ne dt sr ≤ x.length) (hw : ne dt sr ≤ w.length) :
    ∃ d y x', snsAnalyzeFull Arith.real SnsMath.real dt sr nbytes eb att x = some (d, y) ∧ SnsValid d ∧
      snsSynthesize Arith.real SnsMath.real dt sr d (some y) w = some x' ∧ ∀ k, k < ne dt sr → x'.getD k 0 = x.getD k 0 := by
  obtain ⟨d, y, scf, a1, a2, -, -, -, a3, a4⟩ := C54_analysis Arith.real SnsMath.real candidatesOk_real dt sr hc nbytes eb heb att x hx
  obtain ⟨scf', h, hl⟩ := snsDecodeScf_some Arith.real SnsMath.real d a2
  rw [a3] at h
  obtain rfl := Option.some.inj h
  obtain ⟨y', x', b1, b2, b3⟩ := C53_inverse dt sr hc scf hl x w hx hw
  rw [a4] at b1
  obtain rfl := Option.some.inj b1
  refine ⟨d, y, x', a1, a2, ?_, b3⟩
  unfold snsSynthesize
  rw [a3, Option.bind_some, b2]

/-! ### Search of the codebooks -/

section
variable (A : Arith R) (val : R → ℝ)

theorem selectCodebook_fold (hlt : ∀ a b, A.lt a b = true ↔ val a < val b) (d : Nat → R) (n : Nat) :
    let r := (List.range (n + 1)).foldl (fun (s : Nat × R) icb => if icb = 0 || A.lt (d icb) s.2 then (icb, d icb) else s) (0, A.ofInt 0)
    r.2 = d r.1 ∧ r.1 ≤ n ∧ (∀ i, i ≤ n → val (d r.1) ≤ val (d i)) ∧ ∀ i, i < r.1 → val (d r.1) < val (d i) := by
  induction n with
  | zero => simp
  | succ n ih =>
    dsimp only at ih ⊢
    rw [List.range_succ, List.foldl_append, List.foldl_cons, List.foldl_nil]
    obtain ⟨r, hr⟩ : ∃ r, r = (List.range (n + 1)).foldl (fun (s : Nat × R) icb => if icb = 0 || A.lt (d icb) s.2 then (icb, d icb) else s) (0, A.ofInt 0) :=
      ⟨_, rfl⟩
    rw [← hr] at ih ⊢
    obtain ⟨i1, i2, i3, i4⟩ := ih
    by_cases c : A.lt (d (n + 1)) r.2 = true
    · rw [if_pos (by simp [c])]
      have c' := (hlt _ _).1 c
      rw [i1] at c'
      refine ⟨rfl, le_refl _, ?_, ?_⟩
      · intro i hi
        rcases Nat.lt_or_ge i (n + 1) with h | h
        · have := i3 i (by omega); dsimp only; linarith
        · have : i = n + 1 := by omega
          subst this; exact le_refl _
      · intro i hi
        have := i3 i (by dsimp only at hi; omega); dsimp only; linarith
    · rw [if_neg (by simp [c])]
      have c' : val r.2 ≤ val (d (n + 1)) := by
        by_contra h
        exact c ((hlt _ _).2 (by linarith))
      rw [i1] at c'
      refine ⟨i1, by omega, ?_, i4⟩
      intro i hi
      rcases Nat.lt_or_ge i (n + 1) with h | h
      · exact i3 i (by omega)
      · have : i = n + 1 := by omega
        subst this; exact c'

/-- **C55.** The codebook entry is the nearest one, the first one in case of equality. -/
theorem C55_nearest (hlt : ∀ a b, A.lt a b = true ↔ val a < val b) (d : Nat → R) :
    (∀ i, i < 32 → val (d (selectCodebook A d)) ≤ val (d i)) ∧ ∀ i, i < selectCodebook A d → val (d (selectCodebook A d)) < val (d i) := by
  obtain ⟨-, -, h3, h4⟩ := selectCodebook_fold A val hlt d 31
  exact ⟨fun i hi => h3 i (by omega), h4⟩

theorem selectGain_fold (hlt : ∀ a b, A.lt a b = true ↔ val a < val b) (mse : Nat → R) (m : R) (n : Nat) :
    let r := selectGain A mse n m
    (∀ i, i < n → val r.2 ≤ val (mse i)) ∧ ((r = (0, m)) ∨ (r.1 < n ∧ r.2 = mse r.1 ∧ val r.2 < val m)) := by
  induction n with
  | zero => exact ⟨by simp, Or.inl rfl⟩
  | succ n ih =>
    have e : selectGain A mse (n + 1) m = if A.lt (mse n) (selectGain A mse n m).2 then (n, mse n) else selectGain A mse n m := by
      unfold selectGain
      rw [List.range_succ, List.foldl_append, List.foldl_cons, List.foldl_nil]
    dsimp only at ih ⊢
    rw [e]
    obtain ⟨i1, i2⟩ := ih
    have hm : val (selectGain A mse n m).2 ≤ val m := by
      rcases i2 with h | ⟨-, -, h⟩
      · rw [h]
      · exact le_of_lt h
    by_cases c : A.lt (mse n) (selectGain A mse n m).2 = true
    · rw [if_pos c]
      have c' := (hlt _ _).1 c
      refine ⟨?_, Or.inr ⟨by dsimp only; omega, rfl, by dsimp only; linarith⟩⟩
      intro i hi
      rcases Nat.lt_or_ge i n with h | h
      · have := i1 i h; dsimp only; linarith
      · have : i = n := by omega
        subst this; exact le_refl _
    · rw [if_neg c]
      have c' : val (selectGain A mse n m).2 ≤ val (mse n) := by
        by_contra h
        exact c ((hlt _ _).2 (by linarith))
      refine ⟨?_, ?_⟩
      · intro i hi
        rcases Nat.lt_or_ge i n with h | h
        · exact i1 i h
        · have : i = n := by omega
          subst this; exact c'
      · rcases i2 with h | ⟨h1, h2⟩
        · exact Or.inl h
        · exact Or.inr ⟨by omega, h2⟩

theorem selectShape_fold (hlt : ∀ a b, A.lt a b = true ↔ val a < val b) (mse : Nat → Nat → R) (counts : List Nat) (m : R) (n : Nat) :
    let r := (List.range n).foldl (fun (s : Nat × Nat × R) ic =>
      let g := selectGain A (mse ic) (counts.getD ic 0) m
      if A.lt g.2 s.2.2 then (ic, g.1, g.2) else s) (0, 0, m)
    (∀ i j, i < n → j < counts.getD i 0 → val r.2.2 ≤ val (mse i j)) ∧ val r.2.2 ≤ val m ∧ (r = (0, 0, m) ∨ r.2.2 = mse r.1 r.2.1) := by
  induction n with
  | zero => exact ⟨by simp, le_refl _, Or.inl rfl⟩
  | succ n ih =>
    dsimp only at ih ⊢
    rw [List.range_succ, List.foldl_append, List.foldl_cons, List.foldl_nil]
    obtain ⟨r, hr⟩ : ∃ r, r = (List.range n).foldl (fun (s : Nat × Nat × R) ic =>
      if A.lt (selectGain A (mse ic) (counts.getD ic 0) m).2 s.2.2 then
        (ic, (selectGain A (mse ic) (counts.getD ic 0) m).1, (selectGain A (mse ic) (counts.getD ic 0) m).2) else s) (0, 0, m) := ⟨_, rfl⟩
    rw [← hr] at ih ⊢
    obtain ⟨i1, i2, i3⟩ := ih
    obtain ⟨g1, g2⟩ := selectGain_fold A val hlt (mse n) m (counts.getD n 0)
    obtain ⟨g, hg⟩ : ∃ g, g = selectGain A (mse n) (counts.getD n 0) m := ⟨_, rfl⟩
    rw [← hg] at g1 g2 ⊢
    by_cases c : A.lt g.2 r.2.2 = true
    · rw [if_pos c]
      have c' := (hlt _ _).1 c
      refine ⟨?_, by dsimp only; linarith, Or.inr ?_⟩
      · intro i j hi hj
        dsimp only
        rcases Nat.lt_or_ge i n with h | h
        · have := i1 i j h hj; linarith
        · have : i = n := by omega
          subst this; exact g1 j hj
      · rcases g2 with h | ⟨-, h, -⟩
        · rw [h] at c'; dsimp only at c'; linarith
        · exact h
    · rw [if_neg c]
      have c' : val r.2.2 ≤ val g.2 := by
        by_contra h
        exact c ((hlt _ _).2 (by linarith))
      refine ⟨?_, i2, i3⟩
      intro i j hi hj
      rcases Nat.lt_or_ge i n with h | h
      · exact i1 i j h hj
      · have : i = n := by omega
        subst this; have := g1 j hj; linarith

/-- **C55.** The shape and the gain have the least mean square error of all, when one is less than `FLT_MAX`. -/
theorem C55_least_error (hlt : ∀ a b, A.lt a b = true ↔ val a < val b) (mse : Nat → Nat → R) (m : R)
    (hm : ∃ i j, i < 4 ∧ j < snsGains i ∧ val (mse i j) < val m) :
    let r := selectShape A mse [2, 4, 4, 8] m
    r.1 < 4 ∧ r.2 < snsGains r.1 ∧ ∀ i j, i < 4 → j < snsGains i → val (mse r.1 r.2) ≤ val (mse i j) := by
  dsimp only
  obtain ⟨s1, s2⟩ := selectShape_lt A mse m
  obtain ⟨h1, h2, h3⟩ := selectShape_fold A val hlt mse [2, 4, 4, 8] m 4
  have hg : ∀ i, i < 4 → [2, 4, 4, 8].getD i 0 = snsGains i := by decide
  refine ⟨s1, s2, ?_⟩
  intro i j hi hj
  have k := h1 i j hi (by rw [hg i hi]; exact hj)
  rcases h3 with h | h
  · exfalso
    obtain ⟨i', j', hi', hj', hlt'⟩ := hm
    have := h1 i' j' hi' (by rw [hg i' hi']; exact hj')
    rw [h] at this
    dsimp only at this
    linarith
  · rw [h] at k
    exact k

end

/-! ### Values of the scale factors, in exact arithmetic -/

/-- The mean of the scale factors from `a` to `b`. -/
noncomputable def meanOf (scf : List ℝ) (a b : Nat) : ℝ := ((scf.drop a).take (b + 1 - a)).sum / ((b + 1 - a : Nat) : ℝ)

/-- The moving average over 5 scale factors, less at the bounds. -/
noncomputable def movingAverage (scf : List ℝ) (i : Nat) : ℝ := meanOf scf (i - 2) (min (i + 2) 15)

theorem sum_scale (cf S : ℝ) : ∀ l : List ℝ, (scaleScf Arith.real cf S l).sum = cf * (l.sum - l.length * (S / 16))
  | [] => by simp [scaleScf]
  | a :: l => by
    have := sum_scale cf S l
    unfold scaleScf at this ⊢
    simp only [List.map_cons, List.sum_cons, this, List.length_cons]
    simp only [Arith.real, Arith.ofInt]
    push_cast
    ring

theorem sumScf_real (l : List ℝ) : sumScf Arith.real l = l.sum := by
  cases l with
  | nil => simp [sumScf, Arith.real, Arith.ofInt]
  | cons a l => rw [sumScf, foldl_add_real, List.sum_cons]

set_option maxHeartbeats 1000000 in
theorem attack_values (dt : Dt) (scf : List ℝ) (h : scf.length = 16) :
    ∃ ys sum, attackScf Arith.real dt scf = some (scaleScf Arith.real (if dt = .m7_5 then Arith.real.ofRat (3/10) else Arith.real.ofRat (1/2)) sum ys) ∧
      ys = (List.range 16).map (movingAverage scf) ∧ sum = ys.sum := by
  match scf, h with
  | [s0, s1, s2, s3, s4, s5, s6, s7, s8, s9, s10, s11, s12, s13, s14, s15], _ =>
    have hr : List.range 16 = [0, 1, 2, 3, 4, 5, 6, 7, 8, 9, 10, 11, 12, 13, 14, 15] := by decide
    refine ⟨_, _, rfl, ?_, ?_⟩
    · rw [hr]
      simp only [attackLoop, List.map_cons, List.map_nil, movingAverage, meanOf, Arith.real, Arith.ofInt, List.cons_append, List.nil_append]
      norm_num [List.take, List.drop]
      refine ⟨?_, ?_, ?_, ?_, ?_, ?_, ?_, ?_, ?_, ?_, ?_, ?_, ?_, ?_, ?_, ?_⟩ <;> ring
    · simp only [attackLoop, Arith.real, Arith.ofInt, List.cons_append, List.nil_append, List.sum_cons, List.sum_nil]
      ring

theorem mapM_some_length {α β : Type} (f : β → Option α) : ∀ (l : List β) (r : List α), l.mapM f = some r → r.length = l.length
  | [], r, h => by
    simp only [List.mapM_nil] at h
    obtain rfl := Option.some.inj h
    rfl
  | b :: l, r, h => by
    rw [List.mapM_cons] at h
    simp only [Option.bind_eq_bind] at h
    obtain ⟨a, h1, h⟩ := Option.bind_eq_some_iff.1 h
    obtain ⟨t, h2, h⟩ := Option.bind_eq_some_iff.1 h
    obtain rfl := Option.some.inj h
    simp [mapM_some_length f l t h2]

theorem mapM_range_length {α : Type} (f : Nat → Option α) (n : Nat) (r : List α) (h : (List.range n).mapM f = some r) : r.length = n := by
  simpa using mapM_some_length f _ _ h

/-- **C55.** The scale factors have a null mean, with and without attack: the shaping keeps the level of the spectrum, in the mean of the
logarithms. -/
theorem C55_zero_mean (M : SnsMath ℝ) (dt : Dt) (sr : Srate) (nbytes : Nat) (eb : List ℝ) (att : Bool) (scf : List ℝ)
    (h : computeScf Arith.real M dt sr nbytes eb att = some scf) : scf.length = 16 ∧ scf.sum = 0 := by
  unfold computeScf at h
  obtain ⟨e, h1, h⟩ := Option.bind_eq_some_iff.1 h
  cases e with
  | nil => cases h
  | cons e0 next =>
    dsimp only at h
    obtain ⟨r, h2, h⟩ := Option.bind_eq_some_iff.1 h
    obtain ⟨s, h3, h⟩ := Option.bind_eq_some_iff.1 h
    have hl := mapM_range_length _ _ _ h3
    cases att with
    | false =>
      rw [if_neg (by simp)] at h
      obtain rfl := Option.some.inj h
      refine ⟨by rw [scaleScf_length, hl], ?_⟩
      rw [sum_scale, sumScf_real, hl]
      push_cast
      ring
    | true =>
      rw [if_pos rfl] at h
      obtain ⟨ys, S, a1, a2, a3⟩ := attack_values dt (scaleScf Arith.real (scfFactor Arith.real dt sr nbytes) (sumScf Arith.real s) s)
        (by rw [scaleScf_length, hl])
      rw [a1] at h
      obtain rfl := Option.some.inj h
      have hy : ys.length = 16 := by rw [a2]; simp
      refine ⟨by rw [scaleScf_length, hy], ?_⟩
      rw [sum_scale, a3, hy]
      push_cast
      ring

/-- **C55.** With an attack, the scale factors are the moving average over 5 of the ones without attack, less its mean, times 0.5, or 0.3 for
the frames of 7.5 ms. -/
theorem C55_attack (M : SnsMath ℝ) (dt : Dt) (sr : Srate) (nbytes : Nat) (eb : List ℝ) (scf : List ℝ)
    (h : computeScf Arith.real M dt sr nbytes eb false = some scf) :
    ∃ scf', computeScf Arith.real M dt sr nbytes eb true = some scf' ∧ scf'.length = 16 ∧
      ∀ i, i < 16 → scf'.getD i 0 = (if dt = .m7_5 then 0.3 else 0.5) * (movingAverage scf i - (∑ j ∈ range 16, movingAverage scf j) / 16) := by
  have hl := (C55_zero_mean M dt sr nbytes eb false scf h).1
  obtain ⟨ys, S, a1, a2, a3⟩ := attack_values dt scf hl
  refine ⟨scaleScf Arith.real (if dt = .m7_5 then Arith.real.ofRat (3/10) else Arith.real.ofRat (1/2)) S ys, ?_, ?_, ?_⟩
  · unfold computeScf at h ⊢
    obtain ⟨e, h1, h⟩ := Option.bind_eq_some_iff.1 h
    rw [h1, Option.bind_some]
    cases e with
    | nil => cases h
    | cons e0 next =>
      dsimp only at h ⊢
      obtain ⟨r, h2, h⟩ := Option.bind_eq_some_iff.1 h
      obtain ⟨s, h3, h⟩ := Option.bind_eq_some_iff.1 h
      rw [h2, Option.bind_some, h3, Option.bind_some]
      rw [if_neg (by simp)] at h
      rw [if_pos rfl, Option.some.inj h, a1]
  · rw [scaleScf_length, a2]; simp
  · intro i hi
    unfold scaleScf
    rw [List.getD_eq_getElem _ _ (by rw [List.length_map, a2]; simpa using hi), List.getElem_map]
    have e1 : ys[i]'(by rw [a2]; simpa using hi) = movingAverage scf i := by
      simp [a2]
    have e2 : S = ∑ j ∈ range 16, movingAverage scf j := by
      rw [a3, a2, show List.range 16 = [0, 1, 2, 3, 4, 5, 6, 7, 8, 9, 10, 11, 12, 13, 14, 15] from by decide]
      simp only [Finset.sum_range_succ, Finset.sum_range_zero, List.map_cons, List.map_nil, List.sum_cons, List.sum_nil]
      ring
    rw [e1, e2]
    simp only [Arith.real, Arith.ofInt]
    congr 1
    · split_ifs <;> norm_num
    · norm_num

/-! Level -/

theorem padBands_map (f : ℝ → ℝ) (dt : Dt) (sr : Srate) (eb : List ℝ) : padBands dt sr (eb.map f) = (padBands dt sr eb).map (List.map f) := by
  have e : ∀ (n : Nat) (l : List ℝ), (l.map f).flatMap (List.replicate n) = (l.flatMap (List.replicate n)).map f := by
    intro n l
    induction l with
    | nil => rfl
    | cons a l ih => simp [List.flatMap_cons, ih]
  unfold padBands
  dsimp only
  cases padCounts (numBands dt sr) with
  | none => rfl
  | some n =>
    rw [Option.bind_some, Option.bind_some, List.length_map]
    split_ifs
    · rfl
    · rw [Option.map_some, ← List.map_take, ← List.map_drop, ← List.map_take, ← List.map_drop, ← List.map_take, e, e, List.map_append, List.map_append]

theorem smoothLoop_scale (c : ℝ) : ∀ (next ge : List ℝ) (a b s : ℝ),
    smoothLoop Arith.real (c * a) (c * b) (next.map (c * ·)) ge (c * s) =
      (smoothLoop Arith.real a b next ge s).map fun r => (r.1.map (c * ·), c * r.2)
  | [], [], a, b, s => rfl
  | [], [g], a, b, s => by
    simp only [List.map_nil, smoothLoop, Option.map_some, List.map_cons, Arith.real]
    congr 2
    · congr 1; ring
    · ring
  | [], _ :: _ :: _, a, b, s => rfl
  | _ :: _, [], a, b, s => rfl
  | d :: next, g :: ge, a, b, s => by
    rw [List.map_cons, smoothLoop, smoothLoop]
    have e : ∀ v : ℝ, Arith.real.add (c * s) (c * v) = c * Arith.real.add s v := by intro v; simp only [Arith.real]; ring
    have e2 : Arith.real.mul (Arith.real.add (Arith.real.add (Arith.real.mul (c * a) (Arith.real.ofRat (1/4))) (Arith.real.mul (c * b) (Arith.real.ofRat (1/2))))
      (Arith.real.mul (c * d) (Arith.real.ofRat (1/4)))) g = c * Arith.real.mul (Arith.real.add (Arith.real.add (Arith.real.mul a (Arith.real.ofRat (1/4)))
      (Arith.real.mul b (Arith.real.ofRat (1/2)))) (Arith.real.mul d (Arith.real.ofRat (1/4)))) g := by
      simp only [Arith.real]; ring
    rw [e2, e, smoothLoop_scale c next ge b d]
    cases smoothLoop Arith.real b d next ge _ <;> simp

theorem smoothLoop_sum : ∀ (next ge : List ℝ) (a b s : ℝ) (r : List ℝ × ℝ), smoothLoop Arith.real a b next ge s = some r → (∀ g ∈ ge, 1 ≤ g) →
    0 ≤ a → 0 ≤ b → (∀ v ∈ next, 0 ≤ v) → s + a / 4 + 3 / 4 * b + next.sum ≤ r.2
  | [], [], a, b, s, r, h, _, _, _, _ => by cases h
  | [], [g], a, b, s, r, h, hg, ha, hb, hn => by
    simp only [smoothLoop, Option.some.injEq] at h
    subst h
    have := hg g (by simp)
    simp only [Arith.real, List.sum_nil]
    push_cast
    nlinarith
  | [], _ :: _ :: _, a, b, s, r, h, _, _, _, _ => by cases h
  | _ :: _, [], a, b, s, r, h, _, _, _, _ => by cases h
  | d :: next, g :: ge, a, b, s, r, h, hg, ha, hb, hn => by
    rw [smoothLoop] at h
    obtain ⟨r', h1, h⟩ := Option.bind_eq_some_iff.1 h
    obtain rfl := Option.some.inj h
    have hd := hn d (by simp)
    have := hg g (by simp)
    have ih := smoothLoop_sum next ge b d _ r' h1 (fun g h => hg g (by simp [h])) hb hd fun v h => hn v (by simp [h])
    dsimp only
    refine le_trans ?_ ih
    simp only [Arith.real, List.sum_cons]
    push_cast
    nlinarith

theorem geTable_ge : ∀ sr, ∀ g ∈ geTable sr, 1 ≤ g := by
  intro sr
  cases sr <;> decide +kernel

theorem padBands_mem (dt : Dt) (sr : Srate) (hc : Config dt sr) (eb e : List ℝ) (h : padBands dt sr eb = some e) :
    (∀ v ∈ e, v ∈ eb) ∧ ∀ v ∈ eb.take (numBands dt sr), v ∈ e := by
  unfold padBands at h
  dsimp only at h
  obtain ⟨n, h1, h⟩ := Option.bind_eq_some_iff.1 h
  obtain ⟨b1, b2⟩ := numBands_range dt sr hc
  obtain ⟨n4, n2, p1, p2, p3⟩ := padCounts_some _ b1 b2
  rw [h1] at p1
  obtain rfl := Option.some.inj p1
  split_ifs at h with c
  obtain rfl := Option.some.inj h
  constructor
  · intro v hv
    simp only [List.mem_append, List.mem_flatMap, List.mem_replicate] at hv
    rcases hv with (⟨a, h2, -, rfl⟩ | ⟨a, h2, -, rfl⟩) | h2
    · exact List.mem_of_mem_take h2
    · exact List.mem_of_mem_drop (List.mem_of_mem_take h2)
    · exact List.mem_of_mem_drop (List.mem_of_mem_take h2)
  · intro v hv
    have e1 : eb.take (numBands dt sr) = eb.take n4 ++ ((eb.drop n4).take n2 ++ (eb.drop (n4 + n2)).take (numBands dt sr - n4 - n2)) := by
      have hn : n4 + (n2 + (numBands dt sr - n4 - n2)) = numBands dt sr := by omega
      rw [← List.drop_drop, ← List.take_add, ← List.take_add, hn]
    rw [e1] at hv
    simp only [List.mem_append, List.mem_flatMap, List.mem_replicate]
    rcases List.mem_append.1 hv with h2 | h2
    · exact Or.inl (Or.inl ⟨v, h2, by decide, rfl⟩)
    rcases List.mem_append.1 h2 with h2 | h2
    · exact Or.inl (Or.inr ⟨v, h2, by decide, rfl⟩)
    · exact Or.inr h2

/-- The factor `0.0001 / 64`. -/
theorem logBands_scale (c : ℝ) (hc : 0 < c) (e : List ℝ) (S : ℝ) (h1 : 64 * 10 ^ 4 / 2 ^ 32 ≤ S) (h2 : 64 * 10 ^ 4 / 2 ^ 32 ≤ c * S) :
    logBands Arith.real SnsMath.real (e.map (c * ·)) (c * S) = (logBands Arith.real SnsMath.real e S).map (· + Real.logb 2 c / 2) := by
  have f : ∀ S : ℝ, 64 * 10 ^ 4 / 2 ^ 32 ≤ S → Arith.real.max (Arith.real.mul S (Arith.real.div (Arith.real.ofRat (1 / 10000)) (Arith.real.ofInt 64)))
      (Arith.real.ofRat (1 / 2 ^ 32)) = S / 640000 := by
    intro S hS
    simp only [Arith.real, Arith.ofInt]
    push_cast
    rw [max_eq_left (by linarith)]
    ring
  unfold logBands
  dsimp only
  rw [f S h1, f (c * S) h2, List.map_map, List.map_map]
  apply List.map_congr_left
  intro v _
  have hS : 0 < S := lt_of_lt_of_le (by norm_num) h1
  have hm : 0 < max v (S / 640000) := lt_of_lt_of_le (by positivity) (le_max_right _ _)
  have e1 : max (c * v) (c * S / 640000) = c * max v (S / 640000) := by
    rw [mul_max_of_nonneg _ _ hc.le, mul_div_assoc]
  simp only [Function.comp_apply]
  change Real.logb 2 (max (c * v) (c * S / 640000)) * _ = Real.logb 2 (max v (S / 640000)) * _ + _
  rw [e1, Real.logb_mul hc.ne' hm.ne']
  simp only [Arith.real]
  push_cast
  ring

theorem groupAt_shift (k : ℝ) (e : List ℝ) (he : e.length = 64) (i : Nat) (hi : i < 16) :
    groupAt Arith.real (e.map (· + k)) i = (groupAt Arith.real e i).map (· + k) := by
  have q : ∀ j, j < 64 → (e.map (· + k)).getD j 0 = e.getD j 0 + k := by
    intro j hj
    rw [List.getD_eq_getElem _ _ (by simpa [he] using hj), List.getD_eq_getElem _ _ (by omega), List.getElem_map]
  rw [groupAt_some Arith.real 0 _ i (by simpa using he) hi, groupAt_some Arith.real 0 e i he hi, Option.map_some,
    q _ (by omega), q _ (by omega), q _ (by omega), q _ (by omega), q _ (by omega), q _ (by omega)]
  congr 1
  simp only [groupTerm, Arith.real, Arith.ofInt]
  push_cast
  ring

theorem scale_shift (k cf : ℝ) (l : List ℝ) (hl : l.length = 16) :
    scaleScf Arith.real cf (sumScf Arith.real (l.map (· + k))) (l.map (· + k)) = scaleScf Arith.real cf (sumScf Arith.real l) l := by
  have hs : ∀ l : List ℝ, (l.map (· + k)).sum = l.sum + l.length * k := by
    intro l
    induction l with
    | nil => simp
    | cons a l ih => simp only [List.map_cons, List.sum_cons, ih, List.length_cons]; push_cast; ring
  unfold scaleScf
  rw [List.map_map, sumScf_real, sumScf_real, hs, hl]
  apply List.map_congr_left
  intro v _
  simp only [Function.comp_apply, Arith.real, Arith.ofInt]
  push_cast
  ring

/-- **C55.** The scale factors do not depend on the level of the signal: multiplied energies give the same scale factors, when one of
the bands has an energy over `2^-12`, before and after. -/
theorem C55_level (dt : Dt) (sr : Srate) (hcf : Config dt sr) (nbytes : Nat) (eb : List ℝ) (hn : numBands dt sr ≤ eb.length) (att : Bool)
    (c : ℝ) (hc : 0 < c) (h0 : ∀ v ∈ eb, 0 ≤ v) (v : ℝ) (hv : v ∈ eb.take (numBands dt sr)) (hv1 : 1 / 2 ^ 12 ≤ v) (hv2 : 1 / 2 ^ 12 ≤ c * v) :
    computeScf Arith.real SnsMath.real dt sr nbytes (eb.map (c * ·)) att = computeScf Arith.real SnsMath.real dt sr nbytes eb att := by
  obtain ⟨e, a1, a2⟩ := padBands_some dt sr hcf eb hn
  obtain ⟨m1, m2⟩ := padBands_mem dt sr hcf eb e a1
  unfold computeScf
  rw [padBands_map, a1, Option.map_some, Option.bind_some, Option.bind_some]
  cases e with
  | nil => rfl
  | cons e0 next =>
    rw [List.map_cons]
    dsimp only
    have z : Arith.real.ofInt 0 = c * Arith.real.ofInt 0 := by simp [Arith.ofInt, Arith.real]
    obtain ⟨r, r1, r2⟩ := smoothLoop_some Arith.real next ((geTable sr).map Arith.real.ofRat) e0 e0 (Arith.real.ofInt 0) (by
      rw [List.length_map, geTable_length]; simp at a2; omega)
    have h00 : ∀ w ∈ e0 :: next, 0 ≤ w := fun w hw => h0 w (m1 w hw)
    have hs := smoothLoop_sum _ _ _ _ _ _ r1 (fun g hg => by
      obtain ⟨q, hq, rfl⟩ := List.mem_map.1 hg
      have := geTable_ge sr q hq
      change (1 : ℝ) ≤ (q : ℝ)
      exact_mod_cast this) (h00 _ (by simp)) (h00 _ (by simp)) fun w hw => h00 w (by simp [hw])
    have hle : v ≤ (e0 :: next).sum := List.single_le_sum h00 v (m2 v hv)
    have hz : Arith.real.ofInt 0 = 0 := by simp [Arith.ofInt, Arith.real]
    rw [hz] at hs r1 ⊢
    rw [List.sum_cons] at hle
    have hr : v ≤ r.2 := by linarith
    rw [show (0 : ℝ) = c * 0 by ring, smoothLoop_scale, show c * (0 : ℝ) = 0 by ring, r1, Option.map_some, Option.bind_some, Option.bind_some]
    dsimp only
    have hl : r.1.length = 64 := by simp at a2; omega
    rw [logBands_scale c hc r.1 r.2 (by norm_num at hv1 ⊢; linarith) (by
      have := mul_le_mul_of_nonneg_left hr hc.le
      norm_num at hv2 ⊢; linarith)]
    obtain ⟨L, hL⟩ : ∃ L, L = logBands Arith.real SnsMath.real r.1 r.2 := ⟨_, rfl⟩
    have hLl : L.length = 64 := by rw [hL]; simp [logBands, hl]
    rw [← hL]
    obtain ⟨G, hG⟩ : ∃ G : Nat → ℝ, ∀ i, i < 16 → groupAt Arith.real L i = some (G i) := ⟨_, fun i hi => groupAt_some Arith.real 0 L i hLl hi⟩
    rw [mapM_range_some (groupAt Arith.real L) 16 G hG, mapM_range_some (groupAt Arith.real (L.map (· + Real.logb 2 c / 2))) 16
      (fun i => G i + Real.logb 2 c / 2) fun i hi => by rw [groupAt_shift _ L hLl i hi, hG i hi, Option.map_some], Option.bind_some, Option.bind_some]
    have hm : ((List.range 16).map fun i => G i + Real.logb 2 c / 2) = ((List.range 16).map G).map (· + Real.logb 2 c / 2) := by
      rw [List.map_map]; rfl
    rw [hm, scale_shift _ _ _ (by simp)]

/-! ### DCT -/

/-- The product of two rows of the matrix of the DCT, times `10^20`. -/
def dctRows (i k : Nat) : Int := (((dct16Mant.getD i []).zip (dct16Mant.getD k [])).map fun p => p.1 * p.2).sum

/-- The matrix is orthonormal, but for the rounding of the table: error under `10^-8`. -/
theorem dct_orthonormal : ∀ i < 16, ∀ k < 16, |dctRows i k - (if i = k then 10 ^ 20 else 0)| ≤ 10 ^ 12 := by decide +kernel

theorem foldl_range_sum (f : Nat → ℝ) (n : Nat) : (List.range n).foldl (fun y j => Arith.real.add y (f j)) (Arith.real.ofInt 0) = ∑ j ∈ range n, f j := by
  induction n with
  | zero => simp [Arith.real, Arith.ofInt]
  | succ n ih =>
    rw [List.range_succ, List.foldl_append, ih, Finset.sum_range_succ]
    rfl

theorem dctRows_sum (i k : Nat) (hi : i < 16) (hk : k < 16) :
    ∑ j ∈ range 16, dctCell Arith.real i j * dctCell Arith.real k j = (dctRows i k : ℝ) / 10 ^ 20 := by
  have h : ∀ i < 16, ∀ k < 16, ((List.range 16).map fun j => (dct16Mant.getD i []).getD j 0 * (dct16Mant.getD k []).getD j 0).sum = dctRows i k := by
    decide +kernel
  have c : ∀ i < 16, ∀ j < 16, (dct16M.getD i []).getD j 0 = dec ((dct16Mant.getD i []).getD j 0) 10 := by decide +kernel
  rw [← h i hi k hk]
  have e : ∀ n, n ≤ 16 → ∑ j ∈ range n, dctCell Arith.real i j * dctCell Arith.real k j =
      ((((List.range n).map fun j => (dct16Mant.getD i []).getD j 0 * (dct16Mant.getD k []).getD j 0).sum : Int) : ℝ) / 10 ^ 20 := by
    intro n hn
    induction n with
    | zero => simp
    | succ n ih =>
      rw [Finset.sum_range_succ, ih (by omega), List.range_succ, List.map_append, List.sum_append]
      unfold dctCell
      rw [c i hi n (by omega), c k hk n (by omega)]
      simp only [Arith.real, dec, Rat.mkRat_eq_div, List.map_cons, List.map_nil, List.sum_cons, List.sum_nil]
      push_cast
      ring
  exact e 16 (le_refl _)

/-- **C55.** In exact arithmetic, the inverse transform gives back what was transformed, but for the rounding of the table. -/
theorem C55_dct (x : List ℝ) (hx : x.length = 16) (m : ℝ) (hm : ∀ v ∈ x, |v| ≤ m) :
    ∃ y z, dct16Forward Arith.real x = some y ∧ dct16Inverse Arith.real y = some z ∧ y.length = 16 ∧ z.length = 16 ∧
      ∀ i, i < 16 → |z.getD i 0 - x.getD i 0| ≤ 16 / 10 ^ 8 * m := by
  have z0 : Arith.real.ofInt 0 = 0 := by simp [Arith.real, Arith.ofInt]
  have hy : dct16Forward Arith.real x = some ((List.range 16).map fun i => ∑ j ∈ range 16, x.getD j 0 * dctCell Arith.real j i) := by
    unfold dct16Forward
    rw [mapM_range_some _ 16 _ fun i _ => dctSum_some Arith.real x _ hx]
    congr 1
    apply List.map_congr_left
    intro i _
    rw [foldl_range_sum, z0]
    rfl
  refine ⟨_, (List.range 16).map fun i => ∑ j ∈ range 16, (∑ k ∈ range 16, x.getD k 0 * dctCell Arith.real k j) * dctCell Arith.real i j, hy, ?_, by simp, by simp, ?_⟩
  · unfold dct16Inverse
    rw [mapM_range_some _ 16 _ fun i _ => dctSum_some Arith.real _ _ (by simp)]
    congr 1
    apply List.map_congr_left
    intro i _
    rw [foldl_range_sum, z0]
    apply Finset.sum_congr rfl
    intro j hj
    rw [List.getD_eq_getElem _ _ (by simpa using hj), List.getElem_map, List.getElem_range]
    rfl
  · intro i hi
    rw [List.getD_eq_getElem _ _ (by simpa using hi), List.getElem_map, List.getElem_range]
    have e : ∑ j ∈ range 16, (∑ k ∈ range 16, x.getD k 0 * dctCell Arith.real k j) * dctCell Arith.real i j =
        ∑ k ∈ range 16, x.getD k 0 * ((dctRows k i : ℝ) / 10 ^ 20) := by
      simp only [Finset.sum_mul]
      rw [Finset.sum_comm]
      apply Finset.sum_congr rfl
      intro k hk
      rw [← dctRows_sum k i (by simpa using hk) hi, Finset.mul_sum]
      apply Finset.sum_congr rfl
      intro j _
      ring
    have e2 : x.getD i 0 = ∑ k ∈ range 16, x.getD k 0 * (if k = i then 1 else 0) := by
      rw [Finset.sum_eq_single i]
      · simp
      · intro k _ hk; simp [hk]
      · intro h; exact absurd (Finset.mem_range.2 hi) h
    rw [e, e2, ← Finset.sum_sub_distrib]
    refine le_trans (Finset.abs_sum_le_sum_abs _ _) ?_
    have hb : ∀ k ∈ range 16, |x.getD k 0 * ((dctRows k i : ℝ) / 10 ^ 20) - x.getD k 0 * (if k = i then 1 else 0)| ≤ m / 10 ^ 8 := by
      intro k hk
      have hk := Finset.mem_range.1 hk
      rw [← mul_sub, abs_mul]
      have h1 : |x.getD k 0| ≤ m := by
        rw [List.getD_eq_getElem _ _ (by omega)]
        exact hm _ (List.getElem_mem _)
      have h2 : |(dctRows k i : ℝ) / 10 ^ 20 - (if k = i then 1 else 0)| ≤ 1 / 10 ^ 8 := by
        have h := dct_orthonormal k hk i hi
        have h' : |((dctRows k i - (if k = i then 10 ^ 20 else 0) : Int) : ℝ)| ≤ 10 ^ 12 := by
          rw [← Int.cast_abs]
          exact_mod_cast h
        have e3 : (dctRows k i : ℝ) / 10 ^ 20 - (if k = i then 1 else 0) = ((dctRows k i - (if k = i then 10 ^ 20 else 0) : Int) : ℝ) / 10 ^ 20 := by
          split <;> push_cast <;> ring
        rw [e3, abs_div, abs_of_pos (by positivity : (0 : ℝ) < 10 ^ 20), div_le_iff₀ (by positivity)]
        refine le_trans h' ?_
        norm_num
      have h3 : 0 ≤ |x.getD k 0| := abs_nonneg _
      have h4 := abs_nonneg ((dctRows k i : ℝ) / 10 ^ 20 - (if k = i then 1 else 0))
      calc _ ≤ m * (1 / 10 ^ 8) := mul_le_mul h1 h2 h4 (le_trans h3 h1)
        _ = _ := by ring
    refine le_trans (Finset.sum_le_sum hb) ?_
    rw [Finset.sum_const, Finset.card_range]
    simp only [nsmul_eq_mul]
    push_cast
    apply le_of_eq
    ring

/-! Non-vacuity -/

/-- Functions of the rational numbers, to evaluate the model: not the ones of the codec. -/
def SnsMath.test : SnsMath Rat where
  sqrt := fun x => if x = 0 then 0 else (x + 1) / 2
  exp2 := fun x => 1 + x
  log2 := fun x => x - 1
  fltMax := 10 ^ 38

/-- Energies of a low frequency signal: data of the analysis, and the first bands are attenuated with respect to the others. -/
example : ∃ d y, snsAnalyzeFull Arith.exact SnsMath.test .m2_5 .k8 40 ([9, 4, 1] ++ List.replicate 61 (1/100)) false (List.replicate 20 3) = some (d, y) ∧
    d = ⟨16, 3, 1, 1, 633567, true, 0, false⟩ ∧ y.map Rat.floor = [-7, -3, 1, 3] ++ List.replicate 16 4 := by
  have h : (snsAnalyzeFull Arith.exact SnsMath.test .m2_5 .k8 40 ([9, 4, 1] ++ List.replicate 61 (1/100)) false (List.replicate 20 3)).map
    (fun r => (r.1, r.2.map Rat.floor)) = some (⟨16, 3, 1, 1, 633567, true, 0, false⟩, [-7, -3, 1, 3] ++ List.replicate 16 4) := by decide +kernel
  obtain ⟨r, h1, h2⟩ := Option.map_eq_some_iff.1 h
  exact ⟨r.1, r.2, h1, congrArg Prod.fst h2, congrArg Prod.snd h2⟩

/-- The hypotheses of the theorems on these energies. -/
example : Config .m2_5 .k8 ∧ numBands .m2_5 .k8 ≤ ([9, 4, 1] ++ List.replicate 61 (1/100) : List ℝ).length ∧
    (9 : ℝ) ∈ ([9, 4, 1] ++ List.replicate 61 (1/100) : List ℝ).take (numBands .m2_5 .k8) ∧ CandidatesOk Arith.exact := by
  refine ⟨by decide, ?_, ?_, candidatesOk_rounds _ _ exact_rounds⟩
  · have : numBands .m2_5 .k8 ≤ 64 := by decide
    simpa using this
  · have : numBands .m2_5 .k8 = (numBands .m2_5 .k8 - 1) + 1 := by decide
    rw [this]
    simp

/-- The distance to the codebook has an order, and the nearest entry of a vector of the codebook is itself. -/
example : (∀ a b, Arith.exact.lt a b = true ↔ ((a : ℝ) < b)) ∧
    selectCodebook Arith.exact (fun i => codeDist Arith.exact (snsLfcb.getD 11 []) (snsLfcb.getD i [])) = 11 := by
  constructor
  · intro a b
    simp [Arith.exact]
  · decide +kernel

end LC3
