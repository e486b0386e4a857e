import Verif.Model.Python
import Verif.Props.Tools
import Mathlib.Algebra.Order.Field.Basic
import Mathlib.Tactic.Linarith
import Mathlib.Tactic.Positivity

/-!
**C64**: the Python interface.
-/

namespace LC3

/-! ### The expected behaviour -/

/-- The sample `k` of the channel `c` of bytes `pcm` in which the channels are interleaved: the bytes after the end are zero. -/
def Spec.paddedSample (pcm : List Nat) (nch sb c k : Nat) : List Nat := (List.range sb).map fun j => pcm.getD ((k * nch + c) * sb + j) 0

/-- The part of the channel `c` of a block: the channels have the same size, but for the first ones that have one byte more. -/
def Spec.part (b : List Nat) (nch c : Nat) : List Nat :=
  (b.drop (c * (b.length / nch) + min c (b.length % nch))).take (b.length / nch + if c < b.length % nch then 1 else 0)

/-! ### Encoder -/

theorem padded_slice (pcm : List Nat) (z a n : Nat) (h : a + n ≤ pcm.length + z) :
    slice (pcm ++ List.replicate z 0) a n = (List.range n).map fun j => pcm.getD (a + j) 0 := by
  apply List.ext_getElem?
  intro j
  rw [slice_getElem?, List.getElem?_map]
  by_cases hj : j < n
  · rw [if_pos hj, List.getElem?_range hj, Option.map_some]
    by_cases h1 : a + j < pcm.length
    · rw [List.getElem?_append_left h1, List.getD_eq_getElem?_getD, List.getElem?_eq_getElem h1]; rfl
    · rw [List.getElem?_append_right (by omega), List.getElem?_replicate, if_pos (by omega), List.getD_eq_getElem?_getD, List.getElem?_eq_none (by omega)]; rfl
  · rw [if_neg hj, List.getElem?_eq_none (by rw [List.length_range]; omega)]; rfl

theorem sample_fits (nch fs sb c k : Nat) (hc : c < nch) (hk : k < fs) : (k * nch + c) * sb + sb ≤ nch * fs * sb := by
  have h1 : k * nch + c + 1 ≤ nch * fs := by
    have := Nat.mul_le_mul_left nch (show k + 1 ≤ fs by omega)
    rw [Nat.mul_add, Nat.mul_one, Nat.mul_comm nch k] at this
    omega
  have := Nat.mul_le_mul_right sb h1
  rwa [Nat.add_mul, Nat.one_mul] at this

theorem padded_chanIn (pcm : List Nat) (z nch sb fs c : Nat) (hc : c < nch) (h : nch * fs * sb ≤ pcm.length + z) :
    chanIn (pcm ++ List.replicate z 0) nch sb fs c = (List.range fs).map (Spec.paddedSample pcm nch sb c) := by
  unfold chanIn
  apply List.map_congr_left
  intro k hk
  have := sample_fits nch fs sb c k hc (List.mem_range.mp hk)
  exact padded_slice _ _ _ _ (by omega)

theorem buffer_test (nch fs sb c : Nat) (hc : c ≤ nch * fs) : c * sb + (nch * fs - c) * sb = nch * fs * sb := by
  rw [← Nat.add_mul, Nat.add_sub_cancel' hc]

/-- The loop over the channels is the one of the encoder tool, when no frame is refused. -/
theorem pyEncChans_ok {σ : Type} (e : σ → List (List Nat) → Nat → Option (σ × Option (List Nat))) (n nch sb fs : Nat) (pcm : List Nat)
    (hf : 0 < fs) (hl : nch * fs * sb ≤ pcm.length) (st' : Nat → σ) (o : Nat → List Nat) (m : Nat) :
    ∀ (c : Nat) (st : Nat → σ) (out : List Nat) (off : Nat), c + m ≤ nch →
      (∀ k, c ≤ k → k < c + m → e (st k) (chanIn pcm nch sb fs k) (channelBytes n nch k) = some (st' k, some (o k))) →
      pyEncChans e n nch sb fs pcm c off ((List.range' c m).map st) out =
        (encChans e n nch sb fs pcm c off ((List.range' c m).map st) out).map fun r => (r.1, some r.2) := by
  induction m with
  | zero => intro c st out off _ _; rfl
  | succ m ih =>
    intro c st out off hc h
    rw [List.range'_succ, List.map_cons]
    unfold pyEncChans encChans
    have hcn : c ≤ nch * fs := Nat.le_trans (by omega) (Nat.le_mul_of_pos_right nch hf)
    rw [buffer_test nch fs sb c hcn, if_neg (by omega), h c (Nat.le_refl _) (by omega)]
    simp only [Option.bind_eq_bind, Option.bind_some]
    cases patch out off (o c) with
    | none => rfl
    | some q =>
      simp only [Option.bind_some]
      rw [ih (c + 1) st q _ (by omega) (fun k h1 h2 => h k (by omega) (by omega))]
      cases encChans e n nch sb fs pcm (c + 1) (off + channelBytes n nch c) ((List.range' (c + 1) m).map st) q <;> rfl

/-- The loop over the channels, up to a frame that is refused. -/
theorem pyEncChans_refused {σ : Type} (e : σ → List (List Nat) → Nat → Option (σ × Option (List Nat))) (n nch sb fs : Nat) (pcm : List Nat)
    (hf : 0 < fs) (hl : nch * fs * sb ≤ pcm.length) (st' : Nat → σ) (o : Nat → List Nat) (r m : Nat) (hr : r < nch) (s : σ) :
    ∀ (c : Nat) (st : Nat → σ) (out : List Nat), c + m = nch → c ≤ r → chanOff n nch nch ≤ out.length →
      (∀ k, c ≤ k → k < r → e (st k) (chanIn pcm nch sb fs k) (channelBytes n nch k) = some (st' k, some (o k)) ∧
        (o k).length = channelBytes n nch k) →
      e (st r) (chanIn pcm nch sb fs r) (channelBytes n nch r) = some (s, none) →
      pyEncChans e n nch sb fs pcm c (chanOff n nch c) ((List.range' c m).map st) out =
        some ((List.range' c m).map (fun k => if k < r then st' k else if k = r then s else st k), none) := by
  induction m with
  | zero => intro c st out h1 h2; omega
  | succ m ih =>
    intro c st out hc hcr hlo h hs
    rw [List.range'_succ, List.map_cons, List.map_cons]
    unfold pyEncChans
    have hcn : c ≤ nch * fs := Nat.le_trans (by omega) (Nat.le_mul_of_pos_right nch hf)
    rw [buffer_test nch fs sb c hcn, if_neg (by omega)]
    by_cases he : c = r
    · subst he
      rw [hs, if_neg (Nat.lt_irrefl _), if_pos rfl]
      simp only [Option.bind_some]
      congr 3
      apply List.map_congr_left
      intro k hk
      rw [List.mem_range'_1] at hk
      rw [if_neg (by omega), if_neg (by omega)]
    · obtain ⟨h1, h2⟩ := h c (Nat.le_refl _) (by omega)
      have hm := chanOff_mono n nch (show c + 1 ≤ nch by omega)
      have hso := chanOff_succ n nch c
      have hp := patch_some out (chanOff n nch c) (o c) (by omega)
      obtain ⟨q, hq⟩ : ∃ q, patch out (chanOff n nch c) (o c) = some q := ⟨_, hp⟩
      have hql := (patch_len hq).1
      rw [h1, if_pos (show c < r by omega)]
      simp only [Option.bind_some]
      rw [hq]
      simp only [Option.bind_some]
      rw [← hso, ih (c + 1) st q (by omega) (by omega) (by omega) (fun k a b => h k (by omega) b) hs]
      rfl

/-- The samples are enough, or they are completed. -/
def Spec.pyInput (float : Bool) (val : List Nat → Rat) (sb fs : Nat) (pcm : List Nat) : Prop :=
  float = true → fs * sb ≤ pcm.length ∧ |((List.range (pcm.length / sb)).map fun k => val ((pcm.drop (k * sb)).take sb)).sum| < 2 * fs

theorem pyInput_range {val : List Nat → Rat} {sb fs : Nat} {pcm : List Nat} (hf : 0 < fs)
    (h : |((List.range (pcm.length / sb)).map fun k => val ((pcm.drop (k * sb)).take sb)).sum| < 2 * fs) :
    pyInRange fs ((List.range (pcm.length / sb)).map fun k => val (slice pcm (k * sb) sb)) = true := by
  unfold pyInRange
  rw [decide_eq_true_eq, div_lt_iff₀ (by exact_mod_cast hf)]
  exact h

theorem py_enough {float : Bool} {val : List Nat → Rat} {nch sb fs : Nat} {pcm : List Nat} (hn : 0 < nch)
    (h : Spec.pyInput float val sb fs pcm) : nch * fs * sb ≤ (pcm ++ List.replicate (pyPadding float nch fs sb pcm.length) 0).length := by
  rw [List.length_append, List.length_replicate]
  unfold pyPadding
  split
  · rename_i hfl
    have := (h hfl).1
    have e : (nch * fs - fs) * sb = nch * fs * sb - fs * sb := Nat.sub_mul _ _ _
    omega
  · omega

theorem pyEncode_start {σ : Type} (e : σ → List (List Nat) → Nat → Option (σ × Option (List Nat))) {float : Bool} {val : List Nat → Rat}
    {nch sb fs : Nat} (st : List σ) {pcm : List Nat} (n : Nat) (hf : 0 < fs) (h : Spec.pyInput float val sb fs pcm) :
    pyEncode e float val nch sb fs st pcm n =
      pyEncChans e n nch sb fs (pcm ++ List.replicate (pyPadding float nch fs sb pcm.length) 0) 0 0 st (List.replicate n 0) := by
  unfold pyEncode
  rw [if_neg]
  rintro ⟨h1, h2⟩
  rw [pyInput_range hf (h h1).2] at h2
  cases h2

/-- **C64**, encoder: with samples of 16 or 24 bits of any length, or enough samples in floating point of a mean level under 2, `encode`
gives to the encoder of each channel its samples, zero after the end, and returns the frames one after the other: `n` bytes.
The full statement, without `Spec.pyInput`, is false: `C64_short_refuted` and `C64_level_refuted`. -/
theorem C64_encode_partial {σ : Type} (e : σ → List (List Nat) → Nat → Option (σ × Option (List Nat))) (float : Bool) (val : List Nat → Rat)
    (nch sb fs n : Nat) (st st' : Nat → σ) (o : Nat → List Nat) (pcm : List Nat) (hn : 0 < nch) (hf : 0 < fs)
    (hin : Spec.pyInput float val sb fs pcm)
    (h : ∀ c, c < nch → e (st c) ((List.range fs).map (Spec.paddedSample pcm nch sb c)) (channelBytes n nch c) = some (st' c, some (o c)) ∧
      (o c).length = channelBytes n nch c) :
    pyEncode e float val nch sb fs ((List.range nch).map st) pcm n =
      some ((List.range nch).map st', some ((List.range nch).flatMap o)) ∧ ((List.range nch).flatMap o).length = n := by
  have hl := py_enough hn hin
  rw [pyEncode_start e _ n hf hin]
  generalize hz : pyPadding float nch fs sb pcm.length = z at hl ⊢
  have hl' := hl
  rw [List.length_append, List.length_replicate] at hl'
  have hh : ∀ k, 0 ≤ k → k < nch → e (st k) (chanIn (pcm ++ List.replicate z 0) nch sb fs k) (channelBytes n nch k) =
      some (st' k, some (o k)) ∧ (o k).length = channelBytes n nch k := by
    intro k _ hk
    rw [padded_chanIn pcm z nch sb fs k hk hl']
    exact h k hk
  obtain ⟨out, h1, h2, -, h4⟩ := encChans_spec e n nch sb fs (pcm ++ List.replicate z 0) st' o nch 0 st (List.replicate n 0) (by omega)
    (by rw [chanOff_all n nch hn, List.length_replicate]) hh
  rw [List.length_replicate] at h2
  have h0 : chanOff n nch 0 = 0 := rfl
  rw [chanOff_all n nch hn, h0, Nat.sub_zero] at h4
  rw [h0] at h1
  have he : out = (List.range nch).flatMap o := by
    rw [List.range_eq_range', ← h4, ← h2, slice_all]
  have := pyEncChans_ok e n nch sb fs (pcm ++ List.replicate z 0) hf hl st' o nch 0 st (List.replicate n 0) 0 (by omega)
    (fun k a b => (hh k a (by omega)).1)
  rw [List.range_eq_range', this, h1, ← List.range_eq_range', ← he]
  exact ⟨rfl, h2⟩

/-- **C64**, encoder, exceptions: when the frame of a channel is refused, `encode` raises; the encoders of the channels before have taken
their samples, those of the channels after have not. -/
theorem C64_encode_refused {σ : Type} (e : σ → List (List Nat) → Nat → Option (σ × Option (List Nat))) (float : Bool) (val : List Nat → Rat)
    (nch sb fs n : Nat) (st st' : Nat → σ) (o : Nat → List Nat) (pcm : List Nat) (r : Nat) (s : σ) (hf : 0 < fs)
    (hin : Spec.pyInput float val sb fs pcm) (hr : r < nch)
    (h : ∀ c, c < r → e (st c) ((List.range fs).map (Spec.paddedSample pcm nch sb c)) (channelBytes n nch c) = some (st' c, some (o c)) ∧
      (o c).length = channelBytes n nch c)
    (hs : e (st r) ((List.range fs).map (Spec.paddedSample pcm nch sb r)) (channelBytes n nch r) = some (s, none)) :
    pyEncode e float val nch sb fs ((List.range nch).map st) pcm n =
      some ((List.range nch).map (fun k => if k < r then st' k else if k = r then s else st k), none) := by
  have hn : 0 < nch := by omega
  have hl := py_enough hn hin
  rw [pyEncode_start e _ n hf hin]
  generalize hz : pyPadding float nch fs sb pcm.length = z at hl ⊢
  have hl' := hl
  rw [List.length_append, List.length_replicate] at hl'
  rw [List.range_eq_range']
  refine pyEncChans_refused e n nch sb fs _ hf hl st' o r nch hr s 0 st _ (by omega) (by omega) ?_ ?_ ?_
  · rw [chanOff_all n nch hn, List.length_replicate]
  · intro k _ hk
    rw [padded_chanIn pcm z nch sb fs k (by omega) hl']
    exact h k hk
  · rw [padded_chanIn pcm z nch sb fs r hr hl']
    exact hs

/-- **C64**, encoder, refutation: "the `pcm` vector data is padded with zeros when its length is less than the required input samples". With
less samples in floating point than those of one channel, `encode` raises, whatever the codec. -/
theorem C64_short_refuted {σ : Type} (e : σ → List (List Nat) → Nat → Option (σ × Option (List Nat))) (val : List Nat → Rat)
    (nch fs n : Nat) (st : List σ) (pcm : List Nat) (hn : 0 < nch) (hst : st.length = nch) (hl : pcm.length < fs * 4) :
    pyEncode e true val nch 4 fs st pcm n = some (st, none) := by
  unfold pyEncode
  split
  · rfl
  · cases st with
    | nil => simp at hst; omega
    | cons s l =>
      unfold pyEncChans
      rw [if_pos]
      rw [List.length_append, List.length_replicate]
      unfold pyPadding
      rw [if_pos rfl]
      have h1 : fs ≤ nch * fs := Nat.le_mul_of_pos_left _ hn
      omega

theorem sum_const_one (l : List Nat) (g : Nat → Rat) (h : ∀ k ∈ l, g k = 1) : (l.map g).sum = l.length := by
  induction l with
  | nil => simp
  | cons a l ih =>
    rw [List.map_cons, List.sum_cons, ih (fun k hk => h k (by simp [hk])), h a (by simp), List.length_cons]
    push_cast; ring

/-- **C64**, encoder, refutation: "it's a vector of floating point values from -1 to 1". With two channels or more, `encode` raises on full
scale samples, all equal to 1. -/
theorem C64_level_refuted {σ : Type} (e : σ → List (List Nat) → Nat → Option (σ × Option (List Nat))) (val : List Nat → Rat)
    (nch fs n : Nat) (st : List σ) (pcm : List Nat) (hn : 2 ≤ nch) (hf : 0 < fs) (hl : pcm.length = nch * fs * 4)
    (hv : ∀ k, k < nch * fs → val ((pcm.drop (k * 4)).take 4) = 1) :
    pyEncode e true val nch 4 fs st pcm n = some (st, none) := by
  unfold pyEncode
  rw [if_pos]
  refine ⟨rfl, ?_⟩
  rw [hl, Nat.mul_div_cancel _ (by omega)]
  unfold pyInRange
  rw [decide_eq_false_iff_not, not_lt, le_div_iff₀ (by exact_mod_cast hf)]
  show _ ≤ |(List.map (fun k => val ((pcm.drop (k * 4)).take 4)) (List.range (nch * fs))).sum|
  rw [sum_const_one _ _ (fun k hk => hv k (List.mem_range.mp hk)), List.length_range]
  have h2 : 2 * fs ≤ nch * fs := Nat.mul_le_mul_right _ hn
  have : (2 * fs : Rat) ≤ ((nch * fs : Nat) : Rat) := by exact_mod_cast h2
  exact le_trans this (le_abs_self _)

theorem sum_abs_le (l : List Nat) (g : Nat → Rat) (h : ∀ k ∈ l, |g k| ≤ 1) : |(l.map g).sum| ≤ l.length := by
  induction l with
  | nil => simp
  | cons a l ih =>
    rw [List.map_cons, List.sum_cons, List.length_cons]
    push_cast
    have h1 := ih (fun k hk => h k (by simp [hk]))
    have h2 := h a (by simp)
    exact le_trans (abs_add_le _ _) (by linarith)

/-- **C64**, encoder: the levels from -1 to 1 of one channel pass the test, with less than two frames of samples. -/
theorem C64_level_mono (val : List Nat → Rat) (fs : Nat) (pcm : List Nat) (h1 : fs * 4 ≤ pcm.length) (h2 : pcm.length < 2 * fs * 4)
    (hv : ∀ k, k < pcm.length / 4 → |val ((pcm.drop (k * 4)).take 4)| ≤ 1) : Spec.pyInput true val 4 fs pcm := by
  intro _
  refine ⟨h1, lt_of_le_of_lt (sum_abs_le _ _ (fun k hk => hv k (List.mem_range.mp hk))) ?_⟩
  rw [List.length_range]
  have : pcm.length / 4 < 2 * fs := by omega
  exact_mod_cast this

/-! ### Decoder -/

theorem chanOff_closed (n nch : Nat) : ∀ c, chanOff n nch c = c * (n / nch) + min c (n % nch) := by
  intro c
  induction c with
  | zero => simp [chanOff]
  | succ c ih =>
    rw [chanOff_succ, ih]
    unfold channelBytes
    rw [Nat.add_mul, Nat.one_mul]
    split <;> omega

theorem pyDecChans_ok {σ : Type} (d : σ → List Nat → Option (σ × Option (List (List Nat)))) (b : List Nat) (nch sb : Nat)
    (st' : Nat → σ) (x : Nat → List (List Nat)) (m : Nat) : ∀ (c : Nat) (st : Nat → σ) (buf : List Nat) (l : List σ) (buf' : List Nat),
      (∀ k, c ≤ k → k < c + m → d (st k) (slice b (chanOff b.length nch k) (channelBytes b.length nch k)) = some (st' k, some (x k))) →
      decChans d b nch sb sb c (chanOff b.length nch c) ((List.range' c m).map st) buf = some (l, buf') →
      pyDecChans d b nch sb c (chanOff b.length nch c) ((List.range' c m).map st) buf = some (l, some buf') := by
  induction m with
  | zero => intro c st buf l buf' _ h; cases h; rfl
  | succ m ih =>
    intro c st buf l buf' hd h
    rw [List.range'_succ, List.map_cons] at h ⊢
    unfold decChans at h
    unfold pyDecChans
    rw [hd c (Nat.le_refl _) (by omega)] at h ⊢
    dsimp only [Option.bind_some] at h ⊢
    cases hw : writeChan (nch * sb) (c * sb) (x c) buf with
    | none => rw [hw] at h; cases h
    | some q =>
      rw [hw] at h
      dsimp only [Option.bind_some] at h ⊢
      rw [← chanOff_succ] at h ⊢
      cases hr : decChans d b nch sb sb (c + 1) (chanOff b.length nch (c + 1)) ((List.range' (c + 1) m).map st) q with
      | none => rw [hr] at h; cases h
      | some r =>
        rw [hr] at h
        rw [ih (c + 1) st q r.1 r.2 (fun k h1 h2 => hd k (by omega) (by omega)) hr]
        cases h
        rfl

/-- **C64**, decoder: `decode` gives to the decoder of each channel its part of the block, and returns the samples of the channels,
interleaved. -/
theorem C64_decode {σ : Type} (d : σ → List Nat → Option (σ × Option (List (List Nat)))) (nch sb fs : Nat) (st st' : Nat → σ)
    (x : Nat → List (List Nat)) (b : List Nat) (hn : 0 < nch)
    (h : ∀ c, c < nch → d (st c) (Spec.part b nch c) = some (st' c, some (x c)) ∧ (x c).length = fs ∧ ∀ y ∈ x c, y.length = sb) :
    pyDecode d nch sb fs ((List.range nch).map st) b = some ((List.range nch).map st',
      some ((List.range fs).flatMap fun k => (List.range nch).flatMap fun c => (x c).getD k [])) := by
  have hp : ∀ c, Spec.part b nch c = slice b (chanOff b.length nch c) (channelBytes b.length nch c) := by
    intro c
    rw [chanOff_closed]
    rfl
  have hh : ∀ k, 0 ≤ k → k < nch → d (st k) (slice b (chanOff b.length nch k) (channelBytes b.length nch k)) = some (st' k, some (x k)) ∧
      (x k).length = fs ∧ ∀ y ∈ x k, y.length = sb := by
    intro k _ hk
    rw [← hp]
    exact h k hk
  obtain ⟨buf, h1, h2, -, h4⟩ := decChans_spec d b nch sb fs st' x nch 0 st (List.replicate (nch * fs * sb) 0) (by omega)
    (by rw [List.length_replicate]) hh
  rw [List.length_replicate] at h2
  unfold pyDecode
  have := pyDecChans_ok d b nch sb st' x nch 0 st _ _ _ (fun k a c => (hh k a (by omega)).1) h1
  have h0 : chanOff b.length nch 0 = 0 := rfl
  rw [h0] at this
  rw [List.range_eq_range', this, ← List.range_eq_range']
  have e := slice_samples buf nch sb fs x (by omega) (fun c hc k hk => h4 c (Nat.zero_le _) hc k hk) 0 fs (by omega)
  rw [Nat.mul_zero, Nat.zero_mul, show nch * sb * fs = buf.length by rw [h2, Nat.mul_assoc, Nat.mul_comm sb fs, ← Nat.mul_assoc], slice_all] at e
  rw [e]
  simp only [Nat.zero_add]

theorem pyDecChans_refused {σ : Type} (d : σ → List Nat → Option (σ × Option (List (List Nat)))) (b : List Nat) (nch sb fs : Nat)
    (st' : Nat → σ) (x : Nat → List (List Nat)) (r m : Nat) (hr : r < nch) (s : σ) : ∀ (c : Nat) (st : Nat → σ) (buf : List Nat),
      c + m = nch → c ≤ r → nch * fs * sb ≤ buf.length →
      (∀ k, c ≤ k → k < r → d (st k) (slice b (chanOff b.length nch k) (channelBytes b.length nch k)) = some (st' k, some (x k)) ∧
        (x k).length = fs ∧ ∀ y ∈ x k, y.length = sb) →
      d (st r) (slice b (chanOff b.length nch r) (channelBytes b.length nch r)) = some (s, none) →
      pyDecChans d b nch sb c (chanOff b.length nch c) ((List.range' c m).map st) buf =
        some ((List.range' c m).map (fun k => if k < r then st' k else if k = r then s else st k), none) := by
  induction m with
  | zero => intro c st buf h1 h2; omega
  | succ m ih =>
    intro c st buf hc hcr hl h hs
    rw [List.range'_succ, List.map_cons, List.map_cons]
    unfold pyDecChans
    by_cases he : c = r
    · subst he
      rw [hs, if_neg (Nat.lt_irrefl _), if_pos rfl]
      simp only [Option.bind_some]
      congr 3
      apply List.map_congr_left
      intro k hk
      rw [List.mem_range'_1] at hk
      rw [if_neg (by omega), if_neg (by omega)]
    · obtain ⟨h1, h2, h3⟩ := h c (Nat.le_refl _) (by omega)
      obtain ⟨q, q1, q2, -, -⟩ := writeChan_spec (nch * sb) sb (Nat.le_mul_of_pos_left _ (by omega)) (x c) (c * sb) buf h3 (by
        intro hx
        have hx := List.length_pos_iff.mpr hx
        have := sample_fits nch fs sb c (fs - 1) (by omega) (by omega)
        rw [Nat.add_mul, Nat.mul_assoc] at this
        rw [h2]
        omega)
      rw [h1, if_pos (show c < r by omega)]
      dsimp only [Option.bind_some]
      rw [q1]
      dsimp only [Option.bind_some]
      rw [← chanOff_succ, ih (c + 1) st q (by omega) (by omega) (by omega) (fun k a b => h k (by omega) b) hs]
      rfl

/-- **C64**, decoder, exceptions: when the frame of a channel is refused, `decode` raises; the decoders of the channels before have taken
their frames, those of the channels after have not. -/
theorem C64_decode_refused {σ : Type} (d : σ → List Nat → Option (σ × Option (List (List Nat)))) (nch sb fs : Nat) (st st' : Nat → σ)
    (x : Nat → List (List Nat)) (b : List Nat) (r : Nat) (s : σ) (hr : r < nch)
    (h : ∀ c, c < r → d (st c) (Spec.part b nch c) = some (st' c, some (x c)) ∧ (x c).length = fs ∧ ∀ y ∈ x c, y.length = sb)
    (hs : d (st r) (Spec.part b nch r) = some (s, none)) :
    pyDecode d nch sb fs ((List.range nch).map st) b =
      some ((List.range nch).map (fun k => if k < r then st' k else if k = r then s else st k), none) := by
  have hp : ∀ c, Spec.part b nch c = slice b (chanOff b.length nch c) (channelBytes b.length nch c) := by
    intro c
    rw [chanOff_closed]
    rfl
  unfold pyDecode
  rw [List.range_eq_range']
  refine pyDecChans_refused d b nch sb fs st' x r nch hr s 0 st _ (by omega) (by omega) (by rw [List.length_replicate]) ?_ ?_
  · intro k _ hk
    rw [← hp]
    exact h k hk
  · rw [← hp]
    exact hs

/-! ### Size of the blocks -/

/-- **C64**, size of the blocks, refutation: with a library without the functions `lc3_hr_...`, `get_frame_bytes` does not give the size of the
block for the bitrate: half of it for one channel, two times for four channels. -/
theorem C64_frame_bytes_refuted :
    pyFrameBytes false false 10000 48000 1 96000 = some (some 60) ∧ pyFrameBytes true false 10000 48000 1 96000 = some (some 120) ∧
    pyFrameBytes false false 10000 48000 4 400000 = some (some 1000) ∧ pyFrameBytes true false 10000 48000 4 400000 = some (some 500) := by
  decide +kernel

/-- **C64**, size of the blocks: an exception exactly when the configuration is not supported, the count of channels is not from 1 to 8, or the
bitrate is negative; otherwise a size in the limits, the least for the bitrate 0
and the greatest for `INT32_MAX` (but for 5 channels or more at 2.5 ms: `C41_int_max_not_max`). -/
theorem C64_frame_bytes (hr : Bool) (us sr nch bitrate : Int) :
    (pyFrameBytes true hr us sr nch bitrate = some none ↔ ¬ (Spec.supported hr us sr ∧ 1 ≤ nch ∧ nch ≤ 8 ∧ 0 ≤ bitrate)) ∧
    (Spec.supported hr us sr → 1 ≤ nch → nch ≤ 8 → 0 ≤ bitrate → ∃ n, pyFrameBytes true hr us sr nch bitrate = some (some n) ∧
      nch * Spec.minBytes hr us sr ≤ n ∧ n ≤ nch * Spec.maxBytes hr us ∧
      (bitrate = 0 → n = nch * Spec.minBytes hr us sr) ∧ (bitrate = 2147483647 → hr = true ∨ us ≠ 2500 ∨ nch ≤ 4 → n = nch * Spec.maxBytes hr us)) := by
  have key : Spec.supported hr us sr → 1 ≤ nch → nch ≤ 8 → 0 ≤ bitrate → ∃ n, pyFrameBytes true hr us sr nch bitrate = some (some n) ∧
      nch * Spec.minBytes hr us sr ≤ n ∧ n ≤ nch * Spec.maxBytes hr us ∧
      (bitrate = 0 → n = nch * Spec.minBytes hr us sr) ∧ (bitrate = 2147483647 → hr = true ∨ us ≠ 2500 ∨ nch ≤ 4 → n = nch * Spec.maxBytes hr us) := by
    intro hs h1 h2 h3
    obtain ⟨n, e, l1, l2, -⟩ := C02_valid hr us sr nch bitrate hs ⟨h1, h2⟩ h3
    obtain ⟨dt, s, e1, e2, _⟩ := supported_cases hs
    have hm := minFrameBytes_spec e1 e2
    have hp : 0 ≤ nch * Spec.minBytes hr us sr := Int.mul_nonneg (by omega) (by omega)
    have e' := e
    rw [hrFrameBlockBytes_eq hs ⟨h1, h2⟩ h3, Option.some.injEq] at e'
    refine ⟨n, ?_, l1, l2, ?_, ?_⟩
    · unfold pyFrameBytes
      rw [if_pos rfl, e, Option.map_some, if_neg (by omega)]
    · intro hb
      rw [hb, C41_zero_gives_min hr us sr nch hs ⟨h1, h2⟩, Option.some.injEq] at e
      exact e.symm
    · intro hb hc
      rw [hb, C41_int_max_gives_max_partial hr us sr nch hs ⟨h1, h2⟩ hc, Option.some.injEq] at e
      exact e.symm
  refine ⟨⟨?_, ?_⟩, key⟩
  · intro h hv
    obtain ⟨n, e, -⟩ := key hv.1 hv.2.1 hv.2.2.1 hv.2.2.2
    rw [e] at h
    cases h
  · intro h
    unfold pyFrameBytes
    rw [if_pos rfl, (C02_error_iff hr us sr nch bitrate).mpr h]
    rfl

/-! ### Cases -/

def pyVal (l : List Nat) : Rat := (l.getD 0 0 : Rat) / 255

example : Spec.pyInput false pyVal 2 20 (List.range 30) := by intro h; cases h
example : ∀ c, c < 2 → toyEnc 0 ((List.range 20).map (Spec.paddedSample (List.range 30) 2 2 c)) (channelBytes 41 2 c) =
    some (1, some ((List.range 8).map (fun k => if 4 * k + 2 * c < 30 then 4 * k + 2 * c else 0) ++ List.replicate (13 - c) 0)) := by
  decide +kernel
example : pyEncode toyEnc false pyVal 2 2 20 [0, 0] (List.range 30) 41 =
    some ([1, 1], some ([0, 4, 8, 12, 16, 20, 24, 28] ++ List.replicate 13 0 ++ [2, 6, 10, 14, 18, 22, 26] ++ List.replicate 13 0)) := by
  decide +kernel
example : (List.range 12).length < 20 * 4 ∧ pyEncode toyEnc true pyVal 1 4 20 [0] (List.range 12) 40 = some ([0], none) := by decide +kernel
example : ∀ k, k < 2 * 20 → pyVal (((List.replicate (2 * 20 * 4) 255).drop (k * 4)).take 4) = 1 := by decide +kernel
example : ∀ c, c < 2 → toyDec 0 (Spec.part (List.range 41) 2 c) =
    some (1, some ((List.range 20).map fun k => [21 * c + k, 0])) := by decide +kernel
example : pyDecode toyDec 2 2 20 [0, 0] (List.range 41) =
    some ([1, 1], some ((List.range 20).flatMap fun k => [k, 0, 21 + k, 0])) := by decide +kernel
/-- A block of 39 bytes: the frame of the second channel is refused, the first decoder has changed. -/
example : pyDecode toyDec 2 2 20 [0, 0] (List.range 39) = some ([1, 0], none) := by decide +kernel

end LC3
