import Verif.Props.Hostile
import Verif.Props.Encoder
import Verif.Model.Gain

/-!
C92: the four formats of samples hold the same audio, for the encoder and for the decoder.
-/

namespace LC3

/-- `enum lc3_pcm_format`, include/lc3.h. -/
inductive PcmFormat where
  | s16 | s24 | s24p | float
  deriving DecidableEq

/-- A sample in memory: an integer, 3 bytes, or the representation of a `float`. -/
def PcmFormat.Sample : PcmFormat → Type
  | .s16 => Int
  | .s24 => Int
  | .s24p => Nat × Nat × Nat
  | .float => Nat

/-- The values of the samples read. -/
def inValue (w : Int × Nat) : Int × Rat := (w.1, F32.value w.2)

/-- The function that reads the samples of a format, src/lc3.c:439-452: 16 bits for the analysis of the pitch, and a `float`. -/
def PcmFormat.load : (f : PcmFormat) → f.Sample → Option (Int × Rat)
  | .s16, p => some (inValue (loadS16 p))
  | .s24, p => (loadS24 p).map inValue
  | .s24p, b => (loadS24P b.1 b.2.1 b.2.2).map inValue
  | .float, u => (loadFloat u).map inValue

/-- A sample of amplitude `v`, in unit of the format on 16 bits, as documented in include/lc3.h: full scale is `2^15` on 16 bits, `2^23` on 24 bits, and 1 in
`float` (out of the tiny numbers). -/
def PcmFormat.Holds : (f : PcmFormat) → Rat → f.Sample → Prop
  | .s16, v, (p : Int) => -32768 ≤ p ∧ p ≤ 32767 ∧ (p : Rat) = v
  | .s24, v, (p : Int) => -8388608 ≤ p ∧ p ≤ 8388607 ∧ (p : Rat) = 256 * v
  | .s24p, v, b => ∃ p : Int, b = bytes24 p ∧ -8388608 ≤ p ∧ p ≤ 8388607 ∧ (p : Rat) = 256 * v
  | .float, v, (u : Nat) => F32.Finite u ∧ F32.value u * 32768 = v ∧ -32768 ≤ v ∧ v < 32768 ∧ (v = 0 ∨ pow2 (-111) ≤ |v|)

theorem holds_range (f : PcmFormat) (v : Rat) (x : f.Sample) (h : f.Holds v x) : -32768 ≤ v ∧ v < 32768 := by
  have key : ∀ p : Int, -8388608 ≤ p → p ≤ 8388607 → (p : Rat) = 256 * v → -32768 ≤ v ∧ v < 32768 := by
    intro p h1 h2 h3
    have h1 : ((-8388608 : Int) : Rat) ≤ p := by exact_mod_cast h1
    have h2 : (p : Rat) ≤ ((8388607 : Int) : Rat) := by exact_mod_cast h2
    push_cast at h1 h2
    constructor <;> linarith
  have key16 : ∀ p : Int, -32768 ≤ p → p ≤ 32767 → (p : Rat) = v → -32768 ≤ v ∧ v < 32768 := by
    intro p h1 h2 h3
    have h1 : ((-32768 : Int) : Rat) ≤ p := by exact_mod_cast h1
    have h2 : (p : Rat) ≤ ((32767 : Int) : Rat) := by exact_mod_cast h2
    push_cast at h1 h2
    constructor <;> linarith
  cases f with
  | s16 => exact key16 _ h.1 h.2.1 h.2.2
  | s24 => exact key _ h.1 h.2.1 h.2.2
  | s24p => obtain ⟨p, -, h1, h2, h3⟩ := h; exact key p h1 h2 h3
  | float => exact ⟨h.2.2.1, h.2.2.2.1⟩

theorem floor_range (v : Rat) (h : -32768 ≤ v ∧ v < 32768) : -32768 ≤ ⌊v⌋ ∧ ⌊v⌋ ≤ 32767 := by
  constructor
  · exact Int.le_floor.2 (by push_cast; exact h.1)
  · have : ⌊v⌋ < 32768 := Int.floor_lt.2 (by push_cast; exact h.2)
    omega

/-- The integer formats. -/
theorem load_integer (f : PcmFormat) (hf : f ≠ .float) (v : Rat) (x : f.Sample) (h : f.Holds v x) : f.load x = some (⌊v⌋, v) := by
  have key : ∀ p : Int, -8388608 ≤ p → p ≤ 8388607 → (p : Rat) = 256 * v → (loadS24 p).map inValue = some (⌊v⌋, v) := by
    intro p h1 h2 h3
    obtain ⟨y, y1, -, y2⟩ := C32_load_s24 p h1 h2
    have hv : (p : Rat) / 256 = v := by rw [h3]; ring
    have hfl : p / 256 = ⌊v⌋ := by
      rw [← hv]
      have := Rat.floor_intCast_div_natCast p 256
      push_cast at this
      exact this.symm
    rw [y1, Option.map_some]
    unfold inValue
    dsimp only
    rw [y2, hv, hfl]
  cases f with
  | s16 =>
    obtain ⟨h1, h2, h3⟩ := h
    obtain ⟨a, -, b⟩ := C32_load_s16 x h1 h2
    show some ((loadS16 x).1, F32.value (loadS16 x).2) = _
    rw [a, b, ← show (((show Int from x) : Int) : Rat) = v from h3, Int.floor_intCast]
  | s24 => exact key _ h.1 h.2.1 h.2.2
  | s24p =>
    obtain ⟨p, rfl, h1, h2, h3⟩ := h
    show (loadS24P (bytes24 p).1 (bytes24 p).2.1 (bytes24 p).2.2).map inValue = _
    rw [(C32_packed p h1 h2).2.2.2]
    exact key p h1 h2 h3
  | float => exact absurd rfl hf

/-- The format `float`. -/
theorem load_float (v : Rat) (u : Nat) (h : PcmFormat.float.Holds v u) : PcmFormat.float.load u = some (Arith.exact.trunc v, v) := by
  obtain ⟨h1, h2, h3, h4, h5⟩ := h
  have hb : |F32.value u| ≤ 1 := by rw [abs_le]; constructor <;> linarith
  obtain ⟨t, x, a1, -, a2, a3, -⟩ := C33_load u h1 hb
  have hx : F32.value x = v := by
    rw [a3 ?_, h2]
    rcases h5 with h5 | h5
    · exact Or.inl (by linarith)
    · refine Or.inr ?_
      rw [← h2, abs_mul, show pow2 (-111) = pow2 (-126) * 32768 by
        rw [show (32768 : Rat) = pow2 (15 : Nat) by rw [pow2_nat]; norm_num, ← pow2_add]; congr 1] at h5
      rw [show |(32768 : Rat)| = 32768 by norm_num] at h5
      linarith
  show (loadFloat u).map inValue = _
  rw [a1, Option.map_some]
  unfold inValue
  dsimp only
  rw [hx, a2, hx]
  have ht : -32768 ≤ Arith.exact.trunc v ∧ Arith.exact.trunc v ≤ 32767 := by
    show -32768 ≤ (if v < 0 then -⌊-v⌋ else ⌊v⌋) ∧ (if v < 0 then -⌊-v⌋ else ⌊v⌋) ≤ 32767
    split
    · rename_i hv
      have h6 : 0 ≤ ⌊-v⌋ := Int.floor_nonneg.2 (by linarith)
      have h7 : ⌊-v⌋ ≤ 32768 := Int.floor_le_iff.2 (by push_cast; linarith)
      omega
    · exact floor_range v ⟨h3, h4⟩
  unfold sat16
  rw [max_eq_left ht.1, min_eq_left ht.2]

/-- **C92**, a sample: two formats that hold the same amplitude are read as the same sample. Excepted when one of the two is the `float` format, and the
amplitude is negative and not an integer of 16 bits. -/
theorem C92_sample_partial (f g : PcmFormat) (v : Rat) (x : f.Sample) (y : g.Sample) (hx : f.Holds v x) (hy : g.Holds v y)
    (h : (f = .float ↔ g = .float) ∨ 0 ≤ v ∨ (⌊v⌋ : Rat) = v) : f.load x = g.load y ∧ ∃ s, f.load x = some (s, v) ∧ -32768 ≤ s ∧ s ≤ 32767 := by
  have ht : 0 ≤ v ∨ (⌊v⌋ : Rat) = v → Arith.exact.trunc v = ⌊v⌋ := by
    intro h
    show (if v < 0 then -⌊-v⌋ else ⌊v⌋) = ⌊v⌋
    split
    · rename_i hv
      rcases h with h | h
      · linarith
      · rw [← h, ← Int.cast_neg, Int.floor_intCast, Int.floor_intCast]; omega
    · rfl
  have hr := floor_range v (holds_range f v x hx)
  have htr : -32768 ≤ Arith.exact.trunc v ∧ Arith.exact.trunc v ≤ 32767 := by
    obtain ⟨r1, r2⟩ := holds_range f v x hx
    show -32768 ≤ (if v < 0 then -⌊-v⌋ else ⌊v⌋) ∧ (if v < 0 then -⌊-v⌋ else ⌊v⌋) ≤ 32767
    split
    · rename_i hv
      have h6 : 0 ≤ ⌊-v⌋ := Int.floor_nonneg.2 (by linarith)
      have h7 : ⌊-v⌋ ≤ 32768 := Int.floor_le_iff.2 (by push_cast; linarith)
      omega
    · exact hr
  by_cases hf : f = .float
  · subst hf
    rw [load_float v x hx]
    refine ⟨?_, _, rfl, htr⟩
    by_cases hg : g = .float
    · subst hg
      rw [load_float v y hy]
    · rw [load_integer g hg v y hy, ht (h.resolve_left fun hc => hg (hc.1 rfl))]
  · rw [load_integer f hf v x hx]
    refine ⟨?_, _, rfl, hr⟩
    by_cases hg : g = .float
    · subst hg
      rw [load_float v y hy, ht (h.resolve_left fun hc => hf (hc.2 rfl))]
    · rw [load_integer g hg v y hy]

/-! ### The encoder -/

section
variable {R α β : Type} [Inhabited R]

/-- A call with the samples already converted. -/
def EncCall.flat (c : EncCall R α) : EncCall R (Option (Int × R)) :=
  ⟨fun a => c.conv (c.pcm a), id, c.base, c.stride, c.nbytes, c.out, c.junk⟩

def EncOp.flat : EncOp R α → EncOp R (Option (Int × R))
  | .encode c => .encode c.flat
  | .disableLtpf => .disableLtpf

theorem pcmLoad_map (stride : Int) (m : Int → α) (f : α → β) : ∀ (n : Nat) (p : Int),
    pcmLoad stride (fun a => f (m a)) p n = (pcmLoad stride m p n).map f := by
  intro n
  induction n with
  | zero => intro p; rfl
  | succ n ih => intro p; unfold pcmLoad; rw [ih, List.map_cons]

theorem flat_samples (c : EncCall R α) (n : Nat) : c.flat.samples n = c.samples n := by
  unfold EncCall.samples EncCall.flat
  dsimp only
  rw [pcmLoad_map c.stride c.pcm c.conv]
  induction pcmLoad c.stride c.pcm c.base n with
  | nil => rfl
  | cons a l ih => rw [List.map_cons, List.mapM_cons, List.mapM_cons, ih]; rfl

theorem flat_encode (P : EncPlatform R) (c : EncCall R α) (e : Option (Enc R)) : lc3Encode P c.flat e = lc3Encode P c e := by
  cases e with
  | none => rfl
  | some e =>
    have h := flat_samples c (ns e.dt e.srPcm)
    unfold EncCall.samples at h
    unfold lc3Encode encProcess
    dsimp only
    rw [h]
    rfl

theorem flat_run (P : EncPlatform R) (ops : List (EncOp R α)) : ∀ e, encRun P (ops.map EncOp.flat) e = encRun P ops e := by
  induction ops with
  | nil => intro e; rfl
  | cons o l ih =>
    intro e
    have hs : encStep P o.flat e = encStep P o e := by
      cases o with
      | disableLtpf => rfl
      | encode c =>
        show (lc3Encode P c.flat e).map _ = (lc3Encode P c e).map _
        rw [flat_encode]
    rw [List.map_cons]
    unfold encRun
    rw [hs]
    congr 1
    funext r
    rw [ih]

end

/-- Two calls with the same audio, in the formats `f` and `g`. The places of the samples, the outputs and the content of the uninitialised memory are
any. The amplitudes satisfy `ok`. -/
def SameAudio (f g : PcmFormat) (ok : Rat → Prop) (n : Nat) : EncOp Rat f.Sample → EncOp Rat g.Sample → Prop
  | .encode c, .encode c' => c.conv = f.load ∧ c'.conv = g.load ∧ c'.nbytes = c.nbytes ∧ c.nbytes ≤ c.out.length ∧ c'.nbytes ≤ c'.out.length ∧
    ∀ i : Nat, i < n → ∃ v, f.Holds v (c.pcm (c.base + i * c.stride)) ∧ g.Holds v (c'.pcm (c'.base + i * c'.stride)) ∧ ok v
  | .disableLtpf, .disableLtpf => True
  | _, _ => False

/-- **C92**, the encoder: the same audio is given in two formats, for any number of frames. The values returned, the frames and the encoder are the same.
Missing: the `float` format against another one, with samples that are negative and not integers on 16 bits (`C92_refuted`). -/
theorem C92_encode_partial (P : EncPlatform Rat) (hA : CandidatesOk P.A) (hr : Bool) (dtUs srHz srPcmHz : Int) (e0 : Enc Rat)
    (h0 : encSetup P.A hr dtUs srHz srPcmHz true = some (some e0)) (f g : PcmFormat) (ops : List (EncOp Rat f.Sample)) (ops' : List (EncOp Rat g.Sample))
    (hs : List.Forall₂ (SameAudio f g (fun v => (f = .float ↔ g = .float) ∨ 0 ≤ v ∨ (⌊v⌋ : Rat) = v) (ns e0.dt e0.srPcm)) ops ops') (rets : List (Option (Int × List Nat))) (e : Option (Enc Rat))
    (hrun : encRun P ops (some e0) = some (rets, e)) :
    ∃ rets', encRun P ops' (some e0) = some (rets', e) ∧ rets.length = ops.length ∧ rets'.length = ops.length ∧
      ∀ (k : Nat) (o : EncOp Rat f.Sample), ops[k]? = some o → ∃ r r', rets[k]? = some r ∧ rets'[k]? = some r' ∧ SameOutput o r r' := by
  have hs' : List.Forall₂ (SameInput (ns e0.dt e0.srPcm)) (ops.map EncOp.flat) (ops'.map EncOp.flat) := by
    rw [List.forall₂_map_left_iff, List.forall₂_map_right_iff]
    refine hs.imp fun o o' ho => ?_
    cases o with
    | disableLtpf => cases o' with
      | disableLtpf => trivial
      | encode c => cases ho
    | encode c => cases o' with
      | disableLtpf => cases ho
      | encode c' =>
        obtain ⟨a1, a2, a3, a4, a5, a6⟩ := ho
        have key : ∀ i : Nat, i < ns e0.dt e0.srPcm → c.conv (c.pcm (c.base + i * c.stride)) = c'.conv (c'.pcm (c'.base + i * c'.stride)) ∧
            ∃ s v, c.conv (c.pcm (c.base + i * c.stride)) = some (s, v) ∧ -32768 ≤ s ∧ s ≤ 32767 := by
          intro i hi
          obtain ⟨v, v1, v2, v3⟩ := a6 i hi
          obtain ⟨k1, s, k2, k3, k4⟩ := C92_sample_partial f g v _ _ v1 v2 v3
          rw [a1, a2]
          exact ⟨k1, s, v, k2, k3, k4⟩
        refine ⟨?_, a3, ⟨fun i hi => (key i hi).2, a4⟩, ⟨fun i hi => ?_, a5⟩⟩
        · unfold EncCall.samples
          congr 1
          obtain ⟨l1, l2⟩ := pcmLoad_spec c.flat.stride c.flat.pcm (ns e0.dt e0.srPcm) c.flat.base
          obtain ⟨l3, l4⟩ := pcmLoad_spec c'.flat.stride c'.flat.pcm (ns e0.dt e0.srPcm) c'.flat.base
          refine List.ext_getElem (l3.trans l1.symm) fun i h1 h2 => ?_
          rw [l2 i h2, l4 i h1]
          exact (key i (by omega)).1.symm
        · obtain ⟨k1, s, v, k2, k3⟩ := key i hi
          exact ⟨s, v, k1.symm.trans k2, k3⟩
  obtain ⟨rets', q1, q2, q3, q4⟩ := C60_deterministic P hA hr dtUs srHz srPcmHz e0 h0 _ _ hs' rets e (by rw [flat_run]; exact hrun)
  rw [flat_run] at q1
  rw [List.length_map] at q2 q3
  refine ⟨rets', q1, q2, q3, fun k o ho => ?_⟩
  obtain ⟨r, r', k1, k2, k3⟩ := q4 k o.flat (by rw [List.getElem?_map, ho, Option.map_some])
  refine ⟨r, r', k1, k2, ?_⟩
  cases o <;> rcases r with _ | ⟨a, b⟩ <;> rcases r' with _ | ⟨a', b'⟩ <;> exact k3

/-! ### The decoder -/

/-- **C92**, the decoder: the same frame is decoded in two formats, at any places. The value returned and the decoder are the same, and the samples written
are conversions of the same samples. -/
theorem C92_decode {R α β : Type} (P : Platform R) (c : DecCall R α) (c' : DecCall R β) (h1 : c'.inp = c.inp) (h2 : c'.nbytes = c.nbytes)
    (h3 : c'.junk = c.junk) (d d1 : Option (Dec R)) (mem m : Int → α) (mem' : Int → β) (ret : Int) (h : lc3Decode P c d mem = some (ret, d1, m)) :
    ∃ m', lc3Decode P c' d mem' = some (ret, d1, m') ∧
      ((ret = -1 ∧ m = mem ∧ m' = mem') ∨
        ∃ xs : List R, m = pcmStore c.stride c.base (xs.map c.conv) mem ∧ m' = pcmStore c'.stride c'.base (xs.map c'.conv) mem') := by
  cases d with
  | none =>
    unfold lc3Decode at h
    cases h
    exact ⟨mem', rfl, Or.inl ⟨rfl, rfl, rfl⟩⟩
  | some d =>
    unfold lc3Decode at h ⊢
    dsimp only at h ⊢
    rw [h1, h2]
    split at h
    · rename_i hc
      cases h
      exact ⟨mem', by rw [if_pos hc], Or.inl ⟨rfl, rfl, rfl⟩⟩
    · rename_i hc
      rw [if_neg hc]
      obtain ⟨r, hr, h⟩ := Option.map_eq_some_iff.1 h
      unfold decProcess at hr ⊢
      obtain ⟨w, w1, hr⟩ := Option.bind_eq_some_iff.1 hr
      obtain ⟨d2, w2, hr⟩ := Option.bind_eq_some_iff.1 hr
      obtain ⟨xs, w3, hr⟩ := Option.bind_eq_some_iff.1 hr
      have hi : decInput P c' d = some w := by
        rw [← w1]
        unfold decInput
        rw [h1, h2, h3]
      cases hr
      rw [Prod.mk.injEq, Prod.mk.injEq] at h
      obtain ⟨rfl, rfl, rfl⟩ := h
      rw [hi, Option.bind_some, h2, h3, w2, Option.bind_some, w3, Option.bind_some]
      exact ⟨_, rfl, Or.inr ⟨xs, rfl, rfl⟩⟩

/-- **C92**, the samples written: in the range of 16 bits, the sample on 24 bits is within half a step of 256 times the one on 16 bits, its bytes
are those of the packed format, and the `float` is the sample itself divided by `2^15`, at half a step of each (out of the exceptions of C32 and C33). -/
theorem C92_output_partial (x : Rat) (hx : F32.Finite (F32.round x)) (hr : -32768 ≤ fl x ∧ fl x ≤ 32767) (e1 : |fl x| ≠ 1/2 - 1/2^25)
    (e2 : |fl x * 256| ≠ 1/2 - 1/2^25) (e3 : fl x = 0 ∨ pow2 (-111) ≤ |fl x|) :
    ∃ (a b : Int) (w : Rat), outS16 x = some a ∧ outS24 x = some b ∧ outFloat x = some w ∧
      storeS24P (Arith.rounded rne24) (F32.round x) = some (bytes24 b) ∧ |b - 256 * a| ≤ 128 ∧ |(a : Rat) / 2 ^ 15 - w| ≤ 1 / 2 ^ 16 ∧
      |(b : Rat) / 2 ^ 23 - w| ≤ 1 / 2 ^ 24 := by
  obtain ⟨r1, r2⟩ := hr
  obtain ⟨a, a1, a2⟩ := C32_store_s16_partial _ hx (by show |fl x| ≤ _; rw [abs_le]; constructor <;> linarith)
  obtain ⟨b, b1, b2⟩ := C32_store_s24_partial _ hx (by show |fl x * 256| ≤ _; rw [abs_le]; constructor <;> linarith)
  have hw := (C33_float_partial _ hx).1 e3
  have near : ∀ (lo hi : Int) (v : Rat) (y : Int), (lo : Rat) ≤ v → v ≤ hi → NearestIn lo hi v y → |(y : Rat) - v| ≤ 1 / 2 := by
    intro lo hi v y h1 h2 ⟨_, _, hn⟩
    have f1 := Int.floor_le v
    have f2 := Int.lt_floor_add_one v
    have g1 : lo ≤ ⌊v⌋ := Int.le_floor.2 h1
    have g2 : ⌊v⌋ ≤ hi := by exact_mod_cast f1.trans h2
    by_cases hv : v ≤ ⌊v⌋ + 1 / 2
    · refine (hn ⌊v⌋ g1 g2).trans ?_
      rw [abs_le]; constructor <;> linarith
    · have g3 : ⌊v⌋ + 1 ≤ hi := by
        by_contra hc
        have : hi = ⌊v⌋ := by omega
        rw [this] at h2
        linarith
      refine (hn (⌊v⌋ + 1) (by omega) g3).trans ?_
      push_cast
      rw [abs_le]; constructor <;> linarith
  have na := near _ _ _ _ (by push_cast; exact r1) (by push_cast; exact r2) (a2 e1)
  have nb := near _ _ _ _ (by push_cast; show _ ≤ fl x * 256; linarith) (by push_cast; show fl x * 256 ≤ _; linarith) (b2 e2)
  have hww : wantedFloat (fl x) = fl x / 32768 := by
    unfold wantedFloat
    rw [max_eq_left (by linarith), min_eq_left (by linarith)]
  refine ⟨a, b, fl x / 32768, a1, b1, ?_, ?_, ?_, ?_, ?_⟩
  · show storeFloat (F32.round x) = _
    rw [← hww]; exact hw
  · unfold storeS24P
    rw [b1]; rfl
  · change |(a : Rat) - fl x| ≤ 1 / 2 at na
    change |(b : Rat) - fl x * 256| ≤ 1 / 2 at nb
    rw [abs_le] at na nb
    have h1 : ((b - 256 * a : Int) : Rat) < ((129 : Int) : Rat) := by push_cast; linarith
    have h2 : ((-129 : Int) : Rat) < ((b - 256 * a : Int) : Rat) := by push_cast; linarith
    have h1 : b - 256 * a < 129 := by exact_mod_cast h1
    have h2 : -129 < b - 256 * a := by exact_mod_cast h2
    rw [abs_le]; omega
  · change |(a : Rat) - fl x| ≤ 1 / 2 at na
    rw [abs_le] at na ⊢
    norm_num
    constructor <;> linarith
  · change |(b : Rat) - fl x * 256| ≤ 1 / 2 at nb
    rw [abs_le] at nb ⊢
    norm_num
    constructor <;> linarith

/-! ### The exception -/

/-- An encoder with the square root of binary32. -/
def squarePlatform : EncPlatform Rat := { exEncPlat with sqrt := sqrt24 }

/-- A square signal of 400 Hz at 8 kHz, with the values 0 and -3073 on 24 bits: the frame `k`, on 20 bytes. -/
def squareS24 (k : Int) : EncCall Rat PcmFormat.s24.Sample :=
  ⟨fun i => (show Int from if (i + 20 * k) % 20 < 10 then -3073 else 0), PcmFormat.s24.load, 0, 1, 20, List.replicate 20 0, ⟨⟨false, 0⟩, fun _ => 0⟩⟩

/-- The same, in `float`. -/
def squareFloat (k : Int) : EncCall Rat PcmFormat.float.Sample :=
  ⟨fun i => (show Nat from if (i + 20 * k) % 20 < 10 then 0xB9C01000 else 0), PcmFormat.float.load, 0, 1, 20, List.replicate 20 0, ⟨⟨false, 0⟩, fun _ => 0⟩⟩

/-- The frames of the three first calls. -/
def firstFrames {α : Type} (f : Int → EncCall Rat α) : Option (List (Option (Int × List Nat))) :=
  ((encSetup squarePlatform.A false 2500 8000 0 true).join).bind fun e0 =>
    (encRun squarePlatform [.encode (f 0), .encode (f 1), .encode (f 2)] (some e0)).map Prod.fst

set_option maxRecDepth 100000 in
theorem square_frames :
    firstFrames squareS24 = some
      [some (0, [1, 250, 51, 233, 185, 109, 123, 49, 190, 102, 234, 179, 195, 253, 254, 232, 174, 8, 176, 41]),
       some (0, [19, 26, 44, 215, 19, 50, 110, 107, 33, 251, 54, 238, 181, 253, 254, 232, 174, 24, 176, 169]),
       some (0, [19, 26, 44, 198, 113, 180, 20, 115, 49, 86, 185, 147, 128, 29, 254, 232, 174, 24, 241, 41])] ∧
    firstFrames squareFloat = some
      [some (0, [1, 250, 51, 233, 185, 109, 123, 49, 190, 102, 234, 179, 195, 253, 254, 232, 174, 8, 176, 41]),
       some (0, [19, 26, 44, 215, 19, 50, 110, 107, 33, 251, 54, 238, 181, 253, 254, 232, 174, 24, 176, 169]),
       some (0, [19, 26, 44, 215, 19, 50, 110, 107, 33, 251, 54, 238, 181, 253, 254, 232, 174, 24, 176, 169])] := by
  constructor <;> decide +kernel

theorem square_same (k : Int) (n : Nat) : SameAudio .s24 .float (fun _ => True) n (.encode (squareS24 k)) (.encode (squareFloat k)) := by
  refine ⟨rfl, rfl, rfl, by show (20 : Int) ≤ (((List.replicate 20 0).length : Nat) : Int); decide, by show (20 : Int) ≤ (((List.replicate 20 0).length : Nat) : Int); decide, fun i _ => ?_⟩
  have h1 : PcmFormat.s24.Holds (-3073 / 256) (show Int from -3073) := by
    show (-8388608 : Int) ≤ -3073 ∧ (-3073 : Int) ≤ 8388607 ∧ (((-3073 : Int)) : Rat) = 256 * (-3073 / 256)
    norm_num
  have h2 : PcmFormat.float.Holds (-3073 / 256) (show Nat from 0xB9C01000) := by
    show F32.Finite 0xB9C01000 ∧ F32.value 0xB9C01000 * 32768 = -3073 / 256 ∧ (-32768 : Rat) ≤ -3073 / 256 ∧ (-3073 / 256 : Rat) < 32768 ∧ _
    refine ⟨by unfold F32.Finite; decide +kernel, by decide +kernel, by norm_num, by norm_num, Or.inr ?_⟩
    decide +kernel
  have h3 : PcmFormat.s24.Holds 0 (show Int from 0) := by
    show (-8388608 : Int) ≤ 0 ∧ (0 : Int) ≤ 8388607 ∧ (((0 : Int)) : Rat) = 256 * 0
    norm_num
  have h4 : PcmFormat.float.Holds 0 (show Nat from 0) := by
    show F32.Finite 0 ∧ F32.value 0 * 32768 = 0 ∧ (-32768 : Rat) ≤ 0 ∧ (0 : Rat) < 32768 ∧ _
    exact ⟨by unfold F32.Finite; decide +kernel, by decide +kernel, by norm_num, by norm_num, Or.inl rfl⟩
  dsimp only [squareS24, squareFloat]
  by_cases hc : (0 + (i : Int) * 1 + 20 * k) % 20 < 10
  · refine ⟨-3073 / 256, ?_, ?_, trivial⟩
    · rw [if_pos hc]; exact h1
    · rw [if_pos hc]; exact h2
  · refine ⟨0, ?_, ?_, trivial⟩
    · rw [if_neg hc]; exact h3
    · rw [if_neg hc]; exact h4

/-- **C92**, refuted with the amplitudes not limited: a signal on 24 bits does not give the same frames as the same signal in `float`. The third frame of the
square signal has a pitch in one of the formats only: the 16-bit sample of the analysis is rounded down from 24 bits (-13), and toward zero from `float` (-12). -/
theorem C92_refuted : ¬ ∀ (P : EncPlatform Rat) (_ : CandidatesOk P.A) (hr : Bool) (dtUs srHz srPcmHz : Int) (e0 : Enc Rat)
    (_ : encSetup P.A hr dtUs srHz srPcmHz true = some (some e0)) (f g : PcmFormat) (ops : List (EncOp Rat f.Sample)) (ops' : List (EncOp Rat g.Sample))
    (_ : List.Forall₂ (SameAudio f g (fun _ => True) (ns e0.dt e0.srPcm)) ops ops') (rets : List (Option (Int × List Nat))) (e : Option (Enc Rat))
    (_ : encRun P ops (some e0) = some (rets, e)),
    ∃ rets' e', encRun P ops' (some e0) = some (rets', e') ∧
      ∀ (k : Nat) (o : EncOp Rat f.Sample), ops[k]? = some o → ∃ r r', rets[k]? = some r ∧ rets'[k]? = some r' ∧ SameOutput o r r' := by
  intro h
  obtain ⟨e0, h0⟩ : ∃ e0, encSetup squarePlatform.A false 2500 8000 0 true = some (some e0) := ⟨_, rfl⟩
  obtain ⟨f1, f2⟩ := square_frames
  unfold firstFrames at f1 f2
  rw [h0, Option.join_some, Option.bind_some] at f1 f2
  obtain ⟨⟨rets, e⟩, g1, g2⟩ := Option.map_eq_some_iff.1 f1
  obtain ⟨⟨rets2, e2⟩, g3, g4⟩ := Option.map_eq_some_iff.1 f2
  dsimp only at g2 g4
  obtain ⟨rets', e', k1, k2⟩ := h squarePlatform exEncCandidates false 2500 8000 0 e0 h0 .s24 .float _ _
    (.cons (square_same 0 _) (.cons (square_same 1 _) (.cons (square_same 2 _) .nil))) rets e g1
  rw [g3, Option.some.injEq, Prod.mk.injEq] at k1
  obtain ⟨rfl, -⟩ := k1
  obtain ⟨r, r', q1, q2, q3⟩ := k2 2 _ rfl
  rw [g2] at q1
  rw [g4] at q2
  cases q1
  cases q2
  have := q3.2 rfl
  revert this
  decide

/-- The presence of a pitch in the three first frames of 2.5 ms at 8 kHz. -/
def firstPitches (A : Arith Rat) (x : Int → Int) : Option (List Bool) :=
  (([0, 1, 2] : List Int).foldlM (fun (w : (LtpfA Rat × List Int) × List Bool) k =>
    let xt := w.1.2 ++ (List.range 20).map fun i => x (i + 20 * k)
    (ltpfAnalyse A sqrt24 .m2_5 .k8 w.1.1 xt (nt .k8)).map fun r => ((r.2, xt.drop 20), w.2 ++ [r.1.present]))
    ((LtpfA.init A, List.replicate (nt .k8) 0), [])).map Prod.snd

set_option maxRecDepth 100000 in
/-- The same in binary32: a pitch is found in the third frame of the square signal rounded down, and not when it is rounded toward zero. -/
theorem square_pitch : firstPitches (Arith.rounded fl) (fun i => if i % 20 < 10 then -13 else 0) = some [false, false, true] ∧
    firstPitches (Arith.rounded fl) (fun i => if i % 20 < 10 then -12 else 0) = some [false, false, false] := by
  constructor <;> decide +kernel

/-- The square signal in the packed format, in one channel out of two, with another output buffer. -/
def squareS24P (k : Int) : EncCall Rat PcmFormat.s24p.Sample :=
  ⟨fun i => bytes24 (if (i / 2 + 20 * k) % 20 < 10 then -3073 else 0), PcmFormat.s24p.load, 1, 2, 20, List.replicate 22 7, ⟨⟨true, 7⟩, fun _ => 3⟩⟩

/-! The hypotheses of `C92_encode_partial` are met: the square signal, packed or not, gives the same frames. -/
example : ∃ (e0 : Enc Rat) (e : Option (Enc Rat)) (rets rets' : List (Option (Int × List Nat))), encSetup squarePlatform.A false 2500 8000 0 true = some (some e0) ∧
    encRun squarePlatform [.encode (squareS24 0), .encode (squareS24 1), .encode (squareS24 2)] (some e0) = some (rets, e) ∧
    encRun squarePlatform [.encode (squareS24P 0), .encode (squareS24P 1), .encode (squareS24P 2)] (some e0) = some (rets', e) ∧
    ∃ out, rets'[2]? = some (some (0, out)) ∧
      out.take 20 = [19, 26, 44, 198, 113, 180, 20, 115, 49, 86, 185, 147, 128, 29, 254, 232, 174, 24, 241, 41] := by
  obtain ⟨e0, h0⟩ : ∃ e0, encSetup squarePlatform.A false 2500 8000 0 true = some (some e0) := ⟨_, rfl⟩
  obtain ⟨f1, -⟩ := square_frames
  unfold firstFrames at f1
  rw [h0, Option.join_some, Option.bind_some] at f1
  obtain ⟨⟨rets, e⟩, g1, g2⟩ := Option.map_eq_some_iff.1 f1
  dsimp only at g2
  have same : ∀ (k : Int) (n : Nat), SameAudio .s24 .s24p (fun v => ((.s24 : PcmFormat) = .float ↔ (.s24p : PcmFormat) = .float) ∨ 0 ≤ v ∨ (⌊v⌋ : Rat) = v) n
      (.encode (squareS24 k)) (.encode (squareS24P k)) := by
    intro k n
    refine ⟨rfl, rfl, rfl, by show (20 : Int) ≤ (((List.replicate 20 0).length : Nat) : Int); decide,
      by show (20 : Int) ≤ (((List.replicate 22 7).length : Nat) : Int); decide, fun i _ => ?_⟩
    dsimp only [squareS24, squareS24P]
    have hi : (1 + (i : Int) * 2) / 2 = 0 + (i : Int) * 1 := by omega
    rw [hi]
    have key : ∀ p : Int, -8388608 ≤ p → p ≤ 8388607 → ∃ v : Rat, PcmFormat.s24.Holds v (show Int from p) ∧ PcmFormat.s24p.Holds v (bytes24 p) ∧
        (((.s24 : PcmFormat) = .float ↔ (.s24p : PcmFormat) = .float) ∨ 0 ≤ v ∨ (⌊v⌋ : Rat) = v) :=
      fun p h1 h2 => ⟨p / 256, ⟨h1, h2, by ring⟩, ⟨p, rfl, h1, h2, by ring⟩, Or.inl (by simp)⟩
    split
    · exact key _ (by norm_num) (by norm_num)
    · exact key _ (by norm_num) (by norm_num)
  obtain ⟨rets', k1, -, -, k2⟩ := C92_encode_partial squarePlatform exEncCandidates false 2500 8000 0 e0 h0 .s24 .s24p _ _
    (.cons (same 0 _) (.cons (same 1 _) (.cons (same 2 _) .nil))) rets e g1
  refine ⟨e0, e, rets, rets', h0, g1, k1, ?_⟩
  obtain ⟨r, r', q1, q2, q3⟩ := k2 2 _ rfl
  rw [g2] at q1
  cases q1
  rcases r' with _ | ⟨a, out⟩
  · cases q3
  · obtain ⟨rfl, q4⟩ := q3
    exact ⟨out, q2, q4 rfl⟩

/-! The hypotheses of `C92_output_partial` are met: the sample 5/2 is written 3, 640 and 5/65536. -/
example : F32.Finite (F32.round (5/2)) ∧ (-32768 ≤ fl (5/2) ∧ fl (5/2) ≤ 32767) ∧ |fl (5/2)| ≠ 1/2 - 1/2^25 ∧ |fl (5/2) * 256| ≠ 1/2 - 1/2^25 ∧
    pow2 (-111) ≤ |fl (5/2)| ∧ outS16 (5/2) = some 3 ∧ outS24 (5/2) = some 640 ∧ outFloat (5/2) = some (5/65536) := by
  refine ⟨by unfold F32.Finite; decide +kernel, ?_⟩
  decide +kernel

end LC3
