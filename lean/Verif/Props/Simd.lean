import Verif.Lemmas.LtpfLevel
import Verif.Props.Ltpf

/-!
The level of the signals that the analysis of the pitch supports (C39), and the variants of the analysis for the ARM processors (C65),
`src/ltpf_neon.h` and `src/ltpf_arm.h`.
-/

namespace LC3

variable {R : Type} (A : Arith R) (sqrtf : R → R)

/-! ### C39: a level without overflow -/

/-- **C39**, a level that excludes the overflow: on a fresh encoder, when no sample exceeds 15600 (47 % of the full scale), the analysis of
the pitch of any number of frames, of any content, is defined: no operation on integers overflows, no access is out of an array. For
every rate and duration, and any implementation of the floating point operations. -/
theorem C39_level (dt : Dt) (sr : Srate) (frames : List (List Int)) (hl : ∀ x ∈ frames, x.length = ns dt sr)
    (hv : ∀ x ∈ frames, ∀ v ∈ x, -15600 ≤ v ∧ v ≤ 15600) :
    ∃ os s, ltpfFrames (fun s buf => ltpfAnalyse A sqrtf dt sr s buf (nt sr)) (nt sr) (LtpfA.init A) (List.replicate (nt sr) 0) frames =
      some (os, s) ∧ os.length = frames.length := by
  obtain ⟨os, s, e, l, -⟩ := ltpfFrames_level A sqrtf dt sr frames (LtpfA.init A) (List.replicate (nt sr) 0) (LtpfA.init_level A)
    (fun x hx => by rw [List.eq_of_mem_replicate hx]; decide) List.length_replicate
    (fun x hx => ⟨hl x hx, fun v h => abs_le.mpr (hv x hx v h)⟩)
  exact ⟨os, s, e, l⟩

/-- Two frames of a square wave of 15600. -/
example : let x := List.flatten (List.replicate 4 (List.replicate 10 (15600 : Int) ++ List.replicate 10 (-15600)))
    ∃ os s, ltpfFrames (fun s buf => ltpfAnalyse A sqrtf .m10 .k8 s buf (nt .k8)) (nt .k8) (LtpfA.init A) (List.replicate (nt .k8) 0)
      [x, x] = some (os, s) ∧ os.length = 2 :=
  C39_level A sqrtf .m10 .k8 _ (by decide +kernel) (by decide +kernel)

/-! ### C65: the variants for the ARM processors -/

/-- **C65**, SIMD32: the analysis of any sequence of frames, of any 16-bit samples, gives the results of `src/ltpf.c`: same decisions, same
pitch, same state, and undefined in the same cases. The arrays are accessed by aligned pairs, within their limits. -/
theorem C65_simd32 (dt : Dt) (sr : Srate) (frames : List (List Int)) (hl : ∀ x ∈ frames, x.length = ns dt sr)
    (hv : ∀ x ∈ frames, ∀ v ∈ x, -32768 ≤ v ∧ v ≤ 32767) :
    ltpfFrames (fun s buf => ltpfAnalyseK A sqrtf (armKernels A) dt sr s buf (nt sr)) (nt sr) (LtpfA.init A) (List.replicate (nt sr) 0) frames =
    ltpfFrames (fun s buf => ltpfAnalyse A sqrtf dt sr s buf (nt sr)) (nt sr) (LtpfA.init A) (List.replicate (nt sr) 0) frames := by
  refine ltpfFrames_congr _ _ (nt sr) (ns dt sr) (fun s => s.Ok) I16 ?_ frames _ _ (LtpfA.init_ok A) ?_ List.length_replicate
    (fun x hx => ⟨hl x hx, hv x hx⟩)
  · intro s buf hs hb hlen
    refine ⟨ltpfAnalyseK_eq sqrtf armKernels_agree dt sr s hs buf (nt sr) hb (Nat.le_refl _) (by omega) (fun n hn =>
      armKernels_acc dt sr buf (nt sr) n hb (by cases sr <;> decide) (Nat.le_refl _) (by omega) hn)
      (fun _ _ => ⟨fun _ _ => trivial, fun _ _ => trivial, fun _ _ _ _ _ _ _ _ => trivial⟩), fun o s' e => ?_⟩
    obtain ⟨us, -, -, -, h⟩ := C39_analysis_partial A sqrtf dt sr s hs buf (nt sr) hb (Nat.le_refl _) (by omega)
    exact h o s' e
  · intro x hx; rw [List.eq_of_mem_replicate hx]; exact ⟨by decide, by decide⟩

/-- **C65**, Neon, the part that holds: when no sample exceeds 15600, the analysis of any sequence of frames gives the results of
`src/ltpf.c`, and is defined. Missing: the levels above, where the 32-bit lanes of `neon_dot` and `neon_correlate` may wrap. -/
theorem C65_neon_partial (dt : Dt) (sr : Srate) (frames : List (List Int)) (hl : ∀ x ∈ frames, x.length = ns dt sr)
    (hv : ∀ x ∈ frames, ∀ v ∈ x, -15600 ≤ v ∧ v ≤ 15600) :
    ltpfFrames (fun s buf => ltpfAnalyseK A sqrtf (neonKernels A) dt sr s buf (nt sr)) (nt sr) (LtpfA.init A) (List.replicate (nt sr) 0) frames =
    ltpfFrames (fun s buf => ltpfAnalyse A sqrtf dt sr s buf (nt sr)) (nt sr) (LtpfA.init A) (List.replicate (nt sr) 0) frames := by
  refine ltpfFrames_congr _ _ (nt sr) (ns dt sr) (fun s => s.Level) (fun v => |v| ≤ 15600) ?_ frames _ _ (LtpfA.init_level A) ?_
    List.length_replicate (fun x hx => ⟨hl x hx, fun v h => abs_le.mpr (hv x hx v h)⟩)
  · intro s buf hs hb hlen
    have hb16 := all16_of_level hb
    obtain ⟨⟨r, er, lr⟩, o, s1, e1, l1⟩ := ltpfAnalyse_level A sqrtf dt sr s hs buf (nt sr) hb (Nat.le_refl _) (by omega)
    refine ⟨ltpfAnalyseK_eq sqrtf neonKernels_agree dt sr s hs.ok buf (nt sr) hb16 (Nat.le_refl _) (by omega) (fun n hn =>
      neonKernels_acc dt sr buf (nt sr) n hb16 (Nat.le_refl _) (by omega) hn) (fun s' e => ?_), fun o' s' e => ?_⟩
    · rw [er] at e
      rw [← Option.some.inj e]
      exact ⟨fun x hx => by have := lr.x12 x hx; omega, fun x hx => by have := lr.x6 x hx; omega,
        fun b k n d u eu => interpolate_within r.x12k8 lr.x12 b k n d u eu⟩
    · rw [e1] at e
      have := Prod.mk.inj (Option.some.inj e)
      rw [← this.2]; exact l1
  · intro x hx; rw [List.eq_of_mem_replicate hx]; decide

/-- **C65**, Neon: `neon_dot` gives the result of `dot` for any values but those where `a[i] b[i]` and `a[i+4] b[i+4]`, added in the
same lane, are both `(-32768)^2`. -/
theorem C65_neon_dot_partial (a b : List Int) (hl : b.length = a.length) (h16 : a.length % 16 = 0)
    (va : ∀ x ∈ a, -32768 ≤ x ∧ x ≤ 32767) (vb : ∀ x ∈ b, -32768 ≤ x ∧ x ≤ 32767)
    (hw : ∀ i, i % 8 < 4 → ¬ (a[i]? = some (-32768) ∧ b[i]? = some (-32768) ∧ a[i + 4]? = some (-32768) ∧ b[i + 4]? = some (-32768))) :
    neonDot A a b = some (dotI A a b) :=
  neonDot_eq A a b hl h16 va vb hw

/-- **C65**, Neon, fails as a whole: on 16 values of -32768, the exact result is `2^28` and `neon_dot` gives `-2^28`, a negative energy. -/
theorem C65_neon_wraps : dotI A (List.replicate 16 (-32768)) (List.replicate 16 (-32768)) = A.ofInt (2 ^ 28) ∧
    neonDot A (List.replicate 16 (-32768)) (List.replicate 16 (-32768)) = some (A.ofInt (-2 ^ 28)) := by
  constructor
  · unfold dotI
    congr 1
  · unfold neonDot dotOut
    rfl

/-- The functions of `src/ltpf.c` as a parameter are those of the model. -/
theorem ltpfAnalyseK_generic (dt : Dt) (sr : Srate) (s : LtpfA R) (hs : s.Ok) (buf : List Int) (base : Nat) (hb : All16 buf)
    (h1 : nt sr ≤ base) (h2 : base + ns dt sr ≤ buf.length) :
    ltpfAnalyseK A sqrtf (genericKernels A) dt sr s buf base = ltpfAnalyse A sqrtf dt sr s buf base :=
  ltpfAnalyseK_eq (Q := fun _ => True) sqrtf ⟨fun _ _ _ _ _ _ => rfl, fun _ _ _ _ _ _ _ _ _ _ _ _ _ => rfl⟩ dt sr s hs buf base hb h1 h2
    (fun _ _ => rfl) (fun _ _ => ⟨fun _ _ => trivial, fun _ _ => trivial, fun _ _ _ _ _ _ _ _ => trivial⟩)

/-- The sum of the products of a full scale square wave of period 16 with itself, by `neon_dot`: no lane wraps. -/
example : let a := List.flatten (List.replicate 4 (List.replicate 8 (32767 : Int) ++ List.replicate 8 (-32767)))
    neonDot A a a = some (dotI A a a) :=
  C65_neon_dot_partial A _ _ rfl (by decide) (by decide) (by decide) (by
    intro i hi h
    have hm := List.mem_of_getElem? h.1
    revert hm
    decide)

end LC3
