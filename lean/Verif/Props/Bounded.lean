import Verif.Lemmas.DecMag
import Verif.Props.Fastmath

/-!
**C85.** The samples of the decoder do not overflow the single precision, whatever the frames received, refused or lost.
-/

namespace LC3
open Finset

variable {rnd : Rat → Rat}

/-- The decoder after a setup. -/
theorem decSetup_mag (P : Platform Rat) (hP : Single rnd P) (hr : Bool) (dtUs srHz srPcmHz : Int) (m : Bool) (d : Dec Rat)
    (h : decSetup P.A hr dtUs srHz srPcmHz m = some (some d)) : DecMag d := by
  obtain ⟨i1, -, i3, -⟩ := decSetup_inv P hr dtUs srHz srPcmHz m d h
  have hz : (Arith.rounded rnd).ofRat 0 = 0 := hP.round.zero
  have hz' : (Arith.rounded rnd).ofInt 0 = 0 := by
    show rnd ((0 : Int) : Rat) = 0
    rw [Int.cast_zero]; exact hP.round.zero
  unfold decSetup at h
  obtain ⟨o, e1, h⟩ := Option.map_eq_some_iff.1 h
  obtain ⟨l, e2, h⟩ := Option.map_eq_some_iff.1 h
  rw [hP.arith] at h
  have hx : ∀ k, d.x.getD k 0 = 0 := by
    intro k
    rw [← h, List.getD_eq_getElem?_getD]
    dsimp only
    rw [List.getElem?_replicate, hz]
    split <;> rfl
  have hl : d.ltpf = LtpfS.init (Arith.rounded rnd) := by rw [← h]
  have hp : d.plc.alpha = rnd 1 := by rw [← h]; rfl
  refine ⟨fun k _ => ?_, fun k _ => ?_, ?_, fun hh => ⟨i1.ltpf hh, fun i => ?_, fun ha => ?_, fun ha => ?_⟩, ?_⟩
  · rw [hx, abs_zero]; norm_num [ltpfMax, inMax]
  · rw [hx, abs_zero]; norm_num
  · rw [sum_congr rfl fun k _ => by rw [hx, abs_zero], sum_const_zero]; norm_num [specSum]
  · rw [hl]
    unfold LtpfS.init
    dsimp only
    rw [hz', List.getD_eq_getElem?_getD, List.getElem?_replicate]
    split <;> norm_num [inMax]
  · rw [hl] at ha; cases ha
  · rw [hl] at ha; cases ha
  · rw [hp, i3]
    unfold plcMax
    exact (hP.round.mag (x := 1) (b := 1) (by norm_num) (by norm_num)).trans (by norm_num)

theorem complete_mag {d : Dec Rat} (h : DecMag d) : DecMag (complete d) := ⟨h.ring, h.delayed, h.kept, h.ltpf, h.alpha⟩

/-- A call, on a decoder in a reachable state. -/
theorem lc3Decode_mag {α : Type} (P : Platform Rat) (hP : Single rnd P) (c : DecCall Rat α) (d : Dec Rat) (mem : Int → α) (hd : DecInv P.A d) (hm : DecMag d)
    (hc : CallOk c) (ret : Int) (o : Option (Dec Rat)) (mem' : Int → α) (hs : lc3Decode P c (some d) mem = some (ret, o, mem')) :
    ∃ d', o = some d' ∧ DecInv P.A d' ∧ DecMag d' ∧ (ret = -1 ∧ mem' = mem ∨ ret ≠ -1 ∧ ∃ xs : List Rat, xs.length = ns d.dt d.srPcm ∧
      mem' = pcmStore c.stride c.base (xs.map c.conv) mem ∧ ∀ v ∈ xs, |v| ≤ ltpfMax * inMax) := by
  rcases lc3Decode_step P c d mem hd hc with ⟨-, -, s⟩ | ⟨-, -, -, s⟩ | ⟨hna, ret', d2, xs, s, s2, s3, s4, s5, s6⟩
  · rw [s] at hs
    simp only [Option.some.injEq, Prod.mk.injEq] at hs
    obtain ⟨rfl, rfl, rfl⟩ := hs
    exact ⟨d, rfl, hd, hm, .inl ⟨rfl, rfl⟩⟩
  · rw [s] at hs; cases hs
  · have hs0 := hs
    have hmax : c.inp.isSome → 20 ≤ c.nbytes ∧ c.nbytes ≤ 625 := by
      intro h
      have := maxFrame_le d.dt d.sr
      have h' := not_and.1 hna h
      omega
    have hcnt : (∀ F, c.frame = some F → Refused P d F) → d.plc.count + 1 < 2 ^ 31 := by
      intro hall
      by_contra hov
      have hov' := decProcess_overflow P c d mem hd hc hall (by omega)
      unfold lc3Decode at hs0
      dsimp only at hs0
      rw [if_neg hna, hov'] at hs0
      cases hs0
    obtain ⟨ret2, d3, xs', p1, p2, p3, p4, p5, p6⟩ := decProcess_mag P hP c d mem hd hm hc hcnt hmax
    unfold lc3Decode at hs
    dsimp only at hs
    rw [if_neg hna, p1, Option.map_some] at hs
    simp only [Option.some.injEq, Prod.mk.injEq] at hs
    obtain ⟨rfl, rfl, rfl⟩ := hs
    exact ⟨complete d3, rfl, complete_inv p2, complete_mag p3, .inr ⟨p6, xs', p4, rfl, p5⟩⟩

theorem decRun_mag {α : Type} (P : Platform Rat) (hP : Single rnd P) (calls : List (DecCall Rat α)) : ∀ (d : Dec Rat) (mem : Int → α), DecInv P.A d → DecMag d →
    (∀ c ∈ calls, CallOk c) → ∀ rets o mem', decRun P calls (some d) mem = some (rets, o, mem') → ∃ d', o = some d' ∧ DecInv P.A d' ∧ DecMag d' := by
  induction calls with
  | nil =>
    intro d mem hd hm _ rets o mem' h
    unfold decRun at h
    injection h with h
    injection h with h1 h
    injection h with h2 h3
    exact ⟨d, h2.symm, hd, hm⟩
  | cons c l ih =>
    intro d mem hd hm hok rets o mem' h
    unfold decRun at h
    obtain ⟨r, h1, h2⟩ := Option.bind_eq_some_iff.1 h
    obtain ⟨w, h3, h4⟩ := Option.map_eq_some_iff.1 h2
    obtain ⟨r1, r2, r3⟩ := r
    obtain ⟨d', e1, e2, e3, -⟩ := lc3Decode_mag P hP c d mem hd hm (hok c (List.mem_cons_self ..)) r1 r2 r3 h1
    subst e1
    obtain ⟨w1, w2, w3⟩ := w
    simp only [Prod.mk.injEq] at h4
    obtain ⟨-, h5, -⟩ := h4
    obtain ⟨d2, f1, f2⟩ := ih d' r3 e2 e3 (fun x hx => hok x (List.mem_cons_of_mem _ hx)) w1 w2 w3 h3
    exact ⟨d2, h5.symm.trans f1, f2⟩

/-- **C85.** In single precision, whatever the frames received, refused or lost by any sequence of calls on a decoder just setup: a call that
gives samples gives numbers whose magnitude is at most `2^105`. Nothing is assumed of the outcome of an operation over `2^126`: none takes part
in the samples. -/
theorem C85_bounded {α : Type} (P : Platform Rat) (hP : Single rnd P) (hr : Bool) (dtUs srHz srPcmHz : Int) (calls : List (DecCall Rat α)) (rets : List Int)
    (d : Dec Rat) (mem : Int → α) (h : Played P hr dtUs srHz srPcmHz calls rets d mem) (c : DecCall Rat α) (hc : CallOk c) (ret : Int)
    (o : Option (Dec Rat)) (mem' : Int → α) (hs : lc3Decode P c (some d) mem = some (ret, o, mem')) (hret : ret ≠ -1) :
    ∃ xs : List Rat, xs.length = ns d.dt d.srPcm ∧ mem' = pcmStore c.stride c.base (xs.map c.conv) mem ∧ ∀ v ∈ xs, |v| ≤ 2 ^ 105 := by
  obtain ⟨ok, d0, mem0, h1, h2⟩ := h
  obtain ⟨i1, -⟩ := decSetup_inv P hr dtUs srHz srPcmHz true d0 h1
  obtain ⟨d', e1, e2, e3⟩ := decRun_mag P hP calls d0 mem0 i1 (decSetup_mag P hP hr dtUs srHz srPcmHz true d0 h1) ok _ _ _ h2
  obtain rfl := Option.some.inj e1
  obtain ⟨d2, -, -, -, ⟨g1, -⟩ | ⟨-, xs, g1, g2, g3⟩⟩ := lc3Decode_mag P hP c d mem e2 e3 hc ret o mem' hs
  · exact absurd g1 hret
  · exact ⟨xs, g1, g2, fun v hv => (g3 v hv).trans (by norm_num [ltpfMax, inMax])⟩

/-- **C85**, the memory of the decoder: between two calls, all the samples and coefficients kept by the decoder stay within `2^105`, the coefficients
that a loss would replay sum to at most `3e29`, and a loss never amplifies them by more than `1 + 4e-6`. -/
theorem C85_state {α : Type} (P : Platform Rat) (hP : Single rnd P) (hr : Bool) (dtUs srHz srPcmHz : Int) (calls : List (DecCall Rat α)) (rets : List Int)
    (d : Dec Rat) (mem : Int → α) (h : Played P hr dtUs srHz srPcmHz calls rets d mem) :
    (∀ v ∈ d.x, |v| ≤ 2 ^ 105) ∧ (d.sr.hr = false → ∀ v ∈ d.ltpf.x, |v| ≤ 2 ^ 105) ∧ |d.plc.alpha| ≤ 1 + 4 / 10 ^ 6 ∧
      ∑ k ∈ range (ns d.dt d.srPcm), |d.x.getD (d.xgOff + k) 0| ≤ 3 * 10 ^ 29 := by
  obtain ⟨ok, d0, mem0, h1, h2⟩ := h
  obtain ⟨i1, -⟩ := decSetup_inv P hr dtUs srHz srPcmHz true d0 h1
  obtain ⟨d', e1, e2, e3⟩ := decRun_mag P hP calls d0 mem0 i1 (decSetup_mag P hP hr dtUs srHz srPcmHz true d0 h1) ok _ _ _ h2
  obtain rfl := Option.some.inj e1
  refine ⟨fun v hv => ?_, fun hh v hv => ?_, e3.alpha.trans (plcMax_le _), e3.kept⟩
  · obtain ⟨k, hk, rfl⟩ := List.getElem_of_mem hv
    rw [← List.getD_eq_getElem _ 0 hk]
    have hxd := e2.xd
    have hxg := e2.xg
    have hlen := e2.len
    by_cases c1 : k < d.xdOff
    · exact (e3.ring k c1).trans (by norm_num [ltpfMax, inMax])
    · by_cases c2 : k < d.xgOff
      · have := e3.delayed (k - d.xdOff) (by omega)
        rw [show d.xdOff + (k - d.xdOff) = k by omega] at this
        exact this.trans (by norm_num)
      · have := single_le_sum (f := fun k => |d.x.getD (d.xgOff + k) 0|) (fun _ _ => abs_nonneg _)
          (mem_range.2 (show k - d.xgOff < ns d.dt d.srPcm by omega))
        rw [show d.xgOff + (k - d.xgOff) = k by omega] at this
        exact (this.trans e3.kept).trans (by norm_num [specSum])
  · obtain ⟨k, hk, rfl⟩ := List.getElem_of_mem hv
    have := (e3.ltpf hh).x k
    rw [List.getD_eq_getElem _ 0 hk] at this
    unfold inMax at this
    norm_num at this ⊢; linarith

/-! ### The single precision -/

theorem pow2_126' : pow2 126 = 2 ^ 126 := by decide +kernel

theorem fl_roundF : RoundF fl where
  zero := by decide +kernel
  near x hx := by
    have h1 := fl_error x (by rw [pow2_126']; exact hx)
    refine h1.trans (le_of_eq ?_)
    rw [add_div]
    congr 1
    decide +kernel
  rel x h1 h2 := by
    rw [fl_normal x (by rw [show pow2 (-126) = 1 / 2 ^ 126 by decide +kernel]; exact h1) (by rw [pow2_126']; exact h2)]
    exact rne24_error x

/-- The platform of the code: binary32 numbers, the square root given, `lc3_exp2f` as in src/fastmath.h. The
decoder does not use `log2`. -/
def flPlatform (sqrt : Rat → Rat) (sh32 : Nat → Nat) : Platform Rat where
  A := Arith.rounded fl
  M := { sqrt := sqrt, exp2 := fun v => F32.value (exp2Bits (F32.round v)), log2 := fun v => v, fltMax := 2 ^ 128 - 2 ^ 104 }
  sqrt := sqrt
  sh32 := sh32

/-- The hypotheses of C85 are met by the binary32 arithmetic with a square root rounded to 24 bits, and `lc3_exp2f`. -/
theorem C85_platform (sqrt : Rat → Rat) (hs : SqrtNear sqrt) (sh32 : Nat → Nat) : Single fl (flPlatform sqrt sh32) where
  round := fl_roundF
  arith := rfl
  sqrt := hs
  sqrtSns := hs
  exp2 v hv := (exp2_near (F32.round v) hv).2

/-- Non vacuity: with the binary32 arithmetic, a decoder at 48 kHz that receives any frame of 100 bytes, loses two, and receives another: the last
call gives samples. -/
example (F G : List Nat) (hF : Bytes F) (hG : Bytes G) (lF : F.length = 100) (lG : G.length = 100) (u : Junk Rat) :
    ∃ (P : Platform Rat) (d : Dec Rat) (rets : List Int) (mem : Int → Rat) (ret : Int) (o : Option (Dec Rat)) (mem' : Int → Rat), Single fl P ∧
      Played P false 10000 48000 0 [⟨some F, 100, id, 0, 1, u⟩, ⟨none, 100, id, 0, 1, u⟩, ⟨none, 100, id, 0, 1, u⟩] rets d mem ∧
      lc3Decode P ⟨some G, 100, id, 0, 1, u⟩ (some d) mem = some (ret, o, mem') ∧ ret ≠ -1 := by
  obtain ⟨sqrt, hs⟩ := sqrt_exists
  have hP := C85_platform sqrt hs id
  obtain ⟨P, eP⟩ : ∃ P, P = flPlatform sqrt id := ⟨_, rfl⟩
  rw [← eP] at hP
  have hset : ∃ d0, decSetup P.A false 10000 48000 0 true = some (some d0) := by
    unfold decSetup
    have : ∃ l, setupDecoder false 10000 48000 0 true = some (some l) := by
      have : ((setupDecoder false 10000 48000 0 true).bind id).isSome = true := by decide
      obtain ⟨l, hl⟩ := Option.isSome_iff_exists.1 this
      obtain ⟨o, e1, e2⟩ := Option.bind_eq_some_iff.1 hl
      exact ⟨l, by rw [e1]; exact congrArg some e2⟩
    obtain ⟨l, hl⟩ := this
    rw [hl]
    exact ⟨_, rfl⟩
  obtain ⟨d0, h0⟩ := hset
  have okF : ∀ H : List Nat, Bytes H → H.length = 100 → CallOk (⟨some H, 100, id, 0, 1, u⟩ : DecCall Rat Rat) := fun H hB hl =>
    ⟨fun r hr => by
      obtain rfl : H = r := Option.some.inj hr
      exact ⟨hB, by rw [hl]; exact (by decide : (100 : Int) ≤ ((100 : Nat) : Int))⟩, fun h => by cases h⟩
  have okL : CallOk (⟨none, 100, id, 0, 1, u⟩ : DecCall Rat Rat) := ⟨fun r hr => (by cases hr), fun _ => (by decide : (0 : Int) ≤ 100 ∧ (100 : Int) ≤ sizeLimit)⟩
  have hok : ∀ c ∈ [⟨some F, 100, id, 0, 1, u⟩, ⟨none, 100, id, 0, 1, u⟩, (⟨none, 100, id, 0, 1, u⟩ : DecCall Rat Rat)], CallOk c := by
    intro c hc
    simp only [List.mem_cons, List.not_mem_nil, or_false] at hc
    rcases hc with rfl | rfl | rfl
    · exact okF F hF lF
    · exact okL
    · exact okL
  obtain ⟨rets, d, mem, hrun⟩ := C56_no_ub P false 10000 48000 0 true d0 h0 _ hok (fun _ => 0) (by simp)
  have hpl : Played P false 10000 48000 0 [⟨some F, 100, id, 0, 1, u⟩, ⟨none, 100, id, 0, 1, u⟩, ⟨none, 100, id, 0, 1, u⟩] rets d mem :=
    ⟨hok, d0, _, h0, hrun⟩
  obtain ⟨i1, i2, i3, -, i5, -, i7⟩ := hpl.inv
  have hb := burst_le rets
  rw [i7] at hb
  have hdt : d.dt = .m10 := by
    have : resolveDt 10000 false = some .m10 := by decide
    rw [this] at i2; exact (Option.some.inj i2).symm
  have hsr : d.sr = .k48 := by
    have : resolveSrate 48000 false = some .k48 := by decide
    rw [this] at i3; exact (Option.some.inj i3).symm
  rcases lc3Decode_step P ⟨some G, 100, id, 0, 1, u⟩ d mem i1 (okF G hG lG) with ⟨-, a, -⟩ | ⟨-, -, a, -⟩ | ⟨-, ret, d2, xs, s, -, -, -, s5, -⟩
  · rw [hdt, hsr] at a
    exact absurd a (by decide : ¬ ((100 : Int) < 20 ∨ (100 : Int) > (maxFrameBytes .m10 .k48 : Int)))
  · rw [i5] at a
    simp only [List.length_cons, List.length_nil] at hb
    omega
  · refine ⟨P, d, rets, mem, ret, _, _, hP, hpl, s, ?_⟩
    rcases s5 with ⟨t, -⟩ | ⟨t, -⟩ <;> rw [t] <;> decide

end LC3
