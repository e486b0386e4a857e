import Verif.Props.Bounded
import Verif.Props.Pcm
import Verif.Props.Level

/-!
C86: the integer output of `lc3_decode`, whatever the frames received. The property is refuted by a frame of 20 bytes; what holds is proved for
every sequence of calls.
-/

namespace LC3

/-! ### The square root -/

/-- `sqrt24` satisfies what the theorems on the decoder suppose of the square root. -/
theorem sqrt24_near : SqrtNear sqrt24 := by
  intro q hq
  obtain ⟨e1, e2⟩ := rneExp_spec q hq
  obtain ⟨K, hK⟩ : ∃ K : Int, K = 24 - (expOf q).fdiv 2 := ⟨_, rfl⟩
  have hK' : K = 24 - rneExp q / 2 := by rw [hK, Int.fdiv_eq_ediv_of_nonneg _ (by norm_num)]; rfl
  obtain ⟨N, hN⟩ : ∃ N : Nat, N = (Rat.floor (q * pow2 (2 * K))).toNat := ⟨_, rfl⟩
  obtain ⟨s, hs⟩ : ∃ s : Nat, s = isqrt 25 N 0 := ⟨_, rfl⟩
  have hp := pow2_pos (2 * K)
  have l1 : pow2 48 ≤ q * pow2 (2 * K) := by
    have : pow2 48 ≤ pow2 (rneExp q + 2 * K) := pow2_le (by omega)
    rw [pow2_add] at this
    exact this.trans (mul_le_mul_of_nonneg_right e1 hp.le)
  have l2 : q * pow2 (2 * K) < pow2 50 := by
    have : pow2 (rneExp q + 1 + 2 * K) ≤ pow2 50 := pow2_le (by omega)
    rw [pow2_add] at this
    exact lt_of_lt_of_le (mul_lt_mul_of_pos_right e2 hp) this
  have p48 : pow2 48 = 2 ^ 48 := by decide +kernel
  have p50 : pow2 50 = 2 ^ 50 := by decide +kernel
  rw [p48] at l1
  rw [p50] at l2
  have hq0 : (0 : Rat) ≤ q * pow2 (2 * K) := by positivity
  have f1 : ((N : Nat) : Rat) ≤ q * pow2 (2 * K) := by
    have h0 : 0 ≤ Rat.floor (q * pow2 (2 * K)) := by
      have := Int.floor_nonneg.2 hq0
      exact this
    have : ((Rat.floor (q * pow2 (2 * K)) : Int) : Rat) ≤ q * pow2 (2 * K) := Int.floor_le _
    rw [hN]
    calc ((((Rat.floor (q * pow2 (2 * K))).toNat : Nat)) : Rat) = (((Rat.floor (q * pow2 (2 * K))).toNat : Int) : Rat) := by push_cast; rfl
      _ = ((Rat.floor (q * pow2 (2 * K)) : Int) : Rat) := by rw [Int.toNat_of_nonneg h0]
      _ ≤ _ := this
  have f2 : q * pow2 (2 * K) < ((N : Nat) : Rat) + 1 := by
    have h0 : 0 ≤ Rat.floor (q * pow2 (2 * K)) := by
      have := Int.floor_nonneg.2 hq0
      exact this
    have : q * pow2 (2 * K) < ((Rat.floor (q * pow2 (2 * K)) : Int) : Rat) + 1 := Int.lt_floor_add_one _
    rw [hN]
    calc _ < _ := this
      _ = (((Rat.floor (q * pow2 (2 * K))).toNat : Int) : Rat) + 1 := by rw [Int.toNat_of_nonneg h0]
      _ = _ := by push_cast; rfl
  have hN2 : N < 2 ^ 50 := by
    have : ((N : Nat) : Rat) < ((2 ^ 50 : Nat) : Rat) := by push_cast; linarith
    exact_mod_cast this
  obtain ⟨s1, s2⟩ := isqrt_spec 25 N 0 (by omega) (by norm_num; norm_num at hN2; exact hN2)
  rw [← hs] at s1 s2
  -- on the reals
  obtain ⟨t, ht⟩ : ∃ t : ℝ, t = Real.sqrt q * ((pow2 K : Rat) : ℝ) := ⟨_, rfl⟩
  have hpK : (0 : ℝ) < ((pow2 K : Rat) : ℝ) := by exact_mod_cast pow2_pos K
  have hq' : (0 : ℝ) < (q : ℝ) := by exact_mod_cast hq
  have ht0 : 0 ≤ t := by rw [ht]; positivity
  have htt : t * t = ((q * pow2 (2 * K) : Rat) : ℝ) := by
    rw [ht, show Real.sqrt q * ((pow2 K : Rat) : ℝ) * (Real.sqrt q * ((pow2 K : Rat) : ℝ)) =
      Real.sqrt q * Real.sqrt q * (((pow2 K : Rat) : ℝ) * ((pow2 K : Rat) : ℝ)) by ring, Real.mul_self_sqrt hq'.le, two_mul, pow2_add]
    push_cast
    rfl
  have g1 : (s : ℝ) * s ≤ t * t := by
    rw [htt]
    have : ((s * s : Nat) : Rat) ≤ q * pow2 (2 * K) := le_trans (by exact_mod_cast s1) f1
    have : (((s * s : Nat) : Rat) : ℝ) ≤ ((q * pow2 (2 * K) : Rat) : ℝ) := by exact_mod_cast this
    push_cast at this ⊢
    exact this
  have g2 : t * t < ((s : ℝ) + 1) * ((s : ℝ) + 1) := by
    rw [htt]
    have h1 : ((N : Nat) : Rat) + 1 ≤ (((s + 1) * (s + 1) : Nat) : Rat) := by exact_mod_cast s2
    have : q * pow2 (2 * K) < (((s + 1) * (s + 1) : Nat) : Rat) := lt_of_lt_of_le f2 h1
    have : ((q * pow2 (2 * K) : Rat) : ℝ) < ((((s + 1) * (s + 1) : Nat) : Rat) : ℝ) := by exact_mod_cast this
    push_cast at this ⊢
    exact this
  have g3 : (2 : ℝ) ^ 24 * 2 ^ 24 ≤ t * t := by
    rw [htt]
    have : (((2 ^ 48 : Rat)) : ℝ) ≤ ((q * pow2 (2 * K) : Rat) : ℝ) := by exact_mod_cast l1
    refine le_trans ?_ this
    norm_num
  have hs0 : (0 : ℝ) ≤ s := Nat.cast_nonneg s
  have c1 : (s : ℝ) ≤ t := by
    by_contra hc
    nlinarith [not_le.1 hc]
  have c2 : t < (s : ℝ) + 1 := by
    by_contra hc
    nlinarith [not_lt.1 hc]
  have c3 : (2 : ℝ) ^ 24 ≤ t := by
    by_contra hc
    have := not_le.1 hc
    nlinarith
  have hm : |(2 * ((s + 1) / 2 : Nat) : ℝ) - t| ≤ 1 := by
    rcases Nat.even_or_odd' s with ⟨k, hk | hk⟩
    · have : (s + 1) / 2 = k := by omega
      rw [this, abs_le]
      have : (s : ℝ) = 2 * (k : ℝ) := by rw [hk]; push_cast; ring
      constructor <;> linarith
    · have : (s + 1) / 2 = k + 1 := by omega
      rw [this, abs_le]
      have : (s : ℝ) = 2 * (k : ℝ) + 1 := by rw [hk]; push_cast; ring
      push_cast
      constructor <;> linarith
  have hval : ((sqrt24 q : Rat) : ℝ) * ((pow2 K : Rat) : ℝ) = 2 * (((s + 1) / 2 : Nat) : ℝ) := by
    have : sqrt24 q = (2 * ((s + 1) / 2 : Nat) : Rat) * pow2 (-K) := by
      unfold sqrt24
      rw [if_neg (not_le.2 hq)]
      dsimp only
      rw [← hK, ← hN, ← hs]
      congr 1
      have : (if s % 2 = 0 then s else s + 1 : Nat) = 2 * ((s + 1) / 2) := by split <;> omega
      rw [this]
      push_cast
      rfl
    have h2 : sqrt24 q * pow2 K = 2 * (((s + 1) / 2 : Nat) : Rat) := by
      rw [this, mul_assoc, ← pow2_add, neg_add_cancel, pow2_zero, mul_one]
    have h3 : ((sqrt24 q * pow2 K : Rat) : ℝ) = ((2 * (((s + 1) / 2 : Nat) : Rat) : Rat) : ℝ) := by rw [h2]
    push_cast at h3 ⊢
    exact h3
  rw [← hval, ht, ← sub_mul, abs_mul, abs_of_pos hpK] at hm
  rw [ht] at c3
  have hsq := Real.sqrt_pos.2 hq'
  rw [le_div_iff₀ (by norm_num)]
  have : |((sqrt24 q : Rat) : ℝ) - Real.sqrt q| * ((pow2 K : Rat) : ℝ) * 2 ^ 24 ≤ Real.sqrt q * ((pow2 K : Rat) : ℝ) := by nlinarith
  nlinarith

/-! ### The frame -/

/-- The output on 16 bits, `LC3_PCM_FORMAT_S16`: `none` is a conversion out of the range of `int`. -/
def outS16 (v : Rat) : Option Int := storeS16 (Arith.rounded rne24) (F32.round v)

/-- The output on 24 bits, `LC3_PCM_FORMAT_S24`, and `LC3_PCM_FORMAT_S24_3LE` before the separation of the bytes. -/
def outS24 (v : Rat) : Option Int := storeS24 (Arith.rounded rne24) (F32.round v)

/-- The output in `float`, `LC3_PCM_FORMAT_FLOAT`: `none` is an overflow of the integer arithmetic of `lc3_ldexpf`. -/
def outFloat (v : Rat) : Option Rat := storeFloat (F32.round v)

/-- A frame of 20 bytes, for 2.5 ms at 8 kHz: a global gain of `10^(129/28)`, and two coefficients at 65535 and -65535. -/
def hostileFrame : List Nat :=
  [255, 244, 7, 186, 164, 0, 0, 0, 0, 111, 255, 255, 255, 255, 232, 245, 124, 0, 31, 224]

/-- The call that decodes the frame. -/
def hostileCall {α : Type} (conv : Rat → α) : DecCall Rat α :=
  ⟨some hostileFrame, 20, conv, 0, 1, ⟨⟨false, 0⟩, fun _ => 0, fun _ => 0⟩⟩

/-- The value returned, and the output 17, of the decoder just setup that receives the frame. -/
def hostileRun {α : Type} (conv : Rat → α) (z : α) : Option (Int × α) :=
  (decSetup (Arith.rounded fl) false 2500 8000 0 true).bind fun d =>
  (lc3Decode (flPlatform sqrt24 id) (hostileCall conv) d (fun _ => z)).map fun r => (r.1, r.2.2 17)

theorem hostileRun_value : hostileRun (id : Rat → Rat) 0 = some (0, -3719008000) := by decide +kernel

theorem hostileRun_s16 : hostileRun outS16 (some 0) = some (0, none) := by decide +kernel

theorem hostileRun_s24 : hostileRun outS24 (some 0) = some (0, none) := by decide +kernel

theorem hostileRun_spec {α : Type} (conv : Rat → α) (z v : α) (h : hostileRun conv z = some (0, v)) :
    ∃ d o mem, Played (flPlatform sqrt24 id) false 2500 8000 0 ([] : List (DecCall Rat α)) [] d (fun _ => z) ∧
      lc3Decode (flPlatform sqrt24 id) (hostileCall conv) (some d) (fun _ => z) = some (0, o, mem) ∧ mem 17 = v := by
  unfold hostileRun at h
  obtain ⟨d, h1, h2⟩ := Option.bind_eq_some_iff.1 h
  obtain ⟨⟨ret, o, mem⟩, h3, h4⟩ := Option.map_eq_some_iff.1 h2
  simp only [Prod.mk.injEq] at h4
  obtain ⟨rfl, rfl⟩ := h4
  cases d with
  | none =>
    unfold lc3Decode at h3
    dsimp only at h3
    simp only [Option.some.injEq, Prod.mk.injEq] at h3
    exact absurd h3.1 (by decide)
  | some d => exact ⟨d, o, mem, ⟨fun c hc => (by cases hc), d, fun _ => z, h1, rfl⟩, h3, rfl⟩

theorem hostile_ok {α : Type} (conv : Rat → α) : CallOk (hostileCall conv) :=
  ⟨fun r hr => by
    obtain rfl : hostileFrame = r := Option.some.inj hr
    exact ⟨(by unfold Bytes; decide), (by decide : (20 : Int) ≤ ((hostileFrame.length : Nat) : Int))⟩, fun h => by cases h⟩

/-! ### C86 -/

/-- **C86**, refuted: a decoder just setup, at 8 kHz and 2.5 ms, accepts a frame of 20 bytes (the value returned is 0) and converts to `int` a sample out of
its range, in the format on 16 bits as in the one on 24 bits. -/
theorem C86_refuted (f : Rat → Option Int) (hf : f = outS16 ∨ f = outS24) :
    ¬ ∀ (P : Platform Rat) (hr : Bool) (dtUs srHz srPcmHz : Int) (calls : List (DecCall Rat (Option Int))) (rets : List Int) (d : Dec Rat)
      (mem : Int → Option Int) (c : DecCall Rat (Option Int)) (ret : Int) (o : Option (Dec Rat)) (mem' : Int → Option Int), Single fl P →
      Played P hr dtUs srHz srPcmHz calls rets d mem → CallOk c → c.conv = f → lc3Decode P c (some d) mem = some (ret, o, mem') → ret = 0 →
      ∀ i, (∀ j, mem j ≠ none) → mem' i ≠ none := by
  intro h
  have hr : hostileRun f (some 0) = some (0, none) := by
    rcases hf with rfl | rfl
    · exact hostileRun_s16
    · exact hostileRun_s24
  obtain ⟨d, o, mem, h1, h2, h3⟩ := hostileRun_spec f (some 0) none hr
  exact h _ _ _ _ _ _ _ _ _ _ _ _ _ (C85_platform sqrt24 sqrt24_near id) h1 (hostile_ok f) rfl h2 rfl 17 (fun j => by simp) h3

/-- **C86**, what holds, whatever the frames received, refused or lost: a call that gives samples gives numbers, each written

* on 16 bits as the closest integer, saturated, up to `2^31 - 129` (out of the two exceptions of C32);
* on 24 bits as the closest to 256 times the sample, up to `2^31 - 129` after this product;
* in `float` exactly as the sample divided by `2^15`, limited to 1, without any limit of magnitude, but for a sample under `2^-111` that is not null.

Missing: the samples beyond, that a frame received can produce (`C86_refuted`), and the tiny ones (C33). -/
theorem C86_output_partial {α : Type} (P : Platform Rat) (hP : Single fl P) (hr : Bool) (dtUs srHz srPcmHz : Int) (calls : List (DecCall Rat α))
    (rets : List Int) (d : Dec Rat) (mem : Int → α) (h : Played P hr dtUs srHz srPcmHz calls rets d mem) (c : DecCall Rat α) (hc : CallOk c) (ret : Int)
    (o : Option (Dec Rat)) (mem' : Int → α) (hs : lc3Decode P c (some d) mem = some (ret, o, mem')) (hret : ret ≠ -1) :
    ∃ xs : List Rat, xs.length = ns d.dt d.srPcm ∧ mem' = pcmStore c.stride c.base (xs.map c.conv) mem ∧ ∀ v ∈ xs, F32.Finite (F32.round v) ∧
      (|fl v| ≤ 2 ^ 31 - 129 → ∃ y, outS16 v = some y ∧ (|fl v| ≠ 1/2 - 1/2^25 → NearestIn (-32768) 32767 (fl v) y)) ∧
      (|fl v * 256| ≤ 2 ^ 31 - 129 → ∃ y, outS24 v = some y ∧ (|fl v * 256| ≠ 1/2 - 1/2^25 → NearestIn (-8388608) 8388607 (fl v * 256) y)) ∧
      (fl v = 0 ∨ pow2 (-111) ≤ |fl v| → outFloat v = some (wantedFloat (fl v))) := by
  obtain ⟨xs, h1, h2, h3⟩ := C85_bounded P hP hr dtUs srHz srPcmHz calls rets d mem h c hc ret o mem' hs hret
  refine ⟨xs, h1, h2, fun v hv => ?_⟩
  have hfin := (fl_cases v ((h3 v hv).trans (by rw [pow2_126']; norm_num))).1
  exact ⟨hfin, C32_store_s16_partial _ hfin, C32_store_s24_partial _ hfin, (C33_float_partial _ hfin).1⟩

/-- Non vacuity: the frame of `C86_refuted` itself, in `float`: the sample 17 is limited to -1. -/
example : ∃ (P : Platform Rat) (d : Dec Rat) (o : Option (Dec Rat)) (mem' : Int → Option Rat), Single fl P ∧
    Played P false 2500 8000 0 ([] : List (DecCall Rat (Option Rat))) [] d (fun _ => some 0) ∧ CallOk (hostileCall outFloat) ∧
    lc3Decode P (hostileCall outFloat) (some d) (fun _ => some 0) = some (0, o, mem') ∧ mem' 17 = some (-1) := by
  obtain ⟨d, o, mem, h1, h2, h3⟩ := hostileRun_spec outFloat (some 0) (some (-1)) (by decide +kernel)
  exact ⟨_, d, o, mem, C85_platform sqrt24 sqrt24_near id, h1, hostile_ok _, h2, h3⟩

end LC3
