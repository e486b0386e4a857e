import Verif.Lemmas.DecFade
import Verif.Props.Hostile

/-!
**C87.** A burst of losses fades to silence.
-/

namespace LC3
open Finset

variable {rnd : Rat → Rat}

theorem plcSuspend_fade (h : RoundF rnd) (p : Plc Rat) : |(plcSuspend (Arith.rounded rnd) p).alpha| ≤ fadeMax 0 := by
  show |rnd 1| ≤ _
  refine (h.mag (x := 1) (b := 1) (by norm_num) (by norm_num)).trans ?_
  unfold fadeMax
  norm_num

/-- Bound of the samples of a frame concealed after `n` losses, when the coefficients replayed sum to `S`. -/
def fadeOut (n : Nat) (S : Rat) : Rat := 1001 / 1000 * fadeTail n S + fadeTail (n + 1) S

theorem lc3Decode_fade {α : Type} (P : Platform Rat) (hP : Single rnd P) (c : DecCall Rat α) (d : Dec Rat) (mem : Int → α) (hd : DecInv P.A d) (hm : DecMag d)
    (n : Nat) (hf : DecFade d n) (hc : CallOk c) (ret : Int) (d' : Dec Rat) (mem' : Int → α)
    (hs : lc3Decode P c (some d) mem = some (ret, some d', mem')) :
    ret = -1 ∧ d' = d ∨ ret = 0 ∧ DecFade d' 0 ∨ ret = 1 ∧ DecFade d' (n + 1) ∧ keptSum d' = keptSum d ∧ d'.dt = d.dt ∧ d'.srPcm = d.srPcm ∧
      ∃ xs : List Rat, xs.length = ns d.dt d.srPcm ∧ mem' = pcmStore c.stride c.base (xs.map c.conv) mem ∧
        (1 ≤ n → ∀ v ∈ xs, |v| ≤ fadeOut n (keptSum d)) := by
  have hs0 := hs
  unfold lc3Decode at hs
  dsimp only at hs
  split at hs
  · simp only [Option.some.injEq, Prod.mk.injEq] at hs
    exact .inl ⟨hs.1.symm, hs.2.1.symm⟩
  right
  rename_i hna
  obtain ⟨w, hw, hs⟩ := Option.map_eq_some_iff.1 hs
  unfold decProcess at hw
  obtain ⟨o, d1, a1, a2, a3, a4, a5, a6, a7, a8⟩ := decInput_spec P c d hd hc
  rw [a1, Option.bind_some] at hw
  obtain ⟨d3, b1, hw⟩ := Option.bind_eq_some_iff.1 hw
  obtain ⟨xs, b2, hw⟩ := Option.bind_eq_some_iff.1 hw
  obtain rfl := Option.some.inj hw
  simp only [Prod.mk.injEq, Option.some.injEq] at hs
  obtain ⟨hret, rfl, hmem⟩ := hs
  dsimp only at b1 b2 hret hmem ⊢
  have hxd := hd.xd
  have hxg := hd.xg
  have hxs := hd.xsLe
  have hin : DecMagIn d1 := by
    refine ⟨?_, ?_, ?_, ?_, ?_⟩
    · rw [a3.xd, a3.xs, a3.dt, a3.srPcm]
      intro k h1 h2
      rw [getD_of_opt (a6 k h2)]; exact hm.ring k h1
    · rw [a3.xd, a3.dt, a3.srPcm]
      intro k hk
      rw [getD_of_opt (a6 _ (by omega))]; exact hm.delayed k hk
    · rw [a3.xg, a3.dt, a3.srPcm, sum_congr rfl fun k _ => by rw [getD_of_opt (a6 (d.xgOff + k) (by omega))]]
      exact hm.kept
    · rw [a3.sr, a3.srPcm, a4]; exact hm.ltpf
    · rw [a5]; exact hm.alpha
  have hk1 : keptSum d1 = keptSum d := by
    unfold keptSum
    rw [a3.xg, a3.dt, a3.srPcm]
    exact sum_congr rfl fun k _ => by rw [getD_of_opt (a6 (d.xgOff + k) (by omega))]
  have hf1 : DecFade d1 n := by
    refine ⟨by rw [a5]; exact hf.count, by rw [a5]; exact hf.alpha, fun hn => by rw [a3.sr, a4]; exact hf.ltpf hn, fun hn => ?_⟩
    rw [a3.xd, a3.dt, a3.srPcm, hk1]
    intro k hk
    rw [getD_of_opt (a6 _ (by omega))]; exact hf.tail hn k hk
  have hcomp : ∀ {e : Dec Rat} {m : Nat}, DecFade e m → DecFade (complete e) m := fun h => ⟨h.count, h.alpha, h.ltpf, h.tail⟩
  unfold synthesize at b1
  cases o with
  | some side =>
    left
    refine ⟨by rw [← hret, if_neg (by simp)], hcomp ?_⟩
    obtain ⟨F, s, f1, f2, f3, f4⟩ := a8 side rfl
    obtain ⟨d2, c1, c2⟩ := Option.bind_eq_some_iff.1 b1
    rw [← a3.dt, ← a3.sr] at f3 f4
    obtain ⟨d2', xd, g, t, e, -, -, -, g4, g5, g6, g7, -⟩ := synthGood_spec P c.junk d1 a2 side F.length f4 _ f3
    dsimp only at c1
    rw [g4] at c1
    obtain rfl := Option.some.inj c1
    have hpl : d3.plc = d2'.plc := by
      unfold synthLtpf at c2
      split at c2
      · obtain rfl := Option.some.inj c2; rfl
      · obtain ⟨ring, w1, c2⟩ := Option.bind_eq_some_iff.1 c2
        obtain ⟨r, l0, c2⟩ := Option.bind_eq_some_iff.1 c2
        obtain ⟨x', p1, c2⟩ := Option.bind_eq_some_iff.1 c2
        obtain rfl := Option.some.inj c2
        rfl
    refine ⟨?_, ?_, fun hn => absurd hn (by omega), fun hn => absurd hn (by omega)⟩
    · rw [hpl, g7]; rfl
    · rw [hpl, g7, hP.arith]; exact plcSuspend_fade hP.round _
  | none =>
    right
    have hcnt : d1.plc.count + 1 < 2 ^ 31 := by
      by_contra hov
      have hov' := decProcess_overflow P c d mem hd hc (a7.1 rfl) (by rw [← a5]; omega)
      unfold lc3Decode at hs0
      dsimp only at hs0
      rw [if_neg hna, hov'] at hs0
      cases hs0
    obtain ⟨d2, c1, c2⟩ := Option.bind_eq_some_iff.1 b1
    dsimp only at c1
    obtain ⟨d2', e1, e2, e3, e4⟩ := synthLost_mag hP.round P hP.arith hP.sqrt c.junk d1 a2 hin hcnt
    rw [c1] at e1
    obtain rfl := Option.some.inj e1
    obtain ⟨f1, f2, f3, f4, f5, f6, f7⟩ := synthLost_fade hP.round P hP.arith hP.sqrt c.junk d1 a2 hin n hf1 hcnt d2 c1
    have hsz : d2.sr.hr = false → 0 ≤ c.nbytes ∧ c.nbytes ≤ sizeLimit := by
      intro _
      cases hi : c.inp with
      | none => exact hc.lost hi
      | some r =>
        have := maxFrame_le d.dt d.sr
        have h' := not_and.1 hna (by rw [hi]; rfl)
        unfold sizeLimit
        omega
    obtain ⟨g1, g2, g3, g4, g5⟩ := synthLtpf_fade P d2 e2 c.nbytes hsz d3 c2
    have hxg2 := e2.xg
    have hxd2 := e2.xd
    have hk3 : keptSum d3 = keptSum d := by
      rw [← hk1, ← f5]
      unfold keptSum
      rw [g1.xg, g1.dt, g1.srPcm]
      exact sum_congr rfl fun k _ => by rw [g3 (d2.xgOff + k) (by omega)]
    refine ⟨by rw [← hret, if_pos rfl], hcomp ⟨?_, ?_, fun _ => ?_, fun _ k hk => ?_⟩, ?_, ?_, ?_, xs, ?_, hmem.symm, fun hn v hv => ?_⟩
    · rw [g2, f3]; push_cast; ring
    · rw [g2]; exact f4
    · rw [g1.sr]; exact g4
    · rw [hk3, g1.xd, g3 _ (by omega), f2.xd, ← hk1]
      rw [g1.dt, g1.srPcm, f2.dt, f2.srPcm] at hk
      exact f6 k hk
    · exact hk3
    · show d3.dt = _; rw [g1.dt, f2.dt, a3.dt]
    · show d3.srPcm = _; rw [g1.srPcm, f2.srPcm, a3.srPcm]
    · rw [(win_length b2).1, g1.dt, f2.dt, a3.dt, g1.srPcm, f2.srPcm, a3.srPcm]
    · have hx : d3.x = d2.x := g5 (by rw [f2.sr, f1]; exact hf1.ltpf hn)
      obtain ⟨k, hk, rfl⟩ := List.getElem_of_mem hv
      have hk' : k < ns d3.dt d3.srPcm := by rw [← (win_length b2).1]; exact hk
      have := win_getD b2 k hk'
      rw [List.getD_eq_getElem _ _ hk] at this
      rw [this, hx, g1.xs, f2.xs]
      unfold fadeOut
      rw [← hk1]
      rw [g1.dt, g1.srPcm, f2.dt, f2.srPcm] at hk'
      exact f7 hn k hk'

theorem decRun_fade {α : Type} (P : Platform Rat) (hP : Single rnd P) (calls : List (DecCall Rat α)) : ∀ (d : Dec Rat) (mem : Int → α) (n : Nat),
    DecInv P.A d → DecMag d → DecFade d n → (∀ c ∈ calls, CallOk c) → ∀ rets o mem', decRun P calls (some d) mem = some (rets, o, mem') →
    ∃ d', o = some d' ∧ DecInv P.A d' ∧ DecMag d' ∧ DecFade d' (rets.foldl (fun n r => if r = 0 then 0 else if r = 1 then n + 1 else n) n) := by
  induction calls with
  | nil =>
    intro d mem n hd hm hf _ rets o mem' h
    unfold decRun at h
    injection h with h
    injection h with h1 h
    injection h with h2 h3
    rw [← h1]
    exact ⟨d, h2.symm, hd, hm, hf⟩
  | cons c l ih =>
    intro d mem n hd hm hf hok rets o mem' h
    unfold decRun at h
    obtain ⟨r, h1, h2⟩ := Option.bind_eq_some_iff.1 h
    obtain ⟨w, h3, h4⟩ := Option.map_eq_some_iff.1 h2
    obtain ⟨r1, r2, r3⟩ := r
    have hc := hok c (List.mem_cons_self ..)
    obtain ⟨d', e1, e2, e3, -⟩ := lc3Decode_mag P hP c d mem hd hm hc r1 r2 r3 h1
    subst e1
    have hf' : DecFade d' (if r1 = 0 then 0 else if r1 = 1 then n + 1 else n) := by
      rcases lc3Decode_fade P hP c d mem hd hm n hf hc r1 d' r3 h1 with ⟨rfl, rfl⟩ | ⟨rfl, g⟩ | ⟨rfl, g, -⟩
      · rw [if_neg (by decide), if_neg (by decide)]; exact hf
      · rw [if_pos rfl]; exact g
      · rw [if_neg (by decide), if_pos rfl]; exact g
    obtain ⟨w1, w2, w3⟩ := w
    simp only [Prod.mk.injEq] at h4
    obtain ⟨h6, h5, -⟩ := h4
    obtain ⟨d2, f1, f2⟩ := ih d' r3 _ e2 e3 hf' (fun x hx => hok x (List.mem_cons_of_mem _ hx)) w1 w2 w3 h3
    refine ⟨d2, h5.symm.trans f1, ?_⟩
    rw [← h6, List.foldl_cons]
    exact f2

theorem Played.fade {α : Type} {P : Platform Rat} (hP : Single rnd P) {hr : Bool} {dtUs srHz srPcmHz : Int} {calls : List (DecCall Rat α)} {rets : List Int}
    {d : Dec Rat} {mem : Int → α} (h : Played P hr dtUs srHz srPcmHz calls rets d mem) : DecInv P.A d ∧ DecMag d ∧ DecFade d (burst rets) := by
  obtain ⟨ok, d0, mem0, h1, h2⟩ := h
  obtain ⟨i1, -, i3, -⟩ := decSetup_inv P hr dtUs srHz srPcmHz true d0 h1
  have hf : DecFade d0 0 := by
    refine ⟨by rw [i3]; rfl, ?_, fun hn => absurd hn (by omega), fun hn => absurd hn (by omega)⟩
    unfold decSetup at h1
    obtain ⟨o, e1, h1⟩ := Option.map_eq_some_iff.1 h1
    obtain ⟨l, e2, h1⟩ := Option.map_eq_some_iff.1 h1
    rw [hP.arith] at h1
    rw [← h1]
    exact plcSuspend_fade hP.round ⟨0, 0, 0⟩
  obtain ⟨d', e1, e2, e3, e4⟩ := decRun_fade P hP calls d0 mem0 0 i1 (decSetup_mag P hP hr dtUs srHz srPcmHz true d0 h1) hf ok _ _ _ h2
  obtain rfl := Option.some.inj e1
  exact ⟨e2, e3, e4⟩

/-- **C87.** In single precision, after any sequence of calls that ends with `n ≥ 1` frames lost or refused in a row, the next one lost or refused is
concealed by samples under `5 * 0.8501^(n - 7) * S`, up to `2^-39`: `S` is the sum of the magnitudes of the coefficients kept of the last frame
decoded, the loss does not change it. -/
theorem C87_fade {α : Type} (P : Platform Rat) (hP : Single rnd P) (hr : Bool) (dtUs srHz srPcmHz : Int) (calls : List (DecCall Rat α)) (rets : List Int)
    (d : Dec Rat) (mem : Int → α) (h : Played P hr dtUs srHz srPcmHz calls rets d mem) (hb : 1 ≤ burst rets) (c : DecCall Rat α) (hc : CallOk c)
    (o : Option (Dec Rat)) (mem' : Int → α) (hs : lc3Decode P c (some d) mem = some (1, o, mem')) :
    ∃ (d' : Dec Rat) (xs : List Rat), o = some d' ∧ xs.length = ns d.dt d.srPcm ∧ mem' = pcmStore c.stride c.base (xs.map c.conv) mem ∧
      (∀ v ∈ xs, |v| ≤ 5 * (8501 / 10000) ^ (burst rets - 7) * (∑ k ∈ range (ns d.dt d.srPcm), |d.x.getD (d.xgOff + k) 0|) + 1 / 2 ^ 39) ∧
      ∑ k ∈ range (ns d'.dt d'.srPcm), |d'.x.getD (d'.xgOff + k) 0| = ∑ k ∈ range (ns d.dt d.srPcm), |d.x.getD (d.xgOff + k) 0| := by
  obtain ⟨h1, h2, h3⟩ := h.fade hP
  obtain ⟨d', rfl, -⟩ := lc3Decode_mag P hP c d mem h1 h2 hc 1 o mem' hs
  rcases lc3Decode_fade P hP c d mem h1 h2 _ h3 hc 1 d' mem' hs with ⟨a, -⟩ | ⟨a, -⟩ | ⟨-, -, a, -, -, xs, b1, b2, b3⟩
  · exact absurd a (by decide)
  · exact absurd a (by decide)
  refine ⟨d', xs, rfl, b1, b2, fun v hv => (b3 hb v hv).trans ?_, a⟩
  have hk : keptSum d ≤ 3 * 10 ^ 29 := h2.kept
  have hk0 := keptSum_nonneg d
  have e : ∑ k ∈ range (ns d.dt d.srPcm), |d.x.getD (d.xgOff + k) 0| = keptSum d := rfl
  rw [e]
  have s1 := mul_le_mul_of_nonneg_right (fadeMax_succ (burst rets)) hk0
  have s2 : fadeMax (burst rets) * keptSum d = (1 + 4 / 10 ^ 6) * ((8501 / 10000) ^ (burst rets - 7) * keptSum d) + keptSum d / 2 ^ 140 := by
    unfold fadeMax; ring
  have s3 : 0 ≤ (8501 / 10000) ^ (burst rets - 7) * keptSum d := by positivity
  unfold fadeOut fadeTail
  rw [mul_assoc 5]
  generalize fadeMax (burst rets) * keptSum d = A at *
  generalize fadeMax (burst rets + 1) * keptSum d = B at *
  generalize (8501 / 10000) ^ (burst rets - 7) * keptSum d = C at *
  generalize keptSum d = S at *
  norm_num at s1 s2 hk ⊢
  linarith

theorem nearestIn_zero {lo hi : Int} (h1 : lo ≤ 0) (h2 : 0 ≤ hi) {v : Rat} {y : Int} (hv : |v| < 1 / 2) (h : NearestIn lo hi v y) : y = 0 := by
  have h3 := h.2.2 0 h1 h2
  rw [Int.cast_zero, zero_sub, abs_neg] at h3
  have h4 : |(y : Rat)| < 1 := by
    have := abs_add_le ((y : Rat) - v) v
    rw [sub_add_cancel] at this
    linarith
  have : |y| < 1 := by exact_mod_cast h4
  exact Int.abs_lt_one_iff.1 this

/-- After 500 losses in a row, whatever was received before, the samples are under `1/5000`, for a full scale of 32768. -/
theorem C87_level {α : Type} (P : Platform Rat) (hP : Single rnd P) (hr : Bool) (dtUs srHz srPcmHz : Int) (calls : List (DecCall Rat α)) (rets : List Int)
    (d : Dec Rat) (mem : Int → α) (h : Played P hr dtUs srHz srPcmHz calls rets d mem) (hb : 500 ≤ burst rets) (c : DecCall Rat α)
    (hc : CallOk c) (o : Option (Dec Rat)) (mem' : Int → α) (hs : lc3Decode P c (some d) mem = some (1, o, mem')) :
    ∃ xs : List Rat, xs.length = ns d.dt d.srPcm ∧ mem' = pcmStore c.stride c.base (xs.map c.conv) mem ∧ ∀ v ∈ xs, |v| ≤ 1 / 5000 := by
  obtain ⟨d', xs, -, h1, h2, h3, -⟩ := C87_fade P hP hr dtUs srHz srPcmHz calls rets d mem h (by omega) c hc o mem' hs
  obtain ⟨-, -, -, hk⟩ := C85_state P hP hr dtUs srHz srPcmHz calls rets d mem h
  have hk0 : 0 ≤ ∑ k ∈ range (ns d.dt d.srPcm), |d.x.getD (d.xgOff + k) 0| := sum_nonneg fun _ _ => abs_nonneg _
  have hp : ((8501 : Rat) / 10000) ^ (burst rets - 7) ≤ (8501 / 10000) ^ 493 := pow_le_pow_of_le_one (by norm_num) (by norm_num) (by omega)
  have hp0 : (0 : Rat) ≤ (8501 / 10000) ^ (burst rets - 7) := by positivity
  have hp1 : ((8501 : Rat) / 10000) ^ 493 ≤ 1 / 10 ^ 34 := by
    rw [show 493 = 29 * 17 by norm_num, pow_mul]
    have : ((8501 : Rat) / 10000) ^ 29 ≤ 91 / 10000 := by norm_num
    exact (pow_le_pow_left₀ (by positivity) this 17).trans (by norm_num)
  have hsm : ∀ v ∈ xs, |v| ≤ 1 / 5000 := by
    intro v hv
    refine (h3 v hv).trans ?_
    have := mul_le_mul (hp.trans hp1) hk hk0 (by norm_num)
    rw [mul_assoc]
    generalize (8501 / 10000 : Rat) ^ (burst rets - 7) * (∑ k ∈ range (ns d.dt d.srPcm), |d.x.getD (d.xgOff + k) 0|) = C at *
    norm_num at this ⊢
    linarith
  exact ⟨xs, h1, h2, hsm⟩

/-- **C87**, the output: whatever was received before, once 500 frames are lost or refused in a row, the next ones lost or refused are concealed
by null samples on 16 bits and on 24 bits. -/
theorem C87_silent (P : Platform Rat) (hP : Single fl P) (hr : Bool) (dtUs srHz srPcmHz : Int) (calls : List (DecCall Rat (Option Int))) (rets : List Int)
    (d : Dec Rat) (mem : Int → Option Int) (h : Played P hr dtUs srHz srPcmHz calls rets d mem) (hb : 500 ≤ burst rets) (c : DecCall Rat (Option Int))
    (hc : CallOk c) (hf : c.conv = outS16 ∨ c.conv = outS24) (o : Option (Dec Rat)) (mem' : Int → Option Int)
    (hs : lc3Decode P c (some d) mem = some (1, o, mem')) :
    mem' = pcmStore c.stride c.base (List.replicate (ns d.dt d.srPcm) (some 0)) mem := by
  obtain ⟨xs, h1, h2, hsm⟩ := C87_level P hP hr dtUs srHz srPcmHz calls rets d mem h hb c hc o mem' hs
  have hout : ∀ v ∈ xs, c.conv v = some 0 := by
    intro v hv
    have hv1 := hsm v hv
    have hfin := (fl_cases v (hv1.trans (by rw [pow2_126']; norm_num))).1
    have hfl : |fl v| ≤ 1 / 4000 := (fl_roundF.mag hv1 (by norm_num)).trans (by norm_num)
    have hfl' : |fl v * 256| ≤ 64 / 1000 := by rw [abs_mul, abs_of_pos (by norm_num : (0 : Rat) < 256)]; linarith
    rcases hf with e | e
    · rw [e]
      obtain ⟨y, y1, y2⟩ := C32_store_s16_partial _ hfin (hfl.trans (by norm_num))
      have := nearestIn_zero (by decide) (by decide) (lt_of_le_of_lt hfl (by norm_num)) (y2 (ne_of_lt (lt_of_le_of_lt hfl (by norm_num))))
      rw [this] at y1; exact y1
    · rw [e]
      obtain ⟨y, y1, y2⟩ := C32_store_s24_partial _ hfin (hfl'.trans (by norm_num))
      have := nearestIn_zero (by decide) (by decide) (lt_of_le_of_lt hfl' (by norm_num)) (y2 (ne_of_lt (lt_of_le_of_lt hfl' (by norm_num))))
      rw [this] at y1; exact y1
  rw [h2]
  congr 1
  rw [List.eq_replicate_iff]
  refine ⟨by rw [List.length_map, h1], fun b hb => ?_⟩
  obtain ⟨v, hv, rfl⟩ := List.mem_map.1 hb
  exact hout v hv

/-- A run of losses: each returns 1. -/
theorem lost_run {α : Type} (P : Platform Rat) (c : DecCall Rat α) (hc : CallOk c) (hl : c.inp = none) (m : Nat) : ∀ (d : Dec Rat) (mem : Int → α),
    DecInv P.A d → d.plc.count + m < 2 ^ 31 →
    ∃ d' mem', decRun P (List.replicate m c) (some d) mem = some (List.replicate m 1, some d', mem') := by
  induction m with
  | zero => intro d mem _ _; exact ⟨d, mem, rfl⟩
  | succ m ih =>
    intro d mem hd hcnt
    rcases lc3Decode_step P c d mem hd hc with ⟨a, -⟩ | ⟨-, -, a, -⟩ | ⟨-, ret, d2, xs, s, s2, s3, s4, s5, s6⟩
    · rw [hl] at a; cases a
    · push_cast at hcnt; omega
    · have hret : ret = 1 := s6.2 (fun F hF => by unfold DecCall.frame at hF; rw [hl] at hF; cases hF)
      have hc2 : (complete d2).plc.count = d.plc.count + 1 := by
        rcases s5 with ⟨e, -⟩ | ⟨-, e⟩
        · omega
        · exact e
      obtain ⟨d', mem', e⟩ := ih (complete d2) _ (complete_inv s2) (by rw [hc2]; push_cast at hcnt; omega)
      refine ⟨d', mem', ?_⟩
      rw [List.replicate_succ, List.replicate_succ]
      unfold decRun
      rw [s, Option.bind_some]
      dsimp only
      rw [e, hret]
      rfl

/-- A frame lost. -/
def lostCall {α : Type} (conv : Rat → α) : DecCall Rat α := ⟨none, 20, conv, 0, 1, ⟨⟨false, 0⟩, fun _ => 0, fun _ => 0⟩⟩

theorem lost_ok {α : Type} (conv : Rat → α) : CallOk (lostCall conv) :=
  ⟨fun r hr => (by cases hr), fun _ => (by decide : (0 : Int) ≤ 20 ∧ (20 : Int) ≤ sizeLimit)⟩

theorem burst_lost (m : Nat) (rets : List Int) : burst (rets ++ List.replicate m 1) = burst rets + m := by
  induction m generalizing rets with
  | zero => simp
  | succ m ih =>
    rw [List.replicate_succ, show rets ++ 1 :: List.replicate m 1 = (rets ++ [1]) ++ List.replicate m 1 by simp, ih]
    unfold burst
    rw [List.foldl_append, List.foldl_cons, List.foldl_nil, if_neg (by decide), if_pos rfl]
    omega

/-- Non vacuity: the frame of `C86_refuted`, that gives samples over `2^31`, then 500 losses, and one more. -/
example : ∃ (P : Platform Rat) (d : Dec Rat) (rets : List Int) (mem : Int → Option Int) (o : Option (Dec Rat)) (mem' : Int → Option Int), Single fl P ∧
    Played P false 2500 8000 0 (hostileCall outS16 :: List.replicate 500 (lostCall outS16)) rets d mem ∧ burst rets = 500 ∧
    lc3Decode P (lostCall outS16) (some d) mem = some (1, o, mem') := by
  have hP := C85_platform sqrt24 sqrt24_near id
  obtain ⟨d, o, mem, h1, h2, -⟩ := hostileRun_spec outS16 (some 0) none hostileRun_s16
  obtain ⟨i1, i2, i3⟩ := h1.fade hP
  obtain ⟨d1, rfl, j2, j3, -⟩ := lc3Decode_mag _ hP _ d _ i1 i2 (hostile_ok outS16) _ _ _ h2
  have hc1 : d1.plc.count = 1 := by
    rcases lc3Decode_fade _ hP _ d _ i1 i2 _ i3 (hostile_ok outS16) _ _ _ h2 with ⟨a, -⟩ | ⟨-, a⟩ | ⟨a, -⟩
    · cases a
    · have := a.count; omega
    · cases a
  obtain ⟨d2, mem2, k1⟩ := lost_run (flPlatform sqrt24 id) (lostCall outS16) (lost_ok _) rfl 500 d1 mem j2 (by rw [hc1]; norm_num)
  obtain ⟨d0, mem0, q1, q2⟩ := h1.run
  unfold decRun at q2
  simp only [Option.some.injEq, Prod.mk.injEq, true_and] at q2
  obtain ⟨rfl, rfl⟩ := q2
  have hpl : Played (flPlatform sqrt24 id) false 2500 8000 0 (hostileCall outS16 :: List.replicate 500 (lostCall outS16)) (0 :: List.replicate 500 1) d2 mem2 := by
    refine ⟨fun c hc => ?_, d0, fun _ => some 0, q1, ?_⟩
    · rcases List.mem_cons.1 hc with rfl | hc
      · exact hostile_ok _
      · rw [(List.mem_replicate.1 hc).2]; exact lost_ok _
    · rw [decRun.eq_2, h2, Option.bind_some]
      dsimp only
      rw [k1]
      rfl
  have hb : burst (0 :: List.replicate 500 1) = 500 := by
    have := burst_lost 500 [0]
    rw [List.singleton_append] at this
    rw [this]; rfl
  obtain ⟨m1, -, m3⟩ := hpl.fade hP
  have hc2 := m3.count
  rw [hb] at hc2
  obtain ⟨d3, mem3, n1⟩ := lost_run (flPlatform sqrt24 id) (lostCall outS16) (lost_ok _) rfl 1 d2 mem2 m1 (by rw [hc2]; norm_num)
  obtain ⟨r, r1, r2⟩ := Option.bind_eq_some_iff.1 (by rw [List.replicate_succ, decRun.eq_2] at n1; exact n1)
  obtain ⟨w, -, r3⟩ := Option.map_eq_some_iff.1 r2
  obtain ⟨ra, rb, rc⟩ := r
  simp only [Prod.mk.injEq, List.replicate_succ, List.cons.injEq] at r3
  obtain ⟨⟨rfl, -⟩, -⟩ := r3
  exact ⟨_, d2, _, mem2, rb, rc, hP, hpl, hb, r1⟩

end LC3
