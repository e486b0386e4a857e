import Verif.Props.Encoder
import Verif.Props.Simd

/-! The encoder on signals of limited level: the analysis of the pitch never overflows (C59). -/

namespace LC3

variable {R : Type} {α : Type} [Inhabited R]

/-- The state of an encoder that received samples of limited level only. -/
structure Enc.Level (e : Enc R) : Prop where
  ltpf : e.ltpf.Level
  xt : ∀ x ∈ e.xt, |x| ≤ 15600

/-- The samples of a call, converted to 16 bits, do not exceed 15600. -/
def EncCall.Level (c : EncCall R α) (n : Nat) : Prop := ∀ v, c.samples n = some v → ∀ p ∈ v, -15600 ≤ p.1 ∧ p.1 ≤ 15600

theorem load_level (e : Enc R) (he : e.Level) (v : List (Int × R)) (hv : ∀ p ∈ v, -15600 ≤ p.1 ∧ p.1 ≤ 15600) : (encLoad v e).Level := by
  refine ⟨he.ltpf, fun x hx => ?_⟩
  unfold encLoad at hx
  dsimp only at hx
  rcases List.mem_append.mp hx with hx | hx
  · exact he.xt x (List.mem_of_mem_take hx)
  · obtain ⟨p, hp, rfl⟩ := List.mem_map.mp hx
    exact abs_le.mpr (hv p hp)

theorem encPitch_level (P : EncPlatform R) (u : EncJunk R) (e : Enc R) (he : e.Level) (hi : EncInv e) :
    ∃ p l t, encPitch P u e = some (p, l, t) ∧ t.Level := by
  unfold encPitch
  split
  · exact ⟨_, _, _, rfl, he.ltpf⟩
  · obtain ⟨-, o, s, h1, h2⟩ := ltpfAnalyse_level P.A P.sqrt e.dt e.srPcm e.ltpf he.ltpf e.xt (nt e.srPcm) he.xt (Nat.le_refl _)
      (by rw [hi.xt])
    rw [h1]
    exact ⟨_, _, _, rfl, h2⟩

theorem encAnalyze_level (P : EncPlatform R) (u : EncJunk R) (n : Nat) (e : Enc R) (he : e.Level) (hi : EncInv e) (side : SideData) (e' : Enc R)
    (h : encAnalyze P u n e = some (side, e')) : e'.Level := by
  obtain ⟨p, l, t, h1, h2⟩ := encPitch_level P u e he hi
  unfold encAnalyze at h
  rw [h1] at h
  simp only [Option.bind_some, Option.bind_eq_some_iff] at h
  obtain ⟨att, -, xf, -, eb, -, bw, -, sns, -, tns, -, spec, -, h⟩ := h
  have h := (Prod.mk.inj (Option.some.inj h)).2
  subst h
  refine ⟨h2, fun x hx => ?_⟩
  dsimp only [encShift] at hx
  rcases List.mem_append.mp hx with hx | hx
  · exact he.xt x (List.mem_of_mem_drop (List.mem_of_mem_take hx))
  · exact he.xt x (List.mem_of_mem_drop hx)

theorem lc3Encode_level (P : EncPlatform R) (c : EncCall R α) (e : Enc R) (he : e.Level) (hi : EncInv e) (hc : c.Ok (ns e.dt e.srPcm))
    (hv : c.Level (ns e.dt e.srPcm)) (r : Int) (out : List Nat) (e' : Enc R) (h : lc3Encode P c (some e) = some (r, out, some e')) :
    e'.Level := by
  unfold lc3Encode at h
  dsimp only at h
  split at h
  · have h := Option.some.inj h
    rw [Prod.mk.injEq, Prod.mk.injEq] at h
    rw [← Option.some.inj h.2.2]; exact he
  · obtain ⟨w, w1, w2⟩ := Option.map_eq_some_iff.1 h
    rw [Prod.mk.injEq, Prod.mk.injEq] at w2
    have hw := Option.some.inj w2.2.2
    subst hw
    obtain ⟨v, v1, v2, v3⟩ := samples_some c _ hc
    rw [encProcess_core P c e v v1 hc.out] at w1
    obtain ⟨q, q1, q2⟩ := Option.map_eq_some_iff.1 w1
    unfold encCore at q1
    obtain ⟨a, a1, q1⟩ := Option.bind_eq_some_iff.1 q1
    obtain ⟨f, -, q1⟩ := Option.bind_eq_some_iff.1 q1
    rw [← q2, ← Option.some.inj q1]
    exact encAnalyze_level P c.junk _ (encLoad v e) (load_level e he v (hv v v1)) (load_inv e hi v v2 v3) a.1 a.2 a1

theorem encRun_level (P : EncPlatform R) (hA : CandidatesOk P.A) : ∀ (ops : List (EncOp R α)) (e0 e : Enc R) (rets : List (Option (Int × List Nat))),
    EncInv e0 → e0.Level → (∀ c, .encode c ∈ ops → c.Ok (ns e0.dt e0.srPcm) ∧ c.Level (ns e0.dt e0.srPcm)) →
    encRun P ops (some e0) = some (rets, some e) → e.Level := by
  intro ops
  induction ops with
  | nil =>
    intro e0 e rets hi hl _ h
    unfold encRun at h
    have h := Option.some.inj h
    rw [Prod.mk.injEq] at h
    rw [← Option.some.inj h.2]; exact hl
  | cons o l ih =>
    intro e0 e rets hi hl hc h
    unfold encRun at h
    obtain ⟨⟨r, e1⟩, g1, g2⟩ := Option.bind_eq_some_iff.1 h
    obtain ⟨⟨rs, e2⟩, g3, g4⟩ := Option.map_eq_some_iff.1 g2
    rw [Prod.mk.injEq] at g4
    obtain ⟨rfl, rfl⟩ := g4
    dsimp only at g3
    cases o with
    | disableLtpf =>
      unfold encStep at g1
      have g1 := Option.some.inj g1
      rw [Prod.mk.injEq] at g1
      obtain ⟨-, rfl⟩ := g1
      exact ih { e0 with bypass := true } e rs ⟨hi.cfg, hi.cfgPcm, hi.rate, hi.mode, hi.att, hi.ltpf, hi.xt, hi.v16, hi.xs, hi.xd⟩
        ⟨hl.ltpf, hl.xt⟩ (fun c h => hc c (by simp [h])) g3
    | encode c =>
      unfold encStep at g1
      obtain ⟨⟨r', out, e'⟩, g5, g6⟩ := Option.map_eq_some_iff.1 g1
      dsimp only at g6
      rw [Prod.mk.injEq] at g6
      obtain ⟨rfl, rfl⟩ := g6
      obtain ⟨hc1, hc2⟩ := hc c (by simp)
      by_cases hn : c.nbytes < minFrameBytes e0.dt e0.sr ∨ c.nbytes > maxFrameBytes e0.dt e0.sr
      · rw [(C09_encode_rejected P c).2 e0 hn] at g5
        have g5 := Option.some.inj g5
        rw [Prod.mk.injEq, Prod.mk.injEq] at g5
        obtain ⟨-, -, rfl⟩ := g5
        exact ih e0 e rs hi hl (fun c h => hc c (by simp [h])) g3
      · obtain ⟨v, s, -, -, -, -, -, hs⟩ := encode_step P hA e0 hi c hc1 hn
        obtain ⟨f, e1, rfl, rfl, -, -, -, b1, b2, b3, b4, b5, -⟩ := hs _ _ _ g5
        exact ih e1 e rs b1 (lc3Encode_level P c e0 hl hi hc1 hc2 _ _ _ g5) (fun c h => by rw [b2, b4]; exact hc c (by simp [h])) g3

/-- An encoder just setup has a null memory. -/
theorem encSetup_level (P : EncPlatform R) (hr : Bool) (dtUs srHz srPcmHz : Int) (m : Bool) (e : Enc R)
    (h : encSetup P.A hr dtUs srHz srPcmHz m = some (some e)) : e.Level := by
  unfold encSetup at h
  obtain ⟨o, -, h⟩ := Option.map_eq_some_iff.1 h
  obtain ⟨l, -, h⟩ := Option.map_eq_some_iff.1 h
  subst h
  exact ⟨LtpfA.init_level P.A, fun x hx => by rw [List.eq_of_mem_replicate hx]; decide⟩

/-- **C59**, a level that excludes the overflow of the analysis of the pitch: for an encoder that has been setup, and any sequence of
calls where no sample, converted to 16 bits, exceeds 15600 (47 % of the full scale), the next call is undefined exactly when the decision
of the quantisation is (see C48). -/
theorem C59_level_partial (P : EncPlatform R) (hA : CandidatesOk P.A) (hr : Bool) (dtUs srHz srPcmHz : Int) (ops : List (EncOp R α))
    (rets : List (Option (Int × List Nat))) (e : Enc R) (h : EncPlayed P hr dtUs srHz srPcmHz ops rets e)
    (hl : ∀ c, .encode c ∈ ops → c.Level (ns e.dt e.srPcm)) (c : EncCall R α) (hc : c.Ok (ns e.dt e.srPcm)) (hcl : c.Level (ns e.dt e.srPcm))
    (hn : ¬ (c.nbytes < minFrameBytes e.dt e.sr ∨ c.nbytes > maxFrameBytes e.dt e.sr)) :
    ∃ (v : List (Int × R)) (s : Stages R), c.samples (ns e.dt e.srPcm) = some v ∧ s.Run P (encLoad v e) c.nbytes.toNat ∧
      (lc3Encode P c (some e) = none ↔
        ∃ pitch, (EncOp.disableLtpf ∈ ops → pitch = false) ∧
          (EncOp.disableLtpf ∉ ops → ∃ o s', ltpfAnalyse P.A P.sqrt e.dt e.srPcm e.ltpf (e.xt.take (nt e.srPcm) ++ v.map Prod.fst)
            (nt e.srPcm) = some (o, s') ∧ pitch = o.present) ∧
          specAnalyze P.A P.G e.dt e.sr c.nbytes.toNat pitch s.tns e.spec (s.x.take (ne e.dt e.sr)) = none) := by
  obtain ⟨hi, r1, r2, r3, -, -⟩ := h.inv hA
  obtain ⟨v, s, h1, h2, h3⟩ := C59_encode_partial P hA hr dtUs srHz srPcmHz ops rets e h c hc hn
  refine ⟨v, s, h1, h2, h3.trans ⟨?_, Or.inr⟩⟩
  rintro (⟨hm, hx⟩ | h)
  · exfalso
    obtain ⟨hok, e0, k0, k1⟩ := h
    obtain ⟨i0, -, s1, s2, s3⟩ := encSetup_inv P hr dtUs srHz srPcmHz true e0 k0
    rw [r1] at s1
    rw [r3] at s3
    have d1 := Option.some.inj s1
    have d3 := Option.some.inj s3
    have hlev := encRun_level P hA ops e0 e rets i0 (encSetup_level P hr dtUs srHz srPcmHz true e0 k0)
      (fun c hc => by rw [← d1, ← d3]; exact ⟨hok c hc, hl c hc⟩) k1
    obtain ⟨v', w1, w2, w3⟩ := samples_some c _ hc
    rw [h1] at w1
    have w1 := Option.some.inj w1
    subst w1
    have hll := load_level e hlev v (hcl v h1)
    have hil := load_inv e hi v w2 w3
    obtain ⟨⟨r, q1, q2⟩, -⟩ := ltpfAnalyse_level P.A P.sqrt e.dt e.srPcm e.ltpf hlev.ltpf (encLoad v e).xt (nt e.srPcm) hll.xt (Nat.le_refl _)
      (by have := hil.xt; rw [this]; exact Nat.le_refl _)
    unfold ltpfResample at q1
    dsimp only at q1
    rw [show (encLoad v e).xt = e.xt.take (nt e.srPcm) ++ v.map Prod.fst from rfl, hx] at q1
    cases q1
  · exact h

theorem exEncCall_level (nbytes : Int) (out : List Nat) (junk : EncJunk Rat) (n : Nat) : (exEncCall nbytes out junk).Level n := by
  intro v hv p hp
  unfold EncCall.samples at hv
  have hm : ∀ (l : List Int) (w : List (Int × Rat)), l.mapM (exEncCall nbytes out junk).conv = some w → ∀ p ∈ w, p.1 ∈ l := by
    intro l
    induction l with
    | nil => intro w hw; cases hw; intro p hp; cases hp
    | cons a l ih =>
      intro w hw p hp
      rw [List.mapM_cons] at hw
      simp only [Option.bind_eq_bind, Option.bind_eq_some_iff] at hw
      obtain ⟨q, hq, t, ht, hw⟩ := hw
      cases hw
      rcases List.mem_cons.mp hp with rfl | hp
      · have := Option.some.inj hq
        rw [← this]; simp
      · exact List.mem_cons_of_mem _ (ih t ht p hp)
  have h1 := hm _ _ hv p hp
  obtain ⟨i, hi, he⟩ := List.mem_iff_getElem.mp h1
  rw [(pcmLoad_spec _ _ _ _).2 i hi] at he
  rw [← he]
  dsimp only [exEncCall]
  split <;> omega

/-- The hypotheses of `C59_level_partial` are met: two frames and a call refused, then a frame. -/
example : ∃ rets e, EncPlayed exEncPlat false 2500 8000 0 (exEncOps 7 ⟨⟨true, 7⟩, fun _ => 3⟩) rets e ∧
    (∀ c, .encode c ∈ exEncOps 7 ⟨⟨true, 7⟩, fun _ => 3⟩ → c.Level (ns e.dt e.srPcm)) ∧
    (exEncCall 20 (List.replicate 22 7) ⟨⟨true, 7⟩, fun _ => 3⟩).Level (ns e.dt e.srPcm) := by
  obtain ⟨rets, e, h, -⟩ := exEncPlayed
  refine ⟨rets, e, h, ?_, exEncCall_level _ _ _ _⟩
  intro c hc
  unfold exEncOps at hc
  simp only [List.mem_cons, EncOp.encode.injEq, reduceCtorEq, false_or, List.not_mem_nil, or_false] at hc
  rcases hc with rfl | rfl | rfl <;> exact exEncCall_level _ _ _ _

end LC3
