import Verif.Props.Position

/-!
C96: a frame corrupted is concealed exactly as a frame lost.
-/

namespace LC3

variable {R : Type} {α : Type}

/-- Without long-term data, the size of the frame has no effect on the samples, nor on what the post-filter does next. -/
theorem ltpfSynthesize_size (A : Arith R) (dt : Dt) (sr : Srate) (h : sr.hr = false) (s : LtpfS R) (hs : s.Ok sr) (r : List R)
    (hr : r.length = ns dt sr + nh dt sr) (x : Nat) (hx : FramePos dt sr x) (n n' : Int) (h0 : 0 ≤ n') (h1 : n' ≤ sizeLimit) (a : LtpfS R) (o : List R)
    (ha : ltpfSynthesize A dt sr n s none r x = some (a, o)) :
    ∃ b, ltpfSynthesize A dt sr n' s none r x = some (b, o) ∧ a.Sim sr b := by
  obtain ⟨b, o', hb, -⟩ := ltpfSynthesize_some A dt sr h n' s hs none r x h0 h1 (fun d hd => by cases hd) hr hx
  have lc : ∀ p g c, ltpfCoeffs A sr p false g = some c → c.length = 2 * ltpfWidth sr := by
    intro p g c c1
    unfold ltpfCoeffs at c1
    simp only [Option.bind_eq_bind, Option.bind_eq_some_iff] at c1
    obtain ⟨den, -, num, -, c1⟩ := c1
    split at c1
    · cases c1
    · cases c1
      simp; omega
  unfold ltpfSynthesize at ha hb ⊢
  dsimp only [dataActive, dataIndex] at ha hb ⊢
  obtain ⟨g, -, ha⟩ := Option.bind_eq_some_iff.1 ha
  obtain ⟨c, c1, ha⟩ := Option.bind_eq_some_iff.1 ha
  obtain ⟨x00, x1, ha⟩ := Option.bind_eq_some_iff.1 ha
  obtain ⟨xe, x2, ha⟩ := Option.bind_eq_some_iff.1 ha
  obtain ⟨x01, x3, ha⟩ := Option.bind_eq_some_iff.1 ha
  obtain ⟨o1, f1, ha⟩ := Option.bind_eq_some_iff.1 ha
  obtain ⟨g', g1, hb⟩ := Option.bind_eq_some_iff.1 hb
  obtain ⟨c', c1', hb⟩ := Option.bind_eq_some_iff.1 hb
  rw [x1, Option.bind_some, x2, Option.bind_some, x3, Option.bind_some] at hb
  obtain ⟨o1', f1', hb⟩ := Option.bind_eq_some_iff.1 hb
  cases ha
  cases hb
  have ho : o' = o := by
    unfold ltpfFilter ltpfTransition at f1 f1'
    simp only [Bool.and_false, Bool.false_and, Bool.false_eq_true, if_false, Bool.not_false, Bool.and_true, false_and] at f1 f1'
    rw [f1] at f1'
    exact (Option.some.inj f1').symm
  subst ho
  refine ⟨_, by rw [g1, Option.bind_some, c1', Option.bind_some, x1, Option.bind_some, x2, Option.bind_some, x3, Option.bind_some, f1']; rfl, ?_⟩
  refine ⟨rfl, rfl, ?_, fun h => by cases h⟩
  dsimp only
  rw [← lc _ _ _ c1, List.drop_left, lc _ _ _ c1, ← lc _ _ _ c1', List.drop_left]

theorem LtpfS.Sim.trans {sr : Srate} {a b c : LtpfS R} (h : a.Sim sr b) (k : b.Sim sr c) : a.Sim sr c :=
  ⟨k.active.trans h.active, k.x.trans h.x, k.tail.trans h.tail, fun ha =>
    ⟨(k.act (h.active.trans ha)).1.trans (h.act ha).1, (k.act (h.active.trans ha)).2.trans (h.act ha).2⟩⟩

theorem synthLtpf_size (P : Platform R) (d f : Dec R) (hd : DecInv P.A d) (n n' : Int) (h0 : 0 ≤ n') (h1 : n' ≤ sizeLimit)
    (h : synthLtpf P d none n = some f) :
    ∃ l, synthLtpf P d none n' = some { f with ltpf := l } ∧ (d.sr.hr = false → f.ltpf.Sim d.srPcm l) := by
  unfold synthLtpf at h ⊢
  cases hh : d.sr.hr with
  | true =>
    rw [hh, if_pos rfl] at h
    cases h
    exact ⟨d.ltpf, by rw [if_pos rfl], fun h => by cases h⟩
  | false =>
    rw [hh, if_neg (by decide)] at h
    rw [if_neg (by decide)]
    obtain ⟨r, w1, h⟩ := Option.bind_eq_some_iff.1 h
    obtain ⟨⟨a, o⟩, f1, h⟩ := Option.bind_eq_some_iff.1 h
    obtain ⟨x, p1, h⟩ := Option.bind_eq_some_iff.1 h
    cases h
    have pos : FramePos d.dt d.srPcm (d.xsOff - d.xhOff) := by
      rw [hd.xh, Nat.sub_zero]
      have := hd.xsLe
      exact ⟨by omega, by obtain ⟨k, hk⟩ := hd.xs; rw [hk]; exact Nat.mul_mod_left _ _⟩
    obtain ⟨b, q1, q2⟩ := ltpfSynthesize_size P.A d.dt d.srPcm (by rw [← hd.hr]; exact hh) d.ltpf (hd.ltpf hh) r (win_length w1).1 _ pos n n' h0 h1 a o f1
    refine ⟨b, ?_, fun _ => q2⟩
    rw [w1, Option.bind_some]
    change (ltpfSynthesize P.A d.dt d.srPcm n' d.ltpf none r (d.xsOff - d.xhOff)).bind _ = _
    rw [q1, Option.bind_some, p1]
    rfl

/-- A call where the frame is lost, or received and refused. -/
structure Missing (P : Platform R) (dt : Dt) (sr : Srate) (c : DecCall R α) : Prop where
  size : c.inp.isSome → 20 ≤ c.nbytes ∧ c.nbytes ≤ maxFrameBytes dt sr
  refused : ∀ F, c.frame = some F → ∀ j, (decodeFrame P.A dt sr P.sh32 j F).1 = .refused

/-- Two calls where the frame is missing, one way or another, for two decoders with the same history. -/
theorem missing_step (P : Platform R) (c c' : DecCall R α) (hc : CallOk c) (hc' : CallOk c') (h1 : c'.base = c.base) (h2 : c'.stride = c.stride)
    (h3 : c'.conv = c.conv) (d d' : Dec R) (hd : DecInv P.A d) (hd' : DecInv P.A d') (h : d.Rotated d') (hl : d.SameLoss d') (m1 : Missing P d.dt d.sr c)
    (m2 : Missing P d.dt d.sr c') (mem : Int → α) :
    (lc3Decode P c (some d) mem = none ∧ lc3Decode P c' (some d') mem = none) ∨
    ∃ e e' m, lc3Decode P c (some d) mem = some (1, some e, m) ∧ lc3Decode P c' (some d') mem = some (1, some e', m) ∧
      DecInv P.A e ∧ DecInv P.A e' ∧ e.dt = d.dt ∧ e.sr = d.sr ∧ e.Rotated e' ∧ e.SameLoss e' := by
  unfold lc3Decode
  dsimp only
  rw [h.dt, h.sr]
  rw [if_neg (fun hr => by have := m1.size hr.1; omega), if_neg (fun hr => by have := m2.size hr.1; omega)]
  have hmax := maxFrame_le d.dt d.sr
  have hnb : ∀ c : DecCall R α, CallOk c → Missing P d.dt d.sr c → 0 ≤ c.nbytes ∧ c.nbytes ≤ sizeLimit := by
    intro c hc m
    cases hi : c.inp with
    | none => exact hc.lost hi
    | some r =>
      have := m.size (by rw [hi]; rfl)
      unfold sizeLimit
      omega
  have nb := hnb c hc m1
  have nb' := hnb c' hc' m2
  obtain ⟨o, d1, a1, a2, a3, a4, a5, a6, a7, a8⟩ := decInput_spec P c d hd hc
  obtain ⟨o', d1', b1, b2, b3, b4, b5, b6, b7, b8⟩ := decInput_spec P c' d' hd' hc'
  have href : ∀ F, c.frame = some F → Refused P d F := m1.refused
  have href' : ∀ F, c'.frame = some F → Refused P d' F := by
    unfold Refused
    rw [h.dt, h.sr]; exact m2.refused
  have ho := a7.2 href
  have ho' := b7.2 href'
  by_cases hcnt : 2 ^ 31 ≤ d.plc.count + 1
  · left
    rw [decProcess_overflow P c d mem hd hc href hcnt]
    rw [decProcess_overflow P c' d' mem hd' hc' href' (by rw [hl.plc]; exact hcnt)]
    exact ⟨rfl, rfl⟩
  have hxs := hd.xsLe
  have hxd := hd.xd
  have hxg := hd.xg
  have hxs' := hd'.xsLe
  have hxd' := hd'.xd
  have hxg' := hd'.xg
  rw [h.dt, h.srPcm] at hxs' hxd' hxg'
  rw [h.dt, h.srPcm] at b6
  have hrot : d1.Rotated d1' := by
    refine ⟨by rw [a3.dt, b3.dt, h.dt], by rw [a3.sr, b3.sr, h.sr], by rw [a3.srPcm, b3.srPcm, h.srPcm], ?_, ?_, ?_⟩
    · rw [a3.sr, a3.srPcm, a4, b4]; exact h.ltpf
    · rw [a3.dt, a3.sr, a3.srPcm, a3.xs, b3.xs]
      intro hh i h1 h2
      rw [a6 _ (mod_window (by omega) h2 h1), b6 _ (mod_window (by omega) h2 h1)]
      exact h.old hh i h1 h2
    · rw [a3.xd, a3.dt, a3.srPcm]
      intro k k1 k2
      rw [a6 k (by omega), b6 k (by omega)]
      exact h.xd k k1 k2
  have hs1 : d1.SameLoss d1' := by
    refine ⟨by rw [a5, b5, hl.plc], ?_⟩
    rw [a3.xg]
    intro k k1
    rw [a6 k (by omega), b6 k (by omega)]
    exact hl.xg k k1
  have g5 := a2.xd
  have g6 := a2.xg
  have g7 := b2.xd
  have g8 := b2.xg
  have g9 := a2.len
  have g10 := b2.len
  rw [b3.dt, b3.srPcm, h.dt, h.srPcm] at g7 g8 g10
  rw [a3.dt, a3.srPcm] at g5 g6 g9
  obtain ⟨e, xd, g, p, t, y, q1, q2, q3, q4, q5, q6, q7, q8, q9, q10⟩ := synthLost_spec P c.junk d1 a2 (by rw [a5]; omega)
  obtain ⟨e', xd', g', p', t', y', r1, r2, r3, r4, r5, r6, r7, r8, r9, r10⟩ := synthLost_spec P c'.junk d1' b2 (by rw [b5, hl.plc]; omega)
  have e1 : xd' = xd := by
    rw [hrot.dt, hrot.srPcm, show d1'.xdOff = d1.xdOff by omega] at r1
    exact win_agree (fun k k1 k2 => hrot.xd k k1 k2) r1 q1
  have e2 : g' = g := by
    rw [hrot.dt, hrot.srPcm, show d1'.xgOff = d1.xgOff by omega] at r2
    exact win_agree (fun k k1 k2 => hs1.xg k k1) r2 q2
  subst e1 e2
  rw [hrot.dt, hrot.sr, hs1.plc, q3] at r3
  obtain rfl := Option.some.inj r3
  rw [hrot.dt, hrot.sr, hrot.srPcm, q6, Option.some.injEq, Prod.mk.injEq] at r6
  obtain ⟨rfl, rfl⟩ := r6
  have c1 := a2.count
  have c2 := b2.count
  have high : ∀ (z : Dec R), DecInv P.A z → ∀ v, win z.x z.xgOff (ns z.dt z.srPcm) = some v → ∀ k, ne z.dt z.sr ≤ k → k < ns z.dt z.srPcm →
      v[k]? = some (P.A.ofRat 0) := by
    intro z hz v hv k k1 k2
    rw [win_at hv, if_pos k2]; exact hz.high k k1 k2
  have i1 := q8.inv a2 q9 (by rw [q10, q4]; omega) (high d1 a2 _ q2)
  have i2 := r8.inv b2 r9 (by rw [r10, r4]; omega) (high d1' b2 _ r2)
  have hf := SynthOut.full a2 b2 hrot q8 r8 q9 r9
  obtain ⟨f, f', k1, k2, k3, k4, k5, k6, k7, k8, k9, k10, k11⟩ := RotFull.ltpf_step i1 i2 hf none c.nbytes (fun l hl => by cases hl) (fun _ => nb)
  obtain ⟨l, u1, u2⟩ := synthLtpf_size P e' f' i2 c.nbytes c'.nbytes nb'.1 nb'.2 k2
  -- the state of the post-filter after the second call
  obtain ⟨f'', v1, v2, -⟩ := synthLtpf_spec P e' i2 none c'.nbytes (fun l hl => by cases hl) (fun _ => nb')
  rw [u1] at v1
  obtain rfl := Option.some.inj v1
  have k7' : f.RotFull { f' with ltpf := l } := by
    refine ⟨k7.dt, k7.sr, k7.srPcm, fun hh => (k7.ltpf hh).trans ?_, k7.all, k7.xd⟩
    have := u2 (by rw [← k6.sr, k7.sr]; exact hh)
    rwa [← k6.srPcm, k7.srPcm] at this
  have l1 := k3.len
  have l2 := k3.xsLe
  have l3 := k4.len
  have l4 := k4.xsLe
  obtain ⟨xs, w1, w2⟩ := win_some f.x f.xsOff (ns f.dt f.srPcm) (by omega)
  obtain ⟨xs', w1', w2'⟩ := win_some f'.x f'.xsOff (ns f'.dt f'.srPcm) (by omega)
  have hxs : xs' = xs := by
    apply List.ext_getElem?
    intro j
    rw [win_at w1, win_at w1', k7.dt, k7.srPcm]
    rw [k7.dt, k7.srPcm] at l4
    split
    · have := k7.all j (by omega) (Or.inl (by assumption))
      rwa [Nat.mod_eq_of_lt (by omega), Nat.mod_eq_of_lt (by omega)] at this
    · rfl
  subst hxs
  right
  refine ⟨LC3.complete f, LC3.complete { f' with ltpf := l }, pcmStore c.stride c.base (xs'.map c.conv) mem, ?_, ?_, complete_inv k3, complete_inv v2, ?_, ?_,
    RotFull.complete k3 v2 k7', ?_⟩
  · unfold decProcess
    rw [a1, Option.bind_some]
    unfold synthesize
    dsimp only
    rw [ho]
    dsimp only
    rw [q7, Option.bind_some, k1, Option.bind_some, w1]
    rfl
  · unfold decProcess
    rw [b1, Option.bind_some]
    unfold synthesize
    dsimp only
    rw [ho']
    dsimp only
    rw [r7, Option.bind_some, u1, Option.bind_some]
    dsimp only
    rw [w1', h1, h2, h3]
    rfl
  · show f.dt = d.dt
    rw [k5.dt, q8.same.dt, a3.dt]
  · show f.sr = d.sr
    rw [k5.sr, q8.same.sr, a3.sr]
  · have z3 := i1.xd
    have z4 := i1.xg
    have z5 := i2.xd
    rw [q8.same.dt, q8.same.srPcm, a3.dt, a3.srPcm] at z3 z4
    rw [r8.same.dt, r8.same.srPcm, b3.dt, b3.srPcm, h.dt, h.srPcm] at z5
    refine ⟨?_, ?_⟩
    · show f'.plc = f.plc
      rw [k8, k9, q10, r10]
    · show ∀ k, f.xgOff ≤ k → f'.x[k]? = f.x[k]?
      rw [k5.xg]
      intro k hk
      rw [k10 k (by omega), k11 k (by omega)]
      rw [q8.same.xg] at hk
      have z1 := win_at q8.g (k - d1.xgOff)
      have z2 := win_at r8.g (k - d1.xgOff)
      rw [show d1'.xgOff = d1.xgOff by omega, hrot.dt, hrot.srPcm] at z2
      rw [show d1.xgOff + (k - d1.xgOff) = k by omega] at z1 z2
      by_cases hlt : k - d1.xgOff < ns d1.dt d1.srPcm
      · rw [if_pos hlt] at z1 z2
        rw [← z1, ← z2]
      · rw [a3.dt, a3.srPcm] at hlt
        rw [List.getElem?_eq_none (by rw [r8.len]; omega), List.getElem?_eq_none (by rw [q8.len]; omega)]

theorem Dec.Rotated.refl (d : Dec R) : d.Rotated d :=
  ⟨rfl, rfl, rfl, fun _ => ⟨rfl, rfl, rfl, fun _ => ⟨rfl, rfl⟩⟩, fun _ _ _ _ => rfl, fun _ _ _ => rfl⟩

/-- Two calls that differ at most by the way the frame is missing. -/
def SameOrMissing (P : Platform R) (dt : Dt) (sr : Srate) (c c' : DecCall R α) : Prop :=
  c' = c ∨ (c'.base = c.base ∧ c'.stride = c.stride ∧ c'.conv = c.conv) ∧ Missing P dt sr c ∧ Missing P dt sr c'

theorem missing_run (P : Platform R) (dt : Dt) (sr : Srate) (calls calls' : List (DecCall R α)) (h : List.Forall₂ (SameOrMissing P dt sr) calls calls') :
    ∀ (d d' : Dec R) (mem : Int → α), d.dt = dt → d.sr = sr → (∀ c ∈ calls, CallOk c) → (∀ c ∈ calls', CallOk c) → DecInv P.A d → DecInv P.A d' →
    d.Rotated d' → d.SameLoss d' →
    (decRun P calls (some d) mem).map (fun r => (r.1, r.2.2)) = (decRun P calls' (some d') mem).map (fun r => (r.1, r.2.2)) := by
  induction h with
  | nil => intro d d' mem _ _ _ _ _ _ _ _; rfl
  | @cons c c' l l' hc _ ih =>
    intro d d' mem h1 h2 o o' hd hd' h hl
    have step : (lc3Decode P c (some d) mem = none ∧ lc3Decode P c' (some d') mem = none) ∨
        ∃ ret e e' m, lc3Decode P c (some d) mem = some (ret, some e, m) ∧ lc3Decode P c' (some d') mem = some (ret, some e', m) ∧
          DecInv P.A e ∧ DecInv P.A e' ∧ e.dt = d.dt ∧ e.sr = d.sr ∧ e.Rotated e' ∧ e.SameLoss e' := by
      rcases hc with rfl | ⟨⟨k1, k2, k3⟩, m1, m2⟩
      · rcases rotated_step P c' (o _ (List.mem_cons_self ..)) d d' hd hd' h (Or.inl hl) mem with k | ⟨ret, e, e', m, k1, k2, k3, k4, k5, k6, k7, k8⟩
        · exact Or.inl k
        · exact Or.inr ⟨ret, e, e', m, k1, k2, k3, k4, k5, k6, k7, k8 hl⟩
      · rcases missing_step P c c' (o _ (List.mem_cons_self ..)) (o' _ (List.mem_cons_self ..)) k1 k2 k3 d d' hd hd' h hl (by rw [h1, h2]; exact m1)
          (by rw [h1, h2]; exact m2) mem with k | ⟨e, e', m, k⟩
        · exact Or.inl k
        · exact Or.inr ⟨1, e, e', m, k⟩
    unfold decRun
    rcases step with ⟨k, k'⟩ | ⟨ret, e, e', m, k, k', i, i', q1, q2, q3, q4⟩
    · rw [k, k']; rfl
    · rw [k, k', Option.bind_some, Option.bind_some, Option.map_map, Option.map_map]
      have := ih e e' m (q1.trans h1) (q2.trans h2) (fun c h => o c (List.mem_cons_of_mem _ h)) (fun c h => o' c (List.mem_cons_of_mem _ h)) i i' q3 q4
      have := congrArg (Option.map fun r => (ret :: r.1, r.2)) this
      rw [Option.map_map, Option.map_map] at this
      exact this

/-- The calls that return 1 are the ones where the frame is lost, or of a valid size and refused. -/
theorem C96_missing (P : Platform R) (hr : Bool) (dtUs srHz srPcmHz : Int) (calls : List (DecCall R α)) (rets : List Int) (d : Dec R) (mem : Int → α)
    (h : Played P hr dtUs srHz srPcmHz calls rets d mem) (c : DecCall R α) (hc : CallOk c) (ret : Int) (e : Option (Dec R)) (m : Int → α)
    (hs : lc3Decode P c (some d) mem = some (ret, e, m)) : ret = 1 ↔ Missing P d.dt d.sr c := by
  obtain ⟨hd, -⟩ := h.inv
  rcases lc3Decode_step P c d mem hd hc with ⟨k1, k2, k3⟩ | ⟨-, -, -, k⟩ | ⟨k1, r, d2, xs, k2, -, -, -, -, k3⟩
  · rw [k3] at hs
    cases hs
    refine ⟨fun h => (by cases h), fun h => ?_⟩
    have := h.size k1
    omega
  · rw [k] at hs; cases hs
  · rw [k2] at hs
    cases hs
    rw [k3]
    refine ⟨fun h => ⟨fun hi => ?_, h⟩, fun h => h.refused⟩
    have := not_and.1 k1 hi
    omega

/-- **C96.** A stream is received twice by a decoder just setup, with the same outputs. Each call is the same, or the frame is missing for both: lost for
one, where the size announced is anything, and corrupted for the other; or corrupted in two ways. The values returned and the samples are the same for all the
calls, also for the frames received after. -/
theorem C96_corrupted (P : Platform R) (hr : Bool) (dtUs srHz srPcmHz : Int) (d0 : Dec R) (hs : decSetup P.A hr dtUs srHz srPcmHz true = some (some d0))
    (calls calls' : List (DecCall R α)) (o : ∀ c ∈ calls, CallOk c) (o' : ∀ c ∈ calls', CallOk c)
    (h : List.Forall₂ (fun c c' => c' = c ∨ (c'.base = c.base ∧ c'.stride = c.stride ∧ c'.conv = c.conv) ∧ Missing P d0.dt d0.sr c ∧ Missing P d0.dt d0.sr c')
      calls calls') (mem : Int → α) :
    (decRun P calls (some d0) mem).map (fun r => (r.1, r.2.2)) = (decRun P calls' (some d0) mem).map (fun r => (r.1, r.2.2)) := by
  obtain ⟨hi, -⟩ := decSetup_inv P hr dtUs srHz srPcmHz true d0 hs
  exact missing_run P d0.dt d0.sr calls calls' h d0 d0 mem rfl rfl o o' hi hi (Dec.Rotated.refl d0) ⟨rfl, fun _ _ => rfl⟩

/-- A frame of 30 bytes that is refused. -/
def exBad : List Nat := List.replicate 30 255

theorem exBad_missing : Missing exPlat .m10 .k8 (exCall (some exBad) 30) := by
  refine ⟨fun _ => by decide, fun F hF j => ?_⟩
  have hF : exBad = F := by injection hF
  subst hF
  have h : (match (decodeFrame exPlat.A .m10 .k8 exPlat.sh32 ⟨true, 7⟩ exBad).1 with
      | .refused => true
      | _ => false) = true := by decide +kernel
  have := decodeFrame_junk exPlat.A .m10 .k8 exPlat.sh32 ⟨true, 7⟩ j exBad
  cases hd : (decodeFrame exPlat.A .m10 .k8 exPlat.sh32 ⟨true, 7⟩ exBad).1 with
  | ub => rw [hd] at h; cases h
  | ok a => rw [hd] at h; cases h
  | refused =>
    rw [hd] at this
    cases hd' : (decodeFrame exPlat.A .m10 .k8 exPlat.sh32 j exBad).1 with
    | refused => rfl
    | ub => rw [hd'] at this; exact this.elim
    | ok a => rw [hd'] at this; exact this.elim

/-- Non-vacuity of C96: a frame, a frame corrupted or lost, and another frame. -/
example (mem : Int → Rat) : ∃ (d0 e e' : Dec Rat) (rets : List Int) (m : Int → Rat), decSetup exPlat.A false 10000 8000 24000 true = some (some d0) ∧
    decRun exPlat [exCall (some exGood) 40, exCall (some exBad) 30, exCall (some exGood) 40] (some d0) mem = some (rets, some e, m) ∧
    decRun exPlat [exCall (some exGood) 40, exCall none 0, exCall (some exGood) 40] (some d0) mem = some (rets, some e', m) := by
  obtain ⟨L, size, h, -⟩ := (C06_setup_decoder 0 false 10000 8000 24000 true).2 (by
    unfold Spec.setupOk Spec.supported Spec.pcmRate; decide)
  obtain ⟨d0, h0⟩ : ∃ d0, decSetup exPlat.A false 10000 8000 24000 true = some (some d0) := by
    unfold decSetup
    rw [h]; exact ⟨_, rfl⟩
  obtain ⟨-, -, -, r1, r2, -⟩ := decSetup_inv exPlat false 10000 8000 24000 true d0 h0
  have g : CallOk (exCall (some exGood) 40) :=
    exCall_ok _ _ (fun l hl => by injection hl with hl; subst hl; exact ⟨exGood_bytes, by decide⟩) (fun h => by cases h)
  have g1 : CallOk (exCall (some exBad) 30) :=
    exCall_ok _ _ (fun l hl => by
      injection hl with hl; subst hl
      exact ⟨fun b hb => by rw [List.eq_of_mem_replicate hb]; decide, by decide⟩) (fun h => by cases h)
  have g2 : CallOk (exCall none 0) := exCall_ok _ _ (fun l hl => by cases hl) (fun _ => by decide)
  have o : ∀ c ∈ [exCall (some exGood) 40, exCall (some exBad) 30, exCall (some exGood) 40], CallOk c := by
    intro c hc
    simp only [List.mem_cons, List.not_mem_nil, or_false] at hc
    rcases hc with rfl | rfl | rfl
    exacts [g, g1, g]
  have o' : ∀ c ∈ [exCall (some exGood) 40, exCall none 0, exCall (some exGood) 40], CallOk c := by
    intro c hc
    simp only [List.mem_cons, List.not_mem_nil, or_false] at hc
    rcases hc with rfl | rfl | rfl
    exacts [g, g2, g]
  have e1 : d0.dt = .m10 := by injection r1 with r1; exact r1.symm
  have e2 : d0.sr = .k8 := by injection r2 with r2; exact r2.symm
  have lost : Missing exPlat d0.dt d0.sr (exCall none 0) := ⟨fun h => (by cases h), fun F h => by cases h⟩
  have bad : Missing exPlat d0.dt d0.sr (exCall (some exBad) 30) := by rw [e1, e2]; exact exBad_missing
  have key := C96_corrupted exPlat false 10000 8000 24000 d0 h0 _ _ o o'
    (.cons (Or.inl rfl) (.cons (Or.inr ⟨⟨rfl, rfl, rfl⟩, bad, lost⟩) (.cons (Or.inl rfl) .nil))) mem
  obtain ⟨r, e, m, k⟩ := C56_no_ub exPlat false 10000 8000 24000 true d0 h0 _ o mem (by decide)
  obtain ⟨r', e', m', k'⟩ := C56_no_ub exPlat false 10000 8000 24000 true d0 h0 _ o' mem (by decide)
  rw [k, k'] at key
  cases key
  exact ⟨d0, e, e', r, m, h0, k, k'⟩

end LC3
