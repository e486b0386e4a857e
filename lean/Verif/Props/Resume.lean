import Verif.Props.Position
import Verif.Props.Plc

/-!
C94: decoders of the same configuration, whatever they have received, are the same after enough common frames.
-/

namespace LC3

variable {R : Type}

/-- The post-filter over a frame: the part of its memory not used by the configuration is kept, and the end of the frame is saved. -/
theorem synthLtpf_state (P : Platform R) (d e : Dec R) (hd : DecInv P.A d) (side : Option SideData) (nbytes : Int) (h : synthLtpf P d side nbytes = some e)
    (hh : d.sr.hr = false) : e.ltpf.c.drop (2 * ltpfWidth d.srPcm) = d.ltpf.c.drop (2 * ltpfWidth d.srPcm) ∧
    e.ltpf.x.drop (ltpfWidth d.srPcm - 1) = d.ltpf.x.drop (ltpfWidth d.srPcm - 1) ∧
    ∀ t, win d.x d.xsOff (ns d.dt d.srPcm) = some t →
      e.ltpf.x = t.drop (ns d.dt d.srPcm - (ltpfWidth d.srPcm - 1)) ++ d.ltpf.x.drop (ltpfWidth d.srPcm - 1) := by
  have hs : d.srPcm.hr = false := by rw [← hd.hr]; exact hh
  unfold synthLtpf at h
  rw [hh, if_neg (by decide), hd.xh] at h
  obtain ⟨r, w1, h⟩ := Option.bind_eq_some_iff.1 h
  obtain ⟨⟨l, o⟩, f1, h⟩ := Option.bind_eq_some_iff.1 h
  obtain ⟨x, p1, h⟩ := Option.bind_eq_some_iff.1 h
  cases h
  rw [Nat.sub_zero] at f1
  unfold ltpfSynthesize at f1
  dsimp only at f1
  obtain ⟨g, -, f1⟩ := Option.bind_eq_some_iff.1 f1
  obtain ⟨c, c1, f1⟩ := Option.bind_eq_some_iff.1 f1
  obtain ⟨x00, -, f1⟩ := Option.bind_eq_some_iff.1 f1
  obtain ⟨xe, e1, f1⟩ := Option.bind_eq_some_iff.1 f1
  obtain ⟨x01, -, f1⟩ := Option.bind_eq_some_iff.1 f1
  obtain ⟨o2, -, f1⟩ := Option.bind_eq_some_iff.1 f1
  rw [Option.some.injEq, Prod.mk.injEq] at f1
  obtain ⟨rfl, -⟩ := f1
  dsimp only
  have lc : c.length = 2 * ltpfWidth d.srPcm := by
    unfold ltpfCoeffs at c1
    simp only [Option.bind_eq_bind, Option.bind_eq_some_iff] at c1
    obtain ⟨den, -, num, -, c1⟩ := c1
    split at c1
    · cases c1
    · cases c1
      simp; omega
  have le : xe = (r.drop (d.xsOff + ns d.dt d.srPcm - (ltpfWidth d.srPcm - 1))).take (ltpfWidth d.srPcm - 1) ∧ xe.length = ltpfWidth d.srPcm - 1 := by
    unfold slice? at e1
    split at e1
    · rename_i hk
      cases e1
      refine ⟨rfl, ?_⟩
      rw [List.length_take, List.length_drop]; omega
    · cases e1
  refine ⟨?_, ?_, ?_⟩
  · rw [← lc, List.drop_left]
  · rw [← le.2, List.drop_left]
  · intro t ht
    congr 1
    apply List.ext_getElem?
    intro i
    obtain ⟨d1, -, -, -, d5, -, d7, -⟩ := dims d.dt d.srPcm hs
    have hx := hd.xsLe
    rw [le.1, List.getElem?_take, List.getElem?_drop, List.getElem?_drop, win_at w1, win_at ht]
    by_cases hi : i < ltpfWidth d.srPcm - 1
    · rw [if_pos hi, if_pos (by omega), if_pos (by omega)]
      congr 1; omega
    · rw [if_neg hi, if_neg (by omega)]

/-- What a call keeps: the part of the memory of the post-filter not used by the configuration, and the position in the sequence of the pseudo-random
generator, moved by a frame lost. -/
structure Dec.Keeps (d e : Dec R) (n : Nat) : Prop where
  dt : e.dt = d.dt
  sr : e.sr = d.sr
  srPcm : e.srPcm = d.srPcm
  c : d.sr.hr = false → e.ltpf.c.drop (2 * ltpfWidth d.srPcm) = d.ltpf.c.drop (2 * ltpfWidth d.srPcm)
  x : d.sr.hr = false → e.ltpf.x.drop (ltpfWidth d.srPcm - 1) = d.ltpf.x.drop (ltpfWidth d.srPcm - 1)
  seed : e.plc.seed = plcLcg^[n * ne d.dt d.sr] d.plc.seed

theorem plcSynthesize_seed (A : Arith R) (n : Nat) (p : Plc R) (g : List R) (q : Plc R × List R) (h : plcSynthesize A n p g = some q) :
    q.1.seed = plcLcg^[n] p.seed := by
  unfold plcSynthesize at h
  split at h
  · cases h
  · rename_i hl
    dsimp only at h
    obtain ⟨c, hc, rfl⟩ := Option.map_eq_some_iff.1 h
    show (plcLoop _ _ _ _).1 = _
    rw [(plcLoop_eq A _ p.seed (g.take n)).1, List.length_take]
    congr 2
    omega

theorem lc3Decode_keeps {α : Type} (P : Platform R) (c : DecCall R α) (hc : CallOk c) (d : Dec R) (hd : DecInv P.A d) (mem m : Int → α) (ret : Int)
    (o : Option (Dec R)) (h : lc3Decode P c (some d) mem = some (ret, o, m)) :
    ∃ e, o = some e ∧ DecInv P.A e ∧ d.Keeps e (if ret = 1 then 1 else 0) := by
  unfold lc3Decode at h
  dsimp only at h
  split at h
  · cases h
    exact ⟨d, rfl, hd, rfl, rfl, rfl, fun _ => rfl, fun _ => rfl, by rw [if_neg (by decide), Nat.zero_mul]; rfl⟩
  rename_i hr
  have hmax := maxFrame_le d.dt d.sr
  have hnb : 0 ≤ c.nbytes ∧ c.nbytes ≤ sizeLimit := by
    cases hi : c.inp with
    | none => exact hc.lost hi
    | some r =>
      have := not_and.1 hr (by rw [hi]; rfl)
      unfold sizeLimit
      omega
  obtain ⟨w, h, hw⟩ := Option.map_eq_some_iff.1 h
  have h0 := h
  unfold decProcess at h
  obtain ⟨side, d1, a1, a2, a3, a4, a5, a6, a7, a8⟩ := decInput_spec P c d hd hc
  rw [a1, Option.bind_some] at h
  dsimp only at h
  obtain ⟨f, k, h⟩ := Option.bind_eq_some_iff.1 h
  obtain ⟨xs, -, h⟩ := Option.bind_eq_some_iff.1 h
  cases h
  cases hw
  have key : ∀ e, DecInv P.A e → SameConfig d1 e → e.ltpf = d1.ltpf → (∀ l, pitchData side = some l → l.pitchIndex < 512) →
      synthLtpf P e side c.nbytes = some f → e.plc.seed = plcLcg^[(if (if side = none then (1 : Int) else 0) = 1 then 1 else 0) * ne d.dt d.sr] d.plc.seed →
      ∃ z, some (complete f) = some z ∧ DecInv P.A z ∧ d.Keeps z (if (if side = none then (1 : Int) else 0) = 1 then 1 else 0) := by
    intro e he hs hl hp hk hseed
    obtain ⟨f', s1, s2, s3, s4, -⟩ := synthLtpf_spec P e he side c.nbytes hp (fun _ => hnb)
    rw [hk] at s1
    obtain rfl := Option.some.inj s1
    have st := fun hh => synthLtpf_state P e f he side c.nbytes hk hh
    rw [hs.sr, a3.sr, hs.srPcm, a3.srPcm, hl, a4] at st
    refine ⟨_, rfl, complete_inv s2, ?_, ?_, ?_, fun hh => (st hh).1, fun hh => (st hh).2.1, ?_⟩
    · show f.dt = d.dt; rw [s3.dt, hs.dt, a3.dt]
    · show f.sr = d.sr; rw [s3.sr, hs.sr, a3.sr]
    · show f.srPcm = d.srPcm; rw [s3.srPcm, hs.srPcm, a3.srPcm]
    · show f.plc.seed = _; rw [s4]; exact hseed
  by_cases ho : side = none
  · rw [ho] at k
    unfold synthesize at k
    dsimp only at k
    obtain ⟨e', k1, k2⟩ := Option.bind_eq_some_iff.1 k
    by_cases hcnt : 2 ^ 31 ≤ d1.plc.count + 1
    · have := decProcess_overflow P c d mem hd hc (a7.1 ho) (by rw [← a5]; exact hcnt)
      rw [this] at h0
      cases h0
    obtain ⟨e, xd, g, p, t, y, q1, q2, q3, q4, q5, q6, q7, q8, q9, q10⟩ := synthLost_spec P c.junk d1 a2 (by omega)
    rw [k1] at q7
    obtain rfl := Option.some.inj q7
    have c1 := a2.count
    refine key e' (q8.inv a2 q9 (by rw [q10, q4]; omega) ?_) q8.same q9 (fun l hl => by rw [ho] at hl; cases hl) (by rw [ho]; exact k2) ?_
    · intro k k1 k2
      rw [win_at q2, if_pos k2]; exact a2.high k k1 k2
    · rw [q10, plcSynthesize_seed P.A _ _ _ _ q3, if_pos ho, if_pos rfl, Nat.one_mul, a3.dt, a3.sr, a5]
  · obtain ⟨sd, ho⟩ := Option.ne_none_iff_exists'.1 ho
    rw [ho] at k
    unfold synthesize at k
    dsimp only at k
    obtain ⟨e', k1, k2⟩ := Option.bind_eq_some_iff.1 k
    obtain ⟨F, s, f1, f2, f3, f4⟩ := a8 sd ho
    rw [← a3.dt, ← a3.sr] at f3 f4
    obtain ⟨e, xd, g, t, y, q1, q2, q3, q4, q5, q6, q7, q8⟩ := synthGood_spec P c.junk d1 a2 sd F.length f4 _ f3
    rw [k1] at q4
    obtain rfl := Option.some.inj q4
    refine key e' (q5.inv a2 q6 (by rw [q7]; exact Int.le_refl 1) q8) q5.same q6 ?_ (by rw [ho]; exact k2) ?_
    · rw [ho]
      intro l hl
      unfold pitchData at hl
      rw [Option.bind_some] at hl
      split at hl
      · rename_i hp
        injection hl with hl
        rw [← hl]; exact f4.ltpf hp
      · cases hl
    · rw [q7, if_neg (show ¬ side = none by rw [ho]; simp), if_neg (by decide), Nat.zero_mul]
      show d1.plc.seed = _
      rw [a5]; rfl

theorem decRun_keeps {α : Type} (P : Platform R) (calls : List (DecCall R α)) : ∀ (d : Dec R) (mem : Int → α), DecInv P.A d → (∀ c ∈ calls, CallOk c) →
    ∀ rets o m, decRun P calls (some d) mem = some (rets, o, m) → ∃ e, o = some e ∧ DecInv P.A e ∧ d.Keeps e (rets.count 1) := by
  induction calls with
  | nil =>
    intro d mem hd _ rets o m h
    cases h
    exact ⟨d, rfl, hd, rfl, rfl, rfl, fun _ => rfl, fun _ => rfl, by rw [List.count_nil, Nat.zero_mul]; rfl⟩
  | cons c l ih =>
    intro d mem hd hok rets o m h
    unfold decRun at h
    obtain ⟨⟨r, o1, m1⟩, h1, h⟩ := Option.bind_eq_some_iff.1 h
    obtain ⟨⟨rs, o2, m2⟩, h2, h⟩ := Option.map_eq_some_iff.1 h
    cases h
    obtain ⟨e, rfl, he, k⟩ := lc3Decode_keeps P c (hok c (List.mem_cons_self ..)) d hd mem m1 r o1 h1
    obtain ⟨e2, rfl, he2, k2⟩ := ih e m1 he (fun c h => hok c (List.mem_cons_of_mem _ h)) rs _ _ h2
    refine ⟨e2, rfl, he2, by rw [k2.dt, k.dt], by rw [k2.sr, k.sr], by rw [k2.srPcm, k.srPcm], ?_, ?_, ?_⟩
    · intro hh
      have := k2.c (by rw [k.sr]; exact hh)
      rw [k.srPcm] at this
      rw [this, k.c hh]
    · intro hh
      have := k2.x (by rw [k.sr]; exact hh)
      rw [k.srPcm] at this
      rw [this, k.x hh]
    · rw [k2.seed, k.seed, k.dt, k.sr, ← Function.iterate_add_apply, ← Nat.add_mul, List.count_cons]
      congr 3
      by_cases hr : r = 1 <;> simp [hr]

theorem win_moved {x y : List R} {off n : Nat} {w : List R} (hy : win y off n = some w) (hl : off + n ≤ x.length)
    (h : ∀ k, off ≤ k → k < off + n → x[k]? = y[k]?) : win x off n = some w := by
  obtain ⟨v, h1, -⟩ := win_some x off n hl
  rw [h1, win_agree h h1 hy]

/-- A call with a frame accepted, with the memory of the decoder after the call. -/
theorem goodCall_full {α : Type} (P : Platform R) (c : DecCall R α) (d : Dec R) (mem : Int → α) (hd : DecInv P.A d) (hc : CallOk c) (F : List Nat)
    (hF : c.frame = some F) (hl : (F.length : Int) = c.nbytes) (hg : FrameGood P d.dt d.sr F) :
    ∃ (f : Dec R) (xs xd g t y : List R) (side : SideData) (s : SpecData R),
      (decodeFrame P.A d.dt d.sr P.sh32 c.junk.ltpf F).1 = .ok (side, s) ∧
      lc3Decode P c (some d) mem = some (0, some (complete f), pcmStore c.stride c.base (xs.map c.conv) mem) ∧
      DecInv P.A f ∧ SameConfig d f ∧ win d.x d.xdOff (nd d.dt d.srPcm) = some xd ∧
      goodSpectrum P d.dt d.sr d.srPcm side (padSpectrum P.A d.dt d.sr s.x) = some g ∧ g.length = ns d.dt d.srPcm ∧
      invTransform P d.dt d.sr d.srPcm g xd = some (t, y) ∧ win f.x f.xdOff (nd d.dt d.srPcm) = some y ∧ win f.x f.xgOff (ns d.dt d.srPcm) = some g ∧
      f.plc = plcSuspend P.A d.plc ∧
      (d.sr.hr = true ∨ FrameNoLtpf P d.dt d.sr F → (d.sr.hr = false → f.ltpf.active = false) ∧ (d.sr.hr = true ∨ d.ltpf.active = false →
        win f.x f.xsOff (ns d.dt d.srPcm) = some t ∧ (∀ k, k < d.xdOff → k < d.xsOff ∨ d.xsOff + ns d.dt d.srPcm ≤ k → f.x[k]? = d.x[k]?) ∧
        (d.sr.hr = false → f.ltpf.x = t.drop (ns d.dt d.srPcm - (ltpfWidth d.srPcm - 1)) ++ d.ltpf.x.drop (ltpfWidth d.srPcm - 1)))) := by
  obtain ⟨o, d1, a1, a2, a3, a4, a5, a6, a7, a8⟩ := decInput_spec P c d hd hc
  obtain ⟨hg1, hg2, j0, side0, s0, hg3⟩ := hg
  have hnr : ¬ Refused P d F := by
    intro h
    rw [h j0] at hg3; cases hg3
  cases ho : o with
  | none => exact absurd (a7.1 ho F hF) hnr
  | some side =>
    obtain ⟨F', s, f1, f2, f3, f4⟩ := a8 side ho
    rw [hF] at f1
    injection f1 with f1
    subst f1
    rw [← a3.dt, ← a3.sr] at f3 f4
    obtain ⟨e, xd, g, t, y, q1, q2, q3, q4, q5, q6, q7, q8⟩ := synthGood_spec P c.junk d1 a2 side F.length f4 _ f3
    have i1 := q5.inv a2 q6 (by rw [q7]; exact Int.le_refl 1) q8
    have hmax := maxFrame_le d.dt d.sr
    obtain ⟨f, s1, s2, s3, s4, s5, s6⟩ := synthLtpf_spec P e i1 (some side) c.nbytes (by
      intro l hl
      unfold pitchData at hl
      rw [Option.bind_some] at hl
      split at hl
      · rename_i hp
        injection hl with hl
        rw [← hl]; exact f4.ltpf hp
      · cases hl) (fun _ => by unfold sizeLimit; omega)
    have l1 := s2.len
    have l2 := s2.xsLe
    obtain ⟨xs, w1, w2⟩ := win_some f.x f.xsOff (ns f.dt f.srPcm) (by omega)
    have x1 := i1.xd
    have x2 := i1.xg
    have c1 := q5.same
    rw [c1.dt, c1.srPcm, a3.dt, a3.srPcm] at x1 x2
    rw [a3.dt, a3.srPcm] at q1
    rw [a3.dt, a3.sr, a3.srPcm] at q2 q3
    have l3 := hd.len
    have e1 : f.dt = d.dt := by rw [s3.dt, c1.dt, a3.dt]
    have e2 : f.srPcm = d.srPcm := by rw [s3.srPcm, c1.srPcm, a3.srPcm]
    have e3 := s3.xd
    have e4 := s3.xg
    have e5 := c1.xd
    have e6 := c1.xg
    have e7 := a3.xd
    have e8 := a3.xg
    rw [e1, e2] at l1
    have hxs := hd.xsLe
    have hxd := hd.xd
    rw [a3.dt, a3.sr] at f3
    refine ⟨f, xs, xd, g, t, y, side, s, f2, ?_, s2, ?_, ?_, q2, ?_, q3, ?_, ?_, ?_, ?_⟩
    · unfold lc3Decode decProcess
      dsimp only
      rw [if_neg (by omega), a1, Option.bind_some]
      unfold synthesize
      rw [ho]
      dsimp only
      rw [q4, Option.bind_some, s1, Option.bind_some, w1]
      rfl
    · exact ⟨by rw [s3.dt, c1.dt, a3.dt], by rw [s3.sr, c1.sr, a3.sr], by rw [s3.srPcm, c1.srPcm, a3.srPcm], by rw [s3.xh, c1.xh, a3.xh],
        by rw [s3.xs, c1.xs, a3.xs], by rw [s3.xd, c1.xd, a3.xd], by rw [s3.xg, c1.xg, a3.xg]⟩
    · rw [a3.xd] at q1
      exact win_moved q1 (by omega) (fun k k1 k2 => (a6 k (by omega)).symm)
    · rw [← a3.dt, ← a3.srPcm]; exact (win_length q5.g).1
    · have := q5.e
      rw [a3.dt, a3.srPcm, ← c1.xd] at this
      rw [s3.xd]
      exact win_moved this (by omega) (fun k k1 k2 => s5 k k1)
    · have := q5.g
      rw [a3.dt, a3.srPcm, ← c1.xg] at this
      rw [s3.xg]
      exact win_moved this (by omega) (fun k k1 k2 => s5 k (by omega))
    · rw [s4, q7, a5]
    · intro hno
      have hoff : (d.sr.hr = false → f.ltpf.active = false) ∧ (d.sr.hr = true ∨ d.ltpf.active = false → f.x = e.x) := by
        rcases hno with hno | hno
        · exact ⟨(fun h => by rw [hno] at h; cases h), fun _ => by rw [s6 (by rw [c1.sr, a3.sr]; exact hno)]⟩
        have hoff := synthLtpf_off P e f (some side) c.nbytes (by
          intro l hl
          unfold pitchData at hl
          rw [Option.bind_some] at hl
          split at hl
          · rename_i hp
            injection hl with hl
            rw [← hl]
            exact hno _ _ _ f2 hp
          · cases hl) s1
        rw [c1.sr, a3.sr, q6, a4] at hoff
        refine ⟨hoff.1, fun hi => ?_⟩
        rcases hi with hi | hi
        · rw [s6 (by rw [c1.sr, a3.sr]; exact hi)]
        · exact hoff.2 hi
      refine ⟨hoff.1, fun hi => ?_⟩
      have hx : f.x = e.x := hoff.2 hi
      refine ⟨?_, ?_, ?_⟩
      · rw [hx, s3.xs, c1.xs, ← a3.dt, ← a3.srPcm]; exact q5.t
      · intro k k1 k2
        rw [hx, q5.out k (by rw [a3.xd]; exact k1) (by rw [a3.xs, a3.dt, a3.srPcm]; exact k2)]
        exact a6 k k2
      · intro hh
        have := (synthLtpf_state P e f i1 (some side) c.nbytes s1 (by rw [c1.sr, a3.sr]; exact hh)).2.2 t (by rw [c1.xs, c1.dt, c1.srPcm]; exact q5.t)
        rw [c1.dt, c1.srPcm, a3.dt, a3.srPcm, q6, a4] at this
        exact this

/-- Two decoders of the same configuration, the post-filter not active, with the same delayed samples, and the same last `m` samples. -/
structure Dec.Recent (m : Nat) (d d' : Dec R) : Prop where
  dt : d'.dt = d.dt
  sr : d'.sr = d.sr
  srPcm : d'.srPcm = d.srPcm
  off : d.sr.hr = false → d.ltpf.active = false ∧ d'.ltpf.active = false
  c : d.sr.hr = false → d'.ltpf.c.drop (2 * ltpfWidth d.srPcm) = d.ltpf.c.drop (2 * ltpfWidth d.srPcm)
  xk : d.sr.hr = false → d'.ltpf.x.drop (ltpfWidth d.srPcm - 1) = d.ltpf.x.drop (ltpfWidth d.srPcm - 1)
  x : d.sr.hr = false → 0 < m → d'.ltpf.x = d.ltpf.x
  old : ∀ i, ns d.dt d.srPcm ≤ i → ns d.dt d.srPcm + nh d.dt d.srPcm ≤ i + m → i < ns d.dt d.srPcm + nh d.dt d.srPcm →
    d'.x[(d'.xsOff + i) % (ns d.dt d.srPcm + nh d.dt d.srPcm)]? = d.x[(d.xsOff + i) % (ns d.dt d.srPcm + nh d.dt d.srPcm)]?
  xd : ∀ k, d.xdOff ≤ k → k < d.xdOff + nd d.dt d.srPcm → d'.x[k]? = d.x[k]?

theorem nh_pos (dt : Dt) (sr : Srate) : sr.hr = false → 0 < nh dt sr := by cases dt <;> cases sr <;> decide

/-- With the whole history, the decoders have the same history. -/
theorem Dec.Recent.rotated {A : Arith R} {m : Nat} {d d' : Dec R} (hd : DecInv A d) (h : d.Recent m d') (hm : d.sr.hr = true ∨ nh d.dt d.srPcm ≤ m) : d.Rotated d' := by
  have hm : d.sr.hr = false → nh d.dt d.srPcm ≤ m := fun hh => hm.resolve_left (by rw [hh]; decide)
  refine ⟨h.dt, h.sr, h.srPcm, ?_, fun hh i h1 h2 => h.old i h1 (by have := hm hh; omega) h2, h.xd⟩
  intro hh
  have h1 := nh_pos d.dt d.srPcm (by rw [← hd.hr]; exact hh)
  have h2 := hm hh
  refine ⟨by rw [(h.off hh).1, (h.off hh).2], h.x hh (by omega), h.c hh, ?_⟩
  intro ha
  rw [(h.off hh).1] at ha; cases ha

/-- What two decoders have in common whatever they have received. -/
structure Dec.Alike (d d' : Dec R) : Prop where
  dt : d'.dt = d.dt
  sr : d'.sr = d.sr
  srPcm : d'.srPcm = d.srPcm
  c : d.sr.hr = false → d'.ltpf.c.drop (2 * ltpfWidth d.srPcm) = d.ltpf.c.drop (2 * ltpfWidth d.srPcm)
  x : d.sr.hr = false → d'.ltpf.x.drop (ltpfWidth d.srPcm - 1) = d.ltpf.x.drop (ltpfWidth d.srPcm - 1)

/-- The first frame in common: the samples delayed become the same; then each frame in common extends the common history. -/
theorem recent_step {α β : Type} (P : Platform R) (d d' : Dec R) (hd : DecInv P.A d) (hd' : DecInv P.A d') (hcfg : Config d.dt d.srPcm) (h : d.Alike d')
    (F : List Nat) (hg : FrameGood P d.dt d.sr F) (hno : d.sr.hr = true ∨ FrameNoLtpf P d.dt d.sr F) (c : DecCall R α) (c' : DecCall R β) (g : Gives c F)
    (g' : Gives c' F) (mem : Int → α) (mem' : Int → β) :
    ∃ e e' m m', lc3Decode P c (some d) mem = some (0, some e, m) ∧ lc3Decode P c' (some d') mem' = some (0, some e', m') ∧ DecInv P.A e ∧ DecInv P.A e' ∧
      e.dt = d.dt ∧ e.sr = d.sr ∧ e.srPcm = d.srPcm ∧ e.Recent 0 e' ∧ (∀ n, d.Recent n d' → e.Recent (n + ns d.dt d.srPcm) e') ∧
      (d'.plc.seed = d.plc.seed → e.SameLoss e') ∧ e.plc.seed = d.plc.seed ∧ e'.plc.seed = d'.plc.seed := by
  obtain ⟨f, xs, xd, sp, t, y, side, s, a1, a2, a3, a4, a5, a6, a7, a8, a9, a10, a11, a12⟩ :=
    goodCall_full P c d mem hd g.ok F g.frame_eq.1 g.frame_eq.2 hg
  obtain ⟨f', xs', xd', sp', t', y', side', s', b1, b2, b3, b4, b5, b6, b7, b8, b9, b10, b11, b12⟩ :=
    goodCall_full P c' d' mem' hd' g'.ok F g'.frame_eq.1 g'.frame_eq.2 (by rw [h.dt, h.sr]; exact hg)
  have k1 := lc3Decode_keeps P c g.ok d hd mem _ _ _ a2
  have k2 := lc3Decode_keeps P c' g'.ok d' hd' mem' _ _ _ b2
  obtain ⟨_, z1, i1, k1⟩ := k1
  cases z1
  obtain ⟨_, z1, i2, k2⟩ := k2
  cases z1
  rw [h.dt, h.sr] at b1
  rw [h.dt, h.sr, h.srPcm] at b6 b8 b12
  rw [h.dt, h.srPcm] at b5 b9 b10
  have n3 := (dec_dims d.dt d.sr d.srPcm hd.rate).2.2.1
  have n4 := (dec_dims d.dt d.sr d.srPcm hd.rate).2.2.2.1
  have n5 := (dec_dims d.dt d.sr d.srPcm hd.rate).2.2.2.2
  have eg := goodSpectrum_frame P d.dt d.sr d.srPcm _ _ F side side' s s' a1 b1
  rw [a6, b6] at eg
  obtain rfl := Option.some.inj eg
  have ee := invTransform_delay P d.dt d.sr d.srPcm hcfg n3 sp xd xd' t y t' y' a7 (win_length a5).1 (win_length b5).1 a8 b8
  subst ee
  have c1 := hd.xd
  have c2 := hd'.xd
  have c3 := hd.xg
  have c4 := hd'.xg
  have c5 := a3.len
  have c6 := b3.len
  have c7 := hd.xsLe
  have c8 := hd'.xsLe
  rw [h.dt, h.srPcm] at c2 c4 c8
  rw [b4.dt, b4.srPcm, h.dt, h.srPcm] at c6
  rw [a4.dt, a4.srPcm] at c5
  have exd : ∀ k, f.xdOff ≤ k → k < f.xdOff + nd f.dt f.srPcm → f'.x[k]? = f.x[k]? := by
    rw [a4.xd, a4.dt, a4.srPcm]
    intro k k1 k2
    have t1 := win_at a9 (k - d.xdOff)
    have t2 := win_at b9 (k - d.xdOff)
    rw [a4.xd] at t1
    rw [b4.xd] at t2
    rw [if_pos (by omega), show d.xdOff + (k - d.xdOff) = k by omega] at t1
    rw [if_pos (by omega), show d'.xdOff + (k - d.xdOff) = k by omega] at t2
    rw [← t1, ← t2]
  have r0 : (complete f).Recent 0 (complete f') := by
    refine ⟨?_, ?_, ?_, ?_, ?_, ?_, fun _ h => absurd h (Nat.lt_irrefl 0), fun i _ h1 h2 => by omega, exd⟩
    · rw [k1.dt, k2.dt, h.dt]
    · rw [k1.sr, k2.sr, h.sr]
    · rw [k1.srPcm, k2.srPcm, h.srPcm]
    · rw [k1.sr]
      intro hh
      exact ⟨(a12 hno).1 hh, (b12 hno).1 hh⟩
    · rw [k1.sr, k1.srPcm]
      intro hh
      have := k2.c (by rw [h.sr]; exact hh)
      rw [h.srPcm] at this
      rw [k1.c hh, this, h.c hh]
    · rw [k1.sr, k1.srPcm]
      intro hh
      have := k2.x (by rw [h.sr]; exact hh)
      rw [h.srPcm] at this
      rw [k1.x hh, this, h.x hh]
  refine ⟨complete f, complete f', _, _, a2, b2, i1, i2, k1.dt, k1.sr, k1.srPcm, r0, ?_, ?_, ?_, ?_⟩
  · intro n hn
    have exd : xd' = xd := by
      rw [show d'.xdOff = d.xdOff by omega] at b5
      exact win_agree (fun k k1 k2 => hn.xd k k1 k2) b5 a5
    subst exd
    rw [a8, Option.some.injEq, Prod.mk.injEq] at b8
    obtain ⟨rfl, -⟩ := b8
    have hin : d.sr.hr = true ∨ d.ltpf.active = false := by
      cases hh : d.sr.hr with
      | true => exact Or.inl rfl
      | false => exact Or.inr (hn.off hh).1
    have hin' : d.sr.hr = true ∨ d'.ltpf.active = false := by
      cases hh : d.sr.hr with
      | true => exact Or.inl rfl
      | false => exact Or.inr (hn.off hh).2
    obtain ⟨u1, u2, u3⟩ := (a12 hno).2 hin
    obtain ⟨v1, v2, v3⟩ := (b12 hno).2 hin'
    refine ⟨r0.dt, r0.sr, r0.srPcm, r0.off, r0.c, r0.xk, ?_, ?_, r0.xd⟩
    · rw [k1.sr]
      intro hh _
      show f'.ltpf.x = f.ltpf.x
      rw [u3 hh, v3 hh, h.x hh]
    · rw [k1.dt, k1.srPcm]
      intro i h1 h2 h3
      unfold complete
      dsimp only
      rw [a3.xh, b3.xh, a4.xs, b4.xs, a4.dt, a4.srPcm, b4.dt, b4.srPcm, h.dt, h.srPcm, complete_pos d.xsOff i _ _ c7 n4 hd.xs ⟨_, n5⟩,
        complete_pos d'.xsOff i _ _ c8 n4 (by have := hd'.xs; rwa [h.dt, h.srPcm] at this) ⟨_, n5⟩]
      by_cases hi : i < nh d.dt d.srPcm
      · rw [Nat.mod_eq_of_lt (show ns d.dt d.srPcm + i < ns d.dt d.srPcm + nh d.dt d.srPcm by omega)]
        have m := Nat.mod_lt (d.xsOff + (ns d.dt d.srPcm + i)) (show 0 < ns d.dt d.srPcm + nh d.dt d.srPcm by omega)
        have m' := Nat.mod_lt (d'.xsOff + (ns d.dt d.srPcm + i)) (show 0 < ns d.dt d.srPcm + nh d.dt d.srPcm by omega)
        rw [u2 _ (by omega) (mod_window (by omega) (by omega) (by omega)), v2 _ (by omega) (mod_window (by omega) (by omega) (by omega))]
        exact hn.old _ (by omega) (by omega) (by omega)
      · have : (ns d.dt d.srPcm + i) % (ns d.dt d.srPcm + nh d.dt d.srPcm) = i - nh d.dt d.srPcm := by
          rw [Nat.mod_eq_sub_mod (by omega), Nat.mod_eq_of_lt (by omega)]; omega
        rw [this, Nat.mod_eq_of_lt (by omega), Nat.mod_eq_of_lt (by omega)]
        have t1 := win_at u1 (i - nh d.dt d.srPcm)
        have t2 := win_at v1 (i - nh d.dt d.srPcm)
        rw [if_pos (by omega), a4.xs] at t1
        rw [if_pos (by omega), b4.xs] at t2
        rw [← t1, ← t2]
  · intro hs
    refine ⟨?_, ?_⟩
    · show f'.plc = f.plc
      rw [a11, b11]
      unfold plcSuspend
      rw [hs]
    · show ∀ k, f.xgOff ≤ k → f'.x[k]? = f.x[k]?
      rw [a4.xg]
      intro k hk
      have z1 := win_at a10 (k - d.xgOff)
      have z2 := win_at b10 (k - d.xgOff)
      rw [a4.xg, show d.xgOff + (k - d.xgOff) = k by omega] at z1
      rw [b4.xg, show d'.xgOff + (k - d.xgOff) = k by omega] at z2
      by_cases hlt : k - d.xgOff < ns d.dt d.srPcm
      · rw [if_pos hlt] at z1 z2
        rw [← z1, ← z2]
      · rw [List.getElem?_eq_none (by omega), List.getElem?_eq_none (by omega)]
  · exact k1.seed.trans (by simp)
  · exact k2.seed.trans (by simp)

/-- The frames in common after the first. -/
theorem recent_run {α β : Type} (P : Platform R) (dt : Dt) (sr srPcm : Srate) (hcfg : Config dt srPcm) (fs : List (List Nat × DecCall R α × DecCall R β)) :
    (∀ f ∈ fs, FrameGood P dt sr f.1 ∧ (sr.hr = true ∨ FrameNoLtpf P dt sr f.1) ∧ Gives f.2.1 f.1 ∧ Gives f.2.2 f.1) →
    ∀ (n : Nat) (d d' : Dec R) (mem : Int → α) (mem' : Int → β), DecInv P.A d → DecInv P.A d' → d.dt = dt → d.sr = sr → d.srPcm = srPcm → d.Recent n d' →
      (d'.plc.seed = d.plc.seed → d.SameLoss d') →
      ∃ e e' m m', decRun P (fs.map fun f => f.2.1) (some d) mem = some (List.replicate fs.length 0, some e, m) ∧
        decRun P (fs.map fun f => f.2.2) (some d') mem' = some (List.replicate fs.length 0, some e', m') ∧ DecInv P.A e ∧ DecInv P.A e' ∧
        e.dt = dt ∧ e.sr = sr ∧ e.srPcm = srPcm ∧ e.Recent (n + fs.length * ns dt srPcm) e' ∧ (d'.plc.seed = d.plc.seed → e.SameLoss e') := by
  induction fs with
  | nil =>
    intro _ n d d' mem mem' hd hd' h1 h2 h3 hr hl
    exact ⟨d, d', mem, mem', rfl, rfl, hd, hd', h1, h2, h3, by rw [List.length_nil, Nat.zero_mul]; exact hr, hl⟩
  | cons f l ih =>
    intro hf n d d' mem mem' hd hd' h1 h2 h3 hr hl
    obtain ⟨g1, g2, g3, g4⟩ := hf f (List.mem_cons_self ..)
    subst h1 h2 h3
    obtain ⟨e, e', m, m', k1, k2, k3, k4, k5, k6, k7, k8, k9, k10, k11, k12⟩ := recent_step P d d' hd hd' hcfg ⟨hr.dt, hr.sr, hr.srPcm, hr.c, hr.xk⟩ f.1 g1 g2
      f.2.1 f.2.2 g3 g4 mem mem'
    obtain ⟨z, z', w, w', q1, q2, q3, q4, q5, q6, q7, q8, q9⟩ := ih (fun f h => hf f (List.mem_cons_of_mem _ h)) _ e e' m m' k3 k4 k5 k6 k7 (k9 n hr)
      (by rw [k11, k12]; exact k10)
    refine ⟨z, z', w, w', ?_, ?_, q3, q4, q5, q6, q7, ?_, by rw [← k11, ← k12]; exact q9⟩
    · rw [List.map_cons]
      unfold decRun
      rw [k1, Option.bind_some, q1]
      rfl
    · rw [List.map_cons]
      unfold decRun
      rw [k2, Option.bind_some, q2]
      rfl
    · rw [List.length_cons, Nat.succ_mul, Nat.add_comm _ (ns d.dt d.srPcm), ← Nat.add_assoc]
      exact q8

theorem frames_history (hr : Bool) (us : Int) (dt : Dt) (sr : Srate) (h : resolveDt us hr = some dt) (n : Nat) (hn : 20000 ≤ (n : Int) * us) :
    nh dt sr ≤ n * ns dt sr := by
  have key : ∀ (dt : Dt) (k : Nat), (dt = .m2_5 → 8 ≤ k) → (dt = .m5 → 4 ≤ k) → (dt = .m7_5 → 3 ≤ k) → (dt = .m10 → 2 ≤ k) → nh dt sr ≤ k * ns dt sr := by
    intro dt k h1 h2 h3 h4
    have : ∃ q, nh dt sr ≤ q * ns dt sr ∧ q ≤ k := by
      cases dt
      · exact ⟨8, by cases sr <;> decide, h1 rfl⟩
      · exact ⟨4, by cases sr <;> decide, h2 rfl⟩
      · exact ⟨3, by cases sr <;> decide, h3 rfl⟩
      · exact ⟨2, by cases sr <;> decide, h4 rfl⟩
    obtain ⟨q, q1, q2⟩ := this
    exact Nat.le_trans q1 (Nat.mul_le_mul_right _ q2)
  unfold resolveDt at h
  apply key <;> (intro hd; subst hd; split_ifs at h <;> first | (cases h; subst_vars; omega) | (cases h; rename_i hx; rw [hx.2] at hn; omega) | (cases h; done))

/-- The seeds of decoders that have lost as many frames are the same; and they are alike. -/
theorem played_alike {α β : Type} (P : Platform R) (hr : Bool) (dtUs srHz srPcmHz : Int) {calls : List (DecCall R α)} {rets : List Int} {d : Dec R}
    {mem : Int → α} (h : Played P hr dtUs srHz srPcmHz calls rets d mem) {calls' : List (DecCall R β)} {rets' : List Int} {d' : Dec R} {mem' : Int → β}
    (h' : Played P hr dtUs srHz srPcmHz calls' rets' d' mem') : d.Alike d' ∧ (rets.count 1 = rets'.count 1 → d'.plc.seed = d.plc.seed) := by
  obtain ⟨d0, m0, s1, s2⟩ := h.run
  obtain ⟨d0', m0', s1', s2'⟩ := h'.run
  rw [s1] at s1'
  cases s1'
  obtain ⟨hi, -⟩ := decSetup_inv P hr dtUs srHz srPcmHz true d0 s1
  obtain ⟨_, z, -, k⟩ := decRun_keeps P calls d0 m0 hi h.ok _ _ _ s2
  cases z
  obtain ⟨_, z, -, k'⟩ := decRun_keeps P calls' d0 m0' hi h'.ok _ _ _ s2'
  cases z
  refine ⟨⟨by rw [k.dt, k'.dt], by rw [k.sr, k'.sr], by rw [k.srPcm, k'.srPcm], ?_, ?_⟩, ?_⟩
  · rw [k.sr, k.srPcm]
    intro hh
    rw [k.c hh, k'.c hh]
  · rw [k.sr, k.srPcm]
    intro hh
    rw [k.x hh, k'.x hh]
  · intro hc
    rw [k.seed, k'.seed, hc]

/-- **C94.** Two decoders of the same configuration have received anything, in any number. They then receive the same frames, accepted and without
post-filter, that cover 20 ms after the first one; a single frame is enough in high resolution. From there, they are the same decoder: the next calls, with
or without the post-filter, give the same values returned and the same samples, as long as the frames are accepted. The next frames may also be lost or
corrupted, when the decoders have lost as many frames as each other before. -/
theorem C94_resume {α β γ : Type} (P : Platform R) (hr : Bool) (dtUs srHz srPcmHz : Int)
    (calls : List (DecCall R α)) (rets : List Int) (d : Dec R) (mem : Int → α) (h : Played P hr dtUs srHz srPcmHz calls rets d mem)
    (calls' : List (DecCall R β)) (rets' : List Int) (d' : Dec R) (mem' : Int → β) (h' : Played P hr dtUs srHz srPcmHz calls' rets' d' mem')
    (fs : List (List Nat × DecCall R α × DecCall R β)) (hn : hr = true ∧ fs ≠ [] ∨ 20000 ≤ ((fs.length : Int) - 1) * dtUs)
    (hfs : ∀ f ∈ fs, FrameGood P d.dt d.sr f.1 ∧ (hr = true ∨ FrameNoLtpf P d.dt d.sr f.1) ∧ Gives f.2.1 f.1 ∧ Gives f.2.2 f.1) :
    ∃ e e' m m', decRun P (fs.map fun f => f.2.1) (some d) mem = some (List.replicate fs.length 0, some e, m) ∧
      decRun P (fs.map fun f => f.2.2) (some d') mem' = some (List.replicate fs.length 0, some e', m') ∧
      ∀ next : List (DecCall R γ), (∀ c ∈ next, CallOk c) →
        (rets.count 1 = rets'.count 1 ∨ ∀ c ∈ next, ∃ F, c.frame = some F ∧ ¬ Refused P d F) → ∀ mem0 : Int → γ,
        (decRun P next (some e) mem0).map (fun r => (r.1, r.2.2)) = (decRun P next (some e') mem0).map (fun r => (r.1, r.2.2)) := by
  obtain ⟨i1, r1, r2, r3, -⟩ := h.inv
  obtain ⟨i1', -⟩ := h'.inv
  obtain ⟨cfg, -⟩ := resolve_config r1 r3
  obtain ⟨-, ehr⟩ := resolve_config r1 r2
  obtain ⟨al, hseed⟩ := played_alike P hr dtUs srHz srPcmHz h h'
  have hus : 0 ≤ dtUs := by
    unfold resolveDt at r1
    by_contra hneg
    split_ifs at r1 <;> omega
  cases fs with
  | nil =>
    exfalso
    rcases hn with hn | hn
    · exact hn.2 rfl
    · simp at hn; omega
  | cons f l =>
    rw [← ehr] at hfs
    obtain ⟨g1, g2, g3, g4⟩ := hfs f (List.mem_cons_self ..)
    obtain ⟨e, e', m, m', k1, k2, k3, k4, k5, k6, k7, k8, k9, k10, k11, k12⟩ := recent_step P d d' i1 i1' cfg al f.1 g1 g2 f.2.1 f.2.2 g3 g4 mem mem'
    obtain ⟨z, z', w, w', q1, q2, q3, q4, q5, q6, q7, q8, q9⟩ := recent_run P d.dt d.sr d.srPcm cfg l (fun f h => hfs f (List.mem_cons_of_mem _ h)) 0 e e' m m'
      k3 k4 k5 k6 k7 k8 (by rw [k11, k12]; exact k10)
    refine ⟨z, z', w, w', ?_, ?_, ?_⟩
    · rw [List.map_cons]
      unfold decRun
      rw [k1, Option.bind_some, q1]
      rfl
    · rw [List.map_cons]
      unfold decRun
      rw [k2, Option.bind_some, q2]
      rfl
    · intro next hok hl mem0
      refine rotated_run P next z z' mem0 hok q3 q4 (q8.rotated q3 ?_) ?_
      · rw [q5, q6, q7, ehr, Nat.zero_add]
        rcases hn with hn | hn
        · exact Or.inl hn.1
        · right
          refine frames_history hr dtUs d.dt d.srPcm r1 l.length ?_
          rw [List.length_cons] at hn
          simpa using hn
      · refine hl.imp (fun hc => q9 (by rw [k11, k12]; exact hseed hc)) fun hl c hc => ?_
        obtain ⟨F, f1, f2⟩ := hl c hc
        refine ⟨F, f1, fun hr => f2 ?_⟩
        unfold Refused at hr ⊢
        rw [q5, q6] at hr
        exact hr

/-- Non-vacuity of C94: the two decoders of `exPlayed`, with histories of different lengths, receive three frames of 10 ms; the next frames give the same
samples. -/
example : ∃ (rets rets' : List Int) (d d' e e' : Dec Rat) (mem mem' m m' : Int → Rat),
    Played exPlat false 10000 8000 24000 exHistory rets d mem ∧ Played exPlat false 10000 8000 24000 exHistory' rets' d' mem' ∧
    decRun exPlat (List.replicate 3 (exCall (some exGood) 40)) (some d) mem = some ([0, 0, 0], some e, m) ∧
    decRun exPlat (List.replicate 3 (exCall (some exGood) 40)) (some d') mem' = some ([0, 0, 0], some e', m') ∧
    ∀ (n : Nat) (mem0 : Int → Rat), (decRun exPlat (List.replicate n (exCall (some exGood) 40)) (some e) mem0).map (fun r => (r.1, r.2.2)) =
      (decRun exPlat (List.replicate n (exCall (some exGood) 40)) (some e') mem0).map (fun r => (r.1, r.2.2)) := by
  obtain ⟨⟨r, d, m, h⟩, ⟨r', d', m', h'⟩⟩ := exPlayed
  obtain ⟨-, r1, r2, r3, -⟩ := h.inv
  have e1 : d.dt = .m10 := by injection r1 with r1; exact r1.symm
  have e2 : d.sr = .k8 := by injection r2 with r2; exact r2.symm
  have g : Gives (exCall (some exGood) 40) exGood :=
    ⟨exCall_ok _ _ (fun l hl => by injection hl with hl; subst hl; exact ⟨exGood_bytes, by decide⟩) (fun h => by cases h),
      ⟨_, rfl, List.take_left' rfl, rfl⟩⟩
  have g1 := exGood_good
  obtain ⟨e, e', w, w', k1, k2, k3⟩ := C94_resume (γ := Rat) exPlat false 10000 8000 24000 _ _ d m h _ _ d' m' h'
    (List.replicate 3 (exGood, exCall (some exGood) 40, exCall (some exGood) 40)) (Or.inr (by decide)) (by
      intro f hf
      rw [List.eq_of_mem_replicate hf, e1, e2]
      exact ⟨g1.1, Or.inr g1.2, g, g⟩)
  refine ⟨r, r', d, d', e, e', m, m', w, w', h, h', k1, k2, fun n mem0 => k3 _ ?_ (Or.inr ?_) mem0⟩
  · intro c hc
    rw [List.eq_of_mem_replicate hc]; exact g.ok
  · intro c hc
    rw [List.eq_of_mem_replicate hc]
    refine ⟨exGood, g.frame_eq.1, fun hr => ?_⟩
    obtain ⟨-, -, j, side, s, k⟩ := g1.1
    have := hr j
    rw [e1, e2, k] at this
    cases this

end LC3
