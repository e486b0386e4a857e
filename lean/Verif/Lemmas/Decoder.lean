import Verif.Model.Decoder
import Verif.Lemmas.MdctCongr
import Verif.Props.Parse
import Verif.Props.Tns
import Verif.Props.Shaping
import Verif.Props.Plc
import Verif.Props.Ltpf
import Verif.Props.Api

/-! Synthesis of the decoder: windows of the buffer, invariant of the instance. -/

namespace LC3

variable {R : Type}

/-! ### Windows -/

theorem win_length {x w : List R} {off n : Nat} (h : win x off n = some w) : w.length = n ∧ off + n ≤ x.length := by
  unfold win at h
  split at h
  · rename_i hl
    injection h with h
    rw [← h, List.length_take, List.length_drop]
    omega
  · cases h

theorem win_some (x : List R) (off n : Nat) (h : off + n ≤ x.length) : ∃ w, win x off n = some w ∧ w.length = n :=
  ⟨_, if_pos h, by rw [List.length_take, List.length_drop]; omega⟩

theorem winPut_some (x : List R) (off : Nat) (l : List R) (h : off + l.length ≤ x.length) :
    ∃ x', winPut x off l = some x' ∧ x'.length = x.length :=
  ⟨_, if_pos h, by simp only [List.length_append, List.length_take, List.length_drop]; omega⟩

theorem winPut_at {x x' l : List R} {off : Nat} (h : winPut x off l = some x') (k : Nat) :
    x'[k]? = if off ≤ k ∧ k < off + l.length then l[k - off]? else x[k]? := by
  unfold winPut at h
  split at h
  · rename_i hl
    injection h with h
    rw [← h, List.getElem?_append]
    rw [List.length_take, Nat.min_eq_left (by omega), List.getElem?_append]
    by_cases h1 : k < off
    · rw [if_pos h1, if_neg (by omega), List.getElem?_take, if_pos h1]
    · rw [if_neg h1]
      by_cases h2 : k < off + l.length
      · rw [if_pos (by omega), if_pos ⟨by omega, h2⟩]
      · rw [if_neg (by omega), if_neg (by omega), List.getElem?_drop]
        congr 1; omega
  · cases h

theorem win_at {x w : List R} {off n : Nat} (h : win x off n = some w) (k : Nat) : w[k]? = if k < n then x[off + k]? else none := by
  unfold win at h
  split at h
  · injection h with h
    rw [← h, List.getElem?_take]
    split
    · rw [List.getElem?_drop]
    · rfl
  · cases h

/-- What has been written is read back. -/
theorem win_put_same {x x' l : List R} {off : Nat} (h : winPut x off l = some x') : win x' off l.length = some l := by
  have hl : off + l.length ≤ x'.length ∧ off + l.length ≤ x.length := by
    unfold winPut at h
    split at h
    · injection h with h
      rw [← h]
      simp only [List.length_append, List.length_take, List.length_drop]; omega
    · cases h
  obtain ⟨w, h1, h2⟩ := win_some x' off l.length hl.1
  rw [h1]
  congr 1
  apply List.ext_getElem?
  intro k
  rw [win_at h1]
  split
  · rw [winPut_at h, if_pos (by omega)]
    congr 1; omega
  · rw [List.getElem?_eq_none (by omega)]

/-- A part of what has been written. -/
theorem win_put_prefix {x x' l : List R} {off n : Nat} (h : winPut x off l = some x') (hn : n ≤ l.length) : win x' off n = some (l.take n) := by
  have h1 := win_length (win_put_same h)
  obtain ⟨w, h2, h3⟩ := win_some x' off n (by omega)
  rw [h2]
  congr 1
  apply List.ext_getElem?
  intro k
  rw [win_at h2, List.getElem?_take]
  split
  · rw [winPut_at h, if_pos (by omega)]
    congr 1; omega
  · rfl

theorem winPut_length {x x' l : List R} {off : Nat} (h : winPut x off l = some x') : x'.length = x.length ∧ off + l.length ≤ x.length := by
  unfold winPut at h
  split at h
  · injection h with h
    rw [← h]
    simp only [List.length_append, List.length_take, List.length_drop]; omega
  · cases h

/-- Other windows are not changed. -/
theorem win_put_other {x x' l : List R} {off off' n : Nat} (h : winPut x off l = some x') (hd : off' + n ≤ off ∨ off + l.length ≤ off') :
    win x' off' n = win x off' n := by
  have hl := winPut_length h
  by_cases hb : off' + n ≤ x.length
  · obtain ⟨w, h1, h2⟩ := win_some x' off' n (by omega)
    obtain ⟨v, h3, h4⟩ := win_some x off' n (by omega)
    rw [h1, h3]
    congr 1
    apply List.ext_getElem?
    intro k
    rw [win_at h1, win_at h3]
    split
    · rw [winPut_at h, if_neg (by omega)]
    · rfl
  · unfold win
    rw [if_neg (by omega), if_neg hb]

/-- Write on the whole of a window written before. -/
theorem winPut_twice {x x1 y x2 l : List R} {off : Nat} (h : winPut x off l = some x1) (h' : winPut y off l = some x2)
    (hxy : ∀ k, k < off ∨ off + l.length ≤ k → x[k]? = y[k]?) : x1 = x2 := by
  apply List.ext_getElem?
  intro k
  rw [winPut_at h, winPut_at h']
  split
  · rfl
  · exact hxy k (by omega)

/-! ### Dimensions -/

theorem dec_dims (dt : Dt) (sr srPcm : Srate) (h : sr.idx ≤ srPcm.idx) :
    ns dt sr ≤ ns dt srPcm ∧ ne dt sr ≤ ns dt sr ∧ ns dt srPcm ≤ maxNs ∧ 0 < ns dt srPcm ∧
    nh dt srPcm = nh dt srPcm / ns dt srPcm * ns dt srPcm := by
  cases dt <;> cases sr <;> cases srPcm <;> first | (exfalso; revert h; decide) | decide

theorem bw_stop (dt : Dt) (sr : Srate) (bw : Nat) (h : BwValid sr bw) : bwStop dt bw ≤ ne dt sr := by
  unfold BwValid at h
  have hi : sr.idx ≤ 6 := by cases sr <;> decide
  have hb : bw ≤ sr.idx := by split at h <;> omega
  have : ∀ b, b ≤ 6 → ∀ dt : Dt, ∀ sr : Srate, b ≤ sr.idx → bwStop dt b ≤ ne dt sr := by
    intro b hb dt sr
    have hb' : b = 0 ∨ b = 1 ∨ b = 2 ∨ b = 3 ∨ b = 4 ∨ b = 5 ∨ b = 6 := by omega
    rcases hb' with h | h | h | h | h | h | h <;> subst h <;> cases dt <;> cases sr <;> decide
  exact this bw (by omega) dt sr hb

/-! ### Invariant -/

/-- The instance of a decoder. -/
structure DecInv (A : Arith R) (d : Dec R) : Prop where
  cfg : Config d.dt d.sr
  cfgPcm : Config d.dt d.srPcm
  rate : d.sr.idx ≤ d.srPcm.idx
  hr : d.sr.hr = d.srPcm.hr
  xh : d.xhOff = 0
  xs : ∃ k, d.xsOff = k * ns d.dt d.srPcm
  xsLe : d.xsOff ≤ nh d.dt d.srPcm
  xd : d.xdOff = nh d.dt d.srPcm + ns d.dt d.srPcm
  xg : d.xgOff = nh d.dt d.srPcm + ns d.dt d.srPcm + nd d.dt d.srPcm
  len : d.x.length = nh d.dt d.srPcm + ns d.dt d.srPcm + nd d.dt d.srPcm + ns d.dt d.srPcm
  ltpf : d.sr.hr = false → d.ltpf.Ok d.srPcm
  count : 1 ≤ d.plc.count
  high : ∀ k, ne d.dt d.sr ≤ k → k < ns d.dt d.srPcm → d.x[d.xgOff + k]? = some (A.ofRat 0)

/-- Two instances of the same configuration, at the same position. -/
structure SameConfig (d d' : Dec R) : Prop where
  dt : d'.dt = d.dt
  sr : d'.sr = d.sr
  srPcm : d'.srPcm = d.srPcm
  xh : d'.xhOff = d.xhOff
  xs : d'.xsOff = d.xsOff
  xd : d'.xdOff = d.xdOff
  xg : d'.xgOff = d.xgOff

theorem SameConfig.refl (d : Dec R) : SameConfig d d := ⟨rfl, rfl, rfl, rfl, rfl, rfl, rfl⟩

theorem SameConfig.trans {a b c : Dec R} (h : SameConfig a b) (h' : SameConfig b c) : SameConfig a c :=
  ⟨h'.dt.trans h.dt, h'.sr.trans h.sr, h'.srPcm.trans h.srPcm, h'.xh.trans h.xh, h'.xs.trans h.xs, h'.xd.trans h.xd, h'.xg.trans h.xg⟩

/-- The content of the instance after a synthesis: `t` is the output, `e` the delayed samples, and `g` the spectrum kept. -/
structure SynthOut (d d' : Dec R) (t e g : List R) : Prop where
  same : SameConfig d d'
  len : d'.x.length = d.x.length
  t : win d'.x d.xsOff (ns d.dt d.srPcm) = some t
  e : win d'.x d.xdOff (nd d.dt d.srPcm) = some e
  g : win d'.x d.xgOff (ns d.dt d.srPcm) = some g
  out : ∀ k, k < d.xdOff → k < d.xsOff ∨ d.xsOff + ns d.dt d.srPcm ≤ k → d'.x[k]? = d.x[k]?

theorem SynthOut.unique {A : Arith R} {d d1 d2 : Dec R} {t e g : List R} (hd : DecInv A d) (h1 : SynthOut d d1 t e g) (h2 : SynthOut d d2 t e g)
    (hl : d1.ltpf = d2.ltpf) (hp : d1.plc = d2.plc) : d1 = d2 := by
  have hx : d1.x = d2.x := by
    apply List.ext_getElem?
    intro k
    have hxd := hd.xd
    have hxg := hd.xg
    have hlen := hd.len
    by_cases c1 : k < d.xdOff
    · by_cases c2 : k < d.xsOff ∨ d.xsOff + ns d.dt d.srPcm ≤ k
      · rw [h1.out k c1 c2, h2.out k c1 c2]
      · have a1 := win_at h1.t (k - d.xsOff)
        have a2 := win_at h2.t (k - d.xsOff)
        rw [if_pos (by omega), show d.xsOff + (k - d.xsOff) = k by omega] at a1 a2
        rw [← a1, ← a2]
    · by_cases c2 : k < d.xgOff
      · have a1 := win_at h1.e (k - d.xdOff)
        have a2 := win_at h2.e (k - d.xdOff)
        rw [if_pos (by omega), show d.xdOff + (k - d.xdOff) = k by omega] at a1 a2
        rw [← a1, ← a2]
      · by_cases c3 : k < d.xgOff + ns d.dt d.srPcm
        · have a1 := win_at h1.g (k - d.xgOff)
          have a2 := win_at h2.g (k - d.xgOff)
          rw [if_pos (by omega), show d.xgOff + (k - d.xgOff) = k by omega] at a1 a2
          rw [← a1, ← a2]
        · rw [List.getElem?_eq_none (by rw [h1.len]; omega), List.getElem?_eq_none (by rw [h2.len]; omega)]
  obtain ⟨s1, s2, s3, s4, s5, s6, s7⟩ := h1.same
  obtain ⟨r1, r2, r3, r4, r5, r6, r7⟩ := h2.same
  cases d1; cases d2
  dsimp only at *
  subst s1 s2 s3 s4 s5 s6 s7 r1 r2 r3 r4 r5 r6 r7
  subst hl hp hx
  rfl

/-! ### Synthesis -/

/-- The shaping of a frame does not depend on the spectrum of the previous one. -/
theorem snsSynth_fresh (A : Arith R) (M : SnsMath R) (dt : Dt) (sr : Srate) (hc : Config dt sr) (s : SnsData) (hs : SnsValid s) (n : Nat)
    (hn : ne dt sr ≤ n) (xf g : List R) (hx : ne dt sr ≤ xf.length) (hg : g.length = n)
    (hz : ∀ k, ne dt sr ≤ k → k < n → g[k]? = some (A.ofRat 0)) :
    ∃ y, snsSynthesize A M dt sr s (some xf) g = some y ∧ snsSynthesize A M dt sr s (some xf) (List.replicate n (A.ofRat 0)) = some y ∧
      y.length = n ∧ ∀ k, ne dt sr ≤ k → k < n → y[k]? = some (A.ofRat 0) := by
  obtain ⟨scf, a1, a2⟩ := snsDecodeScf_some A M s hs
  obtain ⟨y, b1, b2, b3, b4⟩ := shaping_spec A M (A.ofRat 0) dt sr hc scf a2 true (some xf) g (fun x' h => by cases h; exact hx) (by omega)
  obtain ⟨y', c1, c2, c3, c4⟩ := shaping_spec A M (A.ofRat 0) dt sr hc scf a2 true (some xf) (List.replicate n (A.ofRat 0))
    (fun x' h => by cases h; exact hx) (by rw [List.length_replicate]; exact hn)
  rw [List.length_replicate] at c2
  have e : y' = y := by
    apply List.ext_getElem (by omega)
    intro k h1 h2
    by_cases hk : k < ne dt sr
    · obtain ⟨b, e1, e2, e3⟩ := bandLim_exists dt sr hc k hk
      have f1 := b4 b e1 k e2 e3
      have f2 := c4 b e1 k e2 e3
      rw [List.getD_eq_getElem _ _ h2] at f1
      rw [List.getD_eq_getElem _ _ h1] at f2
      rw [f1, f2]; rfl
    · have f1 := b3 k (by omega)
      have f2 := c3 k (by omega)
      rw [List.getElem?_eq_getElem h2, hz k (by omega) (by omega)] at f1
      rw [List.getElem?_eq_getElem h1, List.getElem?_replicate, if_pos (by omega)] at f2
      injection f1 with f1; injection f2 with f2
      rw [f1, f2]
  refine ⟨y, ?_, ?_, by omega, fun k h1 h2 => ?_⟩
  · unfold snsSynthesize; rw [a1, Option.bind_some, b1]
  · unfold snsSynthesize; rw [a1, Option.bind_some, c1, e]
  · rw [b3 k h1, hz k h1 h2]

/-- The spectrum given to the inverse transform for a frame received. -/
def goodSpectrum (P : Platform R) (dt : Dt) (sr srPcm : Srate) (side : SideData) (xf : List R) : Option (List R) :=
  (tnsSynthesize P.A dt side.bw side.tns xf).bind fun xf =>
  snsSynthesize P.A P.M dt sr side.sns (some xf) (List.replicate (ns dt srPcm) (P.A.ofRat 0))

/-- The inverse transform, from buffers of zeroes. -/
def invTransform (P : Platform R) (dt : Dt) (sr srPcm : Srate) (g xd : List R) : Option (List R × List R) :=
  mdctInverse P.A P.sqrt (mdctTables P.A) dt srPcm sr (List.replicate maxNs (P.A.ofRat 0)) (some g) xd
    (List.replicate (ns dt srPcm) (P.A.ofRat 0))

theorem snsValid_of {d : SnsData} (h : d.Valid) : SnsValid d :=
  ⟨h.lfcb, h.hfcb, h.shape, h.gain, h.idxA, by
    have := h.idxB
    split at this
    · exact this
    · omega⟩

set_option maxHeartbeats 1000000 in
theorem synthGood_spec (P : Platform R) (u : Junk R) (d : Dec R) (hd : DecInv P.A d) (side : SideData) (nbytes : Nat)
    (hv : side.Valid d.dt d.sr nbytes) (xf : List R) (hxf : win d.x d.xsOff (ns d.dt d.sr) = some xf) :
    ∃ d' xd g t e, win d.x d.xdOff (nd d.dt d.srPcm) = some xd ∧ goodSpectrum P d.dt d.sr d.srPcm side xf = some g ∧
      invTransform P d.dt d.sr d.srPcm g xd = some (t, e) ∧ synthGood P u d side = some d' ∧ SynthOut d d' t e g ∧
      d'.ltpf = d.ltpf ∧ d'.plc = plcSuspend P.A d.plc ∧
      ∀ k, ne d.dt d.sr ≤ k → k < ns d.dt d.srPcm → g[k]? = some (P.A.ofRat 0) := by
  obtain ⟨n1, n2, n3, n4, n5⟩ := dec_dims d.dt d.sr d.srPcm hd.rate
  have hxs := hd.xsLe
  have hxd := hd.xd
  have hxg := hd.xg
  have hlen := hd.len
  have hb := bw_stop d.dt d.sr side.bw hv.bw
  obtain ⟨lxf, -⟩ := win_length hxf
  obtain ⟨y, t1, t2, -⟩ := C28_synthesize_defined P.A d.dt side.bw nbytes side.tns hv.tns xf (by omega)
  obtain ⟨x1, p1, p2⟩ := winPut_some d.x d.xsOff y (by omega)
  obtain ⟨g0, w1, w2⟩ := win_some d.x d.xgOff (ns d.dt d.srPcm) (by omega)
  have w1' : win x1 d.xgOff (ns d.dt d.srPcm) = some g0 := by rw [win_put_other p1 (by omega), w1]
  obtain ⟨g, s1, s2, s3, s4⟩ := snsSynth_fresh P.A P.M d.dt d.sr hd.cfg side.sns (snsValid_of hv.sns) (ns d.dt d.srPcm) (by omega) y g0
    (by omega) w2 (fun k h1 h2 => by rw [win_at w1, if_pos h2]; exact hd.high k h1 h2)
  obtain ⟨x2, p3, p4⟩ := winPut_some x1 d.xgOff g (by omega)
  obtain ⟨xd, v1, v2⟩ := win_some d.x d.xdOff (nd d.dt d.srPcm) (by omega)
  have v1' : win x2 d.xdOff (nd d.dt d.srPcm) = some xd := by rw [win_put_other p3 (by omega), win_put_other p1 (by omega), v1]
  obtain ⟨xs, r1, r2⟩ := win_some x2 d.xsOff (ns d.dt d.srPcm) (by omega)
  have hN : (List.range maxNs).length = maxNs := List.length_range
  obtain ⟨t, t', e, m1, m2, m3, m4, m5, m6⟩ := mdctInverse_congr P.A P.sqrt d.dt d.srPcm d.sr hd.cfgPcm
    (List.replicate maxNs (P.A.ofRat 0)) ((List.range maxNs).map u.buffer) (some g) (some g) xd xd
    (List.replicate (ns d.dt d.srPcm) (P.A.ofRat 0)) xs (by rw [List.length_replicate]; omega) (by rw [List.length_map, hN]; omega)
    (fun l h => by cases h; omega) (fun l h => by cases h; omega) v2 v2 List.length_replicate r2 (fun k _ => rfl)
  have m7 := m6 rfl
  subst m7
  obtain ⟨x3, p5, p6⟩ := winPut_some x2 d.xsOff t (by omega)
  obtain ⟨x4, p7, p8⟩ := winPut_some x3 d.xdOff e (by omega)
  refine ⟨{ d with plc := plcSuspend P.A d.plc, x := x4 }, xd, g, t, e, v1, ?_, m1, ?_, ?_, rfl, rfl, s4⟩
  · unfold goodSpectrum; rw [t1, Option.bind_some, s2]
  · unfold synthGood
    rw [hxf, Option.bind_some, t1, Option.bind_some, p1, Option.bind_some, w1', Option.bind_some, s1, Option.bind_some, p3, Option.bind_some,
      v1', Option.bind_some, r1, Option.bind_some, m2, Option.bind_some]
    dsimp only
    rw [p5, Option.bind_some, p7, Option.bind_some]
  · refine ⟨⟨rfl, rfl, rfl, rfl, rfl, rfl, rfl⟩, by dsimp only; omega, ?_, ?_, ?_, ?_⟩
    · show win x4 _ _ = _
      rw [win_put_other p7 (by omega), ← m4]; exact win_put_same p5
    · show win x4 _ _ = _
      rw [← m3]; exact win_put_same p7
    · show win x4 _ _ = _
      rw [win_put_other p7 (by omega), win_put_other p5 (by omega), ← s3]; exact win_put_same p3
    · intro k h1 h2
      show x4[k]? = _
      rw [winPut_at p7, if_neg (by omega), winPut_at p5, if_neg (by omega), winPut_at p3, if_neg (by omega), winPut_at p1, if_neg (by omega)]

set_option maxHeartbeats 1000000 in
theorem synthLost_spec (P : Platform R) (u : Junk R) (d : Dec R) (hd : DecInv P.A d) (hc : d.plc.count + 1 < 2 ^ 31) :
    ∃ d' xd g p t e, win d.x d.xdOff (nd d.dt d.srPcm) = some xd ∧ win d.x d.xgOff (ns d.dt d.srPcm) = some g ∧
      plcSynthesize P.A (ne d.dt d.sr) d.plc g = some p ∧ p.1.count = d.plc.count + 1 ∧ p.2.length = ne d.dt d.sr ∧
      invTransform P d.dt d.sr d.srPcm (p.2 ++ List.replicate (ns d.dt d.srPcm - ne d.dt d.sr) (P.A.ofRat 0)) xd = some (t, e) ∧
      synthLost P u d = some d' ∧ SynthOut d d' t e g ∧ d'.ltpf = d.ltpf ∧ d'.plc = p.1 := by
  obtain ⟨n1, n2, n3, n4, n5⟩ := dec_dims d.dt d.sr d.srPcm hd.rate
  have hxs := hd.xsLe
  have hxd := hd.xd
  have hxg := hd.xg
  have hlen := hd.len
  have hcnt := hd.count
  obtain ⟨g, w1, w2⟩ := win_some d.x d.xgOff (ns d.dt d.srPcm) (by omega)
  obtain ⟨p, q1, q2, q3⟩ : ∃ p, plcSynthesize P.A (ne d.dt d.sr) d.plc g = some p ∧ p.1.count = d.plc.count + 1 ∧ p.2.length = ne d.dt d.sr := by
    unfold plcSynthesize
    rw [if_neg (by omega), i32_ok _ (by omega) (by omega)]
    refine ⟨_, rfl, rfl, ?_⟩
    have hl : ∀ (l : List R) (al : R) (s : Nat), (plcLoop P.A al s l).2.length = l.length := by
      intro l
      induction l with
      | nil => intros; rfl
      | cons a l ih => intro al s; simp only [plcLoop, List.length_cons, ih]
    show (plcLoop _ _ _ _).2.length = _
    rw [hl, List.length_take]; omega
  obtain ⟨f, hf⟩ : ∃ f, f = p.2 ++ List.replicate (ns d.dt d.srPcm - ne d.dt d.sr) (P.A.ofRat 0) := ⟨_, rfl⟩
  have lf : f.length = ns d.dt d.srPcm := by rw [hf, List.length_append, List.length_replicate]; omega
  obtain ⟨x1, p1, p2⟩ := winPut_some d.x d.xsOff f (by omega)
  have r1 : win x1 d.xsOff (ns d.dt d.srPcm) = some f := by rw [← lf]; exact win_put_same p1
  obtain ⟨xd, v1, v2⟩ := win_some d.x d.xdOff (nd d.dt d.srPcm) (by omega)
  have v1' : win x1 d.xdOff (nd d.dt d.srPcm) = some xd := by rw [win_put_other p1 (by omega), v1]
  have hN : (List.range maxNs).length = maxNs := List.length_range
  obtain ⟨t, t', e, m1, m2, m3, m4, m5, m6⟩ := mdctInverse_congr P.A P.sqrt d.dt d.srPcm d.sr hd.cfgPcm
    (List.replicate maxNs (P.A.ofRat 0)) ((List.range maxNs).map u.buffer) (some f) none xd xd
    (List.replicate (ns d.dt d.srPcm) (P.A.ofRat 0)) f (by rw [List.length_replicate]; omega) (by rw [List.length_map, hN]; omega)
    (fun l h => by cases h; omega) (fun l h => by cases h) v2 v2 List.length_replicate lf (fun k _ => rfl)
  have m7 := m6 rfl
  subst m7
  obtain ⟨x3, p5, p6⟩ := winPut_some x1 d.xsOff t (by omega)
  obtain ⟨x4, p7, p8⟩ := winPut_some x3 d.xdOff e (by omega)
  refine ⟨{ d with plc := p.1, x := x4 }, xd, g, p, t, e, v1, w1, q1, q2, q3, by rw [← hf]; exact m1, ?_, ?_, rfl, rfl⟩
  · unfold synthLost
    rw [w1, Option.bind_some, q1, Option.bind_some, ← hf, p1, Option.bind_some, r1, Option.bind_some, v1', Option.bind_some, m2,
      Option.bind_some]
    dsimp only
    rw [p5, Option.bind_some, p7, Option.bind_some]
  · refine ⟨⟨rfl, rfl, rfl, rfl, rfl, rfl, rfl⟩, by dsimp only; omega, ?_, ?_, ?_, ?_⟩
    · show win x4 _ _ = _
      rw [win_put_other p7 (by omega), ← m4]; exact win_put_same p5
    · show win x4 _ _ = _
      rw [← m3]; exact win_put_same p7
    · show win x4 _ _ = _
      rw [win_put_other p7 (by omega), win_put_other p5 (by omega), win_put_other p1 (by omega), w1]
    · intro k h1 h2
      show x4[k]? = _
      rw [winPut_at p7, if_neg (by omega), winPut_at p5, if_neg (by omega), winPut_at p1, if_neg (by omega)]

theorem win_high (A : Arith R) (d : Dec R) (hd : DecInv A d) (g : List R) (hg : win d.x d.xgOff (ns d.dt d.srPcm) = some g) :
    ∀ k, ne d.dt d.sr ≤ k → k < ns d.dt d.srPcm → g[k]? = some (A.ofRat 0) := by
  intro k h1 h2
  rw [win_at hg, if_pos h2]; exact hd.high k h1 h2

/-- The invariant after a synthesis. -/
theorem SynthOut.inv {A : Arith R} {d d' : Dec R} {t e g : List R} (h : SynthOut d d' t e g) (hd : DecInv A d) (hl : d'.ltpf = d.ltpf)
    (hc : 1 ≤ d'.plc.count) (hg : ∀ k, ne d.dt d.sr ≤ k → k < ns d.dt d.srPcm → g[k]? = some (A.ofRat 0)) : DecInv A d' := by
  obtain ⟨s1, s2, s3, s4, s5, s6, s7⟩ := h.same
  obtain ⟨i1, i2, i3, i4, i5, i6, i7, i8, i9, i10, i11, i12, i13⟩ := hd
  refine ⟨?_, ?_, ?_, ?_, ?_, ?_, ?_, ?_, ?_, ?_, ?_, hc, ?_⟩
  · rw [s1, s2]; exact i1
  · rw [s1, s3]; exact i2
  · rw [s2, s3]; exact i3
  · rw [s2, s3]; exact i4
  · rw [s4]; exact i5
  · rw [s5, s1, s3]; exact i6
  · rw [s5, s1, s3]; exact i7
  · rw [s6, s1, s3]; exact i8
  · rw [s7, s1, s3]; exact i9
  · rw [h.len, s1, s3]; exact i10
  · rw [s2, s3, hl]; exact i11
  · rw [s1, s2, s3, s7]
    intro k h1 h2
    have := win_at h.g k
    rw [if_pos h2] at this
    rw [← this]; exact hg k h1 h2

/-- Pitch given to the post-filter. -/
def pitchData (side : Option SideData) : Option LtpfData := side.bind fun s => if s.pitchPresent then some s.ltpf else none

theorem synthLtpf_spec (P : Platform R) (d : Dec R) (hd : DecInv P.A d) (side : Option SideData) (nbytes : Int)
    (hp : ∀ l, pitchData side = some l → l.pitchIndex < 512) (hn : d.sr.hr = false → 0 ≤ nbytes ∧ nbytes ≤ sizeLimit) :
    ∃ d', synthLtpf P d side nbytes = some d' ∧ DecInv P.A d' ∧ SameConfig d d' ∧ d'.plc = d.plc ∧
      (∀ k, d.xdOff ≤ k → d'.x[k]? = d.x[k]?) ∧ (d.sr.hr = true → d' = d) := by
  unfold synthLtpf
  cases hr : d.sr.hr with
  | true => exact ⟨d, rfl, hd, SameConfig.refl d, rfl, fun _ _ => rfl, fun _ => rfl⟩
  | false =>
    rw [if_neg (by decide)]
    obtain ⟨n1, n2, n3, n4, n5⟩ := dec_dims d.dt d.sr d.srPcm hd.rate
    have hxs := hd.xsLe
    have hxd := hd.xd
    have hxg := hd.xg
    have hlen := hd.len
    have hxh := hd.xh
    obtain ⟨ring, w1, w2⟩ := win_some d.x d.xhOff (ns d.dt d.srPcm + nh d.dt d.srPcm) (by omega)
    obtain ⟨s', ring', l1, l2, l3, -⟩ := ltpfSynthesize_some P.A d.dt d.srPcm (by rw [← hd.hr]; exact hr) nbytes d.ltpf (hd.ltpf hr)
      (pitchData side) ring (d.xsOff - d.xhOff) (hn hr).1 (hn hr).2 hp w2 ⟨by omega, by
        obtain ⟨k, hk⟩ := hd.xs
        rw [hxh, Nat.sub_zero, hk]; exact Nat.mul_mod_left _ _⟩
    obtain ⟨x', p1, p2⟩ := winPut_some d.x d.xhOff ring' (by omega)
    have hout : ∀ k, d.xdOff ≤ k → x'[k]? = d.x[k]? := by
      intro k hk
      rw [winPut_at p1, if_neg (by omega)]
    rw [w1, Option.bind_some]
    unfold pitchData at l1
    rw [l1, Option.bind_some]
    dsimp only
    rw [p1, Option.bind_some]
    refine ⟨_, rfl, ?_, ⟨rfl, rfl, rfl, rfl, rfl, rfl, rfl⟩, rfl, hout, fun h => by cases h⟩
    obtain ⟨i1, i2, i3, i4, i5, i6, i7, i8, i9, i10, i11, i12, i13⟩ := hd
    refine ⟨i1, i2, i3, i4, i5, i6, i7, i8, i9, by dsimp only; omega, fun _ => l2, i12, ?_⟩
    intro k h1 h2
    dsimp only
    rw [hout _ (by omega)]; exact i13 k h1 h2

/-- Without long-term data in this frame and in the previous one, the post-filter does nothing. -/
theorem synthLtpf_off (P : Platform R) (d d' : Dec R) (side : Option SideData) (nbytes : Int)
    (hs : ∀ l, pitchData side = some l → l.active = false) (h : synthLtpf P d side nbytes = some d') :
    (d.sr.hr = false → d'.ltpf.active = false) ∧ (d.ltpf.active = false → d'.x = d.x) := by
  unfold synthLtpf at h
  cases hr : d.sr.hr with
  | true =>
    rw [hr, if_pos rfl] at h
    injection h with h
    exact ⟨fun h => (by cases h), fun _ => by rw [h]⟩
  | false =>
    rw [hr, if_neg (by decide)] at h
    cases hw : win d.x d.xhOff (ns d.dt d.srPcm + nh d.dt d.srPcm) with
    | none => rw [hw] at h; cases h
    | some ring =>
      rw [hw, Option.bind_some] at h
      change (ltpfSynthesize P.A d.dt d.srPcm nbytes d.ltpf (pitchData side) ring (d.xsOff - d.xhOff)).bind _ = _ at h
      cases hl : ltpfSynthesize P.A d.dt d.srPcm nbytes d.ltpf (pitchData side) ring (d.xsOff - d.xhOff) with
      | none => rw [hl] at h; cases h
      | some r =>
        rw [hl, Option.bind_some] at h
        cases hp : winPut d.x d.xhOff r.2 with
        | none => rw [hp] at h; cases h
        | some x' =>
          rw [hp, Option.bind_some] at h
          injection h with h
          subst h
          dsimp only
          have key : r.1.active = false ∧ (d.ltpf.active = false → r.2 = ring) := by
            unfold ltpfSynthesize at hl
            dsimp only at hl
            obtain ⟨gi, e1, hl⟩ := Option.bind_eq_some_iff.1 hl
            have ha : dataActive gi (pitchData side) = false := by
              cases hd : pitchData side with
              | none => rfl
              | some l => show (l.active && decide (gi < 4)) = false; rw [hs l hd]; rfl
            rw [ha] at hl
            obtain ⟨c, e2, hl⟩ := Option.bind_eq_some_iff.1 hl
            obtain ⟨x00, e3, hl⟩ := Option.bind_eq_some_iff.1 hl
            obtain ⟨xe, e4, hl⟩ := Option.bind_eq_some_iff.1 hl
            obtain ⟨x01, e5, hl⟩ := Option.bind_eq_some_iff.1 hl
            obtain ⟨ring', e6, hl⟩ := Option.bind_eq_some_iff.1 hl
            injection hl with hl
            rw [← hl]
            refine ⟨rfl, fun h => ?_⟩
            unfold ltpfFilter at e6
            obtain ⟨ring'', e7, e8⟩ := Option.bind_eq_some_iff.1 e6
            unfold ltpfTransition at e7
            rw [h] at e7
            simp at e7 e8
            dsimp only
            rw [← e8, ← e7]
          refine ⟨fun _ => key.1, fun h => ?_⟩
          rw [key.2 h] at hp
          apply List.ext_getElem?
          intro k
          rw [winPut_at hp]
          split
          · rename_i hk
            have h1 := win_length hw
            rw [win_at hw, if_pos (by omega)]
            congr 1; omega
          · rfl

/-! ### Decoding -/

/-- The memory of the side information that is not initialised does not change the decoding. -/
theorem decodeFrame_junk (A : Arith R) (dt : Dt) (sr : Srate) (sh32 : Nat → Nat) (j j' : LtpfData) (F : List Nat) :
    match (decodeFrame A dt sr sh32 j F).1, (decodeFrame A dt sr sh32 j' F).1 with
    | .ub, .ub => True
    | .refused, .refused => True
    | .ok (a, s), .ok (b, s') => s = s' ∧ a.bw = b.bw ∧ a.tns = b.tns ∧ a.sns = b.sns ∧ pitchData (some a) = pitchData (some b)
    | _, _ => False := by
  have hj : ∀ r n, match getSideData r dt sr n j, getSideData r dt sr n j' with
      | (none, r1), (none, r2) => r1 = r2
      | (some a, r1), (some b, r2) => r1 = r2 ∧ a.bw = b.bw ∧ a.spec = b.spec ∧ a.tns = b.tns ∧ a.sns = b.sns ∧
          pitchData (some a) = pitchData (some b)
      | _, _ => False := by
    intro r n
    unfold getSideData
    generalize getBw r sr = w1
    obtain ⟨ret1, bw, r1⟩ := w1
    dsimp only
    by_cases c1 : ret1 < 0
    · rw [if_pos c1, if_pos c1]
    rw [if_neg c1, if_neg c1]
    generalize getSide r1 dt sr = w2
    obtain ⟨ret2, spec, r2⟩ := w2
    dsimp only
    by_cases c2 : ret2 < 0
    · rw [if_pos c2, if_pos c2]
    rw [if_neg c2, if_neg c2]
    generalize getTns r2 dt bw n = w3
    obtain ⟨ret3, tns, r3⟩ := w3
    dsimp only
    by_cases c3 : ret3 < 0
    · rw [if_pos c3, if_pos c3]
    rw [if_neg c3, if_neg c3]
    generalize getBit r3 = w4
    obtain ⟨pitch, r4⟩ := w4
    dsimp only
    generalize getSns r4 = w5
    obtain ⟨ret5, sns, r5⟩ := w5
    dsimp only
    by_cases c5 : ret5 < 0
    · rw [if_pos c5, if_pos c5]
    rw [if_neg c5, if_neg c5]
    by_cases c6 : pitch ≠ 0
    · rw [if_pos c6, if_pos c6]
      exact ⟨rfl, rfl, rfl, rfl, rfl, rfl⟩
    · rw [if_neg c6, if_neg c6]
      refine ⟨rfl, rfl, rfl, rfl, rfl, ?_⟩
      unfold pitchData
      simp [decide_eq_false c6]
  unfold decodeFrame
  have := hj (setupRead sh32 F) F.length
  generalize getSideData (setupRead sh32 F) dt sr F.length j = w1 at *
  generalize getSideData (setupRead sh32 F) dt sr F.length j' = w2 at *
  obtain ⟨o1, r1⟩ := w1
  obtain ⟨o2, r2⟩ := w2
  cases o1 with
  | none => cases o2 with
    | none => trivial
    | some b => exact absurd this id
  | some a => cases o2 with
    | none => exact absurd this id
    | some b =>
      dsimp only at this ⊢
      obtain ⟨h1, h2, h3, h4, h5, h6⟩ := this
      rw [h1, h2, h3]
      generalize specDecode A dt sr b.bw F.length b.spec r2 = w
      obtain ⟨o, r⟩ := w
      cases o with
      | ub => trivial
      | refused => trivial
      | ok s =>
        dsimp only
        cases checkBits r with
        | false => trivial
        | true => exact ⟨rfl, h2, h4, h5, h6⟩

/-- A call respects the contract of the API: the memory of the frame has at least `nbytes` bytes; without frame, the size is the one of a
frame, or any value whose multiples do not overflow. -/
structure CallOk {α : Type} (c : DecCall R α) : Prop where
  region : ∀ r, c.inp = some r → Bytes r ∧ c.nbytes ≤ r.length
  lost : c.inp = none → 0 ≤ c.nbytes ∧ c.nbytes ≤ sizeLimit

/-- The frame of a call. -/
def DecCall.frame {α : Type} (c : DecCall R α) : Option (List Nat) := c.inp.map fun r => r.take c.nbytes.toNat

/-- A frame is refused by `decode`. -/
def Refused (P : Platform R) (d : Dec R) (F : List Nat) : Prop := ∀ j, (decodeFrame P.A d.dt d.sr P.sh32 j F).1 = .refused

theorem refused_iff (P : Platform R) (d : Dec R) (F : List Nat) (j : LtpfData) :
    Refused P d F ↔ (decodeFrame P.A d.dt d.sr P.sh32 j F).1 = .refused := by
  refine ⟨fun h => h j, fun h j' => ?_⟩
  have := decodeFrame_junk P.A d.dt d.sr P.sh32 j j' F
  rw [h] at this
  cases hh : (decodeFrame P.A d.dt d.sr P.sh32 j' F).1 with
  | ub => rw [hh] at this; exact absurd this id
  | refused => rfl
  | ok a => rw [hh] at this; exact absurd this id

theorem winPut_inv {A : Arith R} {d : Dec R} (hd : DecInv A d) (l : List R) (hl : l.length ≤ ns d.dt d.srPcm) :
    ∃ x', winPut d.x d.xsOff l = some x' ∧ DecInv A { d with x := x' } := by
  have hxs := hd.xsLe
  have hxd := hd.xd
  have hxg := hd.xg
  have hlen := hd.len
  obtain ⟨x', p1, p2⟩ := winPut_some d.x d.xsOff l (by omega)
  refine ⟨x', p1, ?_⟩
  obtain ⟨i1, i2, i3, i4, i5, i6, i7, i8, i9, i10, i11, i12, i13⟩ := hd
  refine ⟨i1, i2, i3, i4, i5, i6, i7, i8, i9, by dsimp only; omega, i11, i12, ?_⟩
  intro k h1 h2
  dsimp only
  rw [winPut_at p1, if_neg (by omega)]; exact i13 k h1 h2

theorem decInput_spec {α : Type} (P : Platform R) (c : DecCall R α) (d : Dec R) (hd : DecInv P.A d) (hc : CallOk c) :
    ∃ o d1, decInput P c d = some (o, d1) ∧ DecInv P.A d1 ∧ SameConfig d d1 ∧ d1.ltpf = d.ltpf ∧ d1.plc = d.plc ∧
      (∀ k, k < d.xsOff ∨ d.xsOff + ns d.dt d.srPcm ≤ k → d1.x[k]? = d.x[k]?) ∧
      (o = none ↔ ∀ F, c.frame = some F → Refused P d F) ∧
      ∀ side, o = some side → ∃ F s, c.frame = some F ∧ (decodeFrame P.A d.dt d.sr P.sh32 c.junk.ltpf F).1 = .ok (side, s) ∧
        win d1.x d1.xsOff (ns d.dt d.sr) = some (padSpectrum P.A d.dt d.sr s.x) ∧ side.Valid d.dt d.sr F.length := by
  obtain ⟨n1, n2, n3, n4, n5⟩ := dec_dims d.dt d.sr d.srPcm hd.rate
  unfold decInput DecCall.frame
  cases hi : c.inp with
  | none =>
    exact ⟨none, d, rfl, hd, SameConfig.refl d, rfl, rfl, fun _ _ => rfl, ⟨fun _ F h => (by cases h), fun _ => rfl⟩, fun _ h => by cases h⟩
  | some r =>
    obtain ⟨hB, hlen⟩ := hc.region r hi
    dsimp only
    rw [if_neg (by omega)]
    obtain ⟨F, hF⟩ : ∃ F, F = r.take c.nbytes.toNat := ⟨_, rfl⟩
    rw [← hF, Option.map_some, ← hF]
    have hBF : Bytes F := by
      rw [hF]; intro b hb; exact hB b (List.mem_of_mem_take hb)
    obtain ⟨-, g2, g3⟩ := decode_reads P.A d.dt d.sr P.sh32 c.junk.ltpf F hBF
    unfold decDecode
    cases hw : (decodeFrame P.A d.dt d.sr P.sh32 c.junk.ltpf F).1 with
    | ub => exact absurd hw g2
    | refused =>
      obtain ⟨x', p1, p2⟩ := winPut_inv hd ((List.range (ns d.dt d.sr)).map c.junk.spectrum) (by
        rw [List.length_map, List.length_range]; exact n1)
      dsimp only
      rw [p1, Option.map_some]
      refine ⟨none, _, rfl, p2, ⟨rfl, rfl, rfl, rfl, rfl, rfl, rfl⟩, rfl, rfl, ?_, ⟨fun _ F' h => ?_, fun _ => rfl⟩, fun _ h => by cases h⟩
      · intro k hk
        dsimp only
        rw [winPut_at p1, if_neg (by rw [List.length_map, List.length_range]; omega)]
      · injection h with h
        rw [← h, refused_iff P d F c.junk.ltpf]; exact hw
    | ok w =>
      obtain ⟨side, s⟩ := w
      obtain ⟨-, v1, -, v3⟩ := g3 side s hw
      have hpl : (padSpectrum P.A d.dt d.sr s.x).length = ns d.dt d.sr := by
        unfold padSpectrum
        rw [List.length_append, List.length_take, List.length_replicate, v3.x]; omega
      obtain ⟨x', p1, p2⟩ := winPut_inv hd (padSpectrum P.A d.dt d.sr s.x) (by omega)
      dsimp only
      rw [p1, Option.map_some]
      refine ⟨some side, _, rfl, p2, ⟨rfl, rfl, rfl, rfl, rfl, rfl, rfl⟩, rfl, rfl, ?_, ⟨fun h => (by cases h), fun h => ?_⟩, fun side' h => ?_⟩
      · intro k hk
        dsimp only
        rw [winPut_at p1, if_neg (by omega)]
      · have := (refused_iff P d F c.junk.ltpf).1 (h F rfl)
        rw [hw] at this; cases this
      · injection h with h
        subst h
        refine ⟨F, s, rfl, hw, ?_, v1⟩
        show win x' _ _ = _
        rw [← hpl]; exact win_put_same p1

theorem complete_inv {A : Arith R} {d : Dec R} (hd : DecInv A d) : DecInv A (complete d) := by
  obtain ⟨n1, n2, n3, n4, n5⟩ := dec_dims d.dt d.sr d.srPcm hd.rate
  obtain ⟨i1, i2, i3, i4, i5, i6, i7, i8, i9, i10, i11, i12, i13⟩ := hd
  refine ⟨i1, i2, i3, i4, i5, ?_, ?_, i8, i9, i10, i11, i12, i13⟩
  · unfold complete
    dsimp only
    split
    · obtain ⟨k, hk⟩ := i6
      exact ⟨k + 1, by rw [hk]; ring⟩
    · exact ⟨0, by rw [i5, Nat.zero_mul]⟩
  · unfold complete
    dsimp only
    split
    · rename_i h
      rw [i5, Nat.sub_zero] at h
      obtain ⟨k, hk⟩ := i6
      rw [hk] at h ⊢
      rw [n5] at h ⊢
      have : k < nh d.dt d.srPcm / ns d.dt d.srPcm := Nat.lt_of_mul_lt_mul_right h
      calc k * ns d.dt d.srPcm + ns d.dt d.srPcm = (k + 1) * ns d.dt d.srPcm := by ring
        _ ≤ _ := Nat.mul_le_mul_right _ this
    · rw [i5]; exact Nat.zero_le _

/-- A call accepted. -/
theorem decProcess_spec {α : Type} (P : Platform R) (c : DecCall R α) (d : Dec R) (mem : Int → α) (hd : DecInv P.A d) (hc : CallOk c)
    (hcnt : (∀ F, c.frame = some F → Refused P d F) → d.plc.count + 1 < 2 ^ 31) (hmax : c.inp.isSome → 0 ≤ c.nbytes ∧ c.nbytes ≤ 625) :
    ∃ (ret : Int) (d2 : Dec R) (xs : List R),
      decProcess P c d mem = some (ret, complete d2, pcmStore c.stride c.base (xs.map c.conv) mem) ∧
      DecInv P.A d2 ∧ SameConfig d d2 ∧ xs.length = ns d.dt d.srPcm ∧
      (ret = 0 ∧ d2.plc.count = 1 ∨ ret = 1 ∧ d2.plc.count = d.plc.count + 1) ∧
      (ret = 1 ↔ ∀ F, c.frame = some F → Refused P d F) := by
  obtain ⟨o, d1, a1, a2, a3, a4, a5, a6, a7, a8⟩ := decInput_spec P c d hd hc
  have hsz : d1.sr.hr = false → 0 ≤ c.nbytes ∧ c.nbytes ≤ sizeLimit := by
    intro _
    cases hi : c.inp with
    | none => exact hc.lost hi
    | some r =>
      have := hmax (by rw [hi]; rfl)
      unfold sizeLimit
      omega
  have hs : ∃ d2, synthesize P c.junk d1 o c.nbytes = some d2 ∧ DecInv P.A d2 ∧ SameConfig d1 d2 ∧
      d2.plc.count = if o = none then d.plc.count + 1 else 1 := by
    unfold synthesize
    cases o with
    | none =>
      obtain ⟨d', xd, g, p, t, e, b1, b2, b3, b4, b5, b6, b7, b8, b9, b10⟩ := synthLost_spec P c.junk d1 a2 (by rw [a5]; exact hcnt (a7.1 rfl))
      have hi : DecInv P.A d' := b8.inv a2 b9 (by rw [b10, b4]; have := a2.count; omega) (win_high P.A d1 a2 g b2)
      obtain ⟨d2, c1, c2, c3, c4, -, -⟩ := synthLtpf_spec P d' hi none c.nbytes (fun l h => by cases h) (by rw [b8.same.sr]; exact hsz)
      dsimp only
      rw [b7, Option.bind_some, c1]
      exact ⟨d2, rfl, c2, b8.same.trans c3, by rw [c4, b10, b4, a5, if_pos rfl]⟩
    | some side =>
      obtain ⟨F, s, f1, f2, f3, f4⟩ := a8 side rfl
      rw [← a3.dt, ← a3.sr] at f4
      rw [← a3.dt, ← a3.sr] at f3
      obtain ⟨d', xd, g, t, e, b1, b2, b3, b4, b5, b6, b7, b8⟩ := synthGood_spec P c.junk d1 a2 side F.length f4 _ f3
      have hi : DecInv P.A d' := b5.inv a2 b6 (by rw [b7]; exact Int.le_refl 1) b8
      obtain ⟨d2, c1, c2, c3, c4, -, -⟩ := synthLtpf_spec P d' hi (some side) c.nbytes (fun l h => by
          unfold pitchData at h
          rw [Option.bind_some] at h
          split at h
          · rename_i hp
            injection h with h
            rw [← h]; exact f4.ltpf hp
          · cases h) (by rw [b5.same.sr]; exact hsz)
      dsimp only
      rw [b4, Option.bind_some, c1]
      refine ⟨d2, rfl, c2, b5.same.trans c3, ?_⟩
      rw [c4, b7]
      rfl
  obtain ⟨d2, s1, s2, s3, s4⟩ := hs
  have hlen := s2.len
  have hxs := s2.xsLe
  obtain ⟨xs, w1, w2⟩ := win_some d2.x d2.xsOff (ns d2.dt d2.srPcm) (by omega)
  refine ⟨if o = none then 1 else 0, d2, xs, ?_, s2, a3.trans s3, ?_, ?_, ?_⟩
  · unfold decProcess
    rw [a1, Option.bind_some]
    dsimp only
    rw [s1, Option.bind_some, w1, Option.bind_some]
  · rw [w2, s3.dt, s3.srPcm, a3.dt, a3.srPcm]
  · by_cases h : o = none
    · rw [if_pos h] at s4 ⊢; exact Or.inr ⟨rfl, s4⟩
    · rw [if_neg h] at s4 ⊢; exact Or.inl ⟨rfl, s4⟩
  · rw [← a7]
    split
    · rename_i h; exact ⟨fun _ => h, fun _ => rfl⟩
    · rename_i h; exact ⟨fun h' => (by cases h'), fun h' => absurd h' h⟩

/-- The counter of losses overflows. -/
theorem decProcess_overflow {α : Type} (P : Platform R) (c : DecCall R α) (d : Dec R) (mem : Int → α) (hd : DecInv P.A d) (hc : CallOk c)
    (hl : ∀ F, c.frame = some F → Refused P d F) (hcnt : 2 ^ 31 ≤ d.plc.count + 1) : decProcess P c d mem = none := by
  obtain ⟨o, d1, a1, a2, a3, a4, a5, a6, a7, a8⟩ := decInput_spec P c d hd hc
  have ho := a7.2 hl
  subst ho
  unfold decProcess
  rw [a1, Option.bind_some]
  dsimp only
  have : synthLost P c.junk d1 = none := by
    unfold synthLost
    cases win d1.x d1.xgOff (ns d1.dt d1.srPcm) with
    | none => rfl
    | some g =>
      rw [Option.bind_some]
      have : plcSynthesize P.A (ne d1.dt d1.sr) d1.plc g = none := by
        unfold plcSynthesize
        split
        · rfl
        · rw [i32_none _ (by rw [a5]; omega)]; rfl
      rw [this]; rfl
  unfold synthesize
  dsimp only
  rw [this]; rfl

end LC3
