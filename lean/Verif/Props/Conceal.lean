import Verif.Props.Resync
import Verif.Props.Plc

/-!
**C88.** What the decoder plays during a burst of losses: the spectrum of the last frame decoded, with pseudo-random signs, attenuated.
-/

namespace LC3

variable {R : Type}

/-- The spectrum of the loss `n` of a burst: the coefficients `g` of the last frame decoded, attenuated, the signs being those of the generator, at the
value `seed` when the frame was decoded; null over the coded bandwidth. -/
def replayed (A : Arith R) (dt : Dt) (sr srPcm : Srate) (seed : Nat) (g : List R) (n : Nat) : List R :=
  ((List.range (ne dt sr)).map fun i => A.mul (burstAlpha A n)
      (if (plcLcg^[ne dt sr * (n - 1) + i + 1] seed).testBit 15 then A.sub (A.ofRat 0) (g.getD i (A.ofRat 0)) else g.getD i (A.ofRat 0))) ++
    List.replicate (ns dt srPcm - ne dt sr) (A.ofRat 0)

/-- The state of a decoder after `n` losses. -/
structure Concealing (P : Platform R) (dt : Dt) (sr srPcm : Srate) (seed : Nat) (g : List R) (n : Nat) (d : Dec R) : Prop where
  inv : DecInv P.A d
  eqDt : d.dt = dt
  eqSr : d.sr = sr
  eqPcm : d.srPcm = srPcm
  count : d.plc.count = n + 1
  alpha : d.plc.alpha = burstAlpha P.A n
  eqSeed : d.plc.seed = plcLcg^[ne dt sr * n] seed
  kept : win d.x d.xgOff (ns dt srPcm) = some g
  ltpf : 1 ≤ n → sr.hr = false → d.ltpf.active = false
  tail : 1 ≤ n → ∃ t e, invTransform P dt sr srPcm (replayed P.A dt sr srPcm seed g n) (List.replicate (nd dt srPcm) (P.A.ofRat 0)) = some (t, e) ∧
    win d.x d.xdOff (nd dt srPcm) = some e

theorem and_testBit15 (n : Nat) : (n &&& 0x8000 ≠ 0) ↔ n.testBit 15 = true := by
  rw [show 0x8000 = 2 ^ 15 by norm_num, Nat.and_two_pow]
  cases n.testBit 15 <;> simp

theorem plcSynthesize_replayed (A : Arith R) (dt : Dt) (sr srPcm : Srate) (p : Plc R) (n : Nat) (seed : Nat) (g : List R) (hg : ne dt sr ≤ g.length)
    (h1 : p.count = n + 1) (h2 : p.alpha = burstAlpha A n) (h3 : p.seed = plcLcg^[ne dt sr * n] seed) (q : Plc R × List R)
    (hq : plcSynthesize A (ne dt sr) p g = some q) :
    q.1.count = n + 2 ∧ q.1.alpha = burstAlpha A (n + 1) ∧ q.1.seed = plcLcg^[ne dt sr * (n + 1)] seed ∧
      q.2 ++ List.replicate (ns dt srPcm - ne dt sr) (A.ofRat 0) = replayed A dt sr srPcm seed g (n + 1) := by
  unfold plcSynthesize at hq
  rw [if_neg (by omega)] at hq
  dsimp only at hq
  obtain ⟨c, hc, rfl⟩ := Option.map_eq_some_iff.1 hq
  have ha : A.mul p.alpha (A.ofRat (plcFactor p.count)) = burstAlpha A (n + 1) := by
    rw [burstAlpha, h2, h1]
    unfold plcFactor
    congr 2
    split_ifs <;> first | rfl | omega
  rw [ha]
  obtain ⟨l1, l2, l3⟩ := plcLoop_eq A (burstAlpha A (n + 1)) p.seed (g.take (ne dt sr))
  have hl : (g.take (ne dt sr)).length = ne dt sr := by rw [List.length_take]; omega
  refine ⟨?_, rfl, ?_, ?_⟩
  · have : c = p.count + 1 := by
      unfold i32 at hc
      split at hc
      · exact (Option.some.inj hc).symm
      · cases hc
    rw [this, h1]; ring
  · show (plcLoop _ _ _ _).1 = _
    rw [l1, hl, h3, ← Function.iterate_add_apply]
    rw [show ne dt sr + ne dt sr * n = ne dt sr * (n + 1) by ring]
  · unfold replayed
    congr 1
    apply List.ext_getElem?
    intro i
    by_cases hi : i < ne dt sr
    · have hgi : (g.take (ne dt sr))[i]? = some (g.getD i (A.ofRat 0)) := by
        rw [List.getElem?_take, if_pos hi, List.getD_eq_getElem _ _ (by omega), List.getElem?_eq_getElem (by omega)]
      rw [l3 i _ hgi, List.getElem?_map, List.getElem?_range hi, Option.map_some, h3, ← Function.iterate_add_apply, Nat.add_sub_cancel,
        show i + 1 + ne dt sr * n = ne dt sr * n + i + 1 by ring]
      congr 2
      by_cases hb : (plcLcg^[ne dt sr * n + i + 1] seed).testBit 15 = true
      · rw [if_pos ((and_testBit15 _).2 hb), if_pos hb]
      · rw [if_neg (fun h => hb ((and_testBit15 _).1 h)), if_neg hb]
    · rw [List.getElem?_eq_none (by show (plcLoop _ _ _ _).2.length ≤ i; omega), List.getElem?_eq_none (by rw [List.length_map, List.length_range]; omega)]

/-- A loss. -/
theorem lostCall_spec {α : Type} (P : Platform R) (dt : Dt) (sr srPcm : Srate) (seed : Nat) (g : List R) (n : Nat) (d : Dec R) (mem : Int → α)
    (h : Concealing P dt sr srPcm seed g n d) (hn : n + 2 < 2 ^ 31) (c : DecCall R α) (hc : CallOk c) (hl : c.inp = none) :
    ∃ (d' : Dec R) (xs : List R), lc3Decode P c (some d) mem = some (1, some d', pcmStore c.stride c.base (xs.map c.conv) mem) ∧
      Concealing P dt sr srPcm seed g (n + 1) d' ∧
      (1 ≤ n → ∃ t e e', invTransform P dt sr srPcm (replayed P.A dt sr srPcm seed g n) (List.replicate (nd dt srPcm) (P.A.ofRat 0)) = some (t, e) ∧
        invTransform P dt sr srPcm (replayed P.A dt sr srPcm seed g (n + 1)) e = some (xs, e')) := by
  obtain ⟨hd, rfl, rfl, rfl, hcnt, halpha, hseed, hkept, hltpf, htail⟩ := h
  obtain ⟨n1, n2, n3, n4, n5⟩ := dec_dims d.dt d.sr d.srPcm hd.rate
  have hxd := hd.xd
  have hxg := hd.xg
  have hxs := hd.xsLe
  have hlen := hd.len
  obtain ⟨d1, xd, g', p, t, e, b1, b2, b3, b4, b5, b6, b7, b8, b9, b10⟩ := synthLost_spec P c.junk d hd (by rw [hcnt]; omega)
  rw [hkept] at b2
  obtain rfl := Option.some.inj b2
  obtain ⟨lg, -⟩ := win_length hkept
  obtain ⟨p1, p2, p3, p4⟩ := plcSynthesize_replayed P.A d.dt d.sr d.srPcm d.plc n seed g (by omega) hcnt halpha hseed p b3
  rw [p4] at b6
  have hi : DecInv P.A d1 := b8.inv hd b9 (by rw [b10, p1]; omega) (fun k h1 h2 => by
    have := hd.high k h1 h2
    rw [win_at hkept, if_pos h2]; exact this)
  obtain ⟨d2, c1, c2, c3, c4, c5, c6⟩ := synthLtpf_spec P d1 hi none c.nbytes (fun l h => by cases h) (fun _ => hc.lost hl)
  obtain ⟨k1, k2⟩ := synthLtpf_off P d1 d2 none c.nbytes (fun l h => by cases h) c1
  have sc : SameConfig d d2 := b8.same.trans c3
  have hlen2 := c2.len
  have hxs2 := c2.xsLe
  obtain ⟨xs, w1, w2⟩ := win_some d2.x d2.xsOff (ns d2.dt d2.srPcm) (by omega)
  have keep : ∀ off m (w : List R), d.xdOff ≤ off → win d1.x off m = some w → win d2.x off m = some w := by
    intro off m w ho hw
    obtain ⟨lw1, lw2⟩ := win_length hw
    have hll : d2.x.length = d1.x.length := by rw [c2.len, hi.len, c3.dt, c3.srPcm]
    obtain ⟨v, q1, -⟩ := win_some d2.x off m (by omega)
    rw [q1]
    congr 1
    exact win_agree (fun k h1 h2 => c5 k (by rw [b8.same.xd]; omega)) q1 hw
  have lr : (replayed P.A d.dt d.sr d.srPcm seed g (n + 1)).length = ns d.dt d.srPcm := by
    rw [← p4, List.length_append, List.length_replicate, b5]; omega
  refine ⟨complete d2, xs, ?_, ?_, ?_⟩
  · unfold lc3Decode
    dsimp only
    rw [if_neg (by rw [hl]; rintro ⟨h, -⟩; cases h)]
    unfold decProcess decInput
    rw [hl]
    dsimp only
    rw [Option.bind_some]
    unfold synthesize
    dsimp only
    rw [b7, Option.bind_some, c1, Option.bind_some, w1]
    rfl
  · refine ⟨complete_inv c2, sc.dt, sc.sr, sc.srPcm, ?_, ?_, ?_, ?_, fun _ => ?_, fun _ => ?_⟩
    · show d2.plc.count = _; rw [c4, b10, p1]; push_cast; ring
    · show d2.plc.alpha = _; rw [c4, b10, p2]
    · show d2.plc.seed = _; rw [c4, b10, p3]
    · show win d2.x d2.xgOff _ = _
      rw [sc.xg]
      exact keep _ _ _ (by omega) b8.g
    · intro hh
      exact k1 (by rw [b8.same.sr]; exact hh)
    · obtain ⟨t', e', z1, -, -⟩ : ∃ t' e', invTransform P d.dt d.sr d.srPcm (replayed P.A d.dt d.sr d.srPcm seed g (n + 1))
          (List.replicate (nd d.dt d.srPcm) (P.A.ofRat 0)) = some (t', e') ∧ True ∧ True := by
        obtain ⟨t1, t2, e1, a1, a2, -⟩ := mdctInverse_congr P.A P.sqrt d.dt d.srPcm d.sr hd.cfgPcm (List.replicate maxNs (P.A.ofRat 0))
          (List.replicate maxNs (P.A.ofRat 0)) (some (replayed P.A d.dt d.sr d.srPcm seed g (n + 1)))
          (some (replayed P.A d.dt d.sr d.srPcm seed g (n + 1))) xd (List.replicate (nd d.dt d.srPcm) (P.A.ofRat 0))
          (List.replicate (ns d.dt d.srPcm) (P.A.ofRat 0))
          (List.replicate (ns d.dt d.srPcm) (P.A.ofRat 0)) (by rw [List.length_replicate]; exact n3) (by rw [List.length_replicate]; exact n3)
          (fun l hl => by injection hl with hl; rw [← hl, lr]) (fun l hl => by injection hl with hl; rw [← hl, lr]) (win_length b1).1
          (List.length_replicate ..) (List.length_replicate ..) (List.length_replicate ..) (fun _ _ => rfl)
        exact ⟨_, _, a2, trivial, trivial⟩
      refine ⟨t', e', z1, ?_⟩
      show win d2.x d2.xdOff _ = _
      rw [sc.xd]
      refine keep _ _ _ (by omega) ?_
      rw [b8.e]
      congr 1
      exact invTransform_delay P d.dt d.sr d.srPcm hd.cfgPcm n3 _ xd _ t e t' e' lr (win_length b1).1 (List.length_replicate ..) b6 z1
  · intro hn1
    obtain ⟨t0, e0, z1, z2⟩ := htail hn1
    rw [b1] at z2
    obtain rfl := Option.some.inj z2
    refine ⟨t0, xd, e, z1, ?_⟩
    rw [b6]
    have hx : d2.x = d1.x := by
      cases hh : d.sr.hr with
      | true => rw [c6 (by rw [b8.same.sr]; exact hh)]
      | false => exact k2 (by rw [b9]; exact hltpf hn1 hh)
    rw [hx, c3.xs, c3.dt, c3.srPcm, b8.same.xs, b8.same.dt, b8.same.srPcm, b8.t] at w1
    rw [Option.some.inj w1]

/-- A frame accepted. -/
theorem goodCall_burst {α : Type} (P : Platform R) (c : DecCall R α) (d : Dec R) (mem : Int → α) (hd : DecInv P.A d) (hc : CallOk c) (F : List Nat)
    (hF : c.frame = some F) (hl : (F.length : Int) = c.nbytes) (hg : FrameGood P d.dt d.sr F) :
    ∃ (d' : Dec R) (mem' : Int → α) (g : List R) (side : SideData) (s : SpecData R),
      (decodeFrame P.A d.dt d.sr P.sh32 c.junk.ltpf F).1 = .ok (side, s) ∧
      goodSpectrum P d.dt d.sr d.srPcm side (padSpectrum P.A d.dt d.sr s.x) = some g ∧
      lc3Decode P c (some d) mem = some (0, some d', mem') ∧ Concealing P d.dt d.sr d.srPcm d.plc.seed g 0 d' := by
  obtain ⟨o, d1, a1, a2, a3, a4, a5, a6, a7, a8⟩ := decInput_spec P c d hd hc
  obtain ⟨hg1, hg2, j0, side0, s0, hg3⟩ := hg
  have hnr : ¬ Refused P d F := by
    intro h
    rw [h j0] at hg3; cases hg3
  cases ho : o with
  | none => exact absurd (a7.1 ho F hF) hnr
  | some side =>
    obtain ⟨F', s, f1, f2, f3, f4⟩ := a8 side ho
    rw [hF] at f1
    injection f1 with f1
    subst f1
    rw [← a3.dt, ← a3.sr] at f4
    rw [← a3.dt, ← a3.sr] at f3
    obtain ⟨d', xd, g, t, e, b1, b2, b3, b4, b5, b6, b7, b8⟩ := synthGood_spec P c.junk d1 a2 side F.length f4 _ f3
    have hi : DecInv P.A d' := b5.inv a2 b6 (by rw [b7]; exact Int.le_refl 1) b8
    have hmax := maxFrame_le d.dt d.sr
    obtain ⟨d2, c1, c2, c3, c4, c5, c6⟩ := synthLtpf_spec P d' hi (some side) c.nbytes (fun l h => by
        unfold pitchData at h
        rw [Option.bind_some] at h
        split at h
        · rename_i hp
          injection h with h
          rw [← h]; exact f4.ltpf hp
        · cases h) (by intro _; unfold sizeLimit; omega)
    have hlen := c2.len
    have hxs := c2.xsLe
    obtain ⟨xs, w1, w2⟩ := win_some d2.x d2.xsOff (ns d2.dt d2.srPcm) (by omega)
    have sc : SameConfig d d2 := (a3.trans b5.same).trans c3
    have hxd0 := hd.xd
    have hxg0 := hd.xg
    have hxg2 := c2.xg
    rw [a3.dt, a3.sr, a3.srPcm] at b2
    refine ⟨complete d2, pcmStore c.stride c.base (xs.map c.conv) mem, g, side, s, f2, b2, ?_, complete_inv c2, sc.dt, sc.sr, sc.srPcm, ?_, ?_, ?_, ?_, fun h => absurd h (by omega),
      fun h => absurd h (by omega)⟩
    · unfold lc3Decode
      dsimp only
      rw [if_neg (by rintro ⟨-, h⟩; omega)]
      unfold decProcess
      rw [a1, Option.bind_some]
      dsimp only
      rw [ho]
      unfold synthesize
      dsimp only
      rw [b4, Option.bind_some, c1, Option.bind_some, w1]
      rfl
    · show d2.plc.count = _; rw [c4, b7]; rfl
    · show d2.plc.alpha = _; rw [c4, b7]; rfl
    · show d2.plc.seed = _; rw [c4, b7]
      show d1.plc.seed = _
      rw [a5]; rfl
    · show win d2.x d2.xgOff _ = _
      have hb := b5.g
      rw [a3.dt, a3.srPcm, a3.xg] at hb
      rw [sc.dt, sc.srPcm] at hlen hxg2
      rw [sc.xg] at hxg2 ⊢
      obtain ⟨v, q1, -⟩ := win_some d2.x d.xgOff (ns d.dt d.srPcm) (by omega)
      rw [q1]
      congr 1
      exact win_agree (fun k h1 h2 => c5 k (by rw [b5.same.xd, a3.xd]; omega)) q1 hb

/-- A run of losses, after a frame accepted. -/
theorem lostRun_spec {α : Type} (P : Platform R) (dt : Dt) (sr srPcm : Srate) (seed : Nat) (g : List R) (lost : List (DecCall R α))
    (hl : ∀ c ∈ lost, CallOk c ∧ c.inp = none) : ∀ (n : Nat) (d : Dec R) (mem : Int → α), Concealing P dt sr srPcm seed g n d → n + lost.length + 1 < 2 ^ 31 →
    ∃ d' mem', decRun P lost (some d) mem = some (List.replicate lost.length 1, some d', mem') ∧
      Concealing P dt sr srPcm seed g (n + lost.length) d' := by
  induction lost with
  | nil => intro n d mem h _; exact ⟨d, mem, rfl, h⟩
  | cons c l ih =>
    intro n d mem h hn
    rw [List.length_cons] at hn
    obtain ⟨hc, hi⟩ := hl c (List.mem_cons_self ..)
    obtain ⟨d1, xs, a1, a2, -⟩ := lostCall_spec P dt sr srPcm seed g n d mem h (by omega) c hc hi
    obtain ⟨d2, mem2, b1, b2⟩ := ih (fun x hx => hl x (List.mem_cons_of_mem _ hx)) (n + 1) d1 _ a2 (by omega)
    refine ⟨d2, mem2, ?_, ?_⟩
    · rw [List.length_cons, List.replicate_succ, decRun.eq_2, a1, Option.bind_some]
      dsimp only
      rw [b1]
      rfl
    · rw [List.length_cons, show n + (l.length + 1) = n + 1 + l.length by omega]
      exact b2

/-- **C88.** After any history, a frame is accepted, then `n ≥ 1` frames are lost, of any announced sizes. The next loss returns 1 and plays the inverse transform of the
spectrum of the frame accepted, with the signs of the generator and the attenuation of the loss `n + 1`, overlapped with the end of the same at the loss `n`. Neither
the frames before the one accepted, nor the post-filter, take part. -/
theorem C88_replay {α : Type} (P : Platform R) (hr : Bool) (dtUs srHz srPcmHz : Int) (calls : List (DecCall R α)) (rets : List Int) (d : Dec R)
    (mem : Int → α) (h : Played P hr dtUs srHz srPcmHz calls rets d mem) (F : List Nat) (hF : FrameGood P d.dt d.sr F) (c : DecCall R α) (hc : Gives c F)
    (lost : List (DecCall R α)) (hl : ∀ c ∈ lost, CallOk c ∧ c.inp = none) (h1 : 1 ≤ lost.length) (h2 : lost.length + 2 < 2 ^ 31)
    (last : DecCall R α) (hlast : CallOk last ∧ last.inp = none) :
    ∃ (side : SideData) (s : SpecData R) (g t e xs e' : List R) (d' d'' : Dec R) (m' : Int → α),
      (decodeFrame P.A d.dt d.sr P.sh32 c.junk.ltpf F).1 = .ok (side, s) ∧
      goodSpectrum P d.dt d.sr d.srPcm side (padSpectrum P.A d.dt d.sr s.x) = some g ∧
      Played P hr dtUs srHz srPcmHz (calls ++ c :: lost) (rets ++ 0 :: List.replicate lost.length 1) d' m' ∧
      invTransform P d.dt d.sr d.srPcm (replayed P.A d.dt d.sr d.srPcm d.plc.seed g lost.length)
        (List.replicate (nd d.dt d.srPcm) (P.A.ofRat 0)) = some (t, e) ∧
      invTransform P d.dt d.sr d.srPcm (replayed P.A d.dt d.sr d.srPcm d.plc.seed g (lost.length + 1)) e = some (xs, e') ∧
      lc3Decode P last (some d') m' = some (1, some d'', pcmStore last.stride last.base (xs.map last.conv) m') := by
  obtain ⟨i1, -⟩ := h.inv
  obtain ⟨d1, mem1, g, side, s, a1, a2, a3, a4⟩ := goodCall_burst P c d mem i1 hc.ok F hc.frame_eq.1 hc.frame_eq.2 hF
  obtain ⟨d2, mem2, b1, b2⟩ := lostRun_spec P _ _ _ _ g lost hl 0 d1 mem1 a4 (by omega)
  rw [Nat.zero_add] at b2
  obtain ⟨d3, xs, k1, -, k3⟩ := lostCall_spec P _ _ _ _ g lost.length d2 mem2 b2 h2 last hlast.1 hlast.2
  obtain ⟨t, e, e', z1, z2⟩ := k3 h1
  refine ⟨side, s, g, t, e, xs, e', d2, d3, mem2, a1, a2, ⟨fun x hx => ?_, ?_⟩, z1, z2, k1⟩
  · rcases List.mem_append.1 hx with hx | hx
    · exact h.ok x hx
    · rcases List.mem_cons.1 hx with rfl | hx
      · exact hc.ok
      · exact (hl x hx).1
  · obtain ⟨d0, mem0, q1, q2⟩ := h.run
    refine ⟨d0, mem0, q1, ?_⟩
    rw [decRun_append, q2, Option.bind_some]
    dsimp only
    rw [decRun.eq_2, a3, Option.bind_some]
    dsimp only
    rw [b1]
    rfl

end LC3
