import Verif.Lemmas.Rotate
import Verif.Props.Resync

/-!
C94: the position of the frames in the memory of the decoder, and what it contained before, have no effect on the samples.
-/

namespace LC3

variable {R : Type} {α : Type}

/-- Two decoders of the same configuration with the same history, that may be at different positions in their memories: the same delayed samples, the
same effective state of the post-filter, and the same samples of the previous frames, from the most recent one back to the limit of the history. The
history is not used in high resolution. -/
structure Dec.Rotated (d d' : Dec R) : Prop where
  dt : d'.dt = d.dt
  sr : d'.sr = d.sr
  srPcm : d'.srPcm = d.srPcm
  ltpf : d.sr.hr = false → d.ltpf.Sim d.srPcm d'.ltpf
  old : d.sr.hr = false → ∀ i, ns d.dt d.srPcm ≤ i → i < ns d.dt d.srPcm + nh d.dt d.srPcm →
    d'.x[(d'.xsOff + i) % (ns d.dt d.srPcm + nh d.dt d.srPcm)]? = d.x[(d.xsOff + i) % (ns d.dt d.srPcm + nh d.dt d.srPcm)]?
  xd : ∀ k, d.xdOff ≤ k → k < d.xdOff + nd d.dt d.srPcm → d'.x[k]? = d.x[k]?

/-- Two decoders with the same state of the concealment. -/
structure Dec.SameLoss (d d' : Dec R) : Prop where
  plc : d'.plc = d.plc
  xg : ∀ k, d.xgOff ≤ k → d'.x[k]? = d.x[k]?

/-- As `Rotated`, with the samples of the frame. -/
structure Dec.RotFull (d d' : Dec R) : Prop where
  dt : d'.dt = d.dt
  sr : d'.sr = d.sr
  srPcm : d'.srPcm = d.srPcm
  ltpf : d.sr.hr = false → d.ltpf.Sim d.srPcm d'.ltpf
  all : ∀ i, i < ns d.dt d.srPcm + nh d.dt d.srPcm → i < ns d.dt d.srPcm ∨ d.sr.hr = false →
    d'.x[(d'.xsOff + i) % (ns d.dt d.srPcm + nh d.dt d.srPcm)]? = d.x[(d.xsOff + i) % (ns d.dt d.srPcm + nh d.dt d.srPcm)]?
  xd : ∀ k, d.xdOff ≤ k → k < d.xdOff + nd d.dt d.srPcm → d'.x[k]? = d.x[k]?

theorem mod_window {N s n i : Nat} (hs : s + n ≤ N) (hi : i < N) (hn : n ≤ i) : (s + i) % N < s ∨ s + n ≤ (s + i) % N := by
  by_cases h : s + i < N
  · rw [Nat.mod_eq_of_lt h]; omega
  · rw [Nat.mod_eq_sub_mod (by omega), Nat.mod_eq_of_lt (by omega)]; omega

theorem SynthOut.full {A : Arith R} {d d' e e' : Dec R} {t y g g' : List R} (hd : DecInv A d) (hd' : DecInv A d') (h : d.Rotated d')
    (k : SynthOut d e t y g) (k' : SynthOut d' e' t y g') (hl : e.ltpf = d.ltpf) (hl' : e'.ltpf = d'.ltpf) : e.RotFull e' := by
  have a1 := hd.xsLe
  have a2 := hd.xd
  have a3 := hd'.xsLe
  have a4 := hd'.xd
  rw [h.dt, h.srPcm] at a3 a4
  have q1 := k.same
  have q2 := k'.same
  refine ⟨?_, ?_, ?_, ?_, ?_, ?_⟩
  · rw [q1.dt, q2.dt, h.dt]
  · rw [q1.sr, q2.sr, h.sr]
  · rw [q1.srPcm, q2.srPcm, h.srPcm]
  · rw [q1.sr, q1.srPcm, hl, hl']; exact h.ltpf
  · rw [q1.dt, q1.sr, q1.srPcm, q1.xs, q2.xs]
    intro i hi ho
    by_cases hn : i < ns d.dt d.srPcm
    · rw [Nat.mod_eq_of_lt (by omega), Nat.mod_eq_of_lt (by omega)]
      have t1 := win_at k.t i
      have t2 := win_at k'.t i
      rw [h.dt, h.srPcm] at t2
      rw [if_pos hn] at t1 t2
      rw [← t1, ← t2]
    · have m := Nat.mod_lt (d.xsOff + i) (show 0 < ns d.dt d.srPcm + nh d.dt d.srPcm by omega)
      have m' := Nat.mod_lt (d'.xsOff + i) (show 0 < ns d.dt d.srPcm + nh d.dt d.srPcm by omega)
      rw [k.out _ (by omega) (mod_window (by omega) hi (by omega)),
        k'.out _ (by omega) (by rw [h.dt, h.srPcm]; exact mod_window (by omega) hi (by omega))]
      exact h.old (ho.resolve_left hn) i (by omega) hi
  · rw [q1.dt, q1.srPcm, q1.xd]
    intro j j1 j2
    have t1 := win_at k.e (j - d.xdOff)
    have t2 := win_at k'.e (j - d.xdOff)
    rw [h.dt, h.srPcm, a4] at t2
    rw [if_pos (by omega)] at t1 t2
    rw [show d.xdOff + (j - d.xdOff) = j by omega] at t1
    rw [show nh d.dt d.srPcm + ns d.dt d.srPcm + (j - d.xdOff) = j by omega] at t2
    rw [← t1, ← t2]

theorem RotFull.ltpf_step {P : Platform R} {d d' : Dec R} (hd : DecInv P.A d) (hd' : DecInv P.A d') (h : d.RotFull d') (side : Option SideData) (nbytes : Int)
    (hp : ∀ l, pitchData side = some l → l.pitchIndex < 512) (hn : d.sr.hr = false → 0 ≤ nbytes ∧ nbytes ≤ sizeLimit) :
    ∃ e e', synthLtpf P d side nbytes = some e ∧ synthLtpf P d' side nbytes = some e' ∧ DecInv P.A e ∧ DecInv P.A e' ∧ SameConfig d e ∧ SameConfig d' e' ∧
      e.RotFull e' ∧ e.plc = d.plc ∧ e'.plc = d'.plc ∧ (∀ k, d.xdOff ≤ k → e.x[k]? = d.x[k]?) ∧ (∀ k, d'.xdOff ≤ k → e'.x[k]? = d'.x[k]?) := by
  obtain ⟨e, s1, s2, s3, s4, s5, s6⟩ := synthLtpf_spec P d hd side nbytes hp hn
  obtain ⟨e', s1', s2', s3', s4', s5', s6'⟩ := synthLtpf_spec P d' hd' side nbytes hp (by rw [h.sr]; exact hn)
  refine ⟨e, e', s1, s1', s2, s2', s3, s3', ?_, s4, s4', s5, s5'⟩
  have a1 := hd.xsLe
  have a2 := hd.xd
  have a3 := hd'.xsLe
  have a4 := hd'.xd
  have a5 := hd.len
  have a6 := hd'.len
  rw [h.dt, h.srPcm] at a3 a4 a6
  have hxd : ∀ k, e.xdOff ≤ k → k < e.xdOff + nd e.dt e.srPcm → e'.x[k]? = e.x[k]? := by
    rw [s3.xd, s3.dt, s3.srPcm]
    intro k k1 k2
    rw [s5 k k1, s5' k (by omega)]
    exact h.xd k k1 k2
  cases hh : d.sr.hr with
  | true =>
    rw [s6 hh, s6' (by rw [h.sr]; exact hh)]
    exact h
  | false =>
    refine ⟨by rw [s3.dt, s3'.dt, h.dt], by rw [s3.sr, s3'.sr, h.sr], by rw [s3.srPcm, s3'.srPcm, h.srPcm], ?_, ?_, hxd⟩
    all_goals
      unfold synthLtpf at s1 s1'
      rw [hh, if_neg (by decide), hd.xh] at s1
      rw [h.sr, hh, if_neg (by decide), hd'.xh, h.dt, h.srPcm] at s1'
      obtain ⟨r, w1, s1⟩ := Option.bind_eq_some_iff.1 s1
      obtain ⟨r', w1', s1'⟩ := Option.bind_eq_some_iff.1 s1'
      obtain ⟨⟨l, o⟩, f1, s1⟩ := Option.bind_eq_some_iff.1 s1
      obtain ⟨⟨l', o'⟩, f1', s1'⟩ := Option.bind_eq_some_iff.1 s1'
      obtain ⟨x, p1, s1⟩ := Option.bind_eq_some_iff.1 s1
      obtain ⟨x', p1', s1'⟩ := Option.bind_eq_some_iff.1 s1'
      rw [Nat.sub_zero] at f1 f1'
      have n4 := (dec_dims d.dt d.sr d.srPcm hd.rate).2.2.2.1
      have hrot : Rot (ns d.dt d.srPcm + nh d.dt d.srPcm) d.xsOff d'.xsOff r r' := by
        refine ⟨(win_length w1).1, (win_length w1').1, fun i hi => ?_⟩
        have m := Nat.mod_lt (d.xsOff + i) (show 0 < ns d.dt d.srPcm + nh d.dt d.srPcm by omega)
        have m' := Nat.mod_lt (d'.xsOff + i) (show 0 < ns d.dt d.srPcm + nh d.dt d.srPcm by omega)
        rw [win_at w1, win_at w1', if_pos m, if_pos m', Nat.zero_add, Nat.zero_add]
        exact h.all i hi (Or.inr hh)
      have pos : FramePos d.dt d.srPcm d.xsOff := ⟨by omega, by obtain ⟨k, hk⟩ := hd.xs; rw [hk]; exact Nat.mul_mod_left _ _⟩
      have pos' : FramePos d.dt d.srPcm d'.xsOff :=
        ⟨by omega, by obtain ⟨k, hk⟩ := hd'.xs; rw [hk, h.dt, h.srPcm]; exact Nat.mul_mod_left _ _⟩
      obtain ⟨b1, o1, g1, g2, g3⟩ := ltpfSynthesize_rot P.A d.dt d.srPcm (by rw [← hd.hr]; exact hh) d.ltpf d'.ltpf (hd.ltpf hh) (h.ltpf hh) pos pos' hrot nbytes
        _ hp l o f1
      change ltpfSynthesize P.A d.dt d.srPcm nbytes d'.ltpf (pitchData side) r' d'.xsOff = some (l', o') at f1'
      rw [g1, Option.some.injEq, Prod.mk.injEq] at f1'
      obtain ⟨rfl, rfl⟩ := f1'
      cases s1
      cases s1'
    · intro _; exact g2
    · dsimp only
      intro i hi _
      have m := Nat.mod_lt (d.xsOff + i) (show 0 < ns d.dt d.srPcm + nh d.dt d.srPcm by omega)
      have m' := Nat.mod_lt (d'.xsOff + i) (show 0 < ns d.dt d.srPcm + nh d.dt d.srPcm by omega)
      have u : (d.xsOff + i) % (ns d.dt d.srPcm + nh d.dt d.srPcm) < 0 + o.length := by rw [Nat.zero_add, g3.len]; exact m
      have u' : (d'.xsOff + i) % (ns d.dt d.srPcm + nh d.dt d.srPcm) < 0 + o1.length := by rw [Nat.zero_add, g3.len']; exact m'
      rw [winPut_at p1, winPut_at p1', if_pos ⟨Nat.zero_le _, u'⟩, if_pos ⟨Nat.zero_le _, u⟩, Nat.sub_zero, Nat.sub_zero]
      exact g3.at' i hi

theorem complete_pos (s i n H : Nat) (h1 : s ≤ H) (h2 : 0 < n) (h4 : ∃ k, s = k * n) (h5 : ∃ q, H = q * n) :
    ((if s - 0 < H then s + n else 0) + i) % (n + H) = (s + (n + i) % (n + H)) % (n + H) := by
  obtain ⟨k, hk⟩ := h4
  obtain ⟨q, hq⟩ := h5
  rw [Nat.add_mod_mod]
  split
  · congr 1; omega
  · have : s = H := by omega
    rw [this, show H + (n + i) = 0 + i + (n + H) by omega, Nat.add_mod_right]

theorem RotFull.complete {P : Platform R} {d d' : Dec R} (hd : DecInv P.A d) (hd' : DecInv P.A d') (h : d.RotFull d') :
    (complete d).Rotated (complete d') := by
  have a1 := hd.xsLe
  have a3 := hd'.xsLe
  rw [h.dt, h.srPcm] at a3
  have n4 := (dec_dims d.dt d.sr d.srPcm hd.rate).2.2.2.1
  refine ⟨h.dt, h.sr, h.srPcm, h.ltpf, ?_, h.xd⟩
  intro hh i _ hi
  have n5 := (dec_dims d.dt d.sr d.srPcm hd.rate).2.2.2.2
  have := h.all ((ns d.dt d.srPcm + i) % (ns d.dt d.srPcm + nh d.dt d.srPcm)) (Nat.mod_lt _ (by omega)) (Or.inr hh)
  unfold LC3.complete
  dsimp only
  change i < ns d.dt d.srPcm + nh d.dt d.srPcm at hi
  rw [h.dt, h.srPcm, hd.xh, hd'.xh, complete_pos d.xsOff i _ _ a1 n4 hd.xs ⟨_, n5⟩,
    complete_pos d'.xsOff i _ _ a3 n4 (by have := hd'.xs; rwa [h.dt, h.srPcm] at this) ⟨_, n5⟩]
  exact this

/-- A call, for two decoders with the same history: the same value returned and the same samples; and the decoders still have the same history. -/
theorem rotated_step (P : Platform R) (c : DecCall R α) (hc : CallOk c) (d d' : Dec R) (hd : DecInv P.A d) (hd' : DecInv P.A d') (h : d.Rotated d')
    (hl : d.SameLoss d' ∨ ∃ F, c.frame = some F ∧ ¬ Refused P d F) (mem : Int → α) :
    (lc3Decode P c (some d) mem = none ∧ lc3Decode P c (some d') mem = none) ∨
    ∃ ret e e' m, lc3Decode P c (some d) mem = some (ret, some e, m) ∧ lc3Decode P c (some d') mem = some (ret, some e', m) ∧
      DecInv P.A e ∧ DecInv P.A e' ∧ e.dt = d.dt ∧ e.sr = d.sr ∧ e.Rotated e' ∧ (d.SameLoss d' → e.SameLoss e') := by
  unfold lc3Decode
  dsimp only
  rw [h.dt, h.sr]
  by_cases hr : c.inp.isSome ∧ (c.nbytes < 20 ∨ c.nbytes > maxFrameBytes d.dt d.sr)
  · rw [if_pos hr, if_pos hr]
    exact Or.inr ⟨_, d, d', mem, rfl, rfl, hd, hd', rfl, rfl, h, id⟩
  rw [if_neg hr, if_neg hr]
  have hmax := maxFrame_le d.dt d.sr
  have hnb : 0 ≤ c.nbytes ∧ c.nbytes ≤ sizeLimit := by
    cases hi : c.inp with
    | none => exact hc.lost hi
    | some r =>
      have := not_and.1 hr (by rw [hi]; rfl)
      unfold sizeLimit
      omega
  obtain ⟨o, d1, a1, a2, a3, a4, a5, a6, a7, a8⟩ := decInput_spec P c d hd hc
  obtain ⟨o', d1', b1, b2, b3, b4, b5, b6, b7, b8⟩ := decInput_spec P c d' hd' hc
  have hxs := hd.xsLe
  have hxd := hd.xd
  have hxg := hd.xg
  have hxs' := hd'.xsLe
  have hxd' := hd'.xd
  have hxg' := hd'.xg
  rw [h.dt, h.srPcm] at hxs' hxd' hxg'
  obtain ⟨n1, n2, n3, n4, n5⟩ := dec_dims d.dt d.sr d.srPcm hd.rate
  rw [h.dt, h.srPcm] at b6
  have hrot : d1.Rotated d1' := by
    refine ⟨by rw [a3.dt, b3.dt, h.dt], by rw [a3.sr, b3.sr, h.sr], by rw [a3.srPcm, b3.srPcm, h.srPcm], ?_, ?_, ?_⟩
    · rw [a3.sr, a3.srPcm, a4, b4]; exact h.ltpf
    · rw [a3.dt, a3.sr, a3.srPcm, a3.xs, b3.xs]
      intro hh i h1 h2
      rw [a6 _ (mod_window (by omega) h2 h1), b6 _ (mod_window (by omega) h2 h1)]
      exact h.old hh i h1 h2
    · rw [a3.xd, a3.dt, a3.srPcm]
      intro k k1 k2
      rw [a6 k (by omega), b6 k (by omega)]
      exact h.xd k k1 k2
  have hloss : d.SameLoss d' → d1.SameLoss d1' := by
    intro hs
    refine ⟨by rw [a5, b5, hs.plc], ?_⟩
    rw [a3.xg]
    intro k k1
    rw [a6 k (by omega), b6 k (by omega)]
    exact hs.xg k k1
  have hfin : ∀ (e e' : Dec R) (side : Option SideData), DecInv P.A e → DecInv P.A e' → SameConfig d1 e → SameConfig d1' e' → e.RotFull e' →
      (∀ l, pitchData side = some l → l.pitchIndex < 512) → synthesize P c.junk d1 side c.nbytes = synthLtpf P e side c.nbytes →
      synthesize P c.junk d1' side c.nbytes = synthLtpf P e' side c.nbytes → o = side → o' = side → (d1.SameLoss d1' → e.SameLoss e') →
      ((decProcess P c d mem).map (fun r => (r.1, some r.2.1, r.2.2)) = none ∧ (decProcess P c d' mem).map (fun r => (r.1, some r.2.1, r.2.2)) = none) ∨
      ∃ ret e e' m, (decProcess P c d mem).map (fun r => (r.1, some r.2.1, r.2.2)) = some (ret, some e, m) ∧
        (decProcess P c d' mem).map (fun r => (r.1, some r.2.1, r.2.2)) = some (ret, some e', m) ∧
        DecInv P.A e ∧ DecInv P.A e' ∧ e.dt = d.dt ∧ e.sr = d.sr ∧ e.Rotated e' ∧ (d.SameLoss d' → e.SameLoss e') := by
    intro e e' side i1 i2 c1 c2 hf hp s1 s2 ho ho' hsl
    obtain ⟨f, f', k1, k2, k3, k4, k5, k6, k7, k8, k9, k10, k11⟩ := RotFull.ltpf_step i1 i2 hf side c.nbytes hp (fun _ => hnb)
    have l1 := k3.len
    have l2 := k3.xsLe
    have l3 := k4.len
    have l4 := k4.xsLe
    have l5 := i1.xd
    have l6 := i1.xg
    have l7 := i2.xd
    have l8 := i2.xg
    obtain ⟨xs, w1, w2⟩ := win_some f.x f.xsOff (ns f.dt f.srPcm) (by omega)
    obtain ⟨xs', w1', w2'⟩ := win_some f'.x f'.xsOff (ns f'.dt f'.srPcm) (by omega)
    have hxs : xs' = xs := by
      apply List.ext_getElem?
      intro j
      rw [win_at w1, win_at w1', k7.dt, k7.srPcm]
      rw [k7.dt, k7.srPcm] at l4
      split
      · have := k7.all j (by omega) (Or.inl (by assumption))
        rwa [Nat.mod_eq_of_lt (by omega), Nat.mod_eq_of_lt (by omega)] at this
      · rfl
    subst hxs
    right
    refine ⟨if side = none then 1 else 0, LC3.complete f, LC3.complete f', pcmStore c.stride c.base (xs'.map c.conv) mem, ?_, ?_, complete_inv k3, complete_inv k4, ?_, ?_,
      RotFull.complete k3 k4 k7, ?_⟩
    · unfold decProcess
      rw [a1, Option.bind_some]
      dsimp only
      rw [ho, s1, k1, Option.bind_some, w1, Option.bind_some]
      rfl
    · unfold decProcess
      rw [b1, Option.bind_some]
      dsimp only
      rw [ho', s2, k2, Option.bind_some, w1', Option.bind_some]
      rfl
    · show f.dt = d.dt
      rw [k5.dt, c1.dt, a3.dt]
    · show f.sr = d.sr
      rw [k5.sr, c1.sr, a3.sr]
    · intro hs
      have := hsl (hloss hs)
      rw [hf.dt, hf.srPcm] at l7 l8
      refine ⟨?_, ?_⟩
      · show f'.plc = f.plc
        rw [k8, k9, this.plc]
      · show ∀ k, f.xgOff ≤ k → f'.x[k]? = f.x[k]?
        rw [k5.xg]
        intro k hk
        rw [k10 k (by omega), k11 k (by omega)]
        exact this.xg k hk
  have hxsd1 := a2.xsLe
  have g5 := a2.xd
  have g6 := a2.xg
  have g7 := b2.xd
  have g8 := b2.xg
  have g9 := a2.len
  have g10 := b2.len
  rw [b3.dt, b3.srPcm, h.dt, h.srPcm] at g7 g8 g10
  rw [a3.dt, a3.srPcm] at g5 g6 g9
  have xdeq : ∀ xd xd', win d1.x d1.xdOff (nd d1.dt d1.srPcm) = some xd → win d1'.x d1'.xdOff (nd d1'.dt d1'.srPcm) = some xd' → xd' = xd := by
    intro xd xd' h1 h2
    rw [hrot.dt, hrot.srPcm, show d1'.xdOff = d1.xdOff by omega] at h2
    exact win_agree (fun k k1 k2 => hrot.xd k k1 k2) h2 h1
  cases ho : o with
  | none =>
    have href := a7.1 ho
    have ho' : o' = none := b7.2 (by
      intro F hF
      have := href F hF
      unfold Refused at this ⊢
      rw [h.dt, h.sr]
      exact this)
    have hsl : d.SameLoss d' := by
      rcases hl with hl | ⟨F, f1, f2⟩
      · exact hl
      · exact absurd (href F f1) f2
    by_cases hcnt : 2 ^ 31 ≤ d.plc.count + 1
    · left
      rw [decProcess_overflow P c d mem hd hc href hcnt]
      rw [decProcess_overflow P c d' mem hd' hc (b7.1 ho') (by rw [hsl.plc]; exact hcnt)]
      exact ⟨rfl, rfl⟩
    have hs1 := hloss hsl
    obtain ⟨e, xd, g, p, t, y, q1, q2, q3, q4, q5, q6, q7, q8, q9, q10⟩ := synthLost_spec P c.junk d1 a2 (by rw [a5]; omega)
    obtain ⟨e', xd', g', p', t', y', r1, r2, r3, r4, r5, r6, r7, r8, r9, r10⟩ := synthLost_spec P c.junk d1' b2 (by rw [b5, hsl.plc]; omega)
    have e1 := xdeq xd xd' q1 r1
    have e2 : g' = g := by
      rw [hrot.dt, hrot.srPcm, show d1'.xgOff = d1.xgOff by omega] at r2
      exact win_agree (fun k k1 k2 => hs1.xg k k1) r2 q2
    subst e1 e2
    rw [hrot.dt, hrot.sr, hs1.plc, q3] at r3
    obtain rfl := Option.some.inj r3
    rw [hrot.dt, hrot.sr, hrot.srPcm, q6, Option.some.injEq, Prod.mk.injEq] at r6
    obtain ⟨rfl, rfl⟩ := r6
    have c1 := a2.count
    have c2 := b2.count
    have high : ∀ (z : Dec R), DecInv P.A z → ∀ v, win z.x z.xgOff (ns z.dt z.srPcm) = some v → ∀ k, ne z.dt z.sr ≤ k → k < ns z.dt z.srPcm →
        v[k]? = some (P.A.ofRat 0) := by
      intro z hz v hv k k1 k2
      rw [win_at hv, if_pos k2]; exact hz.high k k1 k2
    have i1 := q8.inv a2 q9 (by rw [q10, q4]; omega) (high d1 a2 _ q2)
    have i2 := r8.inv b2 r9 (by rw [r10, r4]; omega) (high d1' b2 _ r2)
    refine hfin e e' none i1 i2 q8.same r8.same (SynthOut.full a2 b2 hrot q8 r8 q9 r9) (fun l hl => by cases hl) ?_ ?_ ho ho' ?_
    · unfold synthesize; dsimp only; rw [q7]; rfl
    · unfold synthesize; dsimp only; rw [r7]; rfl
    · intro _
      refine ⟨by rw [q10, r10], ?_⟩
      intro k hk
      rw [q8.same.xg] at hk
      have z1 := win_at q8.g (k - d1.xgOff)
      have z2 := win_at r8.g (k - d1.xgOff)
      rw [show d1'.xgOff = d1.xgOff by omega, hrot.dt, hrot.srPcm] at z2
      rw [show d1.xgOff + (k - d1.xgOff) = k by omega] at z1 z2
      by_cases hlt : k - d1.xgOff < ns d1.dt d1.srPcm
      · rw [if_pos hlt] at z1 z2
        rw [← z1, ← z2]
      · rw [a3.dt, a3.srPcm] at hlt
        rw [List.getElem?_eq_none (by rw [r8.len]; omega), List.getElem?_eq_none (by rw [q8.len]; omega)]
  | some side =>
    obtain ⟨F, s, f1, f2, f3, f4⟩ := a8 side ho
    have ho' : o' = some side := by
      cases hn : o' with
      | none =>
        have := b7.1 hn F f1 c.junk.ltpf
        rw [h.dt, h.sr, f2] at this
        cases this
      | some side' =>
        obtain ⟨F', s', f1', f2', -⟩ := b8 side' hn
        rw [f1] at f1'
        obtain rfl := Option.some.inj f1'
        rw [h.dt, h.sr, f2] at f2'
        injection f2' with f2'
        rw [Prod.mk.injEq] at f2'
        rw [f2'.1]
    obtain ⟨F', s', f1', f2', f3', f4'⟩ := b8 side ho'
    rw [f1] at f1'
    obtain rfl := Option.some.inj f1'
    rw [h.dt, h.sr, f2] at f2'
    injection f2' with f2'
    rw [Prod.mk.injEq] at f2'
    obtain ⟨-, rfl⟩ := f2'
    rw [← a3.dt, ← a3.sr] at f3 f4
    rw [← b3.dt, ← b3.sr] at f3' f4'
    obtain ⟨e, xd, g, t, y, q1, q2, q3, q4, q5, q6, q7, q8⟩ := synthGood_spec P c.junk d1 a2 side F.length f4 _ f3
    obtain ⟨e', xd', g', t', y', r1, r2, r3, r4, r5, r6, r7, r8⟩ := synthGood_spec P c.junk d1' b2 side F.length f4' _ f3'
    have e1 := xdeq xd xd' q1 r1
    subst e1
    rw [hrot.dt, hrot.sr, hrot.srPcm, q2] at r2
    obtain rfl := Option.some.inj r2
    rw [hrot.dt, hrot.sr, hrot.srPcm, q3, Option.some.injEq, Prod.mk.injEq] at r3
    obtain ⟨rfl, rfl⟩ := r3
    have i1 := q5.inv a2 q6 (by rw [q7]; exact Int.le_refl 1) q8
    have i2 := r5.inv b2 r6 (by rw [r7]; exact Int.le_refl 1) r8
    refine hfin e e' (some side) i1 i2 q5.same r5.same (SynthOut.full a2 b2 hrot q5 r5 q6 r6) ?_ ?_ ?_ ho ho' ?_
    · intro l hl
      unfold pitchData at hl
      rw [Option.bind_some] at hl
      split at hl
      · rename_i hp
        injection hl with hl
        rw [← hl]; exact f4.ltpf hp
      · cases hl
    · unfold synthesize; dsimp only; rw [q4]; rfl
    · unfold synthesize; dsimp only; rw [r4]; rfl
    · intro hs
      refine ⟨by rw [q7, r7, hs.plc], ?_⟩
      intro k hk
      rw [q5.same.xg] at hk
      have z1 := win_at q5.g (k - d1.xgOff)
      have z2 := win_at r5.g (k - d1.xgOff)
      rw [show d1'.xgOff = d1.xgOff by omega, hrot.dt, hrot.srPcm] at z2
      rw [show d1.xgOff + (k - d1.xgOff) = k by omega] at z1 z2
      by_cases hlt : k - d1.xgOff < ns d1.dt d1.srPcm
      · rw [if_pos hlt] at z1 z2
        rw [← z1, ← z2]
      · rw [a3.dt, a3.srPcm] at hlt
        rw [List.getElem?_eq_none (by rw [r5.len]; omega), List.getElem?_eq_none (by rw [q5.len]; omega)]

/-- A run, for two decoders with the same history. -/
theorem rotated_run (P : Platform R) (next : List (DecCall R α)) : ∀ (d d' : Dec R) (mem : Int → α), (∀ c ∈ next, CallOk c) → DecInv P.A d → DecInv P.A d' →
    d.Rotated d' → (d.SameLoss d' ∨ ∀ c ∈ next, ∃ F, c.frame = some F ∧ ¬ Refused P d F) →
    (decRun P next (some d) mem).map (fun r => (r.1, r.2.2)) = (decRun P next (some d') mem).map (fun r => (r.1, r.2.2)) := by
  induction next with
  | nil => intro d d' mem _ _ _ _ _; rfl
  | cons c l ih =>
    intro d d' mem hc hd hd' h hl
    unfold decRun
    rcases rotated_step P c (hc c (List.mem_cons_self ..)) d d' hd hd' h (hl.imp id fun hl => hl c (List.mem_cons_self ..)) mem with
      ⟨k, k'⟩ | ⟨ret, e, e', m, k, k', i, i', q1, q2, q3, q4⟩
    · rw [k, k']
    · rw [k, k', Option.bind_some, Option.bind_some, Option.map_map, Option.map_map]
      have := ih e e' m (fun c h => hc c (List.mem_cons_of_mem _ h)) i i' q3 (hl.imp q4 fun hl c h => by
        obtain ⟨F, f1, f2⟩ := hl c (List.mem_cons_of_mem _ h)
        refine ⟨F, f1, fun hr => f2 ?_⟩
        unfold Refused at hr ⊢
        rw [q1, q2] at hr
        exact hr)
      have := congrArg (Option.map fun r => (ret :: r.1, r.2)) this
      rw [Option.map_map, Option.map_map] at this
      exact this

end LC3
