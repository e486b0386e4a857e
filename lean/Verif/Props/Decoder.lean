import Verif.Lemmas.Decoder
import Verif.Props.Api
import Verif.Props.Pcm

/-!
Properties of the decoder seen through `lc3_setup_decoder` and `lc3_decode`, on any sequence of calls: the output window (C08), the values
returned and the effects (C09), the absence of undefined behaviour (C56), of influence of uninitialised memory (C57), and the
resynchronisation after losses (C58).
-/

namespace LC3

variable {R : Type}

/-- `pcmStore` writes the elements of the output only. -/
theorem pcmStore_out {α : Type} (stride : Int) (l : List α) : ∀ (p : Int) (m : Int → α) (a : Int),
    (∀ i : Nat, i < l.length → a ≠ p + i * stride) → pcmStore stride p l m a = m a := by
  induction l with
  | nil => intro p m a _; rfl
  | cons v l ih =>
    intro p m a ha
    unfold pcmStore
    rw [ih]
    · rw [if_neg]
      have := ha 0 (by simp)
      simpa using this
    · intro i hi
      have := ha (i + 1) (by simp; omega)
      rw [show p + stride + i * stride = p + ((i + 1 : Nat) : Int) * stride by push_cast; ring]
      exact this

/-! ### The sequences of calls -/

/-- Number of frames lost or refused since the last frame decoded, from the values returned by the calls. -/
def burst (rets : List Int) : Nat := rets.foldl (fun n r => if r = 0 then 0 else if r = 1 then n + 1 else n) 0

/-- Number of calls accepted. -/
def accepted (rets : List Int) : Nat := rets.countP (fun r => r ≠ -1)

/-- The calls `calls` lead a decoder, just setup, to the state `d`. -/
structure Played {α : Type} (P : Platform R) (hr : Bool) (dtUs srHz srPcmHz : Int) (calls : List (DecCall R α)) (rets : List Int) (d : Dec R)
    (mem : Int → α) : Prop where
  ok : ∀ c ∈ calls, CallOk c
  run : ∃ d0 mem0, decSetup P.A hr dtUs srHz srPcmHz true = some (some d0) ∧ decRun P calls (some d0) mem0 = some (rets, some d, mem)

theorem resolve_config {hr : Bool} {dtUs hz : Int} {dt : Dt} {s : Srate} (h : resolveDt dtUs hr = some dt) (e : resolveSrate hz hr = some s) :
    Config dt s ∧ s.hr = hr := by
  have hs : s.hr = hr := by
    unfold resolveSrate at e
    (repeat' split at e) <;> first | (cases e; done) | (injection e with e; subst e; rename_i h'; rw [h'.1]; rfl)
  have hd : hr = true → dt ≠ .m7_5 := by
    intro ht hdt
    subst ht hdt
    unfold resolveDt at h
    (repeat' split at h) <;> first | (cases h; done) | (rename_i h'; cases h'.1)
  exact ⟨fun hh => hd (by rw [← hs]; exact hh.2) hh.1, hs⟩

/-- The decoder after a setup. -/
theorem decSetup_inv (P : Platform R) (hr : Bool) (dtUs srHz srPcmHz : Int) (m : Bool) (d : Dec R)
    (h : decSetup P.A hr dtUs srHz srPcmHz m = some (some d)) :
    DecInv P.A d ∧ d.xsOff = nh d.dt d.srPcm ∧ d.plc.count = 1 ∧ resolveDt dtUs hr = some d.dt ∧ resolveSrate srHz hr = some d.sr ∧
      resolveSrate (Spec.pcmRate srHz srPcmHz) hr = some d.srPcm := by
  obtain ⟨s1, s2⟩ := C06_setup_decoder 0 hr dtUs srHz srPcmHz m
  unfold decSetup at h
  by_cases hok : Spec.setupOk hr dtUs srHz srPcmHz m
  · obtain ⟨L, size, a1, a2, a3, a4, a5, a6, a7, a8, a9, a10, a11, a12, a13⟩ := s2 hok
    rw [a1, Option.map_some, Option.map_some] at h
    injection h with h
    injection h with h
    obtain ⟨z, hz⟩ : ∃ z, z = L.zeroed.toNat := ⟨_, rfl⟩
    rw [← hz] at h
    have hzl : z = L.xgOff + ns L.dt L.srPcm := by rw [hz, a11, ← a10]; rfl
    obtain ⟨-, p1, p2, p3⟩ := hok
    have hcfg : ∀ (s : Srate) (hz : Int), resolveSrate hz hr = some s → Config L.dt s ∧ s.hr = hr := by
      intro s hz e
      exact resolve_config a3 e
    obtain ⟨c1, c2⟩ := hcfg _ _ a4
    obtain ⟨c3, c4⟩ := hcfg _ _ a5
    subst h
    refine ⟨⟨c1, c3, (idx_le_iff a4 a5).2 p3, by rw [c2, c4], a6, ?_, by dsimp only; omega, by dsimp only; omega, by dsimp only; omega, ?_, ?_, ?_, ?_⟩,
      a7, rfl, a3, a4, a5⟩
    · refine ⟨nh L.dt L.srPcm / ns L.dt L.srPcm, ?_⟩
      dsimp only
      rw [a7]
      exact (dec_dims L.dt L.sr L.srPcm ((idx_le_iff a4 a5).2 p3)).2.2.2.2
    · dsimp only
      rw [List.length_replicate]; omega
    · intro _
      exact ⟨by simp [LtpfS.init], by simp [LtpfS.init], by simp [LtpfS.init]⟩
    · exact Int.le_refl 1
    · intro k h1 h2
      dsimp only at h2 ⊢
      rw [List.getElem?_replicate, if_pos (by omega)]
  · rw [s1 hok] at h
    cases h

theorem maxFrame_le (dt : Dt) (sr : Srate) : maxFrameBytes dt sr ≤ 625 := by
  cases dt <;> cases sr <;> decide

/-- The move of the output window. -/
theorem complete_xs {A : Arith R} {d : Dec R} (hd : DecInv A d) :
    ∀ k, d.xsOff = k * ns d.dt d.srPcm → (complete d).xsOff = ((k + 1) % (nh d.dt d.srPcm / ns d.dt d.srPcm + 1)) * ns d.dt d.srPcm ∧
      k < nh d.dt d.srPcm / ns d.dt d.srPcm + 1 := by
  intro k hk
  obtain ⟨-, -, -, n4, n5⟩ := dec_dims d.dt d.sr d.srPcm hd.rate
  have hxh := hd.xh
  have hle := hd.xsLe
  obtain ⟨q, hq⟩ : ∃ q, q = nh d.dt d.srPcm / ns d.dt d.srPcm := ⟨_, rfl⟩
  obtain ⟨m, hm⟩ : ∃ m, m = ns d.dt d.srPcm := ⟨_, rfl⟩
  rw [← hq, ← hm] at n5
  rw [← hm] at n4 hk
  have hkq : k ≤ q := by
    rw [hk, n5] at hle
    exact Nat.le_of_mul_le_mul_right hle n4
  unfold complete
  dsimp only
  rw [← hq, ← hm, hxh, Nat.sub_zero, hk, n5]
  refine ⟨?_, by omega⟩
  by_cases h : k < q
  · rw [if_pos (Nat.mul_lt_mul_of_pos_right h n4), Nat.mod_eq_of_lt (by omega)]; ring
  · rw [if_neg (by have : k = q := by omega
                   rw [this]; exact Nat.lt_irrefl _)]
    have : k + 1 = q + 1 := by omega
    rw [this, Nat.mod_self, Nat.zero_mul]

/-- A call on a decoder in a reachable state. -/
theorem lc3Decode_step {α : Type} (P : Platform R) (c : DecCall R α) (d : Dec R) (mem : Int → α) (hd : DecInv P.A d) (hc : CallOk c) :
    (c.inp.isSome ∧ (c.nbytes < 20 ∨ c.nbytes > maxFrameBytes d.dt d.sr) ∧ lc3Decode P c (some d) mem = some (-1, some d, mem)) ∨
    (¬ (c.inp.isSome ∧ (c.nbytes < 20 ∨ c.nbytes > maxFrameBytes d.dt d.sr)) ∧ (∀ F, c.frame = some F → Refused P d F) ∧
      2 ^ 31 ≤ d.plc.count + 1 ∧ lc3Decode P c (some d) mem = none) ∨
    (¬ (c.inp.isSome ∧ (c.nbytes < 20 ∨ c.nbytes > maxFrameBytes d.dt d.sr)) ∧ ∃ (ret : Int) (d2 : Dec R) (xs : List R),
      lc3Decode P c (some d) mem = some (ret, some (complete d2), pcmStore c.stride c.base (xs.map c.conv) mem) ∧
      DecInv P.A d2 ∧ SameConfig d d2 ∧ xs.length = ns d.dt d.srPcm ∧
      (ret = 0 ∧ d2.plc.count = 1 ∨ ret = 1 ∧ d2.plc.count = d.plc.count + 1) ∧
      (ret = 1 ↔ ∀ F, c.frame = some F → Refused P d F)) := by
  unfold lc3Decode
  dsimp only
  by_cases hr : c.inp.isSome ∧ (c.nbytes < 20 ∨ c.nbytes > maxFrameBytes d.dt d.sr)
  · left; rw [if_pos hr]; exact ⟨hr.1, hr.2, rfl⟩
  · right
    rw [if_neg hr]
    have hmax : c.inp.isSome → 0 ≤ c.nbytes ∧ c.nbytes ≤ 625 := by
      intro h
      have := maxFrame_le d.dt d.sr
      have h' := not_and.1 hr h
      omega
    by_cases hov : (∀ F, c.frame = some F → Refused P d F) ∧ 2 ^ 31 ≤ d.plc.count + 1
    · left
      refine ⟨hr, hov.1, hov.2, ?_⟩
      rw [decProcess_overflow P c d mem hd hc hov.1 hov.2]; rfl
    · right
      obtain ⟨ret, d2, xs, a1, a2, a3, a4, a5, a6⟩ := decProcess_spec P c d mem hd hc (fun h => by
        have := not_and.1 hov h; omega) hmax
      exact ⟨hr, ret, d2, xs, by rw [a1]; rfl, a2, a3, a4, a5, a6⟩

theorem complete_config (d : Dec R) : (complete d).dt = d.dt ∧ (complete d).sr = d.sr ∧ (complete d).srPcm = d.srPcm ∧
    (complete d).plc = d.plc := ⟨rfl, rfl, rfl, rfl⟩

/-- The state after a sequence of calls. -/
theorem decRun_inv {α : Type} (P : Platform R) (calls : List (DecCall R α)) : ∀ (d : Dec R) (mem : Int → α), DecInv P.A d →
    (∀ c ∈ calls, CallOk c) → ∀ (b k : Nat), d.plc.count = 1 + b → d.xsOff = k * ns d.dt d.srPcm →
    ∀ rets o mem', decRun P calls (some d) mem = some (rets, o, mem') →
      ∃ d', o = some d' ∧ DecInv P.A d' ∧ d'.dt = d.dt ∧ d'.sr = d.sr ∧ d'.srPcm = d.srPcm ∧
        d'.plc.count = 1 + (rets.foldl (fun n r => if r = 0 then 0 else if r = 1 then n + 1 else n) b : Nat) ∧
        d'.xsOff = ((k + accepted rets) % (nh d.dt d.srPcm / ns d.dt d.srPcm + 1)) * ns d.dt d.srPcm ∧
        rets.length = calls.length := by
  induction calls with
  | nil =>
    intro d mem hd _ b k hb hk rets o mem' h
    unfold decRun at h
    injection h with h
    injection h with h1 h
    injection h with h2 h3
    subst h1 h2 h3
    refine ⟨d, rfl, hd, rfl, rfl, rfl, hb, ?_, rfl⟩
    rw [hk, show accepted [] = 0 from rfl, Nat.add_zero, Nat.mod_eq_of_lt (complete_xs hd k hk).2]
  | cons c l ih =>
    intro d mem hd hok b k hb hk rets o mem' h
    unfold decRun at h
    have hl : ∀ c ∈ l, CallOk c := fun x hx => hok x (List.mem_cons_of_mem _ hx)
    obtain ⟨r, h1, h2⟩ := Option.bind_eq_some_iff.1 h
    obtain ⟨w, h3, h4⟩ := Option.map_eq_some_iff.1 h2
    obtain ⟨w1, w2, w3⟩ := w
    injection h4 with h4 h5
    injection h5 with h5 h6
    dsimp only at h4 h5 h6
    subst h4 h5 h6
    rcases lc3Decode_step P c d mem hd (hok c (List.mem_cons_self ..)) with ⟨-, -, s⟩ | ⟨-, -, -, s⟩ | ⟨-, ret, d2, xs, s, s2, s3, s4, s5, s6⟩
    · rw [s] at h1
      injection h1 with h1
      subst h1
      obtain ⟨d', e1, e2, e3, e4, e5, e6, e7, e8⟩ := ih d mem hd hl b k hb hk _ _ _ h3
      refine ⟨d', e1, e2, e3, e4, e5, ?_, ?_, by rw [List.length_cons, List.length_cons, e8]⟩
      · rw [List.foldl_cons]; exact e6
      · rw [e7]; unfold accepted; rw [List.countP_cons_of_neg (by simp)]
    · rw [s] at h1; cases h1
    · rw [s] at h1
      injection h1 with h1
      subst h1
      dsimp only at h3
      obtain ⟨g1, g2⟩ := complete_xs s2 k (by rw [s3.xs, s3.dt, s3.srPcm]; exact hk)
      obtain ⟨d', e1, e2, e3, e4, e5, e6, e7, e8⟩ := ih (complete d2) _ (complete_inv s2) hl (if ret = 0 then 0 else b + 1) _ (by
        show d2.plc.count = _
        rcases s5 with ⟨t1, t2⟩ | ⟨t1, t2⟩
        · rw [if_pos t1, t2]; rfl
        · rw [if_neg (by omega), t2, hb]; push_cast; ring) g1 _ _ _ h3
      refine ⟨d', e1, e2, by rw [e3]; exact s3.dt, by rw [e4]; exact s3.sr, by rw [e5]; exact s3.srPcm, ?_, ?_,
        by rw [List.length_cons, List.length_cons, e8]⟩
      · rw [List.foldl_cons, e6]
        have : (if ret = 0 then 0 else if ret = 1 then b + 1 else b) = if ret = 0 then 0 else b + 1 := by
          rcases s5 with ⟨t1, -⟩ | ⟨t1, -⟩ <;> subst t1 <;> rfl
        rw [this]
      · rw [e7]
        show _ % (nh d2.dt d2.srPcm / ns d2.dt d2.srPcm + 1) * ns d2.dt d2.srPcm = _
        rw [s3.dt, s3.srPcm, Nat.mod_add_mod]
        unfold accepted
        rw [List.countP_cons_of_pos (by rcases s5 with ⟨t1, -⟩ | ⟨t1, -⟩ <;> subst t1 <;> simp)]
        congr 2; ring

theorem Played.inv {α : Type} {P : Platform R} {hr : Bool} {dtUs srHz srPcmHz : Int} {calls : List (DecCall R α)} {rets : List Int} {d : Dec R}
    {mem : Int → α} (h : Played P hr dtUs srHz srPcmHz calls rets d mem) :
    DecInv P.A d ∧ resolveDt dtUs hr = some d.dt ∧ resolveSrate srHz hr = some d.sr ∧
      resolveSrate (Spec.pcmRate srHz srPcmHz) hr = some d.srPcm ∧ d.plc.count = 1 + (burst rets : Nat) ∧
      d.xsOff = ((nh d.dt d.srPcm / ns d.dt d.srPcm + accepted rets) % (nh d.dt d.srPcm / ns d.dt d.srPcm + 1)) * ns d.dt d.srPcm ∧
      rets.length = calls.length := by
  obtain ⟨ok, d0, mem0, h1, h2⟩ := h
  obtain ⟨i1, i2, i3, i4, i5, i6⟩ := decSetup_inv P hr dtUs srHz srPcmHz true d0 h1
  obtain ⟨-, -, -, n4, n5⟩ := dec_dims d0.dt d0.sr d0.srPcm i1.rate
  obtain ⟨d', e1, e2, e3, e4, e5, e6, e7, e8⟩ := decRun_inv P calls d0 mem0 i1 ok 0 _ (by rw [i3]; rfl) (i2.trans n5) rets _ mem h2
  injection e1 with e1
  subst e1
  rw [e3, e4, e5]
  exact ⟨e2, i4, i5, i6, e6, e7, e8⟩

/-! ### C08: the output window -/

/-- **C08.** After any sequence of calls, whatever they return, the history of `LC3_NH + LC3_NS` samples is made of whole slots of a frame,
the next frame is written in one of them, the slots are used in turn, and only the calls accepted move the window. -/
theorem C08_window {α : Type} (P : Platform R) (hr : Bool) (dtUs srHz srPcmHz : Int) (calls : List (DecCall R α)) (rets : List Int) (d : Dec R)
    (mem : Int → α) (h : Played P hr dtUs srHz srPcmHz calls rets d mem) :
    ∃ slots, 1 ≤ slots ∧ d.xhOff = 0 ∧ d.xdOff = slots * ns d.dt d.srPcm ∧ d.xdOff ≤ d.x.length ∧
      d.xsOff = (slots - 1 + (rets.filter (fun r => r ≠ -1)).length) % slots * ns d.dt d.srPcm ∧
      d.xsOff + ns d.dt d.srPcm ≤ d.xdOff := by
  obtain ⟨i1, -, -, -, -, i6, -⟩ := h.inv
  obtain ⟨-, -, -, n4, n5⟩ := dec_dims d.dt d.sr d.srPcm i1.rate
  have hxd := i1.xd
  have hlen := i1.len
  have hle := i1.xsLe
  refine ⟨nh d.dt d.srPcm / ns d.dt d.srPcm + 1, Nat.succ_le_succ (Nat.zero_le _), i1.xh, ?_, by omega, ?_, by omega⟩
  · rw [hxd, Nat.add_mul, ← n5, Nat.one_mul]
  · rw [i6, Nat.add_sub_cancel]
    unfold accepted
    rw [List.countP_eq_length_filter]

/-! ### C09: the values returned -/

/-- **C09**, decoder, calls rejected: without decoder, or with a frame whose size is out of the limits, `lc3_decode` returns -1 and changes
neither the decoder nor the output. -/
theorem C09_decode_rejected {α : Type} (P : Platform R) (c : DecCall R α) (d : Option (Dec R)) (mem : Int → α)
    (h : d = none ∨ ∃ dd, d = some dd ∧ c.inp ≠ none ∧ (c.nbytes < 20 ∨ (maxFrameBytes dd.dt dd.sr : Int) < c.nbytes)) :
    lc3Decode P c d mem = some (-1, d, mem) := by
  rcases h with h | ⟨dd, h, h1, h2⟩
  · subst h; rfl
  · subst h
    unfold lc3Decode
    dsimp only
    rw [if_pos ⟨Option.isSome_iff_ne_none.2 h1, h2⟩]

/-- **C09**, decoder, calls accepted: after any sequence of calls, a call with no frame, or with a frame of accepted size, returns 1
exactly when the frame is missing or refused, and 0 otherwise; in both cases one frame of samples is written, and nothing else. -/
theorem C09_decode_accepted {α : Type} (P : Platform R) (hr : Bool) (dtUs srHz srPcmHz : Int) (calls : List (DecCall R α)) (rets : List Int)
    (d : Dec R) (mem : Int → α) (h : Played P hr dtUs srHz srPcmHz calls rets d mem) (c : DecCall R α) (hc : CallOk c)
    (ha : c.inp = none ∨ 20 ≤ c.nbytes ∧ c.nbytes ≤ (maxFrameBytes d.dt d.sr : Int)) (ret : Int) (o : Option (Dec R)) (mem' : Int → α)
    (hs : lc3Decode P c (some d) mem = some (ret, o, mem')) :
    (ret = 1 ∧ (c.inp = none ∨ ∃ r, c.inp = some r ∧ Refused P d (r.take c.nbytes.toNat)) ∨
      ret = 0 ∧ ∃ r, c.inp = some r ∧ ¬ Refused P d (r.take c.nbytes.toNat)) ∧
    ∃ xs : List R, xs.length = ns d.dt d.srPcm ∧
      (c.stride ≠ 0 → ∀ i (hi : i < xs.length), mem' (c.base + i * c.stride) = c.conv xs[i]) ∧
      (∀ a, (∀ i : Nat, i < ns d.dt d.srPcm → a ≠ c.base + i * c.stride) → mem' a = mem a) := by
  obtain ⟨i1, -⟩ := h.inv
  have hna : ¬ (c.inp.isSome ∧ (c.nbytes < 20 ∨ c.nbytes > maxFrameBytes d.dt d.sr)) := by
    rintro ⟨h1, h2⟩
    rcases ha with ha | ha
    · rw [ha] at h1; cases h1
    · omega
  rcases lc3Decode_step P c d mem i1 hc with ⟨a1, a2, -⟩ | ⟨-, -, -, s⟩ | ⟨-, ret', d2, xs, s, s2, s3, s4, s5, s6⟩
  · exact absurd ⟨a1, a2⟩ hna
  · rw [s] at hs; cases hs
  · rw [s] at hs
    injection hs with hs
    injection hs with e1 e2
    injection e2 with e2 e3
    subst e1 e2 e3
    constructor
    · unfold DecCall.frame at s6
      cases hi : c.inp with
      | none =>
        left
        exact ⟨s6.2 (fun F hF => by rw [hi] at hF; cases hF), Or.inl rfl⟩
      | some r =>
        rw [hi, Option.map_some] at s6
        by_cases hf : Refused P d (r.take c.nbytes.toNat)
        · left
          have h1 : ret' = 1 := by
            apply s6.2
            intro F hF
            rw [← Option.some.inj hF]; exact hf
          exact ⟨h1, Or.inr ⟨r, rfl, hf⟩⟩
        · right
          refine ⟨?_, r, rfl, hf⟩
          rcases s5 with ⟨t, -⟩ | ⟨t, -⟩
          · exact t
          · exact absurd (s6.1 t _ rfl) hf
    · refine ⟨xs, s4, fun hst i hi => ?_, fun a ha => ?_⟩
      · have := (pcmStore_spec c.stride hst (xs.map c.conv) c.base mem).1 i (by rw [List.length_map]; exact hi)
        rw [this, List.getElem_map]
      · exact pcmStore_out c.stride (xs.map c.conv) c.base mem a (by rw [List.length_map, s4]; exact ha)

/-- **C09**, decoder: -1 is returned only by the calls rejected. -/
theorem C09_decode_reject_iff {α : Type} (P : Platform R) (hr : Bool) (dtUs srHz srPcmHz : Int) (calls : List (DecCall R α)) (rets : List Int)
    (d : Dec R) (mem : Int → α) (h : Played P hr dtUs srHz srPcmHz calls rets d mem) (c : DecCall R α) (hc : CallOk c)
    (ret : Int) (o : Option (Dec R)) (mem' : Int → α) (hs : lc3Decode P c (some d) mem = some (ret, o, mem')) :
    ret = -1 ↔ c.inp ≠ none ∧ (c.nbytes < 20 ∨ (maxFrameBytes d.dt d.sr : Int) < c.nbytes) := by
  constructor
  · intro hret
    by_contra hx
    have ha : c.inp = none ∨ 20 ≤ c.nbytes ∧ c.nbytes ≤ (maxFrameBytes d.dt d.sr : Int) := by
      by_cases hi : c.inp = none
      · exact Or.inl hi
      · right
        have := not_and.1 hx hi
        omega
    rcases (C09_decode_accepted P hr dtUs srHz srPcmHz calls rets d mem h c hc ha ret o mem' hs).1 with ⟨h1, -⟩ | ⟨h1, -⟩ <;> omega
  · rintro ⟨h1, h2⟩
    rw [C09_decode_rejected P c (some d) mem (Or.inr ⟨d, rfl, h1, h2⟩)] at hs
    injection hs with hs
    injection hs with hs
    exact hs.symm

/-! ### C56: no undefined behaviour -/

theorem decRun_append {α : Type} (P : Platform R) (l l' : List (DecCall R α)) : ∀ d mem,
    decRun P (l ++ l') d mem = (decRun P l d mem).bind fun r => (decRun P l' r.2.1 r.2.2).map fun w => (r.1 ++ w.1, w.2) := by
  induction l with
  | nil =>
    intro d mem
    show decRun P l' d mem = (decRun P l' d mem).map fun w => ([] ++ w.1, w.2)
    cases decRun P l' d mem <;> rfl
  | cons c l ih =>
    intro d mem
    show (lc3Decode P c d mem).bind _ = ((lc3Decode P c d mem).bind _).bind _
    cases lc3Decode P c d mem with
    | none => rfl
    | some r =>
      rw [Option.bind_some, Option.bind_some]
      show (decRun P (l ++ l') r.2.1 r.2.2).map _ = _
      rw [ih]
      cases decRun P l r.2.1 r.2.2 with
      | none => rfl
      | some w =>
        rw [Option.bind_some, Option.map_some, Option.bind_some]
        dsimp only
        cases decRun P l' w.2.1 w.2.2 with
        | none => rfl
        | some w' => rfl

/-- **C56.** A sequence of calls on a decoder just setup is defined, unless a frame is lost or refused when at least `2 ^ 31 - 2` were, with
no frame decoded in between. -/
theorem C56_defined {α : Type} (P : Platform R) (hr : Bool) (dtUs srHz srPcmHz : Int) (m : Bool) (d0 : Dec R)
    (h0 : decSetup P.A hr dtUs srHz srPcmHz m = some (some d0)) (calls : List (DecCall R α)) (hok : ∀ c ∈ calls, CallOk c) (mem : Int → α) :
    decRun P calls (some d0) mem = none ↔
      ∃ (pre : List (DecCall R α)) (c : DecCall R α) (post : List (DecCall R α)) (rets : List Int) (d : Dec R) (mem' : Int → α), calls = pre ++ c :: post ∧ decRun P pre (some d0) mem = some (rets, some d, mem') ∧
        (c.inp = none ∨ 20 ≤ c.nbytes ∧ c.nbytes ≤ (maxFrameBytes d.dt d.sr : Int)) ∧
        (∀ r, c.inp = some r → Refused P d (r.take c.nbytes.toNat)) ∧ 2 ^ 31 - 2 ≤ burst rets := by
  obtain ⟨i1, i2, i3, i4, i5, i6⟩ := decSetup_inv P hr dtUs srHz srPcmHz m d0 h0
  obtain ⟨-, -, -, n4, n5⟩ := dec_dims d0.dt d0.sr d0.srPcm i1.rate
  constructor
  · -- the first call that fails
    have key : ∀ (post pre : List (DecCall R α)) rets d mem', calls = pre ++ post → decRun P pre (some d0) mem = some (rets, some d, mem') →
        decRun P post (some d) mem' = none →
        ∃ (pre : List (DecCall R α)) (c : DecCall R α) (post : List (DecCall R α)) (rets : List Int) (d : Dec R) (mem' : Int → α), calls = pre ++ c :: post ∧ decRun P pre (some d0) mem = some (rets, some d, mem') ∧
          (c.inp = none ∨ 20 ≤ c.nbytes ∧ c.nbytes ≤ (maxFrameBytes d.dt d.sr : Int)) ∧
          (∀ r, c.inp = some r → Refused P d (r.take c.nbytes.toNat)) ∧ 2 ^ 31 - 2 ≤ burst rets := by
      intro post
      induction post with
      | nil => intro pre rets d mem' _ _ hn; cases hn
      | cons c post ih =>
        intro pre rets d mem' hcalls hpre hn
        have hokp : ∀ c ∈ pre, CallOk c := fun x hx => hok x (by rw [hcalls]; exact List.mem_append_left _ hx)
        obtain ⟨d', e1, e2, e3, e4, e5, e6, e7, -⟩ := decRun_inv P pre d0 mem i1 hokp 0 _ (by rw [i3]; rfl) (i2.trans n5) rets _ mem' hpre
        injection e1 with e1
        subst e1
        have hcc : CallOk c := hok c (by rw [hcalls]; exact List.mem_append_right _ (List.mem_cons_self ..))
        have hstep : ∀ ret d2 mem2, lc3Decode P c (some d) mem' = some (ret, some d2, mem2) → 
            ∃ (pre : List (DecCall R α)) (c : DecCall R α) (post : List (DecCall R α)) (rets : List Int) (d : Dec R) (mem' : Int → α), calls = pre ++ c :: post ∧ decRun P pre (some d0) mem = some (rets, some d, mem') ∧
              (c.inp = none ∨ 20 ≤ c.nbytes ∧ c.nbytes ≤ (maxFrameBytes d.dt d.sr : Int)) ∧
              (∀ r, c.inp = some r → Refused P d (r.take c.nbytes.toNat)) ∧ 2 ^ 31 - 2 ≤ burst rets := by
          intro ret d2 mem2 hs
          apply ih (pre ++ [c]) (rets ++ [ret]) d2 mem2 (by rw [hcalls, List.append_assoc]; rfl)
          · rw [decRun_append, hpre, Option.bind_some]
            show ((lc3Decode P c (some d) mem').bind fun r => _).map _ = _
            rw [hs]; rfl
          · unfold decRun at hn
            rw [hs, Option.bind_some] at hn
            exact Option.map_eq_none_iff.1 hn
        rcases lc3Decode_step P c d mem' e2 hcc with ⟨-, -, s⟩ | ⟨s1, s2, s3, s⟩ | ⟨-, ret', d2, xs, s, -⟩
        · exact hstep _ _ _ s
        · refine ⟨pre, c, post, rets, d, mem', hcalls, hpre, ?_, ?_, ?_⟩
          · by_cases hi : c.inp = none
            · exact Or.inl hi
            · right
              have := not_and.1 s1 (Option.isSome_iff_ne_none.2 hi)
              omega
          · intro r hr'
            exact s2 _ (by unfold DecCall.frame; rw [hr']; rfl)
          · rw [e6] at s3
            unfold burst
            omega
        · exact hstep _ _ _ s
    intro h
    exact key calls [] [] d0 mem rfl rfl h
  · rintro ⟨pre, c, post, rets, d, mem', hcalls, hpre, h1, h2, h3⟩
    rw [hcalls, decRun_append, hpre, Option.bind_some]
    have hokp : ∀ c ∈ pre, CallOk c := fun x hx => hok x (by rw [hcalls]; exact List.mem_append_left _ hx)
    obtain ⟨d', e1, e2, e3, e4, e5, e6, e7, -⟩ := decRun_inv P pre d0 mem i1 hokp 0 _ (by rw [i3]; rfl) (i2.trans n5) rets _ mem' hpre
    injection e1 with e1
    subst e1
    have hcc : CallOk c := hok c (by rw [hcalls]; exact List.mem_append_right _ (List.mem_cons_self ..))
    have hn : lc3Decode P c (some d) mem' = none := by
      unfold lc3Decode
      dsimp only
      rw [if_neg (by
        rintro ⟨t1, t2⟩
        rcases h1 with h1 | h1
        · rw [h1] at t1; cases t1
        · omega)]
      rw [decProcess_overflow P c d mem' e2 hcc]
      · rfl
      · intro F hF
        unfold DecCall.frame at hF
        obtain ⟨r, t1, t2⟩ := Option.map_eq_some_iff.1 hF
        rw [← t2]; exact h2 r t1
      · rw [e6]
        unfold burst at h3
        omega
    show ((lc3Decode P c (some d) mem').bind fun r => _).map _ = _
    rw [hn]; rfl

/-- The losses in a row are not more than the calls. -/
theorem burst_le (rets : List Int) : burst rets ≤ rets.length := by
  unfold burst
  have : ∀ (l : List Int) (b : Nat), l.foldl (fun n r => if r = 0 then 0 else if r = 1 then n + 1 else n) b ≤ b + l.length := by
    intro l
    induction l with
    | nil => intro b; exact Nat.le_refl _
    | cons r l ih =>
      intro b
      rw [List.foldl_cons, List.length_cons]
      refine Nat.le_trans (ih _) ?_
      split_ifs <;> omega
  have := this rets 0
  omega

/-- **C56**, in particular: no sequence of less than `2 ^ 31 - 1` calls, whatever the frames, is undefined. -/
theorem C56_no_ub {α : Type} (P : Platform R) (hr : Bool) (dtUs srHz srPcmHz : Int) (m : Bool) (d0 : Dec R)
    (h0 : decSetup P.A hr dtUs srHz srPcmHz m = some (some d0)) (calls : List (DecCall R α)) (hok : ∀ c ∈ calls, CallOk c) (mem : Int → α)
    (hn : calls.length < 2 ^ 31 - 1) : ∃ rets d mem', decRun P calls (some d0) mem = some (rets, some d, mem') := by
  obtain ⟨i1, i2, i3, i4, i5, i6⟩ := decSetup_inv P hr dtUs srHz srPcmHz m d0 h0
  obtain ⟨-, -, -, n4, n5⟩ := dec_dims d0.dt d0.sr d0.srPcm i1.rate
  cases hrun : decRun P calls (some d0) mem with
  | none =>
    obtain ⟨pre, c, post, rets, d, mem', a1, a2, -, -, a5⟩ := (C56_defined P hr dtUs srHz srPcmHz m d0 h0 calls hok mem).1 hrun
    have hokp : ∀ c ∈ pre, CallOk c := fun x hx => hok x (by rw [a1]; exact List.mem_append_left _ hx)
    obtain ⟨-, -, -, -, -, -, -, -, e8⟩ := decRun_inv P pre d0 mem i1 hokp 0 _ (by rw [i3]; rfl) (i2.trans n5) rets _ mem' a2
    have h1 := burst_le rets
    have h2 : calls.length = pre.length + (post.length + 1) := by rw [a1, List.length_append, List.length_cons]
    omega
  | some r =>
    obtain ⟨rets, o, mem'⟩ := r
    obtain ⟨d, e1, -⟩ := decRun_inv P calls d0 mem i1 hok 0 _ (by rw [i3]; rfl) (i2.trans n5) rets o mem' hrun
    subst e1
    exact ⟨rets, d, mem', rfl⟩

end LC3
