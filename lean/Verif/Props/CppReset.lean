import Verif.Props.Cpp

/-!
C72: `Reset` of the C++ classes.
-/

namespace LC3

variable {R α : Type}

theorem filterMap_id_length {β : Type} (l : List (Option β)) (h : ∀ o ∈ l, o.isSome) : (l.filterMap id).length = l.length := by
  induction l with
  | nil => rfl
  | cons o l ih =>
    obtain ⟨v, rfl⟩ := Option.isSome_iff_exists.1 (h o (by simp))
    rw [List.filterMap_cons_some (f := id) (b := v) rfl, List.length_cons, List.length_cons, ih fun o ho => h o (List.mem_cons_of_mem _ ho)]

/-! ### The number of channels is kept -/

theorem lc3Encode_isSome [Inhabited R] (P : EncPlatform R) (c : EncCall R α) (s : Enc R) (r : Int × List Nat × Option (Enc R))
    (h : lc3Encode P c (some s) = some r) : r.2.2.isSome := by
  unfold lc3Encode at h
  dsimp only at h
  split at h
  · rw [← Option.some.inj h]; rfl
  · obtain ⟨w, -, rfl⟩ := Option.map_eq_some_iff.mp h; rfl

theorem cppEncLoop_length [Inhabited R] (P : EncPlatform R) (c : BlockCall R α) (nch : Nat) (l : List (Enc R)) : ∀ (ich : Nat) (off ret : Int)
    (out : List Nat) (w : Int × List Nat × List (Option (Enc R))), cppEncLoop P c nch ich l off ret out = some w →
    w.2.2.length = l.length ∧ ∀ o ∈ w.2.2, o.isSome := by
  induction l with
  | nil => intro ich off ret out w h; rw [cppEncLoop] at h; rw [← Option.some.inj h]; simp
  | cons s l ih =>
    intro ich off ret out w h
    rw [cppEncLoop] at h
    split at h
    · cases h
    · obtain ⟨r, h1, h2⟩ := Option.bind_eq_some_iff.1 h
      obtain ⟨w', h3, rfl⟩ := Option.map_eq_some_iff.mp h2
      obtain ⟨g1, g2⟩ := ih _ _ _ _ _ h3
      refine ⟨by simp [g1], fun o ho => ?_⟩
      rcases List.mem_cons.1 ho with rfl | ho
      · exact lc3Encode_isSome P _ s r h1
      · exact g2 o ho

theorem cppEncRun_length [Inhabited R] (P : EncPlatform R) (ops : List (CppEncOp R α)) : ∀ (e e' : CppEnc R) r, cppEncRun P ops e = some (r, e') →
    e'.nch = e.nch ∧ e'.states.length = e.states.length := by
  induction ops with
  | nil => intro e e' r h; rw [cppEncRun] at h; cases h; exact ⟨rfl, rfl⟩
  | cons o ops ih =>
    intro e e' r h
    cases o with
    | encode c =>
      rw [cppEncRun] at h
      obtain ⟨q, h1, h2⟩ := Option.bind_eq_some_iff.1 h
      obtain ⟨w, h3, h4⟩ := Option.map_eq_some_iff.mp h2
      have e4 : w.2 = e' := congrArg Prod.snd h4
      obtain ⟨g1, g2⟩ := ih q.2.2 w.2 w.1 h3
      rw [← e4, g1, g2]
      unfold cppEncode at h1
      split at h1
      · rw [← Option.some.inj h1]; exact ⟨rfl, rfl⟩
      · obtain ⟨v, h5, rfl⟩ := Option.map_eq_some_iff.mp h1
        obtain ⟨k1, k2⟩ := cppEncLoop_length P c _ _ _ _ _ _ _ h5
        exact ⟨rfl, by rw [filterMap_id_length _ k2, k1]⟩
    | disableLtpf =>
      rw [cppEncRun] at h
      obtain ⟨w, h3, h4⟩ := Option.map_eq_some_iff.mp h
      have e4 : w.2 = e' := congrArg Prod.snd h4
      obtain ⟨g1, g2⟩ := ih _ w.2 w.1 h3
      rw [← e4, g1, g2]
      exact ⟨rfl, by simp [cppDisableLtpf]⟩

theorem lc3Decode_isSome (P : Platform R) (c : DecCall R α) (s : Dec R) (mem : Int → α) (r : Int × Option (Dec R) × (Int → α))
    (h : lc3Decode P c (some s) mem = some r) : r.2.1.isSome := by
  unfold lc3Decode at h
  dsimp only at h
  split at h
  · rw [← Option.some.inj h]; rfl
  · obtain ⟨w, -, rfl⟩ := Option.map_eq_some_iff.mp h; rfl

theorem cppDecLoop_length (P : Platform R) (c : BlockDecCall R α) (nch : Nat) (l : List (Dec R)) : ∀ (ich : Nat) (off ret : Int)
    (mem : Int → α) (w : Int × List (Option (Dec R)) × (Int → α)), cppDecLoop P c nch ich l off ret mem = some w →
    w.2.1.length = l.length ∧ ∀ o ∈ w.2.1, o.isSome := by
  induction l with
  | nil => intro ich off ret mem w h; rw [cppDecLoop] at h; rw [← Option.some.inj h]; simp
  | cons s l ih =>
    intro ich off ret mem w h
    rw [cppDecLoop] at h
    obtain ⟨reg, -, h⟩ := Option.bind_eq_some_iff.1 h
    obtain ⟨r, h1, h2⟩ := Option.bind_eq_some_iff.1 h
    obtain ⟨w', h3, rfl⟩ := Option.map_eq_some_iff.mp h2
    obtain ⟨g1, g2⟩ := ih _ _ _ _ _ h3
    refine ⟨by simp [g1], fun o ho => ?_⟩
    rcases List.mem_cons.1 ho with rfl | ho
    · exact lc3Decode_isSome P _ s _ r h1
    · exact g2 o ho

theorem cppDecRun_length (P : Platform R) (calls : List (BlockDecCall R α)) : ∀ (d d' : CppDec R) mem mem' r,
    cppDecRun P calls d mem = some (r, d', mem') → d'.nch = d.nch ∧ d'.states.length = d.states.length := by
  induction calls with
  | nil => intro d d' mem mem' r h; rw [cppDecRun] at h; cases h; exact ⟨rfl, rfl⟩
  | cons c calls ih =>
    intro d d' mem mem' r h
    rw [cppDecRun] at h
    obtain ⟨q, h1, h2⟩ := Option.bind_eq_some_iff.1 h
    obtain ⟨w, h3, h4⟩ := Option.map_eq_some_iff.mp h2
    have e4 : w.2.1 = d' := congrArg (fun x => x.2.1) h4
    obtain ⟨g1, g2⟩ := ih q.2.1 w.2.1 q.2.2 w.2.2 w.1 h3
    rw [← e4, g1, g2]
    unfold cppDecode at h1
    split at h1
    · rw [← Option.some.inj h1]; exact ⟨rfl, rfl⟩
    · obtain ⟨v, h5, rfl⟩ := Option.map_eq_some_iff.mp h1
      obtain ⟨k1, k2⟩ := cppDecLoop_length P c _ _ _ _ _ _ _ h5
      exact ⟨rfl, by rw [filterMap_id_length _ k2, k1]⟩

/-! ### The states of a new instance -/

/-- The instances made by a constructor are all the one of a successful allocation. -/
theorem new_all {β : Type} (f : Bool → Option (Option β)) (hf : f false = some none) : ∀ (mallocs : List Bool) (l : List (Option β)),
    mallocs.mapM f = some l → ∀ s ∈ l.filterMap id, f true = some (some s) := by
  intro mallocs l h s hs
  obtain ⟨o, ho, e⟩ := List.mem_filterMap.1 hs
  obtain ⟨m1, m2⟩ := mapM_get _ _ _ h
  obtain ⟨k, hk, hke⟩ := List.mem_iff_getElem.1 ho
  have := m2 k (by omega) hk
  have e : o = some s := e
  rw [hke, e] at this
  cases hm : mallocs[k]'(by omega) with
  | true => rw [hm] at this; exact this
  | false => rw [hm, hf] at this; cases this

theorem reset_states {β : Type} (s0 : Option (Option β)) : ∀ (l l0 : List β), l.length = l0.length → (∀ s ∈ l0, s0 = some (some s)) →
    (l.mapM fun s => s0.map fun n => n.getD s) = some l0 := by
  intro l
  induction l with
  | nil =>
    intro l0 hl _
    have : l0 = [] := List.length_eq_zero_iff.1 hl.symm
    subst this; rfl
  | cons s l ih =>
    intro l0 hl h
    cases l0 with
    | nil => cases hl
    | cons t l0 =>
      have e := h t (by simp)
      have := ih l0 (by simpa using hl) fun s hs => h s (List.mem_cons_of_mem _ hs)
      subst e
      rw [List.mapM_cons, this]
      rfl

theorem setup_refused (sz : Nat) (A : Arith R) (hr : Bool) (dtUs srHz srPcmHz : Int) (o : Option (Enc R))
    (h : cppEncState sz A hr dtUs srHz srPcmHz false = some o) : o = none := by
  unfold cppEncState at h
  obtain ⟨size, -, h⟩ := Option.bind_eq_some_iff.1 h
  obtain ⟨l, h1, h2⟩ := Option.bind_eq_some_iff.1 h
  cases l with
  | none => exact (Option.some.inj h2).symm
  | some l =>
    exfalso
    unfold setupEncoder at h1
    dsimp only at h1
    split at h1
    · simp at h1
    · cases h1

theorem dec_setup_refused (sz : Nat) (A : Arith R) (hr : Bool) (dtUs srHz srPcmHz : Int) (o : Option (Dec R))
    (h : cppDecState sz A hr dtUs srHz srPcmHz false = some o) : o = none := by
  unfold cppDecState at h
  obtain ⟨size, -, h⟩ := Option.bind_eq_some_iff.1 h
  obtain ⟨l, h1, h2⟩ := Option.bind_eq_some_iff.1 h
  cases l with
  | none => exact (Option.some.inj h2).symm
  | some l =>
    exfalso
    unfold setupDecoder at h1
    dsimp only at h1
    split at h1
    · simp at h1
    · cases h1

theorem new_all_enc (sz : Nat) (A : Arith R) (hr : Bool) (dtUs srHz srPcmHz : Int) (mallocs : List Bool) (e : CppEnc R)
    (h : cppEncNew sz A hr dtUs srHz srPcmHz mallocs = some e) :
    ∀ s ∈ e.states, cppEncState sz A hr dtUs srHz (cppPcmRate srHz srPcmHz) true = some (some s) := by
  unfold cppEncNew at h
  obtain ⟨l, h1, rfl⟩ := Option.map_eq_some_iff.mp h
  intro s hs
  by_cases hm : false ∈ mallocs
  · refine new_all _ ?_ mallocs l h1 s hs
    obtain ⟨m1, m2⟩ := mapM_get _ _ _ h1
    obtain ⟨k, hk, hke⟩ := List.mem_iff_getElem.1 hm
    have := m2 k hk (by omega)
    rw [hke] at this
    rw [this, setup_refused _ _ _ _ _ _ _ this]
  · obtain ⟨o, ho, e⟩ := List.mem_filterMap.1 hs
    obtain ⟨m1, m2⟩ := mapM_get _ _ _ h1
    obtain ⟨k, hk, hke⟩ := List.mem_iff_getElem.1 ho
    have := m2 k (by omega) hk
    have e : o = some s := e
    rw [hke, e] at this
    cases hv : mallocs[k]'(by omega) with
    | true => rw [hv] at this; exact this
    | false => exact absurd (hv ▸ List.getElem_mem _) hm

theorem new_all_dec (sz : Nat) (A : Arith R) (hr : Bool) (dtUs srHz srPcmHz : Int) (mallocs : List Bool) (d : CppDec R)
    (h : cppDecNew sz A hr dtUs srHz srPcmHz mallocs = some d) :
    ∀ s ∈ d.states, cppDecState sz A hr dtUs srHz (cppPcmRate srHz srPcmHz) true = some (some s) := by
  unfold cppDecNew at h
  obtain ⟨l, h1, rfl⟩ := Option.map_eq_some_iff.mp h
  intro s hs
  by_cases hm : false ∈ mallocs
  · refine new_all _ ?_ mallocs l h1 s hs
    obtain ⟨m1, m2⟩ := mapM_get _ _ _ h1
    obtain ⟨k, hk, hke⟩ := List.mem_iff_getElem.1 hm
    have := m2 k hk (by omega)
    rw [hke] at this
    rw [this, dec_setup_refused _ _ _ _ _ _ _ this]
  · obtain ⟨o, ho, e⟩ := List.mem_filterMap.1 hs
    obtain ⟨m1, m2⟩ := mapM_get _ _ _ h1
    obtain ⟨k, hk, hke⟩ := List.mem_iff_getElem.1 ho
    have := m2 k (by omega) hk
    have e : o = some s := e
    rw [hke, e] at this
    cases hv : mallocs[k]'(by omega) with
    | true => rw [hv] at this; exact this
    | false => exact absurd (hv ▸ List.getElem_mem _) hm

/-- **C72**: after any sequence of calls, `Reset` gives back the encoder that the constructor made: for any count of channels, and also when
some allocations failed. -/
theorem C72_encoder [Inhabited R] (P : EncPlatform R) (sz : Nat) (hr : Bool) (dtUs srHz srPcmHz : Int) (mallocs : List Bool) (e0 e : CppEnc R)
    (h0 : cppEncNew sz P.A hr dtUs srHz srPcmHz mallocs = some e0) (ops : List (CppEncOp R α)) (r : List (Option (Int × List Nat)))
    (h : cppEncRun P ops e0 = some (r, e)) : cppEncReset sz P.A hr dtUs srHz srPcmHz e = some e0 := by
  obtain ⟨h1, h2⟩ := cppEncRun_length P ops e0 e r h
  unfold cppEncReset
  rw [reset_states _ _ _ h2 (new_all_enc sz P.A hr dtUs srHz srPcmHz mallocs e0 h0), Option.map_some]
  congr 1
  obtain ⟨n, st⟩ := e0
  obtain ⟨n', st'⟩ := e
  simp only at h1
  simp [h1]

/-- **C72**: the calls after `Reset` are those of a new encoder, whatever was encoded before, and whether the post filter had been disabled or
not: `Reset` enables it again. -/
theorem C72_encoder_run [Inhabited R] (P : EncPlatform R) (sz : Nat) (hr : Bool) (dtUs srHz srPcmHz : Int) (mallocs : List Bool) (e0 e : CppEnc R)
    (h0 : cppEncNew sz P.A hr dtUs srHz srPcmHz mallocs = some e0) (ops : List (CppEncOp R α)) (r : List (Option (Int × List Nat)))
    (h : cppEncRun P ops e0 = some (r, e)) :
    ∃ e1, cppEncReset sz P.A hr dtUs srHz srPcmHz e = some e1 ∧ (∀ s ∈ e1.states, s.bypass = false) ∧
      ∀ ops' : List (CppEncOp R α), cppEncRun P ops' e1 = cppEncRun P ops' e0 := by
  refine ⟨e0, C72_encoder P sz hr dtUs srHz srPcmHz mallocs e0 e h0 ops r h, fun s hs => ?_, fun _ => rfl⟩
  have := new_all_enc sz P.A hr dtUs srHz srPcmHz mallocs e0 h0 s hs
  unfold cppEncState at this
  obtain ⟨size, -, this⟩ := Option.bind_eq_some_iff.1 this
  obtain ⟨l, -, this⟩ := Option.bind_eq_some_iff.1 this
  cases l with
  | none => cases this
  | some l =>
    dsimp only at this
    split at this
    · cases this
    · unfold encSetup at this
      obtain ⟨o, -, this⟩ := Option.map_eq_some_iff.mp this
      obtain ⟨l, -, this⟩ := Option.map_eq_some_iff.mp this
      rw [← this]

/-- **C72**: the same for a decoder, after any blocks, lost ones and refused ones included. -/
theorem C72_decoder (P : Platform R) (sz : Nat) (hr : Bool) (dtUs srHz srPcmHz : Int) (mallocs : List Bool) (d0 d : CppDec R)
    (h0 : cppDecNew sz P.A hr dtUs srHz srPcmHz mallocs = some d0) (calls : List (BlockDecCall R α)) (mem mem' : Int → α) (r : List Int)
    (h : cppDecRun P calls d0 mem = some (r, d, mem')) : cppDecReset sz P.A hr dtUs srHz srPcmHz d = some d0 := by
  obtain ⟨h1, h2⟩ := cppDecRun_length P calls d0 d mem mem' r h
  unfold cppDecReset
  rw [reset_states _ _ _ h2 (new_all_dec sz P.A hr dtUs srHz srPcmHz mallocs d0 h0), Option.map_some]
  congr 1
  obtain ⟨n, st⟩ := d0
  obtain ⟨n', st'⟩ := d
  simp only at h1
  simp [h1]

/-- The hypotheses are met: an encoder of two channels, that encodes a block and disables the post filter; the second `malloc` fails in
another case. -/
example : (∃ e r e', cppEncNew 0 exEncPlat.A false 2500 8000 0 [true, true] = some e ∧ e.states.length = 2 ∧
      cppEncRun exEncPlat [.encode (exBlock 41), .disableLtpf] e = some (r, e') ∧ (∀ s ∈ e'.states, s.bypass = true) ∧ e'.states ≠ []) ∧
    ∃ e, cppEncNew 0 exEncPlat.A false 2500 8000 0 [true, false] = some e ∧ e.states.length = 1 := by
  constructor
  · obtain ⟨e, g1, g2⟩ := Option.bind_eq_some_iff.1 exBlock_outputs.1
    obtain ⟨⟨v, out, e'⟩, g3, -⟩ := Option.map_eq_some_iff.1 g2
    have hl : (cppEncNew 0 exEncPlat.A false 2500 8000 0 [true, true]).map (fun e => e.states.length) = some 2 := by decide +kernel
    rw [g1] at hl
    have hl : e.states.length = 2 := Option.some.inj hl
    have hr : cppEncRun exEncPlat [.encode (exBlock 41), .disableLtpf] e = some ([some (v, out), none], cppDisableLtpf e') := by
      unfold cppEncRun; rw [g3]; rfl
    refine ⟨e, _, _, g1, hl, hr, ?_, ?_⟩
    · intro s hs
      obtain ⟨t, -, rfl⟩ := List.mem_map.1 hs
      rfl
    · have := (cppEncRun_length exEncPlat _ e _ _ hr).2
      intro h0
      rw [h0, hl] at this
      cases this
  · have hl : (cppEncNew 0 exEncPlat.A false 2500 8000 0 [true, false]).map (fun e => e.states.length) = some 1 := by decide +kernel
    obtain ⟨e, h1, h2⟩ := Option.map_eq_some_iff.1 hl
    exact ⟨e, h1, h2⟩

end LC3
