import Verif.Model.Cpp
import Verif.Props.Resync
import Verif.Props.Encoder

/-!
C36: the C++ classes process each channel independently of the others.
-/

namespace LC3

variable {R : Type} {α : Type}

/-! ### The sizes and the values returned -/

theorem cppFrameSize_nat (n nch ich : Nat) (hn : n < 2147483648) : cppFrameSize n nch ich = channelBytes n nch ich := by
  unfold cppFrameSize channelBytes
  dsimp only
  have h1 : ((n : Int) % 18446744073709551616).toNat = n := by omega
  rw [h1]
  have h2 : n / nch ≤ n := Nat.div_le_self _ _
  by_cases h : ich < n % nch
  · rw [if_pos h]
    have h3 : n % nch ≤ n := Nat.mod_le _ _
    have h4 : n / nch + 1 ≤ n := by
      rcases Nat.eq_zero_or_pos nch with h0 | h0
      · subst h0
        rw [Nat.div_zero]
        omega
      · have h5 := Nat.mod_add_div n nch
        have h6 : n / nch * 1 ≤ n / nch * nch := Nat.mul_le_mul_left _ h0
        rw [Nat.mul_comm (n / nch) nch] at h6
        omega
    have h7 : (n / nch + 1) % 18446744073709551616 = n / nch + 1 := Nat.mod_eq_of_lt (by omega)
    rw [h7]
    unfold toI32
    omega
  · rw [if_neg h]
    have h7 : (n / nch + 0) % 18446744073709551616 = n / nch + 0 := Nat.mod_eq_of_lt (by omega)
    rw [h7]
    unfold toI32
    omega

/-- The values that `lc3_encode` and `lc3_decode` return. -/
def IsRet (r : Int) : Prop := r = -1 ∨ r = 0 ∨ r = 1

theorem retOr_spec (a b : Int) (ha : IsRet a) (hb : IsRet b) :
    retOr a b = if a = -1 ∨ b = -1 then -1 else if a = 1 ∨ b = 1 then 1 else 0 := by
  rcases ha with rfl | rfl | rfl <;> rcases hb with rfl | rfl | rfl <;> decide

/-- The value returned for a block: -1 when a channel fails, otherwise 1 when a channel is concealed, otherwise 0. -/
def blockRet (rs : List Int) : Int := if -1 ∈ rs then -1 else if 1 ∈ rs then 1 else 0

theorem retOr_isRet (a b : Int) (ha : IsRet a) (hb : IsRet b) : IsRet (retOr a b) := by
  rw [retOr_spec _ _ ha hb]; unfold IsRet; split
  · simp
  · split <;> simp

theorem blockRet_or (a r : Int) (l : List Int) (ha : IsRet a) (hr : IsRet r) : blockRet (retOr a r :: l) = blockRet (a :: r :: l) := by
  rw [retOr_spec a r ha hr]
  unfold blockRet
  simp only [List.mem_cons]
  rcases ha with rfl | rfl | rfl <;> rcases hr with rfl | rfl | rfl <;> by_cases k1 : -1 ∈ l <;> by_cases k2 : 1 ∈ l <;> simp [k1, k2]

theorem blockRet_one (a : Int) (ha : IsRet a) : blockRet [a] = a := by
  rcases ha with rfl | rfl | rfl <;> rfl

theorem blockRet_zero (l : List Int) : blockRet (0 :: l) = blockRet l := by
  unfold blockRet; simp

/-! ### Encoder -/

section Encoder
variable [Inhabited R]

/-- The call on the channel `k` alone: the samples of this channel, one after the other, and its part of the block. -/
def BlockCall.channel (c : BlockCall R α) (nch k : Nat) : EncCall R α where
  pcm := fun i => c.pcm (k + i * nch)
  conv := c.conv
  base := 0
  stride := 1
  nbytes := channelBytes c.blockSize.toNat nch k
  out := (c.out.drop (channelStart c.blockSize.toNat nch k)).take (channelBytes c.blockSize.toNat nch k)
  junk := c.junk k

theorem pcmLoad_channel (m : Int → α) (nch : Int) (k n : Nat) : pcmLoad nch m k n = pcmLoad 1 (fun i => m (k + i * nch)) 0 n := by
  obtain ⟨a1, a2⟩ := pcmLoad_spec nch m n k
  obtain ⟨b1, b2⟩ := pcmLoad_spec 1 (fun i => m (k + i * nch)) n 0
  apply List.ext_getElem (by omega)
  intro i h1 h2
  rw [a2 i h1, b2 i h2]
  rw [Int.mul_one, Int.zero_add]

/-- The output of a call beyond the frame is left unchanged, and has no influence. -/
theorem lc3Encode_region (P : EncPlatform R) (c c' : EncCall R α) (s : Option (Enc R)) (B : List Nat) (n : Nat) (hn : c.nbytes = n)
    (hn' : c'.nbytes = n) (hl : c'.out.length = n) (ho : c.out = c'.out ++ B) (hs : ∀ k, c.samples k = c'.samples k)
    (hj : c.junk = c'.junk) :
    lc3Encode P c s = (lc3Encode P c' s).map fun r => (r.1, r.2.1 ++ B, r.2.2) := by
  cases s with
  | none => show some (-1, c.out, none) = _; rw [ho]; rfl
  | some e =>
    unfold lc3Encode
    dsimp only
    rw [hn, hn']
    by_cases h : (n : Int) < minFrameBytes e.dt e.sr ∨ (n : Int) > maxFrameBytes e.dt e.sr
    · rw [if_pos h, if_pos h, ho]; rfl
    · rw [if_neg h, if_neg h]
      have key : encProcess P c e = (encProcess P c' e).map fun r => (r.1 ++ B, r.2) := by
        unfold encProcess
        have hv := hs (ns e.dt e.srPcm)
        unfold EncCall.samples at hv
        rw [hv, hn, hn', hj, Int.toNat_natCast]
        cases (pcmLoad c'.stride c'.pcm c'.base (ns e.dt e.srPcm)).mapM c'.conv with
        | none => rfl
        | some v =>
          rw [Option.bind_some, Option.bind_some]
          cases encAnalyze P c'.junk n (encLoad v e) with
          | none => rfl
          | some a =>
            rw [Option.bind_some, Option.bind_some, ho, List.length_append, if_neg (by omega), if_neg (by omega),
              List.take_append_of_le_length (by omega), List.drop_append_of_le_length (by omega)]
            cases encodeFrame P.A a.2.dt a.2.sr (c'.out.take n) a.1 (a.2.xs.take (ne a.2.dt a.2.sr)) with
            | none => rfl
            | some f =>
              rw [Option.bind_some, Option.bind_some, Option.map_some, List.append_assoc]
      rw [key, Option.map_map, Option.map_map]
      rfl

/-- What a call on an encoder in a valid state returns, when defined. -/
theorem lc3Encode_inv (P : EncPlatform R) (hA : CandidatesOk P.A) (e : Enc R) (he : EncInv e) (c : EncCall R α) (hc : c.Ok (ns e.dt e.srPcm))
    (r : Int) (out : List Nat) (o : Option (Enc R)) (h : lc3Encode P c (some e) = some (r, out, o)) :
    IsRet r ∧ out.length = c.out.length ∧ ∃ e', o = some e' ∧ EncInv e' ∧ e'.dt = e.dt ∧ e'.sr = e.sr ∧ e'.srPcm = e.srPcm := by
  by_cases hn : c.nbytes < minFrameBytes e.dt e.sr ∨ c.nbytes > maxFrameBytes e.dt e.sr
  · rw [(C09_encode_rejected P c).2 e hn] at h
    cases h
    exact ⟨Or.inl rfl, rfl, e, rfl, he, rfl, rfl, rfl⟩
  · obtain ⟨v, s, -, -, -, -, -, h6⟩ := encode_step P hA e he c hc hn
    obtain ⟨f, e1, h1, h2, h3, h4, -, h5, h7, h8, h9, -⟩ := h6 r out o h
    refine ⟨Or.inr (Or.inl h1), ?_, e1, h2, h5, h7, h8, h9⟩
    rw [h3, List.length_append, h4, List.length_drop]
    have := hc.out
    omega

theorem channelStart_succ (n nch k : Nat) : channelStart n nch (k + 1) = channelStart n nch k + channelBytes n nch k := by
  unfold channelStart
  rw [List.range_succ, List.map_append, List.sum_append]
  simp

theorem channelStart_mono (n nch : Nat) {a b : Nat} (h : a ≤ b) : channelStart n nch a ≤ channelStart n nch b := by
  induction h with
  | refl => exact Nat.le_refl _
  | step _ ih => rw [channelStart_succ]; omega

/-- The hypotheses on the samples and the output of a block. -/
structure BlockCall.Ok (c : BlockCall R α) (nch n : Nat) : Prop where
  pcm : ∀ i : Nat, i < nch * n → ∃ s v, c.conv (c.pcm i) = some (s, v) ∧ -32768 ≤ s ∧ s ≤ 32767
  size : 0 ≤ c.blockSize ∧ c.blockSize < 2147483648
  out : c.blockSize ≤ c.out.length

theorem channel_ok (c : BlockCall R α) (nch n k : Nat) (h : c.Ok nch n) (hk : k < nch) : (c.channel nch k).Ok n := by
  obtain ⟨h1, ⟨h2, h3⟩, h4⟩ := h
  refine ⟨?_, ?_⟩
  · intro i hi
    obtain ⟨s, v, h5, h6⟩ := h1 (k + i * nch) (by
      have : (i + 1) * nch ≤ n * nch := Nat.mul_le_mul_right _ hi
      rw [Nat.mul_comm n nch, Nat.add_mul] at this
      omega)
    refine ⟨s, v, ?_, h6⟩
    unfold BlockCall.channel
    dsimp only
    rw [Int.mul_one, Int.zero_add]
    exact_mod_cast h5
  · have ht := (C04_tiling c.blockSize.toNat nch (by omega)).2.1
    have hm := channelStart_mono c.blockSize.toNat nch (show k + 1 ≤ nch from hk)
    rw [channelStart_succ, ht] at hm
    unfold BlockCall.channel
    dsimp only
    rw [List.length_take, List.length_drop]
    omega

/-- The loop on the channels, as calls on each channel alone. -/
theorem cppEncLoop_eq (P : EncPlatform R) (hA : CandidatesOk P.A) (c : BlockCall R α) (nch : Nat) (l : List (Enc R)) :
    ∀ (ich : Nat) (ret : Int) (pre : List Nat), 0 < nch → ich + l.length = nch → IsRet ret → pre.length = channelStart c.blockSize.toNat nch ich →
      (∀ e ∈ l, EncInv e ∧ c.Ok nch (ns e.dt e.srPcm)) →
      cppEncLoop P c nch ich l (channelStart c.blockSize.toNat nch ich) ret (pre ++ c.out.drop (channelStart c.blockSize.toNat nch ich)) =
        ((l.zipIdx ich).mapM fun p => lc3Encode P (c.channel nch p.2) (some p.1)).map fun rs =>
          (blockRet (ret :: rs.map fun r => r.1), pre ++ ((rs.map fun r => r.2.1).flatten ++ c.out.drop c.blockSize.toNat),
            rs.map fun r => r.2.2) := by
  induction l with
  | nil =>
    intro ich ret pre h0 hl hret hp _
    rw [List.length_nil, Nat.add_zero] at hl
    have hx : channelStart c.blockSize.toNat nch ich = c.blockSize.toNat := by rw [hl]; exact (C04_tiling _ _ h0).2.1
    rw [hx]
    show some (ret, _, []) = some (blockRet (ret :: []), pre ++ ([] ++ _), [])
    rw [blockRet_one ret hret]
    rfl
  | cons s l ih =>
    intro ich ret pre h0 hl hret hp hi
    obtain ⟨S, hS⟩ : ∃ S, S = channelStart c.blockSize.toNat nch ich := ⟨_, rfl⟩
    obtain ⟨Z, hZ⟩ : ∃ Z, Z = channelBytes c.blockSize.toNat nch ich := ⟨_, rfl⟩
    obtain ⟨hs, hok⟩ := hi s (by simp)
    have hich : ich < nch := by rw [← hl, List.length_cons]; omega
    have hch := channel_ok c nch _ ich hok hich
    have hsz : cppFrameSize c.blockSize nch ich = Z := by
      have := cppFrameSize_nat c.blockSize.toNat nch ich (by have := hok.size; omega)
      rw [Int.toNat_of_nonneg hok.size.1] at this
      rw [this, hZ]
    have hSZ : S + Z ≤ c.out.length := by
      have ht := (C04_tiling c.blockSize.toNat nch h0).2.1
      have hm := channelStart_mono c.blockSize.toNat nch (show ich + 1 ≤ nch from hich)
      rw [channelStart_succ, ht] at hm
      have := hok.out
      have := hok.size
      omega
    have hrest : c.out.drop S = (c.channel nch ich).out ++ c.out.drop (S + Z) := by
      unfold BlockCall.channel
      dsimp only
      rw [← hS, ← hZ, ← List.drop_drop, List.take_append_drop]
    rw [← hS] at hp ⊢
    have hcl : (c.channel nch ich).out.length = Z := by
      unfold BlockCall.channel
      dsimp only
      rw [← hS, ← hZ, List.length_take, List.length_drop]; omega
    have hreg := lc3Encode_region P ⟨c.pcm, c.conv, ich, nch, Z, c.out.drop S, c.junk ich⟩ (c.channel nch ich) (some s) (c.out.drop (S + Z)) Z
      rfl (by unfold BlockCall.channel; dsimp only; rw [hZ]) hcl hrest (by
        intro k
        unfold EncCall.samples BlockCall.channel
        dsimp only
        rw [pcmLoad_channel]) rfl
    unfold cppEncLoop
    dsimp only
    rw [hsz, if_neg (by rw [List.length_append]; omega), Int.toNat_natCast, List.drop_append_of_le_length (by omega),
      List.drop_of_length_le (by omega), List.nil_append, List.take_append_of_le_length (by omega), List.take_of_length_le (by omega), hreg,
      List.zipIdx_cons, List.mapM_cons]
    cases hr : lc3Encode P (c.channel nch ich) (some s) with
    | none => rfl
    | some r =>
      obtain ⟨r1, r2, r3⟩ := r
      obtain ⟨g1, g2, -⟩ := lc3Encode_inv P hA s hs _ hch r1 r2 r3 hr
      rw [Option.map_some, Option.bind_some]
      dsimp only
      have hret' := retOr_isRet ret r1 hret g1
      have hi' := ih (ich + 1) (retOr ret r1) (pre ++ r2) h0 (by rw [← hl, List.length_cons]; omega) hret' (by
        rw [List.length_append, channelStart_succ, ← hS, ← hZ, g2, hcl, hp]) (fun e he => hi e (by simp [he]))
      rw [channelStart_succ, ← hS, ← hZ, List.append_assoc] at hi'
      have hcast : ((S + Z : Nat) : Int) = (S : Int) + (Z : Int) := by omega
      rw [hcast] at hi'
      rw [hi']
      cases hm : (l.zipIdx (ich + 1)).mapM (fun p => lc3Encode P (c.channel nch p.2) (some p.1)) with
      | none => rfl
      | some rs =>
        show some _ = some _
        dsimp only
        rw [blockRet_or _ _ _ hret g1, List.append_assoc]
        simp only [List.map_cons, List.flatten_cons, List.append_assoc]

/-- **C36**, encoder: a call of `Encode` is the same as one call of `lc3_encode` per channel, each on the samples of this channel and on
its part of the block; it returns -1 when a channel fails, the frames follow each other in the block, and what follows the block is left
unchanged. -/
theorem C36_encode (P : EncPlatform R) (hA : CandidatesOk P.A) (c : BlockCall R α) (e : CppEnc R) (h0 : 0 < e.nch)
    (hs : e.states.length = e.nch) (hi : ∀ s ∈ e.states, EncInv s ∧ c.Ok e.nch (ns s.dt s.srPcm)) :
    cppEncode P c e = (e.states.zipIdx.mapM fun p => lc3Encode P (c.channel e.nch p.2) (some p.1)).map fun rs =>
      (blockRet (rs.map fun r => r.1), (rs.map fun r => r.2.1).flatten ++ c.out.drop c.blockSize.toNat,
        ⟨e.nch, rs.filterMap fun r => r.2.2⟩) := by
  unfold cppEncode
  rw [if_neg (by omega)]
  have hl := cppEncLoop_eq P hA c e.nch e.states 0 0 [] h0 (by omega) (Or.inr (Or.inl rfl)) rfl hi
  have hz : channelStart c.blockSize.toNat e.nch 0 = 0 := rfl
  rw [hz, List.drop_zero, List.nil_append] at hl
  rw [show ((0 : Nat) : Int) = 0 from rfl] at hl
  rw [hl, Option.map_map]
  refine congrArg (fun f => Option.map f _) ?_
  funext rs
  show (_, _, _) = _
  dsimp only
  rw [blockRet_zero, List.nil_append, List.filterMap_map]
  rfl

theorem mapM_get {β γ : Type} (f : β → Option γ) (l : List β) : ∀ rs, l.mapM f = some rs →
    rs.length = l.length ∧ ∀ k (h : k < l.length) (h' : k < rs.length), f l[k] = some rs[k] := by
  induction l with
  | nil => intro rs h; cases h; exact ⟨rfl, fun k h => absurd h (Nat.not_lt_zero _)⟩
  | cons a l ih =>
    intro rs h
    rw [List.mapM_cons] at h
    simp only [Option.bind_eq_bind, Option.bind_eq_some_iff, Option.pure_def] at h
    obtain ⟨b, h1, bs, h2, h3⟩ := h
    cases h3
    obtain ⟨i1, i2⟩ := ih bs h2
    refine ⟨by rw [List.length_cons, List.length_cons, i1], ?_⟩
    intro k hk hk'
    cases k with
    | zero => exact h1
    | succ k => exact i2 k _ _

/-- The call of an operation on the channel `k`. -/
def CppEncOp.channel (nch k : Nat) : CppEncOp R α → EncOp R α
  | .encode c => .encode (c.channel nch k)
  | .disableLtpf => .disableLtpf

/-- The result of a call on a block, from the ones of the channels. -/
def blockOf (nch : Nat) (rest : List Nat) (r : Nat → Int × List Nat) : Int × List Nat :=
  (blockRet ((List.range nch).map fun k => (r k).1), ((List.range nch).map fun k => (r k).2).flatten ++ rest)

/-- The states of the channels are those of encoders in use, of the same configuration. -/
structure CppEnc.Inv (e : CppEnc R) (n : Nat) : Prop where
  pos : 0 < e.nch
  len : e.states.length = e.nch
  inv : ∀ s ∈ e.states, EncInv s ∧ ns s.dt s.srPcm = n

theorem filterMap_all_some {β γ : Type} (f : β → Option γ) (l : List β) (h : ∀ b ∈ l, (f b).isSome) :
    (l.filterMap f).length = l.length ∧ ∀ k : Nat, (l.filterMap f)[k]? = l[k]?.bind f := by
  induction l with
  | nil => exact ⟨rfl, fun k => by simp⟩
  | cons b l ih =>
    obtain ⟨i1, i2⟩ := ih (fun x hx => h x (by simp [hx]))
    obtain ⟨v, hv⟩ := Option.isSome_iff_exists.mp (h b (by simp))
    rw [List.filterMap_cons_some hv]
    refine ⟨by rw [List.length_cons, List.length_cons, i1], ?_⟩
    intro k
    cases k with
    | zero => simp [hv]
    | succ k => simp [i2]

/-- A call of `Encode`, from the side of one channel. -/
theorem cppEncode_channel (P : EncPlatform R) (hA : CandidatesOk P.A) (c : BlockCall R α) (e : CppEnc R) (n : Nat) (he : e.Inv n)
    (hc : c.Ok e.nch n) (r : Int) (out : List Nat) (e' : CppEnc R) (h : cppEncode P c e = some (r, out, e')) :
    e'.Inv n ∧ e'.nch = e.nch ∧ ∃ w : Nat → Int × List Nat, (r, out) = blockOf e.nch (c.out.drop c.blockSize.toNat) w ∧
      ∀ k s, e.states[k]? = some s → ∃ s', e'.states[k]? = some s' ∧
        lc3Encode P (c.channel e.nch k) (some s) = some ((w k).1, (w k).2, some s') := by
  rw [C36_encode P hA c e he.pos he.len (fun s hs => ⟨(he.inv s hs).1, by rw [(he.inv s hs).2]; exact hc⟩)] at h
  obtain ⟨rs, h1, h2⟩ := Option.map_eq_some_iff.1 h
  rw [Prod.mk.injEq, Prod.mk.injEq] at h2
  obtain ⟨h2, h3, h4⟩ := h2
  obtain ⟨m1, m2⟩ := mapM_get _ _ _ h1
  rw [List.length_zipIdx, he.len] at m1
  have key : ∀ k (hk : k < e.nch), ∃ s', rs[k].2.2 = some s' ∧ EncInv s' ∧ ns s'.dt s'.srPcm = n ∧
      lc3Encode P (c.channel e.nch k) (some (e.states[k]'(by rw [he.len]; exact hk))) = some (rs[k].1, rs[k].2.1, some s') := by
    intro k hk
    have hk' : k < e.states.length := by rw [he.len]; exact hk
    have hm := m2 k (by rw [List.length_zipIdx]; exact hk') (by omega)
    rw [List.getElem_zipIdx] at hm
    dsimp only at hm
    rw [Nat.zero_add] at hm
    obtain ⟨i1, i2⟩ := he.inv _ (List.getElem_mem hk')
    obtain ⟨-, -, s', g1, g2, g3, g4, g5⟩ := lc3Encode_inv P hA _ i1 _ (by rw [i2]; exact channel_ok c e.nch n k hc hk) rs[k].1 rs[k].2.1 rs[k].2.2 hm
    refine ⟨s', g1, g2, by rw [g3, g5, i2], ?_⟩
    rw [hm, ← g1]
  obtain ⟨f1, f2⟩ := filterMap_all_some (fun r : Int × List Nat × Option (Enc R) => r.2.2) rs (by
    intro b hb
    obtain ⟨k, hk, rfl⟩ := List.mem_iff_getElem.mp hb
    obtain ⟨s', h, -⟩ := key k (by omega)
    rw [h]; rfl)
  have hst : e'.states = rs.filterMap fun r => r.2.2 := by rw [← h4]
  have hnch : e'.nch = e.nch := by rw [← h4]
  refine ⟨⟨by rw [hnch]; exact he.pos, by rw [hst, f1, m1, hnch], ?_⟩, hnch, ?_⟩
  · intro s hs
    rw [hst] at hs
    obtain ⟨k, hk, rfl⟩ := List.mem_iff_getElem.mp hs
    have hk' : k < e.nch := by omega
    have := f2 k
    rw [List.getElem?_eq_getElem hk, List.getElem?_eq_getElem (by omega), Option.bind_some] at this
    obtain ⟨s', g1, g2, g3, -⟩ := key k hk'
    rw [g1] at this
    rw [Option.some.inj this]
    exact ⟨g2, g3⟩
  · refine ⟨fun k => ((rs[k]?.map fun r => (r.1, r.2.1)).getD (0, [])), ?_, ?_⟩
    · have e1 : ∀ {β : Type} (g : Int × List Nat × Option (Enc R) → β) (g' : Int × List Nat → β), (∀ r, g r = g' (r.1, r.2.1)) →
          rs.map g = (List.range e.nch).map fun k => g' ((rs[k]?.map fun r => (r.1, r.2.1)).getD (0, [])) := by
        intro β g g' hg
        apply List.ext_getElem
        · simp [m1]
        · intro k hk hk'
          rw [List.length_map] at hk
          simp [hk, hg]
      unfold blockOf
      rw [← h2, ← h3, e1 (fun r => r.1) (fun r => r.1) (fun _ => rfl), e1 (fun r => r.2.1) (fun r => r.2) (fun _ => rfl)]
    · intro k s hs
      obtain ⟨hk, hse⟩ := List.getElem?_eq_some_iff.mp hs
      rw [he.len] at hk
      obtain ⟨s', g1, g2, g3, g4⟩ := key k hk
      refine ⟨s', ?_, ?_⟩
      · rw [hst, f2 k, List.getElem?_eq_getElem (by omega), Option.bind_some, g1]
      · rw [← hse, g4]
        dsimp only
        rw [List.getElem?_eq_getElem (by omega)]
        rfl

/-- **C36**, encoder: on any sequence of calls, each channel of an encoder gives the frames of an encoder of one channel that receives the
samples of this channel alone, at the sizes of its parts of the blocks. -/
theorem C36_encode_run (P : EncPlatform R) (hA : CandidatesOk P.A) (ops : List (CppEncOp R α)) (n : Nat) : ∀ (e : CppEnc R), e.Inv n →
    (∀ c, .encode c ∈ ops → c.Ok e.nch n) → ∀ (w : List (Option (Int × List Nat))) (e' : CppEnc R), cppEncRun P ops e = some (w, e') →
    e'.Inv n ∧ e'.nch = e.nch ∧ w.length = ops.length ∧ ∃ W : Nat → List (Option (Int × List Nat)),
      (∀ k s, e.states[k]? = some s → ∃ s', e'.states[k]? = some s' ∧
        encRun P (ops.map (CppEncOp.channel e.nch k)) (some s) = some (W k, some s')) ∧
      ∀ (j : Nat) (c : BlockCall R α), ops[j]? = some (.encode c) → ∃ r : Nat → Int × List Nat,
        (∀ k, k < e.nch → (W k)[j]? = some (some (r k))) ∧ w[j]? = some (some (blockOf e.nch (c.out.drop c.blockSize.toNat) r)) := by
  induction ops with
  | nil =>
    intro e he _ w e' h
    cases h
    exact ⟨he, rfl, rfl, fun _ => [], fun k s hs => ⟨s, hs, rfl⟩, fun j c h => by simp at h⟩
  | cons o l ih =>
    intro e he hok w e' h
    cases o with
    | encode c =>
      unfold cppEncRun at h
      obtain ⟨⟨r, out, e1⟩, h1, h2⟩ := Option.bind_eq_some_iff.1 h
      obtain ⟨⟨w2, e2⟩, h3, h4⟩ := Option.map_eq_some_iff.1 h2
      cases h4
      obtain ⟨i1, i2, v, i3, i4⟩ := cppEncode_channel P hA c e n he (hok c (by simp)) r out e1 h1
      obtain ⟨j1, j2, j3, W, j4, j5⟩ := ih e1 i1 (fun c hc => by rw [i2]; exact hok c (by simp [hc])) w2 _ h3
      refine ⟨j1, by rw [j2, i2], by rw [List.length_cons, List.length_cons, j3], fun k => some (v k) :: W k, ?_, ?_⟩
      · intro k s hs
        obtain ⟨s', k1, k2⟩ := i4 k s hs
        obtain ⟨s2, k3, k4⟩ := j4 k s' k1
        refine ⟨s2, k3, ?_⟩
        rw [i2] at k4
        rw [List.map_cons]
        unfold encRun encStep CppEncOp.channel
        dsimp only
        rw [k2, Option.map_some, Option.bind_some]
        dsimp only
        unfold CppEncOp.channel at k4
        rw [k4]
        rfl
      · intro j c' hj
        cases j with
        | zero =>
          rw [List.getElem?_cons_zero] at hj
          cases hj
          refine ⟨v, fun k hk => rfl, ?_⟩
          rw [List.getElem?_cons_zero, ← i3]
        | succ j =>
          rw [List.getElem?_cons_succ] at hj
          obtain ⟨r', q1, q2⟩ := j5 j c' hj
          rw [i2] at q1 q2
          exact ⟨r', q1, q2⟩
    | disableLtpf =>
      unfold cppEncRun at h
      obtain ⟨⟨w2, e2⟩, h3, h4⟩ := Option.map_eq_some_iff.1 h
      cases h4
      have i1 : (cppDisableLtpf e).Inv n := by
        refine ⟨he.pos, ?_, ?_⟩
        · unfold cppDisableLtpf; dsimp only; rw [List.length_map]; exact he.len
        · intro s hs
          obtain ⟨s0, m1, m2⟩ := List.mem_map.mp hs
          obtain ⟨a1, a2⟩ := he.inv s0 m1
          rw [← m2]
          exact ⟨⟨a1.cfg, a1.cfgPcm, a1.rate, a1.mode, a1.att, a1.ltpf, a1.xt, a1.v16, a1.xs, a1.xd⟩, a2⟩
      obtain ⟨j1, j2, j3, W, j4, j5⟩ := ih (cppDisableLtpf e) i1 (fun c hc => hok c (by simp [hc])) w2 _ h3
      refine ⟨j1, j2, by rw [List.length_cons, List.length_cons, j3], fun k => none :: W k, ?_, ?_⟩
      · intro k s hs
        obtain ⟨s2, k3, k4⟩ := j4 k { s with bypass := true } (by
          unfold cppDisableLtpf; dsimp only; rw [List.getElem?_map, hs]; rfl)
        refine ⟨s2, k3, ?_⟩
        rw [List.map_cons]
        show (encRun P _ _).map _ = _
        rw [show (cppDisableLtpf e).nch = e.nch from rfl] at k4
        rw [k4]
        rfl
      · intro j c' hj
        cases j with
        | zero => rw [List.getElem?_cons_zero] at hj; cases hj
        | succ j =>
          rw [List.getElem?_cons_succ] at hj
          exact j5 j c' hj

end Encoder

/-! ### Decoder -/

section Decoder

/-- The call on the channel `k` alone: its part of the block, and an output of this channel only. -/
def BlockDecCall.channel (c : BlockDecCall R α) (nch k : Nat) : DecCall R α where
  inp := c.inp.map fun b => (b.drop (channelStart c.blockSize.toNat nch k)).take (channelBytes c.blockSize.toNat nch k)
  nbytes := channelBytes c.blockSize.toNat nch k
  conv := c.conv
  base := 0
  stride := 1
  junk := c.junk k

/-- A call of `lc3_decode`, with the list of the samples written. -/
def decOut (P : Platform R) (c : DecCall R α) (d : Option (Dec R)) : Option (Int × Option (Dec R) × List α) :=
  match d with
  | none => some (-1, none, [])
  | some d =>
    if c.inp.isSome ∧ (c.nbytes < 20 ∨ c.nbytes > maxFrameBytes d.dt d.sr) then some (-1, some d, []) else
    (decInput P c d).bind fun w =>
    (synthesize P c.junk w.2 w.1 c.nbytes).bind fun d =>
    (win d.x d.xsOff (ns d.dt d.srPcm)).bind fun xs =>
    some (if w.1 = none then 1 else 0, some (complete d), xs.map c.conv)

theorem lc3Decode_out (P : Platform R) (c : DecCall R α) (d : Option (Dec R)) (mem : Int → α) :
    lc3Decode P c d mem = (decOut P c d).map fun r => (r.1, r.2.1, pcmStore c.stride c.base r.2.2 mem) := by
  cases d with
  | none => rfl
  | some d =>
    unfold lc3Decode decOut
    dsimp only
    by_cases h : c.inp.isSome ∧ (c.nbytes < 20 ∨ c.nbytes > maxFrameBytes d.dt d.sr)
    · rw [if_pos h, if_pos h]; rfl
    · rw [if_neg h, if_neg h]
      unfold decProcess
      cases decInput P c d with
      | none => rfl
      | some w =>
        rw [Option.bind_some, Option.bind_some]
        cases synthesize P c.junk w.2 w.1 c.nbytes with
        | none => rfl
        | some d =>
          rw [Option.bind_some, Option.bind_some]
          cases win d.x d.xsOff (ns d.dt d.srPcm) <;> rfl

theorem decOut_congr (P : Platform R) (c c' : DecCall R α) (d : Option (Dec R)) (hn : c.nbytes = c'.nbytes) (hc : c.conv = c'.conv)
    (hj : c.junk = c'.junk)
    (hi : c.inp = none ∧ c'.inp = none ∨ ∃ r r', c.inp = some r ∧ c'.inp = some r' ∧ c.nbytes ≤ r.length ∧ c.nbytes ≤ r'.length ∧
      r.take c.nbytes.toNat = r'.take c.nbytes.toNat) : decOut P c d = decOut P c' d := by
  cases d with
  | none => rfl
  | some d =>
    have h1 : c.inp.isSome = c'.inp.isSome := by
      rcases hi with ⟨a, b⟩ | ⟨r, r', a, b, -⟩ <;> rw [a, b] <;> rfl
    have h2 : decInput P c d = decInput P c' d := by
      unfold decInput
      rcases hi with ⟨a, b⟩ | ⟨r, r', a, b, h3, h4, h5⟩
      · rw [a, b]
      · rw [a, b, ← hn, ← hj]
        dsimp only
        rw [if_neg (by omega), if_neg (by omega), h5]
    unfold decOut
    dsimp only
    rw [h1, h2, hn, hj, hc]

/-- The values returned, and the number of samples. -/
theorem decOut_ret (P : Platform R) (c : DecCall R α) (d : Dec R) (r : Int) (o : Option (Dec R)) (l : List α)
    (h : decOut P c (some d) = some (r, o, l)) :
    IsRet r ∧ ∃ d', o = some d' ∧ (r = -1 ∧ l = [] ∨ r ≠ -1 ∧ l.length = ns d'.dt d'.srPcm) := by
  unfold decOut at h
  dsimp only at h
  split at h
  · cases h; exact ⟨Or.inl rfl, d, rfl, Or.inl ⟨rfl, rfl⟩⟩
  · obtain ⟨w, -, h⟩ := Option.bind_eq_some_iff.1 h
    obtain ⟨d2, -, h⟩ := Option.bind_eq_some_iff.1 h
    obtain ⟨xs, h1, h⟩ := Option.bind_eq_some_iff.1 h
    cases h
    refine ⟨?_, complete d2, rfl, Or.inr ⟨?_, ?_⟩⟩
    · split
      · exact Or.inr (Or.inr rfl)
      · exact Or.inr (Or.inl rfl)
    · split <;> decide
    · rw [List.length_map, (win_length h1).1]; rfl

theorem decOut_inv (P : Platform R) (c : DecCall R α) (d : Dec R) (hd : DecInv P.A d) (hc : CallOk c) (mem : Int → α) (r : Int) (o : Option (Dec R))
    (l : List α) (h : decOut P c (some d) = some (r, o, l)) :
    ∃ d', o = some d' ∧ DecInv P.A d' ∧ d'.dt = d.dt ∧ d'.sr = d.sr ∧ d'.srPcm = d.srPcm := by
  have hl := lc3Decode_out P c (some d) mem
  rw [h, Option.map_some] at hl
  rcases lc3Decode_step P c d mem hd hc with ⟨-, -, s⟩ | ⟨-, -, -, s⟩ | ⟨-, ret, d2, xs, s, s2, s3, -⟩
  · rw [s] at hl
    injection hl with hl
    injection hl with e1 e2
    injection e2 with e2 e3
    exact ⟨d, e2.symm, hd, rfl, rfl, rfl⟩
  · rw [s] at hl; cases hl
  · rw [s] at hl
    injection hl with hl
    injection hl with e1 e2
    injection e2 with e2 e3
    exact ⟨complete d2, e2.symm, complete_inv s2, s3.dt, s3.sr, s3.srPcm⟩

/-- The hypotheses on the memory of a block: without memory, the size is 0, or there is one channel. -/
structure BlockDecCall.Ok (c : BlockDecCall R α) (nch : Nat) : Prop where
  size : 0 ≤ c.blockSize ∧ c.blockSize < 2147483648
  region : ∀ b, c.inp = some b → Bytes b ∧ c.blockSize ≤ b.length
  lost : c.inp = none → (nch = 1 ∧ c.blockSize ≤ sizeLimit) ∨ c.blockSize = 0

/-- The writes of the channels. -/
def storeAll (nch : Nat) : Nat → List (List α) → (Int → α) → (Int → α)
  | _, [], mem => mem
  | ich, l :: ls, mem => storeAll nch (ich + 1) ls (pcmStore nch ich l mem)

theorem channelBytes_zero (nch k : Nat) : channelBytes 0 nch k = 0 := by
  unfold channelBytes; simp

theorem channelStart_zero (nch k : Nat) : channelStart 0 nch k = 0 := by
  induction k with
  | zero => rfl
  | succ k ih => rw [channelStart_succ, ih, channelBytes_zero]

theorem dec_channel_ok (c : BlockDecCall R α) (nch k : Nat) (h : c.Ok nch) (hk : k < nch) : CallOk (c.channel nch k) := by
  obtain ⟨⟨h1, h2⟩, h3, h4⟩ := h
  have hcb : channelBytes c.blockSize.toNat nch k ≤ c.blockSize.toNat - channelStart c.blockSize.toNat nch k ∧
      channelStart c.blockSize.toNat nch k ≤ c.blockSize.toNat := by
    have ht := (C04_tiling c.blockSize.toNat nch (by omega)).2.1
    have hm := channelStart_mono c.blockSize.toNat nch (show k + 1 ≤ nch from hk)
    rw [channelStart_succ, ht] at hm
    omega
  refine ⟨?_, ?_⟩
  · intro r hr
    obtain ⟨b, hb, hr⟩ := Option.map_eq_some_iff.1 hr
    obtain ⟨g1, g2⟩ := h3 b hb
    subst hr
    refine ⟨fun x hx => g1 x (List.mem_of_mem_drop (List.mem_of_mem_take hx)), ?_⟩
    unfold BlockDecCall.channel
    dsimp only
    rw [List.length_take, List.length_drop]
    omega
  · intro hr
    have hb : c.inp = none := Option.map_eq_none_iff.1 hr
    unfold BlockDecCall.channel
    dsimp only
    have : (0 : Int) ≤ sizeLimit := by decide
    rcases h4 hb with h4 | h4 <;> omega

/-- The loop on the channels, as calls on each channel alone. -/
theorem cppDecLoop_eq (P : Platform R) (c : BlockDecCall R α) (nch : Nat) (hok : c.Ok nch) (l : List (Dec R)) :
    ∀ (ich : Nat) (ret : Int) (mem : Int → α), 0 < nch → ich + l.length = nch → IsRet ret →
      cppDecLoop P c nch ich l (channelStart c.blockSize.toNat nch ich) ret mem =
        ((l.zipIdx ich).mapM fun p => decOut P (c.channel nch p.2) (some p.1)).map fun rs =>
          (blockRet (ret :: rs.map fun r => r.1), rs.map fun r => r.2.1, storeAll nch ich (rs.map fun r => r.2.2) mem) := by
  induction l with
  | nil =>
    intro ich ret mem h0 hl hret
    show some (ret, [], mem) = some (blockRet (ret :: []), [], mem)
    rw [blockRet_one ret hret]
  | cons s l ih =>
    intro ich ret mem h0 hl hret
    obtain ⟨S, hS⟩ : ∃ S, S = channelStart c.blockSize.toNat nch ich := ⟨_, rfl⟩
    obtain ⟨Z, hZ⟩ : ∃ Z, Z = channelBytes c.blockSize.toNat nch ich := ⟨_, rfl⟩
    have hich : ich < nch := by rw [← hl, List.length_cons]; omega
    have hsz : cppFrameSize c.blockSize nch ich = Z := by
      have := cppFrameSize_nat c.blockSize.toNat nch ich (by have := hok.size; omega)
      rw [Int.toNat_of_nonneg hok.size.1] at this
      rw [this, hZ]
    have hSZ : S + Z ≤ c.blockSize.toNat := by
      have ht := (C04_tiling c.blockSize.toNat nch h0).2.1
      have hm := channelStart_mono c.blockSize.toNat nch (show ich + 1 ≤ nch from hich)
      rw [channelStart_succ, ht] at hm
      omega
    have hreg : ∃ region, cppRegion c.inp S = some region ∧ ∀ s : Dec R,
        decOut P ⟨region, Z, c.conv, ich, nch, c.junk ich⟩ (some s) = decOut P (c.channel nch ich) (some s) := by
      have hZ' : (c.channel nch ich).nbytes = Z := by rw [hZ]; rfl
      cases hi : c.inp with
      | none =>
        refine ⟨none, ?_, ?_⟩
        · have : S = 0 := by
            rcases hok.lost hi with h | h
            · have : ich = 0 := by omega
              rw [hS, this]; rfl
            · rw [hS, h]; exact channelStart_zero _ _
          unfold cppRegion
          dsimp only
          rw [if_pos (by omega)]
        · intro s
          exact decOut_congr P _ _ _ hZ'.symm rfl rfl (Or.inl ⟨rfl, by unfold BlockDecCall.channel; dsimp only; rw [hi]; rfl⟩)
      | some b =>
        obtain ⟨b1, b2⟩ := hok.region b hi
        have hb : c.blockSize.toNat ≤ b.length := by omega
        refine ⟨some (b.drop S), ?_, ?_⟩
        · unfold cppRegion
          dsimp only
          rw [if_neg (by omega), Int.toNat_natCast]
        · intro s
          refine decOut_congr P _ _ _ hZ'.symm rfl rfl (Or.inr ⟨b.drop S, (b.drop S).take Z, rfl, ?_, ?_, ?_, ?_⟩)
          · unfold BlockDecCall.channel; dsimp only; rw [hi, hS, hZ]; rfl
          · dsimp only; rw [List.length_drop]; omega
          · dsimp only; rw [List.length_take, List.length_drop]; omega
          · dsimp only; rw [Int.toNat_natCast, List.take_take, Nat.min_self]
    obtain ⟨region, g1, g2⟩ := hreg
    rw [← hS]
    unfold cppDecLoop
    dsimp only
    rw [hsz, g1, Option.bind_some, lc3Decode_out, g2, List.zipIdx_cons, List.mapM_cons]
    cases hr : decOut P (c.channel nch ich) (some s) with
    | none => rfl
    | some r =>
      obtain ⟨r1, r2, r3⟩ := r
      obtain ⟨k1, -⟩ := decOut_ret P _ s r1 r2 r3 hr
      rw [Option.map_some, Option.bind_some]
      dsimp only
      have hi' := ih (ich + 1) (retOr ret r1) (pcmStore nch ich r3 mem) h0 (by rw [← hl, List.length_cons]; omega) (retOr_isRet _ _ hret k1)
      rw [channelStart_succ, ← hS, ← hZ] at hi'
      have hcast : ((S + Z : Nat) : Int) = (S : Int) + (Z : Int) := by omega
      rw [hcast] at hi'
      rw [hi']
      cases hm : (l.zipIdx (ich + 1)).mapM (fun p => decOut P (c.channel nch p.2) (some p.1)) with
      | none => rfl
      | some rs =>
        show some _ = some _
        dsimp only
        rw [blockRet_or _ _ _ hret k1]
        rfl

/-- The samples of a channel, in the writes of all the channels. -/
theorem storeAll_spec (nch : Nat) (h0 : 0 < nch) (ls : List (List α)) : ∀ (ich : Nat) (mem : Int → α), ich + ls.length ≤ nch →
    (∀ k (hk : k < ls.length) i (hi : i < ls[k].length), storeAll nch ich ls mem ((ich + k : Nat) + i * nch) = ls[k][i]) ∧
    (∀ a, (∀ k (hk : k < ls.length) (i : Nat), i < ls[k].length → a ≠ ((ich + k : Nat) : Int) + i * nch) → storeAll nch ich ls mem a = mem a) := by
  induction ls with
  | nil => intro ich mem _; exact ⟨fun k hk => absurd hk (Nat.not_lt_zero _), fun a _ => rfl⟩
  | cons l ls ih =>
    intro ich mem hl
    rw [List.length_cons] at hl
    obtain ⟨i1, i2⟩ := ih (ich + 1) (pcmStore nch ich l mem) (by omega)
    unfold storeAll
    constructor
    · intro k hk i hi
      cases k with
      | zero =>
        rw [i2]
        · exact (pcmStore_spec (nch : Int) (by omega) l ich mem).1 i hi
        · intro k hk' i' hi' he
          rw [List.getElem_cons_zero] at hi
          have hlt : ich + 1 + k < nch := by omega
          have he' : ich + i * nch = ich + 1 + k + i' * nch := by exact_mod_cast he
          have m1 : (ich + i * nch) % nch = ich := by rw [Nat.add_mul_mod_self_right, Nat.mod_eq_of_lt (by omega)]
          have m2 : (ich + 1 + k + i' * nch) % nch = ich + 1 + k := by rw [Nat.add_mul_mod_self_right, Nat.mod_eq_of_lt hlt]
          rw [he', m2] at m1
          omega
      | succ k =>
        have := i1 k (by rw [List.length_cons] at hk; omega) i hi
        rw [show ich + (k + 1) = ich + 1 + k by omega]
        exact this
    · intro a ha
      rw [i2 a (fun k hk i hi => by
        have := ha (k + 1) (by rw [List.length_cons]; omega) i hi
        rw [show ich + (k + 1) = ich + 1 + k by omega] at this
        exact this)]
      exact pcmStore_out _ _ _ _ _ (fun i hi => ha 0 (by simp) i hi)

/-- The states of the channels are those of decoders in use, of the same configuration. -/
structure CppDec.Inv (A : Arith R) (d : CppDec R) (n : Nat) : Prop where
  pos : 0 < d.nch
  len : d.states.length = d.nch
  inv : ∀ s ∈ d.states, DecInv A s ∧ ns s.dt s.srPcm = n

/-- A call of `Decode`, from the calls on each channel. -/
theorem cppDecode_eq (P : Platform R) (c : BlockDecCall R α) (d : CppDec R) (hc : c.Ok d.nch) (mem : Int → α) (h0 : 0 < d.nch)
    (hs : d.states.length = d.nch) :
    cppDecode P c d mem = (d.states.zipIdx.mapM fun p => decOut P (c.channel d.nch p.2) (some p.1)).map fun rs =>
      (blockRet (rs.map fun r => r.1), ⟨d.nch, rs.filterMap fun r => r.2.1⟩, storeAll d.nch 0 (rs.map fun r => r.2.2) mem) := by
  unfold cppDecode
  rw [if_neg (by omega)]
  have hl := cppDecLoop_eq P c d.nch hc d.states 0 0 mem h0 (by omega) (Or.inr (Or.inl rfl))
  have hz : channelStart c.blockSize.toNat d.nch 0 = 0 := rfl
  rw [hz, show ((0 : Nat) : Int) = 0 from rfl] at hl
  rw [hl, Option.map_map]
  refine congrArg (fun f => Option.map f _) ?_
  funext rs
  show (_, _, _) = _
  dsimp only
  rw [blockRet_zero, List.filterMap_map]
  rfl

/-- **C36**, decoder: a call of `Decode` is defined exactly when `lc3_decode` is on each channel alone, with its part of the block. It
returns -1 when a channel fails, otherwise 1 when a channel is concealed, otherwise 0. Each channel is left in the state given by its
call, and finds the samples of its call at its place in the interleaved output; the samples of a channel that fails, and the memory out of
the block of samples, are left unchanged. -/
theorem C36_decode_partial (P : Platform R) (c : BlockDecCall R α) (d : CppDec R) (n : Nat) (hd : d.Inv P.A n) (hc : c.Ok d.nch) (mem : Int → α) :
    ((cppDecode P c d mem).isSome ↔ ∀ k s, d.states[k]? = some s → (lc3Decode P (c.channel d.nch k) (some s) mem).isSome) ∧
    ∀ ret d' mem', cppDecode P c d mem = some (ret, d', mem') → d'.Inv P.A n ∧ d'.nch = d.nch ∧ ∃ r : Nat → Int,
      ret = blockRet ((List.range d.nch).map r) ∧
      (∀ k s, d.states[k]? = some s → ∃ s', d'.states[k]? = some s' ∧ ∀ m0, ∃ m1,
        lc3Decode P (c.channel d.nch k) (some s) m0 = some (r k, some s', m1) ∧
        (r k = -1 → ∀ i : Nat, i < n → mem' (k + i * d.nch) = mem (k + i * d.nch)) ∧
        (r k ≠ -1 → ∀ i : Nat, i < n → mem' (k + i * d.nch) = m1 i)) ∧
      (∀ a : Int, a < 0 ∨ (d.nch * n : Nat) ≤ a → mem' a = mem a) := by
  rw [cppDecode_eq P c d hc mem hd.pos hd.len]
  constructor
  · rw [Option.isSome_map]
    constructor
    · intro h k s hs
      obtain ⟨rs, hrs⟩ := Option.isSome_iff_exists.1 h
      obtain ⟨m1, m2⟩ := mapM_get _ _ _ hrs
      rw [List.length_zipIdx] at m1
      obtain ⟨hk, hse⟩ := List.getElem?_eq_some_iff.mp hs
      have hm := m2 k (by rw [List.length_zipIdx]; exact hk) (by omega)
      rw [List.getElem_zipIdx] at hm
      dsimp only at hm
      rw [Nat.zero_add, hse] at hm
      rw [lc3Decode_out, hm]
      rfl
    · intro h
      obtain ⟨rs, hrs, -⟩ := mapM_prop (fun p : Dec R × Nat => decOut P (c.channel d.nch p.2) (some p.1)) (fun _ => True) d.states.zipIdx (by
        intro p hp
        obtain ⟨k, hk, rfl⟩ := List.mem_iff_getElem.mp hp
        rw [List.length_zipIdx] at hk
        rw [List.getElem_zipIdx]
        dsimp only
        rw [Nat.zero_add]
        have := h k _ (List.getElem?_eq_getElem hk)
        rw [lc3Decode_out, Option.isSome_map] at this
        obtain ⟨v, hv⟩ := Option.isSome_iff_exists.1 this
        exact ⟨v, hv, trivial⟩)
      rw [hrs]; rfl
  · intro ret d' mem' h
    obtain ⟨rs, h1, h2⟩ := Option.map_eq_some_iff.1 h
    rw [Prod.mk.injEq, Prod.mk.injEq] at h2
    obtain ⟨h2, h3, h4⟩ := h2
    obtain ⟨m1, m2⟩ := mapM_get _ _ _ h1
    rw [List.length_zipIdx, hd.len] at m1
    have key : ∀ k (hk : k < d.nch), ∃ s', rs[k].2.1 = some s' ∧ DecInv P.A s' ∧ ns s'.dt s'.srPcm = n ∧
        (rs[k].1 = -1 ∧ rs[k].2.2 = [] ∨ rs[k].1 ≠ -1 ∧ rs[k].2.2.length = n) ∧
        decOut P (c.channel d.nch k) (some (d.states[k]'(by rw [hd.len]; exact hk))) = some (rs[k].1, some s', rs[k].2.2) := by
      intro k hk
      have hk' : k < d.states.length := by rw [hd.len]; exact hk
      have hm := m2 k (by rw [List.length_zipIdx]; exact hk') (by omega)
      rw [List.getElem_zipIdx] at hm
      dsimp only at hm
      rw [Nat.zero_add] at hm
      obtain ⟨i1, i2⟩ := hd.inv _ (List.getElem_mem hk')
      obtain ⟨s', g1, g2, g3, g4, g5⟩ := decOut_inv P _ _ i1 (dec_channel_ok c d.nch k hc hk) mem rs[k].1 rs[k].2.1 rs[k].2.2 hm
      obtain ⟨-, s'', g6, g7⟩ := decOut_ret P _ _ rs[k].1 rs[k].2.1 rs[k].2.2 hm
      rw [g1] at g6
      have g6 := Option.some.inj g6
      subst g6
      have hn : ns s'.dt s'.srPcm = n := by rw [g3, g5, i2]
      rw [hn] at g7
      refine ⟨s', g1, g2, hn, g7, ?_⟩
      rw [hm, ← g1]
    obtain ⟨f1, f2⟩ := filterMap_all_some (fun r : Int × Option (Dec R) × List α => r.2.1) rs (by
      intro b hb
      obtain ⟨k, hk, rfl⟩ := List.mem_iff_getElem.mp hb
      obtain ⟨s', h, -⟩ := key k (by omega)
      rw [h]; rfl)
    have hst : d'.states = rs.filterMap fun r => r.2.1 := by rw [← h3]
    have hnch : d'.nch = d.nch := by rw [← h3]
    obtain ⟨t1, t2⟩ := storeAll_spec d.nch hd.pos (rs.map fun r => r.2.2) 0 mem (by rw [List.length_map]; omega)
    rw [h4] at t1 t2
    refine ⟨⟨by rw [hnch]; exact hd.pos, by rw [hst, f1, m1, hnch], ?_⟩, hnch, fun k => (rs[k]?.map fun r => r.1).getD 0, ?_, ?_, ?_⟩
    · intro s hs
      rw [hst] at hs
      obtain ⟨k, hk, rfl⟩ := List.mem_iff_getElem.mp hs
      have hk' : k < d.nch := by omega
      have := f2 k
      rw [List.getElem?_eq_getElem hk, List.getElem?_eq_getElem (by omega), Option.bind_some] at this
      obtain ⟨s', g1, g2, g3, -⟩ := key k hk'
      rw [g1] at this
      rw [Option.some.inj this]
      exact ⟨g2, g3⟩
    · rw [← h2]
      congr 1
      apply List.ext_getElem
      · simp [m1]
      · intro k hk hk'
        rw [List.length_map] at hk
        simp [hk]
    · intro k s hs
      obtain ⟨hk, hse⟩ := List.getElem?_eq_some_iff.mp hs
      rw [hd.len] at hk
      obtain ⟨s', g1, g2, g3, g4, g5⟩ := key k hk
      have hr : (rs[k]?.map fun r => r.1).getD 0 = rs[k].1 := by rw [List.getElem?_eq_getElem (by omega)]; rfl
      dsimp only
      rw [hr]
      refine ⟨s', ?_, fun m0 => ⟨pcmStore 1 0 rs[k].2.2 m0, ?_, ?_, ?_⟩⟩
      · rw [hst, f2 k, List.getElem?_eq_getElem (by omega), Option.bind_some, g1]
      · rw [← hse, lc3Decode_out, g5]; rfl
      · intro hneg i hi
        apply t2
        intro k' hk' i' hi' he
        rw [List.length_map] at hk'
        rw [List.getElem_map] at hi'
        have he' : k + i * d.nch = k' + i' * d.nch := by
          rw [Nat.zero_add] at he
          exact_mod_cast he
        have e1 : (k + i * d.nch) % d.nch = k := by rw [Nat.add_mul_mod_self_right, Nat.mod_eq_of_lt hk]
        have e2 : (k' + i' * d.nch) % d.nch = k' := by rw [Nat.add_mul_mod_self_right, Nat.mod_eq_of_lt (by omega)]
        rw [he', e2] at e1
        subst e1
        rcases g4 with ⟨-, g⟩ | ⟨g, -⟩
        · rw [g] at hi'; exact absurd hi' (Nat.not_lt_zero _)
        · exact g hneg
      · intro hneg i hi
        rcases g4 with ⟨g, -⟩ | ⟨-, g⟩
        · exact absurd g hneg
        · have := t1 k (by rw [List.length_map]; omega) i (by rw [List.getElem_map, g]; exact hi)
          rw [Nat.zero_add] at this
          rw [this]
          simp only [List.getElem_map]
          have hp := (pcmStore_spec (1 : Int) (by decide) rs[k].2.2 0 m0).1 i (by omega)
          rw [Int.zero_add, Int.mul_one] at hp
          rw [hp]
    · intro a ha
      apply t2
      intro k hk i hi he
      rw [List.length_map] at hk
      rw [List.getElem_map] at hi
      obtain ⟨s', -, -, -, g4, -⟩ := key k (by omega)
      have hi' : i < n := by
        rcases g4 with ⟨-, g⟩ | ⟨-, g⟩
        · rw [g] at hi; exact absurd hi (Nat.not_lt_zero _)
        · omega
      rw [Nat.zero_add] at he
      have hx : k + i * d.nch < d.nch * n := by
        have : (i + 1) * d.nch ≤ n * d.nch := Nat.mul_le_mul_right _ hi'
        rw [Nat.mul_comm n, Nat.add_mul] at this
        omega
      have he' : a = ((k + i * d.nch : Nat) : Int) := by rw [he]; push_cast; rfl
      omega

/-- **C36**, decoder: on any sequence of calls, each channel of a decoder goes through the states, and returns the values, of a decoder of
one channel that receives the parts of the blocks of this channel alone. -/
theorem C36_decode_run_partial (P : Platform R) (calls : List (BlockDecCall R α)) (n : Nat) : ∀ (d : CppDec R) (mem : Int → α), d.Inv P.A n →
    (∀ c ∈ calls, c.Ok d.nch) → ∀ rets d' mem', cppDecRun P calls d mem = some (rets, d', mem') →
    d'.Inv P.A n ∧ d'.nch = d.nch ∧ rets.length = calls.length ∧ ∃ W : Nat → List Int,
      (∀ k s, d.states[k]? = some s → ∃ s', d'.states[k]? = some s' ∧ ∀ m0, ∃ m1,
        decRun P (calls.map fun c => c.channel d.nch k) (some s) m0 = some (W k, some s', m1)) ∧
      ∀ j : Nat, j < calls.length → rets[j]? = some (blockRet ((List.range d.nch).map fun k => ((W k)[j]?).getD 0)) := by
  induction calls with
  | nil =>
    intro d mem hd _ rets d' mem' h
    cases h
    exact ⟨hd, rfl, rfl, fun _ => [], fun k s hs => ⟨s, hs, fun m0 => ⟨m0, rfl⟩⟩, fun j hj => absurd hj (Nat.not_lt_zero _)⟩
  | cons c l ih =>
    intro d mem hd hok rets d' mem' h
    unfold cppDecRun at h
    obtain ⟨⟨r, d1, mem1⟩, h1, h2⟩ := Option.bind_eq_some_iff.1 h
    obtain ⟨⟨w2, d2, mem2⟩, h3, h4⟩ := Option.map_eq_some_iff.1 h2
    cases h4
    obtain ⟨i1, i2, v, i3, i4, -⟩ := (C36_decode_partial P c d n hd (hok c (by simp)) mem).2 r d1 mem1 h1
    obtain ⟨j1, j2, j3, W, j4, j5⟩ := ih d1 mem1 i1 (fun c hc => by rw [i2]; exact hok c (by simp [hc])) w2 _ _ h3
    refine ⟨j1, by rw [j2, i2], by rw [List.length_cons, List.length_cons, j3], fun k => v k :: W k, ?_, ?_⟩
    · intro k s hs
      obtain ⟨s1, k1, k2⟩ := i4 k s hs
      obtain ⟨s2, k3, k4⟩ := j4 k s1 k1
      refine ⟨s2, k3, fun m0 => ?_⟩
      obtain ⟨m1, q1, -⟩ := k2 m0
      obtain ⟨m2, q2⟩ := k4 m1
      refine ⟨m2, ?_⟩
      rw [List.map_cons]
      unfold decRun
      rw [q1, Option.bind_some]
      dsimp only
      rw [i2] at q2
      rw [q2]
      rfl
    · intro j hj
      cases j with
      | zero =>
        rw [List.getElem?_cons_zero, i3]
        rfl
      | succ j =>
        rw [List.getElem?_cons_succ, j5 j (by rw [List.length_cons] at hj; omega), i2]
        rfl

/-- **C36, refuted** for lost blocks of several channels: `Decode` with `nullptr` and a size, which is how `lc3_decode` is told that a frame
of this size is lost, adds the size of a frame to the null pointer, and gives the result to `lc3_decode` as the frame of the second
channel: undefined, for every state. -/
theorem C36_lost_undefined (P : Platform R) (c : BlockDecCall R α) (d : CppDec R) (mem : Int → α) (hn : 2 ≤ d.nch)
    (hs : d.states.length = d.nch) (hi : c.inp = none) (hb : 0 < c.blockSize ∧ c.blockSize < 2147483648) : cppDecode P c d mem = none := by
  unfold cppDecode
  rw [if_neg (by omega)]
  obtain ⟨nch, states⟩ := d
  dsimp only at *
  match states, hs with
  | s0 :: s1 :: l, hs =>
    have hsz : cppFrameSize c.blockSize nch 0 ≠ 0 := by
      have := cppFrameSize_nat c.blockSize.toNat nch 0 (by omega)
      rw [Int.toNat_of_nonneg (by omega)] at this
      rw [this]
      have hpos : 0 < channelBytes c.blockSize.toNat nch 0 := by
        unfold channelBytes
        have h1 := Nat.mod_add_div c.blockSize.toNat nch
        have hb0 : 0 < c.blockSize.toNat := by have := hb.1; omega
        generalize c.blockSize.toNat = b at h1 hb0
        by_cases h : 0 < b % nch
        · rw [if_pos h]; exact Nat.succ_pos _
        · rw [if_neg h, Nat.add_zero]
          apply Nat.pos_of_ne_zero
          intro h2
          rw [h2, Nat.mul_zero] at h1
          omega
      omega
    have : cppDecLoop P c nch 0 (s0 :: s1 :: l) 0 0 mem = none := by
      unfold cppDecLoop
      dsimp only
      cases cppRegion c.inp 0 with
      | none => rfl
      | some region =>
        rw [Option.bind_some]
        cases lc3Decode P ⟨region, cppFrameSize c.blockSize nch 0, c.conv, (0 : Nat), nch, c.junk 0⟩ (some s0) mem with
        | none => rfl
        | some r =>
          rw [Option.bind_some]
          unfold cppDecLoop
          dsimp only
          have : cppRegion c.inp (0 + cppFrameSize c.blockSize nch 0) = none := by
            unfold cppRegion; rw [hi]; dsimp only; rw [if_neg (by omega)]
          rw [this]
          rfl
    rw [this]; rfl
  | [s0], hs => simp at hs; omega
  | [], hs => simp at hs; omega

theorem pcmStore3_out (stride : Int) (hs : 0 ≤ stride) (l : List (Nat × Nat × Nat)) : ∀ (p : Int) (m : Int → Nat) (a : Int),
    a < p ∨ p + 3 * stride * l.length + 3 ≤ a + 3 * stride → pcmStore3 stride p l m a = m a := by
  induction l with
  | nil => intro p m a _; rfl
  | cons v l ih =>
    intro p m a ha
    obtain ⟨b0, b1, b2⟩ := v
    unfold pcmStore3
    rw [List.length_cons] at ha
    have hx : 3 * stride * ((l.length + 1 : Nat) : Int) = 3 * stride * l.length + 3 * stride := by push_cast; ring
    rw [hx] at ha
    have hnn : 0 ≤ 3 * stride * (l.length : Int) := Int.mul_nonneg (by omega) (by omega)
    rw [ih _ _ _ (by omega)]
    rw [if_neg (by omega), if_neg (by omega), if_neg (by omega)]

/-- **C36, refuted** for `Decode` with a pointer to `int32_t`: the samples are written packed in 3 bytes. With at least 5 samples per
frame, the last sample of every channel, at the byte `4 (k + (n - 1) nch)` of the output, is never written. -/
theorem C36_decode_int32_refuted (nch n : Nat) (hn : 5 ≤ n) (chs : List (List (Nat × Nat × Nat))) : ∀ (ich : Nat) (mem : Int → Nat),
    ich + chs.length ≤ nch → (∀ l ∈ chs, l.length ≤ n) → ∀ a : Int, (4 * ((n - 1) * nch) : Nat) ≤ a → cppDecodeInt32 nch ich chs mem a = mem a := by
  induction chs with
  | nil => intro ich mem _ _ a _; rfl
  | cons l ls ih =>
    intro ich mem hl hlen a ha
    rw [List.length_cons] at hl
    unfold cppDecodeInt32
    rw [ih (ich + 1) _ (by omega) (fun l hl => hlen l (by simp [hl])) a ha]
    apply pcmStore3_out _ (by omega)
    right
    have h1 := hlen l (by simp)
    have h2 : 3 * (nch : Int) * (l.length : Int) ≤ 3 * nch * n := Int.mul_le_mul_of_nonneg_left (by omega) (by omega)
    obtain ⟨q, rfl⟩ : ∃ q, n = q + 5 := ⟨n - 5, by omega⟩
    have h3 : 4 * ((q + 5 - 1) * nch) = 4 * (q * nch) + 16 * nch := by
      rw [show q + 5 - 1 = q + 4 by omega]; ring
    rw [h3] at ha
    have h4 : 3 * (nch : Int) * ((q + 5 : Nat) : Int) = 3 * ((q * nch : Nat) : Int) + 15 * nch := by push_cast; ring
    omega

/-- **C36, refuted**: with two channels, the second one overwrites the samples of the first: the bytes 4 to 6 are both the start of the
second channel and, for the byte 6, the low byte of the second sample of the first channel. -/
theorem C36_decode_int32_overlap (s00 s01 s10 s11 : Nat × Nat × Nat) (mem : Int → Nat) :
    cppDecodeInt32 2 0 [[s00, s01], [s10, s11]] mem 6 = s10.2.2 ∧ pcmStore3 2 0 [s00, s01] mem 6 = s01.1 := by
  obtain ⟨a, b, c⟩ := s00
  obtain ⟨a', b', c'⟩ := s01
  obtain ⟨e, f, g⟩ := s10
  obtain ⟨e', f', g'⟩ := s11
  constructor
  · simp [cppDecodeInt32, pcmStore3]
  · simp [pcmStore3]

end Decoder

/-! ## Constructors -/

section New
variable {R α : Type}

theorem cppPcmRate_eq {srHz srPcmHz : Int} (h : 0 ≤ srPcmHz) : cppPcmRate srHz srPcmHz = Spec.pcmRate srHz srPcmHz ∧
    Spec.pcmRate srHz (cppPcmRate srHz srPcmHz) = Spec.pcmRate srHz srPcmHz := by
  unfold cppPcmRate Spec.pcmRate
  by_cases h0 : srPcmHz = 0
  · rw [if_pos h0, if_pos (by omega)]
    exact ⟨rfl, by split <;> rfl⟩
  · rw [if_neg h0, if_neg (by omega)]
    exact ⟨rfl, rfl⟩

theorem setupOk_cpp {hr : Bool} {dtUs srHz srPcmHz : Int} {m : Bool} (h : 0 ≤ srPcmHz) :
    Spec.setupOk hr dtUs srHz (cppPcmRate srHz srPcmHz) m ↔ Spec.setupOk hr dtUs srHz srPcmHz m := by
  unfold Spec.setupOk
  rw [(cppPcmRate_eq h).2]

theorem hrEncoderSize_defined (sz : Nat) (hr : Bool) (dtUs srHz : Int) : ∃ size, hrEncoderSize sz hr dtUs srHz = some size := by
  by_cases h : Spec.setupOk hr dtUs srHz 0 true
  · obtain ⟨L, size, -, h2, -⟩ := (C06_setup_encoder sz hr dtUs srHz 0 true).2 h
    exact ⟨size, h2⟩
  · have h' : ¬ Spec.supported hr dtUs srHz := fun hs => h ⟨rfl, hs, hs, Int.le_refl _⟩
    unfold hrEncoderSize
    rcases not_supported h' with h | h
    · rw [h]; exact ⟨0, rfl⟩
    · rw [h]; cases resolveDt dtUs hr <;> exact ⟨0, rfl⟩

theorem hrDecoderSize_defined (sz : Nat) (hr : Bool) (dtUs srHz : Int) : ∃ size, hrDecoderSize sz hr dtUs srHz = some size := by
  by_cases h : Spec.setupOk hr dtUs srHz 0 true
  · obtain ⟨L, size, -, h2, -⟩ := (C06_setup_decoder sz hr dtUs srHz 0 true).2 h
    exact ⟨size, h2⟩
  · have h' : ¬ Spec.supported hr dtUs srHz := fun hs => h ⟨rfl, hs, hs, Int.le_refl _⟩
    unfold hrDecoderSize
    rcases not_supported h' with h | h
    · rw [h]; exact ⟨0, rfl⟩
    · rw [h]; cases resolveDt dtUs hr <;> exact ⟨0, rfl⟩

/-- One instance: the memory allocated is the memory initialised. -/
theorem cppEncState_eq (sz : Nat) (A : Arith R) (hr : Bool) (dtUs srHz srPcmHz : Int) (h : 0 ≤ srPcmHz) (ok : Bool) :
    cppEncState sz A hr dtUs srHz (cppPcmRate srHz srPcmHz) ok = encSetup A hr dtUs srHz srPcmHz ok := by
  obtain ⟨e1, e2⟩ := cppPcmRate_eq (srHz := srHz) h
  have hset : setupEncoder hr dtUs srHz (cppPcmRate srHz srPcmHz) ok = setupEncoder hr dtUs srHz srPcmHz ok := by
    unfold setupEncoder
    have : ∀ x : Int, (if x ≤ 0 then srHz else x) = Spec.pcmRate srHz x := fun _ => rfl
    dsimp only
    rw [this, this, e2]
  have hset' : encSetup A hr dtUs srHz (cppPcmRate srHz srPcmHz) ok = encSetup A hr dtUs srHz srPcmHz ok := by
    unfold encSetup
    rw [hset]
  unfold cppEncState
  obtain ⟨s1, s2⟩ := C06_setup_encoder sz hr dtUs srHz srPcmHz ok
  by_cases hok : Spec.setupOk hr dtUs srHz srPcmHz ok
  · obtain ⟨L, size, h1, h2, -, -, -, -, -, -, -, h3, -⟩ := s2 hok
    rw [hset, hset', e1, h1, h2, Option.bind_some, Option.bind_some]
    dsimp only
    unfold Spec.floatsAnnounced at h3
    rw [if_neg (by omega)]
  · obtain ⟨size, hsize⟩ := hrEncoderSize_defined sz hr dtUs (cppPcmRate srHz srPcmHz)
    rw [hsize, hset, s1 hok, Option.bind_some, Option.bind_some]
    unfold encSetup
    rw [s1 hok]
    rfl

theorem cppDecState_eq (sz : Nat) (A : Arith R) (hr : Bool) (dtUs srHz srPcmHz : Int) (h : 0 ≤ srPcmHz) (ok : Bool) :
    cppDecState sz A hr dtUs srHz (cppPcmRate srHz srPcmHz) ok = decSetup A hr dtUs srHz srPcmHz ok := by
  obtain ⟨e1, e2⟩ := cppPcmRate_eq (srHz := srHz) h
  have hset : setupDecoder hr dtUs srHz (cppPcmRate srHz srPcmHz) ok = setupDecoder hr dtUs srHz srPcmHz ok := by
    unfold setupDecoder
    have : ∀ x : Int, (if x ≤ 0 then srHz else x) = Spec.pcmRate srHz x := fun _ => rfl
    dsimp only
    rw [this, this, e2]
  have hset' : decSetup A hr dtUs srHz (cppPcmRate srHz srPcmHz) ok = decSetup A hr dtUs srHz srPcmHz ok := by
    unfold decSetup
    rw [hset]
  unfold cppDecState
  obtain ⟨s1, s2⟩ := C06_setup_decoder sz hr dtUs srHz srPcmHz ok
  by_cases hok : Spec.setupOk hr dtUs srHz srPcmHz ok
  · obtain ⟨L, size, h1, h2, -, -, -, -, -, -, -, -, h3, -⟩ := s2 hok
    rw [hset, hset', e1, h1, h2, Option.bind_some, Option.bind_some]
    dsimp only
    unfold Spec.floatsAnnounced at h3
    rw [if_neg (by omega)]
  · obtain ⟨size, hsize⟩ := hrDecoderSize_defined sz hr dtUs (cppPcmRate srHz srPcmHz)
    rw [hsize, hset, s1 hok, Option.bind_some, Option.bind_some]
    unfold decSetup
    rw [s1 hok]
    rfl

theorem filterMap_id_lt {β : Type} (l : List (Option β)) (h : none ∈ l) : (l.filterMap id).length < l.length := by
  induction l with
  | nil => simp at h
  | cons a l ih =>
    cases a with
    | none =>
      rw [List.filterMap_cons_none rfl, List.length_cons]
      exact Nat.lt_succ_of_le (List.length_filterMap_le _ _)
    | some b =>
      rw [List.filterMap_cons_some (f := id) (b := b) rfl, List.length_cons, List.length_cons]
      exact Nat.succ_lt_succ (ih (by simpa using h))

/-- The instances built, from the success of the allocations. -/
theorem new_states {β : Type} (f : Bool → Option (Option β)) (mallocs : List Bool)
    (hf : ∀ m, ∃ o, f m = some o ∧ (m = false → o = none)) : ∃ l, mallocs.mapM f = some l ∧ l.length = mallocs.length ∧
      (∀ s0, f true = some (some s0) → (∀ m ∈ mallocs, m = true) → l.filterMap id = List.replicate mallocs.length s0) ∧
      (mallocs ≠ [] → (f true = some none ∨ ∃ m ∈ mallocs, m = false) → (l.filterMap id).length < mallocs.length) := by
  have hg : ∃ l, mallocs.mapM f = some l := by
    obtain ⟨l, h, -⟩ := mapM_prop f (fun _ => True) mallocs (by
      intro m _
      obtain ⟨o, h, -⟩ := hf m
      exact ⟨o, h, trivial⟩)
    exact ⟨l, h⟩
  obtain ⟨l, hl⟩ := hg
  obtain ⟨m1, m2⟩ := mapM_get _ _ _ hl
  refine ⟨l, hl, m1, ?_, ?_⟩
  · intro s0 h0 hall
    have : l = List.replicate mallocs.length (some s0) := by
      apply List.ext_getElem
      · rw [List.length_replicate, m1]
      · intro k hk _
        have := m2 k (by omega) hk
        rw [hall _ (List.getElem_mem _), h0] at this
        rw [List.getElem_replicate, ← Option.some.inj this]
    rw [this]
    generalize mallocs.length = n
    induction n with
    | zero => rfl
    | succ n ih => rw [List.replicate_succ, List.replicate_succ, List.filterMap_cons_some (f := id) (b := s0) rfl, ih]
  · intro hne hbad
    rw [← m1]
    apply filterMap_id_lt
    have key : ∃ k, ∃ h : k < mallocs.length, f mallocs[k] = some none := by
      rcases hbad with hb | ⟨m, hm, rfl⟩
      · refine ⟨0, List.length_pos_iff.2 hne, ?_⟩
        generalize mallocs[0]'_ = m
        cases m with
        | true => exact hb
        | false => obtain ⟨o, h1, h2⟩ := hf false; rw [h1, h2 rfl]
      · obtain ⟨k, hk, hke⟩ := List.mem_iff_getElem.mp hm
        refine ⟨k, hk, ?_⟩
        obtain ⟨o, h1, h2⟩ := hf false
        rw [hke, h1, h2 rfl]
    obtain ⟨k, hk, hke⟩ := key
    have := m2 k hk (by omega)
    rw [hke] at this
    rw [Option.some.inj this]
    exact List.getElem_mem _

/-- **C36**, construction of an encoder: it is defined for any parameters and any outcome of the allocations, as long as `sr_pcm_hz` is not
negative. When the parameters are supported and the allocations succeed, every channel is in the initial state of `lc3_hr_setup_encoder`.
Otherwise `Encode` returns -1, without effect. -/
theorem C36_new_encoder [Inhabited R] (P : EncPlatform R) (sz : Nat) (hr : Bool) (dtUs srHz srPcmHz : Int) (h0 : 0 ≤ srPcmHz) (mallocs : List Bool)
    (hn : mallocs ≠ []) : ∃ e, cppEncNew sz P.A hr dtUs srHz srPcmHz mallocs = some e ∧ e.nch = mallocs.length ∧
      (Spec.setupOk hr dtUs srHz srPcmHz true ∧ (∀ m ∈ mallocs, m = true) →
        ∃ s0, encSetup P.A hr dtUs srHz srPcmHz true = some (some s0) ∧ e.states = List.replicate mallocs.length s0 ∧
          e.Inv (ns s0.dt s0.srPcm)) ∧
      (¬ (Spec.setupOk hr dtUs srHz srPcmHz true ∧ (∀ m ∈ mallocs, m = true)) →
        ∀ c : BlockCall R α, cppEncode P c e = some (-1, c.out, e)) := by
  have hf : ∀ m, ∃ o, encSetup P.A hr dtUs srHz srPcmHz m = some o ∧ (m = false → o = none) := by
    intro m
    unfold encSetup
    by_cases hok : Spec.setupOk hr dtUs srHz srPcmHz m
    · obtain ⟨L, size, h1, -⟩ := (C06_setup_encoder sz hr dtUs srHz srPcmHz m).2 hok
      rw [h1]
      refine ⟨_, rfl, fun hm => ?_⟩
      rw [hm] at hok
      exact absurd hok.1 (by decide)
    · rw [(C06_setup_encoder sz hr dtUs srHz srPcmHz m).1 hok]
      exact ⟨none, rfl, fun _ => rfl⟩
  obtain ⟨l, h1, h2, h3, h4⟩ := new_states _ mallocs hf
  have hl : mallocs.mapM (cppEncState sz P.A hr dtUs srHz (cppPcmRate srHz srPcmHz)) = some l := by
    rw [← h1]
    congr 1
    funext m
    exact cppEncState_eq sz P.A hr dtUs srHz srPcmHz h0 m
  refine ⟨⟨mallocs.length, l.filterMap id⟩, ?_, rfl, ?_, ?_⟩
  · unfold cppEncNew
    rw [hl]; rfl
  · rintro ⟨hok, hall⟩
    obtain ⟨L, size, g1, -⟩ := (C06_setup_encoder sz hr dtUs srHz srPcmHz true).2 hok
    obtain ⟨s0, hs0⟩ : ∃ s0, encSetup P.A hr dtUs srHz srPcmHz true = some (some s0) := by
      unfold encSetup; rw [g1]; exact ⟨_, rfl⟩
    have hst := h3 s0 hs0 hall
    refine ⟨s0, hs0, hst, ⟨List.length_pos_iff.2 hn, ?_, ?_⟩⟩
    · dsimp only; rw [hst, List.length_replicate]
    · intro s hs
      dsimp only at hs
      rw [hst] at hs
      rw [List.eq_of_mem_replicate hs]
      exact ⟨(encSetup_inv P hr dtUs srHz srPcmHz true s0 hs0).1, rfl⟩
  · intro hno c
    have hlt := h4 hn (by
      by_cases hok : Spec.setupOk hr dtUs srHz srPcmHz true
      · right
        apply Classical.byContradiction
        intro hne
        refine hno ⟨hok, fun m hm => ?_⟩
        cases m with
        | true => rfl
        | false => exact absurd ⟨false, hm, rfl⟩ hne
      · left
        unfold encSetup
        rw [(C06_setup_encoder sz hr dtUs srHz srPcmHz true).1 hok]
        rfl)
    unfold cppEncode
    dsimp only
    rw [if_pos (by omega)]

/-- **C36**, construction of a decoder. -/
theorem C36_new_decoder (P : Platform R) (sz : Nat) (hr : Bool) (dtUs srHz srPcmHz : Int) (h0 : 0 ≤ srPcmHz) (mallocs : List Bool)
    (hn : mallocs ≠ []) : ∃ d, cppDecNew sz P.A hr dtUs srHz srPcmHz mallocs = some d ∧ d.nch = mallocs.length ∧
      (Spec.setupOk hr dtUs srHz srPcmHz true ∧ (∀ m ∈ mallocs, m = true) →
        ∃ s0, decSetup P.A hr dtUs srHz srPcmHz true = some (some s0) ∧ d.states = List.replicate mallocs.length s0 ∧
          d.Inv P.A (ns s0.dt s0.srPcm)) ∧
      (¬ (Spec.setupOk hr dtUs srHz srPcmHz true ∧ (∀ m ∈ mallocs, m = true)) →
        ∀ (c : BlockDecCall R α) mem, cppDecode P c d mem = some (-1, d, mem)) := by
  have hf : ∀ m, ∃ o, decSetup P.A hr dtUs srHz srPcmHz m = some o ∧ (m = false → o = none) := by
    intro m
    unfold decSetup
    by_cases hok : Spec.setupOk hr dtUs srHz srPcmHz m
    · obtain ⟨L, size, h1, -⟩ := (C06_setup_decoder sz hr dtUs srHz srPcmHz m).2 hok
      rw [h1]
      refine ⟨_, rfl, fun hm => ?_⟩
      rw [hm] at hok
      exact absurd hok.1 (by decide)
    · rw [(C06_setup_decoder sz hr dtUs srHz srPcmHz m).1 hok]
      exact ⟨none, rfl, fun _ => rfl⟩
  obtain ⟨l, h1, h2, h3, h4⟩ := new_states _ mallocs hf
  have hl : mallocs.mapM (cppDecState sz P.A hr dtUs srHz (cppPcmRate srHz srPcmHz)) = some l := by
    rw [← h1]
    congr 1
    funext m
    exact cppDecState_eq sz P.A hr dtUs srHz srPcmHz h0 m
  refine ⟨⟨mallocs.length, l.filterMap id⟩, ?_, rfl, ?_, ?_⟩
  · unfold cppDecNew
    rw [hl]; rfl
  · rintro ⟨hok, hall⟩
    obtain ⟨L, size, g1, -⟩ := (C06_setup_decoder sz hr dtUs srHz srPcmHz true).2 hok
    obtain ⟨s0, hs0⟩ : ∃ s0, decSetup P.A hr dtUs srHz srPcmHz true = some (some s0) := by
      unfold decSetup; rw [g1]; exact ⟨_, rfl⟩
    have hst := h3 s0 hs0 hall
    refine ⟨s0, hs0, hst, ⟨List.length_pos_iff.2 hn, ?_, ?_⟩⟩
    · dsimp only; rw [hst, List.length_replicate]
    · intro s hs
      dsimp only at hs
      rw [hst] at hs
      rw [List.eq_of_mem_replicate hs]
      exact ⟨(decSetup_inv P hr dtUs srHz srPcmHz true s0 hs0).1, rfl⟩
  · intro hno c mem
    have hlt := h4 hn (by
      by_cases hok : Spec.setupOk hr dtUs srHz srPcmHz true
      · right
        apply Classical.byContradiction
        intro hne
        refine hno ⟨hok, fun m hm => ?_⟩
        cases m with
        | true => rfl
        | false => exact absurd ⟨false, hm, rfl⟩ hne
      · left
        unfold decSetup
        rw [(C06_setup_decoder sz hr dtUs srHz srPcmHz true).1 hok]
        rfl)
    unfold cppDecode
    dsimp only
    rw [if_pos (by omega)]

/-- **C36, refuted** for a negative `sr_pcm_hz`, which the setup takes as `sr_hz`: the size of the allocation is 0, the constructor writes
out of it. -/
theorem C36_new_negative_undefined (P : EncPlatform R) (Q : Platform R) (sz : Nat) (hsz : 0 < sz) (hr : Bool) (dtUs srHz srPcmHz : Int)
    (h0 : srPcmHz < 0) (hs : Spec.supported hr dtUs srHz) (l : List Bool) :
    cppEncNew sz P.A hr dtUs srHz srPcmHz (true :: l) = none ∧ cppDecNew sz Q.A hr dtUs srHz srPcmHz (true :: l) = none := by
  have e : cppPcmRate srHz srPcmHz = srPcmHz := if_neg (by omega)
  have hok : Spec.setupOk hr dtUs srHz srPcmHz true := by
    refine ⟨rfl, hs, ?_, ?_⟩ <;> unfold Spec.pcmRate <;> rw [if_pos (by omega)]
    exact hs
  have hns : resolveSrate srPcmHz hr = none := by
    unfold resolveSrate
    cases hr
    · simp only [Bool.false_eq_true, false_and, if_false]
      (repeat rw [if_neg (by omega)])
    · (repeat rw [if_neg (by omega)])
  have hp : Spec.pcmRate srHz srPcmHz = srHz := if_pos (by omega)
  constructor
  · obtain ⟨L, size, h1, -, -, -, -, h4, h5, h6, h7, h8, -⟩ := (C06_setup_encoder sz hr dtUs srHz srPcmHz true).2 hok
    have hz : hrEncoderSize sz hr dtUs srPcmHz = some 0 := by
      unfold hrEncoderSize; rw [hns]; cases resolveDt dtUs hr <;> rfl
    have : cppEncState sz P.A hr dtUs srHz (cppPcmRate srHz srPcmHz) true = none := by
      unfold cppEncState
      rw [e, hz, h1, Option.bind_some, Option.bind_some]
      dsimp only
      rw [if_pos]
      have : 0 < ns L.dt L.srPcm := by cases L.dt <;> cases L.srPcm <;> decide
      omega
    unfold cppEncNew
    rw [List.mapM_cons, this]
    rfl
  · obtain ⟨L, size, h1, -, -, -, -, h4, h5, h6, h6', h7, h8, -⟩ := (C06_setup_decoder sz hr dtUs srHz srPcmHz true).2 hok
    have hz : hrDecoderSize sz hr dtUs srPcmHz = some 0 := by
      unfold hrDecoderSize; rw [hns]; cases resolveDt dtUs hr <;> rfl
    have : cppDecState sz Q.A hr dtUs srHz (cppPcmRate srHz srPcmHz) true = none := by
      unfold cppDecState
      rw [e, hz, h1, Option.bind_some, Option.bind_some]
      dsimp only
      rw [if_pos]
      have : 0 < ns L.dt L.srPcm := by cases L.dt <;> cases L.srPcm <;> decide
      omega
    unfold cppDecNew
    rw [List.mapM_cons, this]
    rfl

end New

/-! ## Examples -/

/-- A block of two channels of 16 bits samples. -/
def exBlock (n : Int) : BlockCall Rat Int :=
  ⟨fun i => if i % 7 < 3 then 100 * i % 256 else -7, fun p => some (p, (p : Rat)), n, List.replicate 43 7, fun _ => ⟨⟨true, 7⟩, fun _ => 3⟩⟩

theorem exBlock_ok (n : Int) (h : 0 ≤ n ∧ n ≤ 43) : (exBlock n).Ok 2 20 := by
  refine ⟨fun i _ => ⟨_, _, rfl, ?_⟩, ⟨h.1, by show n < _; omega⟩, ?_⟩
  · dsimp only [exBlock]
    split <;> omega
  · show n ≤ ((List.replicate 43 7).length : Int)
    rw [List.length_replicate]; omega

set_option maxRecDepth 100000 in
/-- A block of 41 bytes: frames of 21 and 20 bytes, the second being the frame of this channel in `exEncRun_outputs`. A block of 39 bytes is
refused for the second channel, after the first one has been encoded. -/
theorem exBlock_outputs :
    ((cppEncNew 0 exEncPlat.A false 2500 8000 0 [true, true]).bind fun e => (cppEncode exEncPlat (exBlock 41) e).map fun r => (r.1, r.2.1)) =
      some (0, [12, 67, 82, 172, 205, 98, 84, 156, 187, 19, 191, 146, 12, 192, 254, 43, 46, 191, 225, 52, 105] ++
        [203, 140, 147, 229, 130, 98, 159, 135, 153, 177, 130, 244, 127, 190, 36, 225, 191, 217, 20, 40] ++ [7, 7]) ∧
    ((cppEncNew 0 exEncPlat.A false 2500 8000 0 [true, true]).bind fun e => (cppEncode exEncPlat (exBlock 39) e).map fun r => (r.1, r.2.1)) =
      some (-1, [12, 67, 170, 182, 64, 30, 147, 105, 226, 91, 61, 12, 238, 254, 43, 46, 191, 225, 52, 201] ++ List.replicate 23 7) ∧
    ((cppEncNew 0 exEncPlat.A false 2500 8000 0 [true, false]).bind fun e => (cppEncode exEncPlat (exBlock 41) e).map fun r => (r.1, r.2.1)) =
      some (-1, List.replicate 43 7) := by decide +kernel

/-- The hypotheses of `C36_encode_run` are met. -/
example : ∃ e w e', cppEncNew 0 exEncPlat.A false 2500 8000 0 [true, true] = some e ∧ e.Inv 20 ∧ e.nch = 2 ∧ (exBlock 41).Ok e.nch 20 ∧
    cppEncRun exEncPlat [.encode (exBlock 41)] e = some (w, e') := by
  obtain ⟨e, h1, h2, h3, -⟩ := C36_new_encoder (α := Int) exEncPlat 0 false 2500 8000 0 (by decide) [true, true] (by simp)
  obtain ⟨s0, h4, h5, h6⟩ := h3 ⟨⟨rfl, by unfold Spec.supported; simp, by unfold Spec.supported Spec.pcmRate; simp, by decide⟩, by simp⟩
  obtain ⟨-, -, i1, -, i2⟩ := encSetup_inv exEncPlat _ _ _ _ _ _ h4
  have hdt : s0.dt = .m2_5 := Option.some.inj (i1.symm.trans rfl)
  have hsr : s0.srPcm = .k8 := Option.some.inj (i2.symm.trans rfl)
  rw [hdt, hsr] at h6
  obtain ⟨r, g1, g2⟩ := Option.bind_eq_some_iff.1 exBlock_outputs.1
  rw [h1] at g1
  cases g1
  obtain ⟨⟨v, out, e'⟩, g3, -⟩ := Option.map_eq_some_iff.1 g2
  refine ⟨e, [some (v, out)], e', h1, h6, h2, ?_, ?_⟩
  · rw [h2]; exact exBlock_ok 41 (by decide)
  · unfold cppEncRun; rw [g3]; rfl

/-- A block of two frames of 40 bytes. -/
def exBlockDec : BlockDecCall Rat Rat := ⟨some (exGood ++ exGood), 80, id, fun _ => ⟨⟨true, 7⟩, fun _ => 5, fun _ => 3⟩⟩

/-- The hypotheses of `C36_decode_partial` and `C36_decode_run_partial` are met. -/
example : ∃ d r d' mem', cppDecNew 0 exPlat.A false 10000 8000 0 [true, true] = some d ∧ d.Inv exPlat.A 80 ∧ d.nch = 2 ∧
    exBlockDec.Ok d.nch ∧ cppDecRun exPlat [exBlockDec] d (fun _ => 77) = some (r, d', mem') := by
  obtain ⟨d, h1, h2, h3, -⟩ := C36_new_decoder (α := Rat) exPlat 0 false 10000 8000 0 (by decide) [true, true] (by simp)
  obtain ⟨s0, h4, h5, h6⟩ := h3 ⟨⟨rfl, by unfold Spec.supported; simp, by unfold Spec.supported Spec.pcmRate; simp, by decide⟩, by simp⟩
  obtain ⟨-, -, -, i1, -, i2⟩ := decSetup_inv exPlat _ _ _ _ _ _ h4
  have hdt : s0.dt = .m10 := Option.some.inj (i1.symm.trans rfl)
  have hsr : s0.srPcm = .k8 := Option.some.inj (i2.symm.trans rfl)
  rw [hdt, hsr] at h6
  have hok : exBlockDec.Ok d.nch := by
    refine ⟨by decide, ?_, fun h => by cases h⟩
    intro b hb
    cases hb
    refine ⟨fun b hb => ?_, by decide⟩
    rcases List.mem_append.1 hb with hb | hb <;> exact exGood_bytes b hb
  have hd := (C36_decode_partial exPlat exBlockDec d _ h6 hok (fun _ => 77)).1.2 (by
    intro k s hs
    obtain ⟨hk, hs'⟩ := List.getElem?_eq_some_iff.mp hs
    have hs0 : s = s0 := by
      have hm := List.getElem_mem hk
      rw [hs', h5] at hm
      exact List.eq_of_mem_replicate hm
    rw [hs0]
    rw [h6.len] at hk
    obtain ⟨r, d1, m, h⟩ := C56_no_ub exPlat false 10000 8000 0 true s0 h4 [exBlockDec.channel d.nch k] (by
      intro c hc
      rw [List.mem_singleton] at hc
      rw [hc]
      exact dec_channel_ok _ _ _ hok hk) (fun _ => 77) (by rw [List.length_singleton]; decide)
    unfold decRun at h
    obtain ⟨v, hv, -⟩ := Option.bind_eq_some_iff.1 h
    rw [hv]
    rfl)
  obtain ⟨⟨r, d', mem'⟩, hr⟩ := Option.isSome_iff_exists.1 hd
  refine ⟨d, [r], d', mem', h1, h6, h2, hok, ?_⟩
  unfold cppDecRun
  rw [hr]
  rfl

end LC3
