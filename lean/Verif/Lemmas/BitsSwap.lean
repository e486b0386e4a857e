import Verif.Lemmas.BitsSafe

/-!
Plain bits and symbols are written in independent streams: while the two streams do not meet, the
state of the writer depends on the sequence of the plain fields, and on the sequence of the symbols,
but not on the way they are interleaved.
-/

namespace LC3

/-- Output a sequence of bytes forward. -/
def putBytes (b : Buf) (l : List Int) : Buf := l.foldl acPut b

theorem putBytes_fw (l : List Int) (b : Buf) (h : b.fw ≤ b.data.length) :
    (putBytes b l).fw = min (b.fw + l.length) b.data.length ∧ (putBytes b l).bw = b.bw ∧
    (putBytes b l).data.length = b.data.length := by
  induction l generalizing b with
  | nil => refine ⟨?_, rfl, rfl⟩; simp [putBytes]; omega
  | cons x l ih =>
    have e : putBytes b (x :: l) = putBytes (acPut b x) l := rfl
    rw [e]
    have hp : (acPut b x).fw = min (b.fw + 1) b.data.length ∧
        (acPut b x).data.length = b.data.length ∧ (acPut b x).bw = b.bw := by
      unfold acPut
      split
      · refine ⟨by dsimp only; omega, by simp, rfl⟩
      · refine ⟨by omega, rfl, rfl⟩
    obtain ⟨p1, p2, p3⟩ := hp
    obtain ⟨i1, i2, i3⟩ := ih (acPut b x) (by omega)
    rw [i1, i2, i3, p1, p2, p3]
    refine ⟨?_, rfl, rfl⟩
    simp only [List.length_cons]
    omega

theorem acPutN_bytes (k : Nat) (x : Int) (b : Buf) :
    acPutN k x b = putBytes b (List.replicate k x) := by
  induction k generalizing b with
  | zero => rfl
  | succ k ih => simp only [acPutN, ih, List.replicate_succ]; rfl

theorem putBytes_append (b : Buf) (l1 l2 : List Int) :
    putBytes b (l1 ++ l2) = putBytes (putBytes b l1) l2 := by
  unfold putBytes; rw [List.foldl_append]

theorem acShift_bytes (ac : Ac) : ∃ ac' l, ∀ b, acShift ac b = (ac', putBytes b l) := by
  by_cases h : ac.low < 0xff0000 ∨ ac.carry ≠ 0
  · refine ⟨⟨(ac.low <<< 8) &&& 0xffffff, ac.range, ((ac.low >>> 16 : Nat) : Int), 0, 0, ac.error,
      ac.ub⟩, (if 0 ≤ ac.cache then [ac.cache + ac.carry] else []) ++
        List.replicate ac.carryCount (if ac.carry ≠ 0 then 0x00 else 0xff), fun b => ?_⟩
    unfold acShift
    simp only [if_pos h, acPutN_bytes, putBytes_append]
    by_cases hc : 0 ≤ ac.cache
    · simp only [if_pos hc]; rfl
    · simp only [if_neg hc]; rfl
  · refine ⟨⟨(ac.low <<< 8) &&& 0xffffff, ac.range, ac.cache, ac.carry, ac.carryCount + 1, ac.error,
      ac.ub⟩, [], fun b => ?_⟩
    unfold acShift
    simp only [if_neg h]
    rfl

theorem writeRenorm_bytes (f : Nat) (ac : Ac) :
    ∃ ac' l, ∀ b, writeRenorm f ac b = (ac', putBytes b l) := by
  induction f generalizing ac with
  | zero => exact ⟨_, [], fun b => rfl⟩
  | succ f ih =>
    by_cases h : ac.range < 0x10000
    · obtain ⟨ac1, l1, h1⟩ := acShift_bytes ac
      obtain ⟨ac2, l2, h2⟩ := ih { ac1 with range := (ac1.range <<< 8) % 2 ^ 32 }
      refine ⟨ac2, l1 ++ l2, fun b => ?_⟩
      simp only [writeRenorm, if_pos h, h1, h2, putBytes_append]
    · exact ⟨ac, [], fun b => by simp only [writeRenorm, if_neg h]; rfl⟩

theorem putSymbol_bytes (ac : Ac) (m : AcModel) (s : Nat) :
    ∃ ac' l, ∀ rd accu buf, putSymbol ⟨rd, ac, accu, buf⟩ m s = ⟨rd, ac', accu, putBytes buf l⟩ := by
  have key : ∀ ac1 : Ac, ∃ ac' l, ∀ buf,
      (if ac1.range < 0x10000 then writeRenorm 3 ac1 buf else (ac1, buf)) = (ac', putBytes buf l) := by
    intro ac1
    by_cases h : ac1.range < 0x10000
    · obtain ⟨a, l, hl⟩ := writeRenorm_bytes 3 ac1
      exact ⟨a, l, fun b => by rw [if_pos h, hl]⟩
    · exact ⟨ac1, [], fun b => by rw [if_neg h]; rfl⟩
  unfold putSymbol
  dsimp only
  obtain ⟨a, l, hl⟩ := key { ac with
    low := (ac.low + ac.range >>> 10 * (m.sym s).low) % 2 ^ 32 &&& 0xffffff
    range := (ac.range >>> 10 * (m.sym s).range) % 2 ^ 32
    carry := ac.carry ||| ((ac.low + ac.range >>> 10 * (m.sym s).low) % 2 ^ 32) >>> 24 }
  refine ⟨a, l, fun rd accu buf => ?_⟩
  rw [hl]

theorem flushLoop_acPut (k : Nat) (a : Accu) (b : Buf) (x : Int) (h : b.fw + k < b.bw)
    (hl : b.bw ≤ b.data.length) :
    flushLoop k a (acPut b x) = ((flushLoop k a b).1, acPut (flushLoop k a b).2 x) := by
  induction k generalizing a b with
  | zero => rfl
  | succ k ih =>
    have hp : b.fw < b.data.length := by omega
    have e : acPut b x = ⟨b.data.set b.fw (byteOf x), b.fw + 1, b.bw, b.ub⟩ := by
      unfold acPut; rw [if_pos hp]
    have e2 : ∀ v u, acPut ⟨b.data.set (b.bw - 1) v, b.fw, b.bw - 1, u⟩ x =
        ⟨(b.data.set b.fw (byteOf x)).set (b.bw - 1) v, b.fw + 1, b.bw - 1, u⟩ := by
      intro v u
      unfold acPut
      rw [if_pos (by simpa using hp)]
      dsimp only
      rw [List.set_comm _ _ (by omega)]
    simp only [flushLoop]
    rw [← ih _ _ (by dsimp only; omega) (by dsimp only; rw [List.length_set]; omega)]
    rw [e2, e]
    dsimp only
    rw [List.length_set]

theorem flushLoop_putBytes (k : Nat) (a : Accu) (l : List Int) (b : Buf)
    (h : b.fw + l.length + k < b.bw + 1) (hl : b.bw ≤ b.data.length) :
    flushLoop k a (putBytes b l) = ((flushLoop k a b).1, putBytes (flushLoop k a b).2 l) := by
  induction l generalizing b with
  | nil => rfl
  | cons x l ih =>
    rw [List.length_cons] at h
    have e : ∀ b, putBytes b (x :: l) = putBytes (acPut b x) l := fun _ => rfl
    have hp : (acPut b x).fw = b.fw + 1 ∧ (acPut b x).data.length = b.data.length ∧
        (acPut b x).bw = b.bw := by
      unfold acPut
      rw [if_pos (by omega)]
      exact ⟨rfl, by simp, rfl⟩
    obtain ⟨p1, p2, p3⟩ := hp
    rw [e, e, ih (acPut b x) (by omega) (by omega), flushLoop_acPut k a b x (by omega) hl]

theorem accuFlush_putBytes (a : Accu) (l : List Int) (b : Buf)
    (h : b.fw + l.length + a.n / 8 < b.bw + 1) (hl : b.bw ≤ b.data.length) :
    accuFlush a (putBytes b l) = ((accuFlush a b).1, putBytes (accuFlush a b).2 l) := by
  have e8 : a.n >>> 3 = a.n / 8 := Nat.shiftRight_eq_div_pow _ _
  obtain ⟨f1, f2, f3⟩ := putBytes_fw l b (by omega)
  have m1 : min (a.n / 8) (b.bw - b.fw) = a.n / 8 := by omega
  have m2 : min (a.n / 8) ((putBytes b l).bw - (putBytes b l).fw) = a.n / 8 := by rw [f1, f2]; omega
  unfold accuFlush
  simp only [e8, m1, m2]
  rw [flushLoop_putBytes _ _ l b h hl]

theorem flushLoop_fw (k : Nat) (a : Accu) (b : Buf) : (flushLoop k a b).2.fw = b.fw := by
  induction k generalizing a b with
  | zero => rfl
  | succ k ih => simp only [flushLoop, ih]

theorem accuFlush_fw (a : Accu) (b : Buf) : (accuFlush a b).2.fw = b.fw := by
  unfold accuFlush
  exact flushLoop_fw _ _ _

/-- A plain field and a symbol commute, while the streams do not meet. -/
theorem put_swap (b : Bits) (h : WInv b) (v n : Nat) (m : AcModel) (s : Nat)
    (hn : 1 ≤ n ∧ n ≤ 31 ∧ v < 2 ^ n) (hm : m.WF) (hs : m.Codable s)
    (hf : Fit (putSymbol (putBits b v n) m s) ∨ Fit (putBits (putSymbol b m s) v n)) :
    putSymbol (putBits b v n) m s = putBits (putSymbol b m s) v n := by
  obtain ⟨w1, w2, w3, w4⟩ := winv_bits b h v n ⟨hn.1, by omega⟩ hn.2.2
  obtain ⟨y1, y2, y3⟩ := winv_sym _ w1 m s hm hs
  obtain ⟨rd, ac, accu, buf⟩ := b
  obtain ⟨ac', l, hl⟩ := putSymbol_bytes ac m s
  have hbw := putBits_bw ⟨rd, ac, accu, buf⟩ v n h.accu.n_le
  have hac : (putBits ⟨rd, ac, accu, buf⟩ v n).ac = ac ∧
      (putBits ⟨rd, ac, accu, buf⟩ v n).buf.fw = buf.fw := by
    obtain ⟨p1, p2, p3, p4, p5, p6, p7⟩ :=
      putBits_spec ⟨rd, ac, accu, buf⟩ v n h.accu ⟨hn.1, by omega⟩ hn.2.2
    exact ⟨p2, p4⟩
  have e1 : putSymbol (putBits ⟨rd, ac, accu, buf⟩ v n) m s =
      ⟨(putBits ⟨rd, ac, accu, buf⟩ v n).rd, ac', (putBits ⟨rd, ac, accu, buf⟩ v n).accu,
        putBytes (putBits ⟨rd, ac, accu, buf⟩ v n).buf l⟩ := by
    generalize putBits ⟨rd, ac, accu, buf⟩ v n = q at *
    obtain ⟨rd', a', accu', buf'⟩ := q
    have := hac.1
    dsimp only at this
    subst this
    exact hl _ _ _
  have hle := h.accu.bw_le
  have hn32 := h.accu.n_le
  have hfwl := h.fw.fw_le
  dsimp only at hle hn32 hfwl
  obtain ⟨g1, g2, g3⟩ := putBytes_fw l buf hfwl
  have hfit : accu.n + n ≤ 32 ∨ buf.fw + l.length + 32 / 8 < buf.bw + 1 := by
    by_cases hc : accu.n + n ≤ 32
    · exact .inl hc
    · refine .inr ?_
      have hbw2 := putBits_bw ⟨rd, ac', accu, putBytes buf l⟩ v n hn32
      rcases hf with hf | hf
      · unfold Fit at hf
        rw [e1] at hf
        dsimp only at hf
        have hfw : (putBytes (putBits ⟨rd, ac, accu, buf⟩ v n).buf l).fw ≤
            acK ac' (putBytes (putBits ⟨rd, ac, accu, buf⟩ v n).buf l) := by unfold acK; omega
        obtain ⟨f1, f2, f3⟩ := putBytes_fw l _ w1.fw.fw_le
        rw [f2] at hf
        rw [f1, hac.2, w2] at hfw
        dsimp only at hfw hbw
        rw [if_neg hc] at hbw
        omega
      · rw [hl] at hf
        unfold Fit at hf
        have hq : (putBits ⟨rd, ac', accu, putBytes buf l⟩ v n).buf.fw = (putBytes buf l).fw := by
          unfold putBits putBitsGeneric
          rw [if_neg hc]
          dsimp only
          exact accuFlush_fw _ _
        have hfw : (putBytes buf l).fw ≤ acK (putBits ⟨rd, ac', accu, putBytes buf l⟩ v n).ac
          (putBits ⟨rd, ac', accu, putBytes buf l⟩ v n).buf := by unfold acK; omega
        dsimp only at hbw2
        rw [if_neg hc, g1, g2] at hbw2
        rw [g1] at hfw
        omega
  rw [e1, hl]
  clear e1 hf y1 y2 y3 hl
  by_cases hc : accu.n + n ≤ 32
  · unfold putBits
    simp only [if_pos hc]
  · unfold putBits at w1 ⊢
    simp only [if_neg hc] at w1 ⊢
    unfold putBitsGeneric at w1 ⊢
    dsimp only at w1 ⊢
    generalize hA : (if min (32 - accu.n) n ≠ 0 then
        { accu with v := accu.v ||| ((v <<< accu.n) % 2 ^ 32), n := 32
                    ub := accu.ub || decide (32 ≤ accu.n) }
      else accu) = A at *
    have hAn : A.n ≤ 32 := by
      rw [← hA]; split
      · exact Nat.le_refl _
      · exact hn32
    rw [accuFlush_putBytes A l buf (by omega) hle]

/-! ### Sequences -/

/-- The plain fields of a sequence of operations. -/
def Op.isBits : Op → Bool
  | .bits _ _ => true
  | .sym _ _ => false

/-- Sequences with the same plain fields, and the same symbols. -/
def SameStreams (l1 l2 : List Op) : Prop :=
  l1.filter Op.isBits = l2.filter Op.isBits ∧
  l1.filter (fun o => !o.isBits) = l2.filter (fun o => !o.isBits)

theorem putOps_append (b : Bits) (l1 l2 : List Op) :
    putOps b (l1 ++ l2) = putOps (putOps b l1) l2 := by
  unfold putOps; rw [List.foldl_append]

theorem putOps_cons (b : Bits) (o : Op) (l : List Op) : putOps b (o :: l) = putOps (o.put b) l := rfl

/-- Move a plain field after symbols. -/
theorem move_bits (l : List Op) (b : Bits) (h : WInv b) (v n : Nat)
    (hn : 1 ≤ n ∧ n ≤ 31 ∧ v < 2 ^ n) (hl : ∀ o ∈ l, o.Valid ∧ o.isBits = false)
    (hf : Fit (putOps b (.bits v n :: l)) ∨ Fit (putOps b (l ++ [.bits v n]))) :
    putOps b (.bits v n :: l) = putOps b (l ++ [.bits v n]) := by
  induction l generalizing b with
  | nil => rfl
  | cons o l ih =>
    obtain ⟨ho, hb⟩ := hl o (by simp)
    have hl' := fun o' (h' : o' ∈ l) => hl o' (by simp [h'])
    cases o with
    | bits v n => simp [Op.isBits] at hb
    | sym m s =>
      have w1 := (winv_put b h (.bits v n) hn).1
      have w2 := (winv_put b h (.sym m s) ho).1
      have w3 := (winv_put _ w1 (.sym m s) ho).1
      have w4 := (winv_put _ w2 (.bits v n) hn).1
      rcases hf with hf | hf
      · have hsw : putSymbol (putBits b v n) m s = putBits (putSymbol b m s) v n := by
          refine put_swap b h v n m s hn ho.1 ho.2 (.inl ?_)
          exact fit_back_ops l _ w3 (fun o ho => (hl' o ho).1) hf
        have e : putOps b (.bits v n :: .sym m s :: l) =
            putOps (putSymbol b m s) (.bits v n :: l) := by
          simp only [putOps_cons, Op.put]
          rw [hsw]
        rw [e] at hf ⊢
        exact ih _ w2 hl' (.inl hf)
      · have e1 := ih _ w2 hl' (.inr hf)
        rw [show putOps b (Op.sym m s :: l ++ [Op.bits v n]) =
          putOps (Op.put b (.sym m s)) (l ++ [Op.bits v n]) from rfl, ← e1] at hf ⊢
        have hsw : putSymbol (putBits b v n) m s = putBits (putSymbol b m s) v n := by
          refine put_swap b h v n m s hn ho.1 ho.2 (.inr ?_)
          exact fit_back_ops l _ w4 (fun o ho => (hl' o ho).1) hf
        simp only [putOps_cons, Op.put]
        rw [hsw]

theorem normal_form (l : List Op) (b : Bits) (h : WInv b) (hl : ∀ o ∈ l, o.Valid)
    (hf : Fit (putOps b l) ∨
      Fit (putOps b (l.filter (fun o => !o.isBits) ++ l.filter Op.isBits))) :
    putOps b l = putOps b (l.filter (fun o => !o.isBits) ++ l.filter Op.isBits) := by
  induction l generalizing b with
  | nil => rfl
  | cons o l ih =>
    have ho := hl o (by simp)
    have hl' := fun o' (h' : o' ∈ l) => hl o' (by simp [h'])
    have w1 := (winv_put b h o ho).1
    cases o with
    | sym m s =>
      have hib : (Op.sym m s).isBits = false := rfl
      simp only [hib, List.filter_cons, Bool.not_false, Bool.false_eq_true, if_false, if_true] at hf ⊢
      exact ih _ w1 hl' hf
    | bits v n =>
      have hib : (Op.bits v n).isBits = true := rfl
      simp only [hib, List.filter_cons, Bool.not_true, Bool.false_eq_true, if_false, if_true] at hf ⊢
      have hs : ∀ o ∈ l.filter (fun o => !o.isBits), o.Valid ∧ o.isBits = false := by
        intro o ho
        rw [List.mem_filter] at ho
        exact ⟨hl' o ho.1, by simpa using ho.2⟩
      have hp : ∀ o ∈ l.filter Op.isBits, o.Valid := fun o ho => hl' o (List.mem_filter.mp ho).1
      have hall : ∀ o ∈ (Op.bits v n :: l.filter (fun o => !o.isBits)), o.Valid := by
        intro o ho'
        rcases List.mem_cons.mp ho' with rfl | ho'
        · exact ho
        · exact (hs o ho').1
      have hall2 : ∀ o ∈ (l.filter (fun o => !o.isBits)) ++ [Op.bits v n], o.Valid := by
        intro o ho'
        rcases List.mem_append.mp ho' with ho' | ho'
        · exact (hs o ho').1
        · rw [List.mem_singleton] at ho'; subst ho'; exact ho
      have e0 : ∀ L P : List Op, L ++ Op.bits v n :: P = (L ++ [Op.bits v n]) ++ P := by simp
      rw [e0, putOps_append] at hf ⊢
      rcases hf with hf | hf
      · have e := ih _ w1 hl' (.inl hf)
        rw [putOps_cons, e] at hf ⊢
        rw [putOps_append] at hf ⊢
        rw [← putOps_cons] at hf ⊢
        have hf2 := fit_back_ops _ _ (winv_ops _ b h hall).1 hp hf
        rw [move_bits _ b h v n ho hs (.inl hf2)]
      · have hf2 := fit_back_ops _ _ (winv_ops _ b h hall2).1 hp hf
        have e := move_bits _ b h v n ho hs (.inr hf2)
        rw [← e] at hf ⊢
        rw [putOps_cons, ← putOps_append] at hf ⊢
        exact ih _ w1 hl' (.inr hf)

theorem SameStreams.valid {l1 l2 : List Op} (hs : SameStreams l1 l2) (h1 : ∀ o ∈ l1, o.Valid) :
    ∀ o ∈ l2, o.Valid := by
  intro o ho
  cases hb : o.isBits with
  | true =>
    have : o ∈ l2.filter Op.isBits := List.mem_filter.mpr ⟨ho, hb⟩
    rw [← hs.1] at this
    exact h1 o (List.mem_filter.mp this).1
  | false =>
    have : o ∈ l2.filter (fun o => !o.isBits) := List.mem_filter.mpr ⟨ho, by simp [hb]⟩
    rw [← hs.2] at this
    exact h1 o (List.mem_filter.mp this).1

/-- Interleaving does not matter. -/
theorem putOps_same {l1 l2 : List Op} {b : Bits} (h : WInv b) (h1 : ∀ o ∈ l1, o.Valid)
    (hs : SameStreams l1 l2) (hf : Fit (putOps b l1)) : putOps b l1 = putOps b l2 := by
  have h2 := hs.valid h1
  have e1 := normal_form l1 b h h1 (.inl hf)
  rw [e1] at hf ⊢
  rw [hs.1, hs.2] at hf ⊢
  exact (normal_form l2 b h h2 (.inr hf)).symm

theorem SameStreams.append {l1 l2 m1 m2 : List Op} (h1 : SameStreams l1 l2) (h2 : SameStreams m1 m2) :
    SameStreams (l1 ++ m1) (l2 ++ m2) := by
  unfold SameStreams
  simp only [List.filter_append, h1.1, h1.2, h2.1, h2.2, and_self]

theorem SameStreams.refl (l : List Op) : SameStreams l l := ⟨rfl, rfl⟩

theorem SameStreams.trans {l1 l2 l3 : List Op} (h1 : SameStreams l1 l2) (h2 : SameStreams l2 l3) :
    SameStreams l1 l3 := ⟨h1.1.trans h2.1, h1.2.trans h2.2⟩

theorem Ready.reorder {F : List Nat} {b r : Bits} {l1 l2 : List Op} (h : Ready F b r l1)
    (hs : SameStreams l1 l2) : Ready F b r l2 := by
  obtain ⟨h1, h2, h3, h4, h5⟩ := h
  have e := putOps_same h1 h2 hs h3
  exact ⟨h1, hs.valid h2, e ▸ h3, e ▸ h4, h5⟩

end LC3
