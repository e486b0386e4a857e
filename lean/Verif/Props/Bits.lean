import Verif.Lemmas.BitsSafe

/-!
Properties of the bitstream: C10, C11, C12, C13, C14, C15.

Specification side of this file: a *program* is a list of write operations (`Op`, a plain field or a
symbol of a model); what the reader is asked for is the list of the *shapes* of the operations
(`Shape`: a width or a model, without the value).
-/

namespace LC3

/-- What a reader has to know of a write: the width of a field, or the model of a symbol. -/
inductive Shape where
  | bits (n : Nat)
  | sym (m : AcModel)

def Op.shape : Op → Shape
  | .bits _ n => .bits n
  | .sym m _ => .sym m

/-- Read one item: `lc3_get_bits` (src/bits.h:242) or `lc3_get_symbol` (src/bits.h:278). -/
def Shape.read (r : Bits) : Shape → Nat × Bits
  | .bits n => getBits r n
  | .sym m => getSymbol r m

/-- Read a sequence of items: the values, and the final state. -/
def readAll (r : Bits) : List Shape → List Nat × Bits
  | [] => ([], r)
  | s :: l =>
    let (v, r) := s.read r
    let (vs, r) := readAll r l
    (v :: vs, r)

/-- The writer used within its documented interface: `1..32` bits, value in range, symbols of
non-null share in a model whose shares sum to 1024. -/
def Op.Legal : Op → Prop
  | .bits v n => 1 ≤ n ∧ n ≤ 32 ∧ v < 2 ^ n
  | .sym m s => m.WF ∧ m.Codable s

/-- No undefined behaviour so far. -/
def Bits.Defined (b : Bits) : Prop := b.ac.ub = false ∧ b.accu.ub = false ∧ b.buf.ub = false

/-! ### C10, C11: round trip -/

theorem ready_of_encode (data : List Nat) (ops : List Op) (sh32 : Nat → Nat) (hd : Bytes data)
    (h4 : 4 ≤ data.length) (hv : ∀ o ∈ ops, o.Valid)
    (hl : 0 ≤ bitsLeftRaw (putOps (setupWrite data) ops)) :
    Ready (encodeOps data ops) (setupWrite data) (setupRead sh32 (encodeOps data ops)) ops := by
  have hi := winv_setup data hd
  obtain ⟨h1, h2⟩ := winv_ops ops _ hi hv
  obtain ⟨c1, -⟩ := flushBits_covers _ h1 hl
  have hlen : (encodeOps data ops).length = data.length := by
    have := c1.len
    rw [h2] at this
    exact this
  exact ⟨hi, hv, fit_of_bitsLeft _ h1 hl, c1,
    sync_setup sh32 data _ hlen c1.bytes (by rw [hlen]; exact h4)⟩

theorem readAll_ready (F : List Nat) (ops : List Op) (b r : Bits) (h : Ready F b r ops) :
    (readAll r (ops.map Op.shape)).1 = ops.map Op.val ∧
    Sync F (putOps b ops) (readAll r (ops.map Op.shape)).2 := by
  induction ops generalizing b r with
  | nil => exact ⟨rfl, h.sync⟩
  | cons o ops ih =>
    obtain ⟨s1, s2⟩ := h.step
    obtain ⟨i1, i2⟩ := ih _ _ s2
    have e : o.shape.read r = o.get r := by cases o <;> rfl
    simp only [List.map_cons, readAll, e]
    exact ⟨by rw [s1, i1], i2⟩

/-- **C10, C11.** Whatever the initial content of the frame, any mix of plain fields (1 to 31 bits)
and symbols (of any well-formed models) that leaves a non-negative number of bits is read back
identically after the termination, without undefined behaviour and without reported error. -/
theorem C11_round_trip (data : List Nat) (ops : List Op) (sh32 : Nat → Nat) (hd : Bytes data)
    (h4 : 4 ≤ data.length) (hv : ∀ o ∈ ops, o.Valid)
    (hl : 0 ≤ bitsLeftRaw (putOps (setupWrite data) ops)) :
    let r := readAll (setupRead sh32 (encodeOps data ops)) (ops.map Op.shape)
    r.1 = ops.map Op.val ∧ r.2.Defined ∧ checkBits r.2 = true ∧
    (encodeOps data ops).length = data.length := by
  have hR := ready_of_encode data ops sh32 hd h4 hv hl
  obtain ⟨h1, h2⟩ := readAll_ready _ ops _ _ hR
  obtain ⟨w1, w2⟩ := winv_ops ops _ hR.inv hv
  have hlen := hR.covers.len
  refine ⟨h1, ⟨h2.ub, h2.accu.aub, h2.accu.bub⟩, ?_, ?_⟩
  · have := (bitsLeftRaw_read _ _ _ w1 hlen h2).1
    unfold checkBits
    rw [h2.error]
    have : ¬ bitsLeftRaw (readAll (setupRead sh32 (encodeOps data ops)) (ops.map Op.shape)).2 < 0 := by
      omega
    simp [this]
  · rw [hlen, w2]; rfl

/-- Number of plain bits of a sequence of fields. -/
def totalBits (fields : List (Nat × Nat)) : Nat := (fields.map Prod.snd).sum

theorem putFields_bitsLeft (fields : List (Nat × Nat)) (b : Bits) (h : WInv b)
    (hv : ∀ f ∈ fields, 1 ≤ f.2 ∧ f.2 ≤ 32 ∧ f.1 < 2 ^ f.2)
    (hl : (totalBits fields : Int) ≤ bitsLeftRaw b) :
    bitsLeftRaw (putOps b (fields.map fun f => Op.bits f.1 f.2)) = bitsLeftRaw b - totalBits fields := by
  induction fields generalizing b with
  | nil => simp [putOps, totalBits]
  | cons f fields ih =>
    obtain ⟨h1, h2, h3⟩ := hv f (by simp)
    have ht : totalBits (f :: fields) = f.2 + totalBits fields := by simp [totalBits]
    rw [ht] at hl ⊢
    obtain ⟨p1, p2⟩ := putBits_bitsLeft b h f.1 f.2 ⟨h1, h2⟩ h3 (by omega)
    have := ih (putBits b f.1 f.2) (winv_bits b h f.1 f.2 ⟨h1, h2⟩ h3).1
      (fun f' hf' => hv f' (by simp [hf'])) (by rw [p1]; omega)
    change bitsLeftRaw (putOps (putBits b f.1 f.2) (fields.map fun f => Op.bits f.1 f.2)) = _
    rw [this, p1]
    omega

/-- **C10.** A frame of plain fields only: it holds `8 * length - 2` bits, and up to this size all
fields are read back identically. -/
theorem C10_plain_round_trip (data : List Nat) (fields : List (Nat × Nat)) (sh32 : Nat → Nat)
    (hd : Bytes data) (h4 : 4 ≤ data.length)
    (hv : ∀ f ∈ fields, 1 ≤ f.2 ∧ f.2 ≤ 31 ∧ f.1 < 2 ^ f.2)
    (hl : totalBits fields + 2 ≤ 8 * data.length) :
    let ops := fields.map fun f => Op.bits f.1 f.2
    (readAll (setupRead sh32 (encodeOps data ops)) (fields.map fun f => Shape.bits f.2)).1 =
      fields.map Prod.fst := by
  intro ops
  have h0 : bitsLeftRaw (setupWrite data) = 8 * data.length - 2 := by
    rw [bitsLeftRaw_write _ (winv_setup data hd)]
    have hr : rangeBits (setupWrite data).ac = 24 := by
      have : (setupWrite data).ac.range = 0xffffff := rfl
      unfold rangeBits; rw [this]; decide
    have hk : acK (setupWrite data).ac (setupWrite data).buf = 0 := by simp [acK, setupWrite]
    rw [hr, hk]
    change 8 * (data.length : Int) - (0 : Nat) - _ - _ = _
    omega
  have hb := putFields_bitsLeft fields (setupWrite data) (winv_setup data hd)
    (fun f hf => by have := hv f hf; omega) (by rw [h0]; omega)
  have hops : ∀ o ∈ ops, o.Valid := by
    intro o ho
    obtain ⟨f, hf, rfl⟩ := List.mem_map.1 ho
    exact hv f hf
  have := (C11_round_trip data ops sh32 hd h4 hops (by rw [hb, h0]; omega)).1
  rw [List.map_map, List.map_map] at this
  exact this

/-- The documented width 32 of `lc3_get_bits` (src/bits.h:180 "1 to 32") is always an undefined
shift `1u << 32`: 31 is the largest usable width. -/
theorem C10_get_32_undefined (b : Bits) (h : b.accu.n = 0) : (getBits b 32).2.accu.ub = true := by
  unfold getBits
  rw [h]
  simp

/-! A case that meets the hypotheses: fields and symbols that force carries, a frame of 20 bytes. -/

/-- A model with three symbols of non-null share. -/
def exModel : AcModel :=
  [⟨0, 1000⟩, ⟨1000, 23⟩, ⟨1023, 1⟩] ++ List.replicate 14 ⟨1024, 0⟩

theorem exModel_wf : exModel.WF := ⟨by decide, by decide, by decide⟩

def exOps : List Op :=
  [.bits 5 3, .sym exModel 2, .sym exModel 2, .bits 0x7fffffff 31, .sym exModel 0, .sym exModel 1,
   .bits 1 1, .sym exModel 2, .sym exModel 0]

theorem exOps_valid : ∀ o ∈ exOps, o.Valid := by
  intro o ho
  simp only [exOps, List.mem_cons, List.not_mem_nil, or_false] at ho
  rcases ho with rfl | rfl | rfl | rfl | rfl | rfl | rfl | rfl | rfl <;>
    first
      | exact ⟨exModel_wf, by decide, by decide⟩
      | exact ⟨by decide, by decide, by decide⟩

example : Bytes (List.replicate 20 0xa5) ∧ 4 ≤ (List.replicate 20 0xa5).length ∧
    (∀ o ∈ exOps, o.Valid) ∧
    0 ≤ bitsLeftRaw (putOps (setupWrite (List.replicate 20 0xa5)) exOps) := by
  refine ⟨by unfold Bytes; decide, by decide, exOps_valid, by decide +kernel⟩

/-! ### C12: the writer stays in the frame -/

theorem winv_legal (data : List Nat) (ops : List Op) (hd : Bytes data) (hv : ∀ o ∈ ops, o.Legal) :
    WInv (putOps (setupWrite data) ops) ∧
    (putOps (setupWrite data) ops).buf.data.length = data.length := by
  have key : ∀ (ops : List Op) (b : Bits), WInv b → b.buf.data.length = data.length →
      (∀ o ∈ ops, o.Legal) →
      WInv (putOps b ops) ∧ (putOps b ops).buf.data.length = data.length := by
    intro ops
    induction ops with
    | nil => intro b h1 h2 _; exact ⟨h1, h2⟩
    | cons o ops ih =>
      intro b h1 h2 h3
      have hp : WInv (o.put b) ∧ (o.put b).buf.data.length = data.length := by
        have ho := h3 o (by simp)
        cases o with
        | bits v n =>
          obtain ⟨q1, q2, q3, q4⟩ := winv_bits b h1 v n ⟨ho.1, ho.2.1⟩ ho.2.2
          exact ⟨q1, q2.trans h2⟩
        | sym m s =>
          obtain ⟨q1, q2, q3⟩ := winv_sym b h1 m s ho.1 ho.2
          exact ⟨q1, q2.trans h2⟩
      exact ih _ hp.1 hp.2 (fun o' ho' => h3 o' (by simp [ho']))
  exact key ops _ (winv_setup data hd) rfl hv

/-- **C12.** Whatever is written, in any amount: the frame keeps its length, its bytes remain bytes,
no access is made out of the frame and no other undefined behaviour occurs, at any point and
after termination. -/
theorem C12_writer_in_frame (data : List Nat) (ops : List Op) (hd : Bytes data)
    (hv : ∀ o ∈ ops, o.Legal) :
    let b := putOps (setupWrite data) ops
    b.Defined ∧ (flushBits b).Defined ∧ b.buf.data.length = data.length ∧
    b.buf.fw ≤ data.length ∧ b.buf.bw ≤ data.length ∧
    (flushBits b).buf.data.length = data.length ∧ Bytes (flushBits b).buf.data := by
  obtain ⟨h1, h2⟩ := winv_legal data ops hd hv
  obtain ⟨f1, f2, f3, f4, f5⟩ := flushBits_safe _ h1
  refine ⟨⟨h1.ac.ub, h1.accu.aub, h1.accu.bub⟩, ⟨f4, f5, f3⟩, h2, ?_, ?_, by rw [f1, h2], f2⟩
  · rw [← h2]; exact h1.fw.fw_le
  · rw [← h2]; exact h1.accu.bw_le

/-- **C12.** At any point, plain bits never change the bytes already emitted by the arithmetic coder,
even when the frame overflows. -/
theorem C12_plain_keeps_coded (data : List Nat) (ops : List Op) (hd : Bytes data)
    (hv : ∀ o ∈ ops, o.Legal) (v n : Nat) (hn : 1 ≤ n ∧ n ≤ 32) (hlt : v < 2 ^ n) :
    let b := putOps (setupWrite data) ops
    (putBits b v n).buf.data.take b.buf.fw = b.buf.data.take b.buf.fw :=
  putBits_take _ v n (winv_legal data ops hd hv).1.accu
    (Nat.lt_of_lt_of_le hlt (Nat.pow_le_pow_right (by decide) hn.2)) hn.2

/-- Non-vacuity: far more bits than the frame holds. -/
example :
    bitsLeftRaw (putOps (setupWrite [0, 0]) (List.replicate 40 (Op.bits 0xffffffff 32))) < 0 ∧
    bitsLeftRaw (putOps (setupWrite [0, 0]) (List.replicate 40 (Op.sym exModel 2))) < 0 ∧
    (∀ o ∈ List.replicate 40 (Op.bits 0xffffffff 32), o.Legal) := by
  refine ⟨by decide +kernel, by decide +kernel, fun o ho => ?_⟩
  rw [List.eq_of_mem_replicate ho]
  exact ⟨by decide, by decide, by decide⟩

/-! ### C13: the reader stays in the frame -/

/-- Reads within the documented interface. -/
def Shape.Legal : Shape → Prop
  | .bits n => n ≤ 31
  | .sym m => m.WF

/-- A value that a read can return: it fits the width, or has a non-null share in the model. -/
def Shape.Possible : Shape → Nat → Prop
  | .bits n, v => v < 2 ^ n
  | .sym m, s => m.Codable s

theorem readAll_safe (F : List Nat) (hF : Bytes F) (l : List Shape) (hl : ∀ s ∈ l, s.Legal)
    (r : Bits) (h : RInv F r) :
    RInv F (readAll r l).2 ∧ List.Forall₂ Shape.Possible l (readAll r l).1 := by
  induction l generalizing r with
  | nil => exact ⟨h, List.Forall₂.nil⟩
  | cons s l ih =>
    have hs : s.Possible (s.read r).1 ∧ RInv F (s.read r).2 := by
      have hL := hl s (by simp)
      cases s with
      | bits n => exact getBits_safe F n r h hL
      | sym m => exact getSymbol_safe F hF m hL r h
    obtain ⟨i1, i2⟩ := ih (fun s' hs' => hl s' (by simp [hs'])) _ hs.2
    exact ⟨i1, List.Forall₂.cons hs.1 i2⟩

/-- **C13.** Whatever the content and the length of the frame, and however much is read: no access out of the
frame, the renormalisation terminates, the frame is not modified, and every value is one of the
possible values of its item. -/
theorem C13_reader_in_frame (sh32 : Nat → Nat) (F : List Nat) (hF : Bytes F) (l : List Shape)
    (hl : ∀ s ∈ l, s.Legal) :
    let r := readAll (setupRead sh32 F) l
    r.2.buf.ub = false ∧ r.2.ac.ub = false ∧ r.2.buf.data = F ∧ r.2.buf.fw ≤ F.length ∧
    r.2.buf.bw ≤ F.length ∧ List.Forall₂ Shape.Possible l r.1 := by
  obtain ⟨h1, h2⟩ := readAll_safe F hF l hl _ (rinv_setup sh32 F hF)
  exact ⟨h1.bub, h1.aub, h1.data, h1.fw_le, h1.bw_le, h2⟩

/-- Non-vacuity: reading 1000 bits and 100 symbols in a frame of 3 bytes. -/
example :
    checkBits (readAll (setupRead id [1, 2, 3]) (List.replicate 100 (Shape.bits 10))).2 = false ∧
    checkBits (readAll (setupRead id [255, 255, 255]) (List.replicate 100 (Shape.sym exModel))).2 = false :=
  ⟨by decide +kernel, by decide +kernel⟩

/-! ### C14: undefined behaviour -/

/-- **C14, negation.** A well-behaved sequence of reads (widths of at most 25 bits) on a frame of the
minimum size of 20 bytes makes `accu_load` shift a 32 bits word by 32 (src/bits.c:330). -/
theorem C14_shift_by_32 :
    (readAll (setupRead (fun v => v) (List.replicate 20 0)) (List.replicate 21 (Shape.bits 8))).2.accu.ub =
      true := by
  decide +kernel

/-- **C14, partial.** Whatever the content, as long as less plain bits are read than the frame holds
(reads of 1 to 31 bits, any number of symbols), there is no undefined behaviour. -/
theorem C14_reading_defined_partial (sh32 : Nat → Nat) (F : List Nat) (hF : Bytes F)
    (h4 : 4 ≤ F.length) (l : List Shape)
    (hl : ∀ s ∈ l, match s with | .bits n => 1 ≤ n ∧ n ≤ 31 | .sym m => m.WF)
    (hb : (l.map fun s => match s with | .bits n => n | .sym _ => 0).sum < 8 * F.length) :
    (readAll (setupRead sh32 F) l).2.Defined := by
  have key : ∀ (l : List Shape) (P : Nat) (r : Bits), RInv F r → AccuR F P r.accu r.buf →
      (∀ s ∈ l, match s with | .bits n => 1 ≤ n ∧ n ≤ 31 | .sym m => m.WF) →
      P + (l.map fun s => match s with | .bits n => n | .sym _ => 0).sum < 8 * F.length →
      (readAll r l).2.Defined := by
    intro l
    induction l with
    | nil => intro P r h1 h2 _ _; exact ⟨h1.aub, h2.aub, h1.bub⟩
    | cons s l ih =>
      intro P r h1 h2 h3 h4
      have hr := fun s' (hs' : s' ∈ l) => h3 s' (by simp [hs'])
      have hs := h3 s (by simp)
      cases s with
      | bits n =>
        simp only [List.map_cons, List.sum_cons] at h4
        obtain ⟨g1, g2, g3, g4, g5, g6⟩ := getBits_spec F hF P n r h2 hs.1 hs.2 (by omega)
        exact ih (P + n) _ (getBits_safe F n r h1 hs.2).2 g2 hr (by omega)
      | sym m =>
        simp only [List.map_cons, List.sum_cons] at h4
        have hsafe := (getSymbol_safe F hF m hs r h1).2
        have hacc := And.intro (getSymbol_accu r m) (getSymbol_bw r m)
        obtain ⟨a1, a2, a3, a4, a5, a6, a7, a8, a9⟩ := h2
        refine ih P (getSymbol r m).2 hsafe ?_ hr (by omega)
        rw [hacc.1]
        exact ⟨hsafe.data, by rw [hacc.2]; exact a2, a3, by rw [hacc.2]; exact a4,
          by rw [hacc.2]; exact a5, by rw [hacc.2]; exact a6, by rw [hacc.2]; exact a7, a8, hsafe.bub⟩
  have hs := sync_setup sh32 F F rfl hF h4
  have hP : plainP (setupWrite F).accu (setupWrite F).buf = 0 := by simp [plainP, setupWrite]
  have ha := hs.accu
  rw [hP] at ha
  exact key l 0 _ (rinv_setup sh32 F hF) ha hl (by omega)

/-- Non-vacuity: all the bits but one of a 20 bytes frame. -/
example : ((List.replicate 159 (Shape.bits 1)).map fun s => match s with | .bits n => n | .sym _ => 0).sum <
    8 * (List.replicate 20 0xff).length := by decide +kernel

/-! ### C15: bits left -/

/-- **C15.** At every point of a frame that fits, once at least 15 plain bits have been written, the
reader at the same point sees the same number of bits left. -/
theorem C15_bits_left_agree (data : List Nat) (ops1 ops2 : List Op) (sh32 : Nat → Nat)
    (hd : Bytes data) (h4 : 4 ≤ data.length) (hv : ∀ o ∈ ops1 ++ ops2, o.Valid)
    (hl : 0 ≤ bitsLeftRaw (putOps (setupWrite data) (ops1 ++ ops2)))
    (h15 : 15 ≤ (ops1.map fun o => match o with | .bits _ n => n | .sym _ _ => 0).sum) :
    let F := encodeOps data (ops1 ++ ops2)
    let w := putOps (setupWrite data) ops1
    let r := (readAll (setupRead sh32 F) (ops1.map Op.shape)).2
    bitsLeftRaw r = bitsLeftRaw w ∧ getBitsLeft r = getBitsLeft w := by
  intro F w r
  have hR := ready_of_encode data (ops1 ++ ops2) sh32 hd h4 hv hl
  have hv1 : ∀ o ∈ ops1, o.Valid := fun o ho => hv o (by simp [ho])
  have hv2 : ∀ o ∈ ops2, o.Valid := fun o ho => hv o (by simp [ho])
  obtain ⟨w1, w2⟩ := winv_ops ops1 _ hR.inv hv1
  have happ : putOps (setupWrite data) (ops1 ++ ops2) = putOps w ops2 := by
    simp [putOps, w]
  have hfit := hR.fit
  have hcov := hR.covers
  rw [happ] at hfit hcov
  have hfit1 := fit_back_ops ops2 w w1 hv2 hfit
  have hcov1 := covers_back_ops _ ops2 w w1 hv2 hfit hcov
  have hR1 : Ready F (setupWrite data) (setupRead sh32 F) ops1 :=
    ⟨hR.inv, hv1, hfit1, hcov1, hR.sync⟩
  obtain ⟨-, hs⟩ := readAll_ready F ops1 _ _ hR1
  -- number of plain bits
  have hP : ∀ (ops : List Op) (b : Bits), WInv b → (∀ o ∈ ops, o.Valid) → Fit (putOps b ops) →
      plainP (putOps b ops).accu (putOps b ops).buf = plainP b.accu b.buf +
        (ops.map fun o => match o with | .bits _ n => n | .sym _ _ => 0).sum := by
    intro ops
    induction ops with
    | nil => intro b _ _ _; simp [putOps]
    | cons o ops ih =>
      intro b hb hv hf
      have ho := hv o (by simp)
      have hr := fun o' (ho' : o' ∈ ops) => hv o' (by simp [ho'])
      have hi := (winv_put b hb o ho).1
      have hf1 := fit_back_ops ops _ hi hr hf
      have := ih (o.put b) hi hr hf
      change plainP (putOps (o.put b) ops).accu (putOps (o.put b) ops).buf = _
      rw [this]
      cases o with
      | bits v n =>
        have := (bits_effect b hb v n ⟨ho.1, by have := ho.2.1; omega⟩ ho.2.2 hf1).1
        simp only [Op.put, List.map_cons, List.sum_cons]
        omega
      | sym m s =>
        have := (sym_effect b hb m s ho.1 ho.2 hf1).1
        simp only [Op.put, List.map_cons, List.sum_cons]
        omega
  have hp := hP ops1 _ hR.inv hv1 hfit1
  have hfitn := hcov1.fit
  have hlen := hcov1.len
  have hraw := (bitsLeftRaw_read F w r w1 hlen hs).2 (by
    change 8 * acK w.ac w.buf + 2 + plainP w.accu w.buf ≤ 8 * F.length at hfitn
    change plainP w.accu w.buf = _ at hp
    omega)
  exact ⟨hraw, by unfold getBitsLeft; rw [hraw]⟩

/-- **C15.** An `n`-bit field lowers the bits left by exactly `n` when there is room for it. -/
theorem C15_field_cost (data : List Nat) (ops : List Op) (hd : Bytes data)
    (hv : ∀ o ∈ ops, o.Legal) (v n : Nat) (hn : 1 ≤ n ∧ n ≤ 32) (hlt : v < 2 ^ n)
    (hl : (n : Int) ≤ bitsLeftRaw (putOps (setupWrite data) ops)) :
    bitsLeftRaw (putOps (setupWrite data) (ops ++ [.bits v n])) =
      bitsLeftRaw (putOps (setupWrite data) ops) - n := by
  have := (putBits_bitsLeft _ (winv_legal data ops hd hv).1 v n hn hlt hl).1
  simpa [putOps, Op.put] using this

/-- **C15.** No operation increases the bits left, along any program that fits at its end. -/
theorem C15_never_increases (data : List Nat) (ops : List Op) (o : Op) (hd : Bytes data)
    (hv : ∀ o' ∈ ops ++ [o], o'.Valid)
    (hl : 0 ≤ bitsLeftRaw (putOps (setupWrite data) (ops ++ [o]))) :
    bitsLeftRaw (putOps (setupWrite data) (ops ++ [o])) ≤ bitsLeftRaw (putOps (setupWrite data) ops) := by
  have hi := winv_setup data hd
  have hv1 : ∀ o' ∈ ops, o'.Valid := fun o' ho => hv o' (by simp [ho])
  have ho := hv o (by simp)
  obtain ⟨w1, w2⟩ := winv_ops ops _ hi hv1
  have happ : putOps (setupWrite data) (ops ++ [o]) = o.put (putOps (setupWrite data) ops) := by
    simp [putOps]
  rw [happ] at hl ⊢
  generalize putOps (setupWrite data) ops = b at *
  have hw := (winv_put b w1 o ho).1
  have hfit := fit_of_bitsLeft _ hw hl
  cases o with
  | bits v n =>
    obtain ⟨h1, h2, h3⟩ := ho
    obtain ⟨e1, e2, e3, e4, e5⟩ := bits_effect b w1 v n ⟨h1, by omega⟩ h3 hfit
    have q := winv_bits b w1 v n ⟨h1, by omega⟩ h3
    change bitsLeftRaw (putBits b v n) ≤ _
    rw [bitsLeftRaw_write b w1, bitsLeftRaw_write _ q.1, e3, e5]
    unfold plainP at e1
    have := w1.accu.bw_le
    have := q.1.accu.bw_le
    have := q.2.1
    omega
  | sym m s => exact putSymbol_bitsLeft b w1 m s ho.1 ho.2 hfit

/-- Non-vacuity of the three statements: a point inside the example program. -/
example : 15 ≤ ((exOps.take 4).map fun o => match o with | .bits _ n => n | .sym _ _ => 0).sum ∧
    0 ≤ bitsLeftRaw (putOps (setupWrite (List.replicate 20 0xa5)) (exOps.take 4 ++ exOps.drop 4)) ∧
    ((31 : Nat) : Int) ≤ bitsLeftRaw (putOps (setupWrite (List.replicate 20 0xa5)) exOps) := by
  refine ⟨by decide, by decide +kernel, by decide +kernel⟩

end LC3
