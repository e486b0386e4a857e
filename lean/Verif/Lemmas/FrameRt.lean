import Verif.Lemmas.SpecExact
import Verif.Lemmas.Noise
import Verif.Lemmas.Frame
import Verif.Model.Frame

/-!
Complete frame: what is written is read back.
-/

namespace LC3

/-! ### Side information -/

/-- Side information decided by the encoder. -/
structure SideData.Valid (dt : Dt) (sr : Srate) (nbytes : Nat) (d : SideData) : Prop where
  bw : BwValid sr d.bw
  spec : d.spec.Valid dt sr
  tns : d.tns.Valid dt d.bw nbytes
  sns : d.sns.Valid
  ltpf : d.pitchPresent = true → d.ltpf.pitchIndex < 512

/-- The side information obtained by the decoder. -/
def SideData.received (d : SideData) (junk : LtpfData) : SideData :=
  { d with spec := d.spec.received, ltpf := if d.pitchPresent then d.ltpf else junk }

def opsSideData (dt : Dt) (sr : Srate) (d : SideData) : List Op :=
  opsBw sr d.bw ++ (opsSide dt sr d.spec ++ (opsTns d.tns ++ ([.bits (b2n d.pitchPresent) 1] ++ (opsSns d.sns ++
    if d.pitchPresent then opsLtpf d.ltpf else []))))

theorem putSideData_ops (b : Bits) (dt : Dt) (sr : Srate) (d : SideData) :
    putSideData b dt sr d = putOps b (opsSideData dt sr d) := by
  unfold putSideData opsSideData
  simp only [putBw_ops, putSide_ops, putTns_ops, putSns_ops, putLtpf_ops, putOps_append]
  by_cases h : d.pitchPresent = true
  · rw [if_pos h, if_pos h]; rfl
  · rw [if_neg h, if_neg h]; rfl

theorem opsSideData_valid (dt : Dt) (sr : Srate) (nbytes : Nat) (d : SideData) (h : d.Valid dt sr nbytes) :
    ∀ o ∈ opsSideData dt sr d, o.Valid := by
  intro o ho
  unfold opsSideData at ho
  simp only [List.mem_append, List.mem_singleton] at ho
  rcases ho with ho | ho | ho | rfl | ho | ho
  · exact opsBw_valid sr _ h.bw o ho
  · exact opsSide_valid dt sr _ h.spec o ho
  · exact opsTns_valid dt _ nbytes _ h.tns o ho
  · exact ⟨by omega, by omega, b2n_lt _⟩
  · exact opsSns_valid _ h.sns o ho
  · by_cases hp : d.pitchPresent = true
    · rw [if_pos hp] at ho; exact opsLtpf_valid _ (h.ltpf hp) o ho
    · rw [if_neg hp] at ho; cases ho

theorem getSideData_ready {F : List Nat} {rest : List Op} (dt : Dt) (sr : Srate) (nbytes : Nat) (d : SideData)
    (junk : LtpfData) (b r : Bits) (hv : d.Valid dt sr nbytes)
    (h : Ready F b r (opsSideData dt sr d ++ rest)) :
    ∃ r', getSideData r dt sr nbytes junk = (some (d.received junk), r') ∧
      Ready F (putSideData b dt sr d) r' rest := by
  unfold opsSideData at h
  simp only [List.append_assoc] at h
  obtain ⟨r1, e1, h⟩ := getBw_ready sr d.bw hv.bw h
  obtain ⟨r2, e2, h⟩ := getSide_ready dt sr d.spec hv.spec h
  obtain ⟨r3, e3, h⟩ := getTns_ready dt d.bw nbytes d.tns _ _ hv.tns h
  obtain ⟨r4, e4, h⟩ := Ready.bit h
  obtain ⟨r5, e5, h⟩ := getSns_ready d.sns _ _ hv.sns h
  unfold getSideData putSideData
  rw [e1]
  dsimp only
  rw [if_neg (by decide), e2]
  dsimp only
  rw [if_neg (by decide), e3]
  dsimp only
  rw [if_neg (by decide), e4]
  dsimp only
  rw [e5]
  dsimp only
  rw [if_neg (by decide)]
  have hb := b2n_ne d.pitchPresent
  unfold SideData.received
  by_cases hp : d.pitchPresent = true
  · rw [if_pos hp] at h
    obtain ⟨r6, e6, h⟩ := getLtpf_ready d.ltpf _ _ h
    refine ⟨r6, ?_, ?_⟩
    · have : b2n d.pitchPresent ≠ 0 := by rw [hp]; decide
      rw [if_pos this, e6, if_pos hp, hb]
    · rw [if_pos hp]; exact h
  · rw [if_neg hp] at h
    refine ⟨r5, ?_, ?_⟩
    · have : ¬ b2n d.pitchPresent ≠ 0 := by
        rw [Bool.not_eq_true] at hp
        rw [hp]; decide
      rw [if_neg this, if_neg hp, hb]
    · rw [if_neg hp]; exact h

/-! ### Number of plain bits -/

/-- Number of plain bits of an operation. -/
def Op.plain : Op → Nat
  | .bits _ n => n
  | .sym _ _ => 0

theorem plainP_ops (ops : List Op) (b : Bits) (hb : WInv b) (hv : ∀ o ∈ ops, o.Valid) (hf : Fit (putOps b ops)) :
    plainP (putOps b ops).accu (putOps b ops).buf = plainP b.accu b.buf + (ops.map Op.plain).sum := by
  induction ops generalizing b with
  | nil => simp [putOps]
  | cons o ops ih =>
    have ho := hv o (by simp)
    have hr := fun o' (ho' : o' ∈ ops) => hv o' (by simp [ho'])
    have hi := (winv_put b hb o ho).1
    have hf1 := fit_back_ops ops _ hi hr hf
    have := ih (o.put b) hi hr hf
    change plainP (putOps (o.put b) ops).accu (putOps (o.put b) ops).buf = _
    rw [this]
    cases o with
    | bits v n =>
      have := (bits_effect b hb v n ⟨ho.1, by have := ho.2.1; omega⟩ ho.2.2 hf1).1
      simp only [Op.put, List.map_cons, List.sum_cons, Op.plain]
      omega
    | sym m s =>
      have := (sym_effect b hb m s ho.1 ho.2 hf1).1
      simp only [Op.put, List.map_cons, List.sum_cons, Op.plain]
      omega

theorem Ready.back {F : List Nat} {b r : Bits} {rest : List Op} (h : Ready F b r rest) : Fit b ∧ Covers F b :=
  ⟨fit_back_ops rest b h.inv h.valid h.fit, covers_back_ops F rest b h.inv h.valid h.fit h.covers⟩

/-- Both sides see the same number of bits left. -/
theorem Ready.bitsLeft {F : List Nat} {b r : Bits} {rest : List Op} (h : Ready F b r rest)
    (h15 : 15 ≤ plainP b.accu b.buf) : bitsLeftRaw r = bitsLeftRaw b := by
  obtain ⟨-, hc⟩ := h.back
  have hf := hc.fit
  exact (bitsLeftRaw_read F b r h.inv hc.len h.sync).2 (by omega)

theorem plain_append (l m : List Op) : ((l ++ m).map Op.plain).sum = (l.map Op.plain).sum + (m.map Op.plain).sum := by
  rw [List.map_append, List.sum_append]

theorem opsSns_plain (d : SnsData) : 38 = ((opsSns d).map Op.plain).sum := by
  unfold opsSns
  by_cases h : d.shape >>> 1 = 0
  · simp [h, Op.plain]
  · simp [h, Op.plain]

theorem opsSideData_plain (dt : Dt) (sr : Srate) (d : SideData) :
    38 ≤ ((opsSideData dt sr d).map Op.plain).sum := by
  unfold opsSideData
  simp only [plain_append]
  have := opsSns_plain d.sns
  omega

/-! ### Stages of single bits -/

/-- A sequence of single bits that fits. -/
theorem putOps_bits (ops : List Op) (h1 : ∀ o ∈ ops, ∃ v, v < 2 ∧ o = .bits v 1) (b : Bits) (hb : WInv b)
    (hl : (ops.length : Int) ≤ bitsLeftRaw b) :
    bitsLeftRaw (putOps b ops) = bitsLeftRaw b - ops.length := by
  induction ops generalizing b with
  | nil => simp [putOps]
  | cons o ops ih =>
    obtain ⟨v, hv, rfl⟩ := h1 o (by simp)
    rw [List.length_cons] at hl
    push_cast at hl
    have e := (putBits_bitsLeft b hb v 1 ⟨by omega, by omega⟩ (by omega) (by omega)).1
    have hi := (winv_put b hb (.bits v 1) ⟨by omega, by omega, by omega⟩).1
    have := ih (fun o ho => h1 o (by simp [ho])) _ hi (by
      show (ops.length : Int) ≤ bitsLeftRaw (putBits b v 1)
      omega)
    rw [putOps_cons, this]
    show bitsLeftRaw (putBits b v 1) - _ = _
    rw [List.length_cons]
    push_cast
    push_cast at e
    omega

theorem opsLsb1_bits (p : Coef) (n : Int) : ∀ o ∈ opsLsb1 p n, ∃ v, v < 2 ∧ o = Op.bits v 1 := by
  have h2 : p.1 &&& 1 < 2 := by rw [Nat.and_one_is_mod]; omega
  have h3 := b2n_lt p.2
  intro o ho
  unfold opsLsb1 at ho
  rw [List.mem_append] at ho
  rcases ho with ho | ho
  · split at ho
    · rw [List.mem_singleton] at ho; exact ⟨_, h2, ho⟩
    · cases ho
  · split at ho
    · split at ho
      · rw [List.mem_singleton] at ho; exact ⟨_, h3, ho⟩
      · cases ho
    · cases ho

theorem opsLsb1_length (p : Coef) (n : Int) :
    ((opsLsb1 p n).length : Int) ≤ max n 0 ∧ max (n - lsbCost1 p) 0 + (opsLsb1 p n).length ≤ max n 0 := by
  unfold opsLsb1 lsbCost1
  rw [List.length_append]
  push_cast
  split <;> split <;> (try split) <;> simp only [List.length_cons, List.length_nil] <;> (try split) <;> omega

theorem opsLsb_bits (n : Int) (l : List Coef) : ∀ o ∈ opsLsb n l, ∃ v, v < 2 ∧ o = Op.bits v 1 := by
  match l with
  | [] => intro o ho; cases ho
  | [_] => intro o ho; cases ho
  | p :: q :: l =>
    intro o ho
    unfold opsLsb at ho
    split at ho
    · cases ho
    · split at ho
      · exact opsLsb_bits _ l o ho
      · simp only [List.mem_append] at ho
        rcases ho with (ho | ho) | ho
        · exact opsLsb1_bits _ _ o ho
        · exact opsLsb1_bits _ _ o ho
        · exact opsLsb_bits _ l o ho

theorem opsLsb_length (n : Int) (l : List Coef) : ((opsLsb n l).length : Int) ≤ max n 0 := by
  match l with
  | [] => show (0 : Int) ≤ _; omega
  | [_] => show (0 : Int) ≤ _; omega
  | p :: q :: l =>
    unfold opsLsb
    split
    · show (0 : Int) ≤ _; omega
    · split
      · exact opsLsb_length _ l
      · have h1 := opsLsb1_length p n
        have h2 := opsLsb1_length q (n - lsbCost1 p)
        have h3 := opsLsb_length (n - lsbCost1 p - lsbCost1 q) l
        simp only [List.length_append]
        push_cast
        omega

theorem encPass_bits {R : Type} (A : Arith R) (lim off : R) (n : Nat) (l : List R) :
    ∀ o ∈ (encPass A lim off n l).2.2, ∃ v, v < 2 ∧ o = Op.bits v 1 := by
  intro o ho
  fun_induction encPass A lim off n l with
  | case1 => cases ho
  | case2 n x l e w ih => exact ih ho
  | case3 n x l v x' e w ih =>
    simp only [List.mem_cons] at ho
    rcases ho with ho | ho
    · refine ⟨v, ?_, ho⟩
      unfold residualBit at e
      dsimp only at e
      split at e
      · cases e
      · have := (Prod.mk.inj (Option.some.inj e)).1
        rw [← this]; exact b2n_lt _
    · exact ih ho
  | case4 => cases ho

theorem encIter_bits {R : Type} (A : Arith R) (lim off : R) (f n : Nat) (l : List R) :
    ∀ o ∈ encIter A lim f off n l, ∃ v, v < 2 ∧ o = Op.bits v 1 := by
  induction f generalizing off n l with
  | zero => intro o ho; cases ho
  | succ f ih =>
    intro o ho
    unfold encIter at ho
    split at ho
    · cases ho
    · rw [List.mem_append] at ho
      rcases ho with ho | ho
      · exact encPass_bits _ _ _ _ _ o ho
      · exact ih _ _ _ o ho

/-! ### Reading of single bits, whatever the content -/

theorem loadLoop_nover (k : Nat) (a : Accu) (b : Buf) :
    (loadLoop k a b).1.nover = a.nover ∧ (loadLoop k a b).1.n = a.n ∧ (loadLoop k a b).2.bw = b.bw - k ∧
    (loadLoop k a b).2.fw = b.fw := by
  induction k generalizing a b with
  | zero => exact ⟨rfl, rfl, rfl, rfl⟩
  | succ k ih =>
    rw [loadLoop]
    obtain ⟨h1, h2, h3, h4⟩ := ih _ _
    refine ⟨h1, h2, ?_, h4⟩
    rw [h3]
    dsimp only
    omega

theorem accuLoad_left (a : Accu) (b : Buf) :
    ((accuLoad a b).1.n + (accuLoad a b).1.nover : Int) - 8 * (accuLoad a b).2.bw ≤ a.n + a.nover - 8 * b.bw ∧
    (accuLoad a b).2.fw = b.fw := by
  unfold accuLoad
  dsimp only
  obtain ⟨h1, h2, h3, h4⟩ := loadLoop_nover (min (a.n >>> 3) b.bw) { a with n := a.n - 8 * min (a.n >>> 3) b.bw } b
  generalize loadLoop (min (a.n >>> 3) b.bw) { a with n := a.n - 8 * min (a.n >>> 3) b.bw } b = q at *
  dsimp only at h1 h2
  have h5 : a.n >>> 3 = a.n / 8 := Nat.shiftRight_eq_div_pow _ _
  rw [h5] at *
  by_cases h : q.1.n ≥ 8
  · rw [if_pos h]
    dsimp only
    refine ⟨?_, h4⟩
    push_cast
    omega
  · rw [if_neg h]
    refine ⟨?_, h4⟩
    omega

theorem getBits_left (r : Bits) (n : Nat) : bitsLeftRaw r - n ≤ bitsLeftRaw (getBits r n).2 ∧
    (getBits r n).2.ac = r.ac ∧ (getBits r n).2.rd = r.rd := by
  unfold getBits
  by_cases h : r.accu.n + n ≤ 32
  · rw [if_pos h]
    refine ⟨?_, rfl, rfl⟩
    unfold bitsLeftRaw
    dsimp only
    push_cast
    omega
  · rw [if_neg h]
    unfold getBitsGeneric
    dsimp only
    obtain ⟨h1, h2⟩ := accuLoad_left r.accu r.buf
    generalize accuLoad r.accu r.buf = q at *
    by_cases h3 : n - min (32 - q.1.n) n ≠ 0
    · rw [if_pos h3]
      obtain ⟨h4, h5⟩ := accuLoad_left { q.1 with n := q.1.n + min (32 - q.1.n) n, ub := q.1.ub || decide (32 ≤ q.1.n) || decide (32 ≤ min (32 - q.1.n) n) } q.2
      generalize accuLoad { q.1 with n := q.1.n + min (32 - q.1.n) n, ub := q.1.ub || decide (32 ≤ q.1.n) || decide (32 ≤ min (32 - q.1.n) n) } q.2 = q2 at *
      refine ⟨?_, rfl, rfl⟩
      unfold bitsLeftRaw
      dsimp only at *
      rw [h5, h2]
      push_cast at *
      omega
    · rw [if_neg h3]
      refine ⟨?_, rfl, rfl⟩
      unfold bitsLeftRaw
      dsimp only at *
      rw [h2]
      push_cast at *
      omega

theorem getResidualPass_left {R : Type} (A : Arith R) (off1 off2 : R) (n : Nat) (l : List R) (r : Bits) :
    let w := getResidualPass A off1 off2 n l r
    w.1 ≤ n ∧ bitsLeftRaw r - n + w.1 ≤ bitsLeftRaw w.2.2 ∧ w.2.2.ac = r.ac := by
  intro w
  simp only [w]
  clear w
  fun_induction getResidualPass A off1 off2 n l r with
  | case1 => refine ⟨Nat.le_refl _, ?_, rfl⟩; simp
  | case2 r n x l h w ih => exact ih
  | case3 n x l r h v r' e w ih =>
    obtain ⟨i1, i2, i3⟩ := ih
    obtain ⟨g1, g2, -⟩ := getBits_left r 1
    have e' : getBits r 1 = (v, r') := e
    rw [e'] at g1 g2
    dsimp only [w] at g1 g2 ⊢
    refine ⟨by omega, ?_, by rw [i3]; exact g2⟩
    push_cast at *
    omega
  | case4 => refine ⟨Nat.le_refl _, ?_, rfl⟩; simp

theorem getResidualIter_left {R : Type} (A : Arith R) (f : Nat) (off1 off2 : R) (n : Nat) (l : List R) (r : Bits) :
    bitsLeftRaw r - n ≤ bitsLeftRaw (getResidualIter A f off1 off2 n l r).2 ∧
    (getResidualIter A f off1 off2 n l r).2.ac = r.ac := by
  induction f generalizing off1 off2 n l r with
  | zero => rw [getResidualIter]; exact ⟨by dsimp only; omega, rfl⟩
  | succ f ih =>
    rw [getResidualIter]
    by_cases h : n = 0
    · rw [if_pos h]; exact ⟨by dsimp only; omega, rfl⟩
    · rw [if_neg h]
      obtain ⟨w1, w2, w3⟩ := getResidualPass_left A off1 off2 n l r
      obtain ⟨i1, i2⟩ := ih (A.mul off1 (A.ofRat (1/2))) (A.mul off2 (A.ofRat (1/2)))
        (getResidualPass A off1 off2 n l r).1 (getResidualPass A off1 off2 n l r).2.1 (getResidualPass A off1 off2 n l r).2.2
      dsimp only
      refine ⟨?_, by rw [i2, w3]⟩
      omega

end LC3
