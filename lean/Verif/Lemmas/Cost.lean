import Verif.Lemmas.FrameRt
import Verif.Lemmas.FrameSpec
import Verif.Model.Rate

/-!
Price of what is written: a sequence of operations which prices are upper bounds of the ideal costs
fits in the frame, as long as the losses of the arithmetic coder stay below the slack.
-/

namespace LC3

/-! ### Unconditional growth of the arithmetic coder -/

theorem acPut_fw (b : Buf) (v : Int) : (acPut b v).fw ≤ b.fw + 1 := by
  unfold acPut
  split
  · exact Nat.le_refl _
  · omega

theorem acPutN_fw (k : Nat) (v : Int) (b : Buf) : (acPutN k v b).fw ≤ b.fw + k := by
  induction k generalizing b with
  | zero => exact Nat.le_refl _
  | succ k ih =>
    have h1 := ih (acPut b v)
    have h2 := acPut_fw b v
    unfold acPutN
    omega

theorem acShift_K (ac : Ac) (b : Buf) :
    acK (acShift ac b).1 (acShift ac b).2 ≤ acK ac b + 1 ∧ (acShift ac b).1.range = ac.range := by
  unfold acShift
  by_cases h : ac.low < 0xff0000 ∨ ac.carry ≠ 0
  · simp only [if_pos h]
    refine ⟨?_, trivial⟩
    unfold acK
    dsimp only
    have h1 := acPutN_fw ac.carryCount (if ac.carry ≠ 0 then 0x00 else 0xff)
      (if 0 ≤ ac.cache then acPut b (ac.cache + ac.carry) else b)
    have h2 : (if 0 ≤ ac.cache then acPut b (ac.cache + ac.carry) else b).fw ≤
        b.fw + (if 0 ≤ ac.cache then 1 else 0) := by
      split
      · exact acPut_fw _ _
      · omega
    rw [if_pos (show (0 : Int) ≤ ((ac.low >>> 16 : Nat) : Int) by omega)]
    omega
  · simp only [if_neg h]
    refine ⟨?_, trivial⟩
    unfold acK
    dsimp only
    omega

theorem writeRenorm_K (f : Nat) (ac : Ac) (b : Buf) : ∃ j,
    acK (writeRenorm f ac b).1 (writeRenorm f ac b).2 ≤ acK ac b + j ∧
    (writeRenorm f ac b).1.range = ac.range * 256 ^ j := by
  induction f generalizing ac b with
  | zero => exact ⟨0, Nat.le_refl _, by simp [writeRenorm]⟩
  | succ f ih =>
    unfold writeRenorm
    by_cases h : ac.range < 0x10000
    · rw [if_pos h]
      obtain ⟨h1, h2⟩ := acShift_K ac b
      obtain ⟨j, j1, j2⟩ := ih { (acShift ac b).1 with range := ((acShift ac b).1.range <<< 8) % 2 ^ 32 }
        (acShift ac b).2
      refine ⟨j + 1, ?_, ?_⟩
      · have : acK { (acShift ac b).1 with range := ((acShift ac b).1.range <<< 8) % 2 ^ 32 } (acShift ac b).2 =
            acK (acShift ac b).1 (acShift ac b).2 := rfl
        rw [this] at j1
        exact Nat.le_trans j1 (by omega)
      · refine Eq.trans j2 ?_
        dsimp only
        rw [h2, shl8, Nat.mod_eq_of_lt (by omega), Nat.pow_succ, Nat.mul_assoc, Nat.mul_comm 256]
    · rw [if_neg h]
      exact ⟨0, Nat.le_refl _, by simp⟩

theorem putSymbol_K (b : Bits) (m : AcModel) (s : Nat) (hr : b.ac.range < 2 ^ 24) (hs : (m.sym s).range ≤ 1024) : ∃ j,
    acK (putSymbol b m s).ac (putSymbol b m s).buf ≤ acK b.ac b.buf + j ∧
    (putSymbol b m s).ac.range = b.ac.range / 1024 * (m.sym s).range * 256 ^ j := by
  have e : b.ac.range >>> 10 = b.ac.range / 1024 := by rw [Nat.shiftRight_eq_div_pow]
  have hm : b.ac.range / 1024 * (m.sym s).range % 2 ^ 32 = b.ac.range / 1024 * (m.sym s).range := by
    apply Nat.mod_eq_of_lt
    have h1 : b.ac.range / 1024 ≤ 16384 := by omega
    have := Nat.mul_le_mul h1 hs
    omega
  unfold putSymbol
  dsimp only
  rw [e, hm]
  split
  · obtain ⟨j, j1, j2⟩ := writeRenorm_K 3 { b.ac with
      low := (b.ac.low + b.ac.range / 1024 * (m.sym s).low) % 2 ^ 32 &&& 0xffffff
      range := b.ac.range / 1024 * (m.sym s).range
      carry := b.ac.carry ||| ((b.ac.low + b.ac.range / 1024 * (m.sym s).low) % 2 ^ 32) >>> 24 } b.buf
    exact ⟨j, j1, j2⟩
  · exact ⟨0, Nat.le_refl _, by simp⟩

/-! ### Prices -/

/-- The operations cost at most `P` (in `1/E` bit), and `N` of them are symbols: a symbol of share
`range/1024` costs at least `E · log2(1024 / range)`. -/
inductive Priced (E : Nat) : List Op → Nat → Nat → Prop
  | nil : Priced E [] 0 0
  | bits {v n ops P N} : Priced E ops P N → Priced E (.bits v n :: ops) (E * n + P) N
  | sym {m s c ops P N} : 1024 ^ E ≤ (m.sym s).range ^ E * 2 ^ c → Priced E ops P N →
      Priced E (.sym m s :: ops) (c + P) (N + 1)

theorem Priced.append {E : Nat} {l1 l2 : List Op} {P1 N1 P2 N2 : Nat} (h1 : Priced E l1 P1 N1)
    (h2 : Priced E l2 P2 N2) : Priced E (l1 ++ l2) (P1 + P2) (N1 + N2) := by
  induction h1 with
  | nil => simpa using h2
  | bits _ ih => rw [List.cons_append, Nat.add_assoc]; exact Priced.bits ih
  | sym hc _ ih =>
    rw [List.cons_append, Nat.add_assoc, Nat.add_right_comm]
    exact Priced.sym hc ih

/-- Bits consumed against the price. -/
def Pot (E : Nat) (b : Bits) (P N : Nat) : Prop :=
  (2 ^ (8 * acK b.ac b.buf + 24 + plainP b.accu b.buf) * 64 ^ N) ^ E ≤ (b.ac.range * 65 ^ N) ^ E * 2 ^ P

/-- What is left, from the price. -/
theorem pot_left (E A R P N B s rb : Nat) (hE : 0 < E) (h : (2 ^ A * 64 ^ N) ^ E ≤ (R * 65 ^ N) ^ E * 2 ^ P)
    (hP : P ≤ E * B) (hN : 65 ^ N ≤ 2 ^ s * 64 ^ N) (hR : R < 2 ^ rb) : A < rb + s + B := by
  have h1 : (2 ^ A * 64 ^ N) ^ E ≤ (R * (2 ^ s * 64 ^ N) * 2 ^ B) ^ E := by
    refine Nat.le_trans h ?_
    rw [Nat.mul_pow (R * (2 ^ s * 64 ^ N)) (2 ^ B) E, ← Nat.pow_mul, Nat.mul_comm B E]
    exact Nat.mul_le_mul (Nat.pow_le_pow_left (Nat.mul_le_mul_left _ hN) _)
      (Nat.pow_le_pow_right (by decide) hP)
  have h2 : 2 ^ A * 64 ^ N ≤ R * (2 ^ s * 64 ^ N) * 2 ^ B := (Nat.pow_le_pow_iff_left (by omega)).mp h1
  have h3 : 2 ^ A ≤ R * 2 ^ (s + B) := by
    rw [Nat.pow_add]
    refine Nat.le_of_mul_le_mul_right (c := 64 ^ N) ?_ (Nat.pow_pos (by decide))
    refine Nat.le_trans h2 (Nat.le_of_eq ?_)
    simp only [Nat.mul_assoc, Nat.mul_comm, Nat.mul_left_comm]
  have h4 : 2 ^ A < 2 ^ (rb + s + B) := by
    refine Nat.lt_of_le_of_lt h3 ?_
    rw [Nat.add_assoc, Nat.pow_add 2 rb]
    exact Nat.mul_lt_mul_of_pos_right hR (Nat.pow_pos (by decide))
  exact (Nat.pow_lt_pow_iff_right (by decide)).mp h4

/-- The step of a symbol. -/
theorem pot_sym (E K K' p R r c j P N : Nat)
    (h : (2 ^ (8 * K + 24 + p) * 64 ^ N) ^ E ≤ (R * 65 ^ N) ^ E * 2 ^ P) (hR : 2 ^ 16 ≤ R)
    (hc : 1024 ^ E ≤ r ^ E * 2 ^ c) (hK : K' ≤ K + j) :
    (2 ^ (8 * K' + 24 + p) * 64 ^ (N + 1)) ^ E ≤ (R / 1024 * r * 256 ^ j * 65 ^ (N + 1)) ^ E * 2 ^ (P + c) := by
  have h1 : 2 ^ (8 * K' + 24 + p) ≤ 2 ^ (8 * K + 24 + p) * 256 ^ j := by
    rw [show (256 : Nat) = 2 ^ 8 by rfl, ← Nat.pow_mul, ← Nat.pow_add]
    exact Nat.pow_le_pow_right (by decide) (by omega)
  have h2 : 64 * R ≤ 65 * (1024 * (R / 1024)) := by omega
  calc (2 ^ (8 * K' + 24 + p) * 64 ^ (N + 1)) ^ E
      ≤ (2 ^ (8 * K + 24 + p) * 256 ^ j * 64 ^ (N + 1)) ^ E :=
        Nat.pow_le_pow_left (Nat.mul_le_mul_right _ h1) _
    _ = (2 ^ (8 * K + 24 + p) * 64 ^ N) ^ E * (256 ^ j * 64) ^ E := by
        rw [← Nat.mul_pow, Nat.pow_succ]
        congr 1
        simp only [Nat.mul_assoc, Nat.mul_comm, Nat.mul_left_comm]
    _ ≤ (R * 65 ^ N) ^ E * 2 ^ P * (256 ^ j * 64) ^ E := Nat.mul_le_mul_right _ h
    _ = (64 * R * 65 ^ N * 256 ^ j) ^ E * 2 ^ P := by
        rw [Nat.mul_right_comm, ← Nat.mul_pow]
        congr 2
        simp only [Nat.mul_assoc, Nat.mul_comm, Nat.mul_left_comm]
    _ ≤ (65 * (1024 * (R / 1024)) * 65 ^ N * 256 ^ j) ^ E * 2 ^ P :=
        Nat.mul_le_mul_right _ (Nat.pow_le_pow_left (Nat.mul_le_mul_right _ (Nat.mul_le_mul_right _ h2)) _)
    _ = (R / 1024 * 256 ^ j * 65 ^ (N + 1)) ^ E * 2 ^ P * 1024 ^ E := by
        rw [Nat.mul_right_comm ((R / 1024 * 256 ^ j * 65 ^ (N + 1)) ^ E), ← Nat.mul_pow, Nat.pow_succ]
        congr 2
        simp only [Nat.mul_assoc, Nat.mul_comm, Nat.mul_left_comm]
    _ ≤ (R / 1024 * 256 ^ j * 65 ^ (N + 1)) ^ E * 2 ^ P * (r ^ E * 2 ^ c) := Nat.mul_le_mul_left _ hc
    _ = (R / 1024 * r * 256 ^ j * 65 ^ (N + 1)) ^ E * 2 ^ (P + c) := by
        rw [Nat.pow_add 2, Nat.mul_mul_mul_comm, ← Nat.mul_pow]
        congr 2
        simp only [Nat.mul_assoc, Nat.mul_comm, Nat.mul_left_comm]

theorem sym_range_le (m : AcModel) (s : Nat) (hm : m.WF) (hs : m.Codable s) : (m.sym s).range ≤ 1024 := by
  have := hm.high_le s hs.1
  omega

theorem bitsLeft_plain (b : Bits) (h : WInv b) : bitsLeftRaw b = 8 * (b.buf.data.length : Int) -
    plainP b.accu b.buf - 8 * (acK b.ac b.buf : Int) - 26 + rangeBits b.ac := by
  rw [bitsLeftRaw_write b h]
  have := h.accu.bw_le
  unfold plainP
  omega

/-- Priced operations fit, when the slack covers the losses of the coder. -/
theorem priced_fits (E : Nat) (hE : 0 < E) (L B s : Nat) (hB : B + s + 1 ≤ 8 * L) (Nt : Nat)
    (hN : 65 ^ Nt ≤ 2 ^ s * 64 ^ Nt) (ops : List Op) (P N : Nat) (hp : Priced E ops P N) (b : Bits) (hb : WInv b)
    (hL : b.buf.data.length = L) (hv : ∀ o ∈ ops, o.Valid) (P0 N0 : Nat) (hpot : Pot E b P0 N0) (hf : Fit b)
    (hP : P0 + P ≤ E * B) (hNt : N0 + N ≤ Nt) :
    Pot E (putOps b ops) (P0 + P) (N0 + N) ∧ 0 ≤ bitsLeftRaw (putOps b ops) := by
  have mono : ∀ n ≤ Nt, 65 ^ n ≤ 2 ^ s * 64 ^ n := by
    intro n hn
    have h1 : 64 ^ (Nt - n) ≤ 65 ^ (Nt - n) := Nat.pow_le_pow_left (by decide) _
    refine Nat.le_of_mul_le_mul_right (c := 64 ^ (Nt - n)) ?_ (Nat.pow_pos (by decide))
    refine Nat.le_trans (Nat.mul_le_mul_left _ h1) ?_
    rw [Nat.mul_assoc, ← Nat.pow_add, ← Nat.pow_add, Nat.add_sub_cancel' hn]
    exact hN
  have fin : ∀ (b : Bits), WInv b → b.buf.data.length = L → ∀ P0 N0 p, Pot E b P0 N0 →
      P0 + E * p ≤ E * B → N0 ≤ Nt → (p : Int) ≤ bitsLeftRaw b := by
    intro b hb hL P0 N0 p hpot hP hNt
    have hr := rangeBits_spec b.ac hb.range hb.ac.range_lt
    have hpB : p ≤ B := Nat.le_of_mul_le_mul_left (Nat.le_trans (Nat.le_add_left _ _) hP) hE
    have := pot_left E _ _ P0 N0 (B - p) s _ hE hpot (by rw [Nat.mul_sub]; omega) (mono N0 hNt) hr.2.2.1
    rw [bitsLeft_plain b hb, hL]
    omega
  induction hp generalizing b P0 N0 with
  | nil => exact ⟨hpot, fin b hb hL P0 N0 0 hpot (by omega) (by omega)⟩
  | @bits v n ops P N hp ih =>
    have ho : (Op.bits v n).Valid := hv _ (by simp)
    have hr := fun o' (ho' : o' ∈ ops) => hv o' (by simp [ho'])
    have hle := fin b hb hL P0 N0 n hpot (by omega) (by omega)
    obtain ⟨h1, h2⟩ := putBits_bitsLeft b hb v n ⟨ho.1, by have := ho.2.1; omega⟩ ho.2.2 hle
    have hw := winv_bits b hb v n ⟨ho.1, by have := ho.2.1; omega⟩ ho.2.2
    have he := bits_effect b hb v n ⟨ho.1, by have := ho.2.1; omega⟩ ho.2.2 h2
    have hpp := (putBits_spec b v n hb.accu ⟨ho.1, by have := ho.2.1; omega⟩ ho.2.2)
    have hac : (putBits b v n).ac = b.ac := hpp.2.1
    have hpot' : Pot E (putBits b v n) (P0 + E * n) N0 := by
      unfold Pot at *
      rw [he.1, hw.2.2.1, hac, Nat.pow_add 2 P0, ← Nat.mul_assoc, ← Nat.add_assoc, Nat.pow_add 2 _ n,
        Nat.mul_right_comm, Nat.mul_pow _ (2 ^ n), ← Nat.pow_mul, Nat.mul_comm n E]
      exact Nat.mul_le_mul_right _ hpot
    have := ih (putBits b v n) hw.1 (by rw [hw.2.1]; exact hL) hr (P0 + E * n) N0 hpot' h2 (by omega) hNt
    rw [← Nat.add_assoc]
    exact this
  | @sym m sy c ops P N hc hp ih =>
    have ho : (Op.sym m sy).Valid := hv _ (by simp)
    have hr := fun o' (ho' : o' ∈ ops) => hv o' (by simp [ho'])
    obtain ⟨j, j1, j2⟩ := putSymbol_K b m sy hb.ac.range_lt (sym_range_le m sy ho.1 ho.2)
    have hw := winv_sym b hb m sy ho.1 ho.2
    have hplain : plainP (putSymbol b m sy).accu (putSymbol b m sy).buf = plainP b.accu b.buf := by
      have h := putSymbol_spec b m sy ho.1 ho.2 hb.ac hb.fw hb.range hb.accu.bw_le
      unfold plainP
      rw [h.2.1, h.2.2.2.2.2.1, h.2.2.2.2.2.2.2.1]
    have hpot' : Pot E (putSymbol b m sy) (P0 + c) (N0 + 1) := by
      unfold Pot at *
      rw [hplain, j2]
      exact pot_sym E _ _ _ _ _ _ _ _ _ hpot hb.range hc j1
    have hle := fin _ hw.1 (by rw [hw.2.1]; exact hL) _ _ 0 hpot' (by omega) (by omega)
    have := ih (putSymbol b m sy) hw.1 (by rw [hw.2.1]; exact hL) hr (P0 + c) (N0 + 1) hpot'
      (fit_of_bitsLeft _ hw.1 (by omega)) (by omega) (by omega)
    rw [← Nat.add_assoc, show N0 + (N + 1) = N0 + 1 + N by omega]
    exact this

theorem pot_setup (E : Nat) (data : List Nat) : Pot E (setupWrite data) 0 1 := by
  unfold Pot
  have h1 : acK (setupWrite data).ac (setupWrite data).buf = 0 := rfl
  have h2 : plainP (setupWrite data).accu (setupWrite data).buf = 0 := by simp [plainP, setupWrite]
  have h3 : (setupWrite data).ac.range = 0xffffff := rfl
  rw [h1, h2, h3, Nat.pow_zero, Nat.mul_one]
  exact Nat.pow_le_pow_left (by decide) _

end LC3
