import Verif.Lemmas.BitsFlush

/-!
Reading: plain bits and symbols.
-/

namespace LC3

/-- A byte of the buffer, from its value. -/
theorem getD_bval (l : List Nat) (h : Bytes l) (i : Nat) (hi : i < l.length) :
    l.getD i 0 = bval l / 256 ^ (l.length - 1 - i) % 256 := by
  have h1 : bval l = (bval (l.take i) * 256 + l.getD i 0) * 256 ^ (l.length - (i + 1)) +
      bval (l.drop (i + 1)) := by
    rw [bval_split l (i + 1), List.take_succ_eq_append_getElem hi, bval_concat, getD_lt _ _ hi]
  have h2 := bval_drop_lt h (i + 1)
  have h3 := h.getD i
  rw [show l.length - 1 - i = l.length - (i + 1) by omega, h1]
  have hX : 0 < 256 ^ (l.length - (i + 1)) := Nat.pow_pos (by decide)
  generalize 256 ^ (l.length - (i + 1)) = X at *
  rw [Nat.mul_comm _ X, Nat.mul_add_div hX, Nat.div_eq_of_lt h2]
  omega

/-- State of the plain bits reader, `P` bits of `F` being read. -/
structure AccuR (F : List Nat) (P : Nat) (a : Accu) (b : Buf) : Prop where
  data : b.data = F
  bw_le : b.bw ≤ F.length
  n_le : a.n ≤ 32
  pos : 8 * (F.length - b.bw) + a.n + a.nover = P + 32
  lsb : 32 ≤ 8 * (F.length - b.bw) + a.nover
  v : a.v = bval F / 2 ^ (8 * (F.length - b.bw) + a.nover - 32) % 2 ^ 32
  over : 0 < a.nover → b.bw = 0
  aub : a.ub = false
  bub : b.ub = false

theorem div_mod_step (B p : Nat) :
    (B / 2 ^ p % 2 ^ 32) / 256 + (B / 2 ^ (p + 32) % 256) * 2 ^ 24 = B / 2 ^ (p + 8) % 2 ^ 32 := by
  rw [Nat.pow_add, Nat.pow_add, ← Nat.div_div_eq_div_mul, ← Nat.div_div_eq_div_mul]
  generalize B / 2 ^ p = x
  omega

theorem loadLoop_spec (F : List Nat) (hF : Bytes F) (k : Nat) (a : Accu) (b : Buf)
    (hd : b.data = F) (hk : k ≤ b.bw) (hle : b.bw ≤ F.length) (hb : b.ub = false)
    (hpos : 32 ≤ 8 * (F.length - b.bw))
    (hv : a.v = bval F / 2 ^ (8 * (F.length - b.bw) - 32) % 2 ^ 32) :
    let r := loadLoop k a b
    r.1 = { a with v := bval F / 2 ^ (8 * (F.length - b.bw + k) - 32) % 2 ^ 32 } ∧
    r.2 = { b with bw := b.bw - k } := by
  induction k generalizing a b with
  | zero =>
    simp only [loadLoop]
    refine ⟨?_, rfl⟩
    rw [Nat.add_zero, ← hv]
  | succ k ih =>
    simp only [loadLoop]
    have hlt : b.bw - 1 < F.length := by omega
    have hbyte : b.data.getD (b.bw - 1) 0 = bval F / 2 ^ (8 * (F.length - b.bw)) % 256 := by
      rw [hd, getD_bval F hF _ hlt, pow256]
      congr 3; omega
    have hvlt : a.v >>> 8 < 2 ^ 24 := by
      rw [shr8, hv]
      have := Nat.mod_lt (bval F / 2 ^ (8 * (F.length - b.bw) - 32)) (show 0 < 2 ^ 32 by decide)
      omega
    have hnew : (a.v >>> 8) ||| (b.data.getD (b.bw - 1) 0 <<< 24) =
        bval F / 2 ^ (8 * (F.length - (b.bw - 1)) - 32) % 2 ^ 32 := by
      rw [or_shl _ _ _ hvlt, hbyte, shr8, hv]
      have h1 := div_mod_step (bval F) (8 * (F.length - b.bw) - 32)
      have e1 : 8 * (F.length - b.bw) - 32 + 32 = 8 * (F.length - b.bw) := by omega
      have e2 : 8 * (F.length - b.bw) - 32 + 8 = 8 * (F.length - (b.bw - 1)) - 32 := by omega
      rw [e1, e2] at h1
      exact h1
    have hub : (b.ub || decide (b.bw = 0) || decide (b.data.length < b.bw)) = false := by
      rw [hb, hd]
      have h1 : ¬ b.bw = 0 := by omega
      have h2 : ¬ F.length < b.bw := by omega
      simp [h1, h2]
    obtain ⟨i1, i2⟩ := ih
      { a with v := (a.v >>> 8) ||| (b.data.getD (b.bw - 1) 0 <<< 24) }
      { b with bw := b.bw - 1
               ub := b.ub || decide (b.bw = 0) || decide (b.data.length < b.bw) }
      hd (by dsimp only; omega) (by dsimp only; omega) hub (by dsimp only; omega) hnew
    rw [i1, i2]
    dsimp only
    refine ⟨?_, ?_⟩
    · have : F.length - (b.bw - 1) + k = F.length - b.bw + (k + 1) := by omega
      rw [this]
    · rw [hub, hb, show b.bw - 1 - k = b.bw - (k + 1) by omega]

theorem accuLoad_spec (F : List Nat) (hF : Bytes F) (P : Nat) (a : Accu) (b : Buf)
    (h : AccuR F P a b) (hP : P < 8 * F.length) :
    let r := accuLoad a b
    AccuR F P r.1 r.2 ∧ r.1.n ≤ 7 ∧ r.2.fw = b.fw ∧ r.1.sh32 = a.sh32 := by
  obtain ⟨h1, h2, h3, h4, h5, h6, h7, h8, h9⟩ := h
  unfold accuLoad
  simp only [shr3]
  -- the loop
  have hloop : loadLoop (min (a.n / 8) b.bw) { a with n := a.n - 8 * min (a.n / 8) b.bw } b =
      ({ a with n := a.n - 8 * min (a.n / 8) b.bw
                v := bval F / 2 ^ (8 * (F.length - b.bw + min (a.n / 8) b.bw) + a.nover - 32) %
                  2 ^ 32 },
        { b with bw := b.bw - min (a.n / 8) b.bw }) := by
    by_cases h0 : b.bw = 0
    · have : min (a.n / 8) b.bw = 0 := by omega
      rw [this]
      simp only [loadLoop]
      rw [Nat.add_zero, ← h6]
      rfl
    · have hno : a.nover = 0 := by
        rcases Nat.eq_zero_or_pos a.nover with hz | hz
        · exact hz
        · exact absurd (h7 hz) h0
      obtain ⟨l1, l2⟩ := loadLoop_spec F hF (min (a.n / 8) b.bw)
        { a with n := a.n - 8 * min (a.n / 8) b.bw } b h1 (by omega) h2 h9 (by omega)
        (by dsimp only; rw [h6, hno]; rfl)
      rw [← Prod.mk.eta (p := loadLoop _ _ _), l1, l2, hno]
      rfl
  rw [hloop]
  dsimp only
  generalize hk : min (a.n / 8) b.bw = k at *
  have hlen : F.length - (b.bw - k) = F.length - b.bw + k := by omega
  by_cases hn : a.n - 8 * k ≥ 8
  · rw [if_pos hn]
    have hb0 : b.bw - k = 0 := by omega
    have hlt : a.n - 8 * k < 32 := by omega
    have hmin : min (a.nover + (a.n - 8 * k)) 32 = a.nover + (a.n - 8 * k) := by omega
    refine ⟨⟨h1, by dsimp only; omega, by dsimp only; omega, ?_, ?_, ?_, ?_, ?_, h9⟩, by dsimp only; omega, rfl,
      rfl⟩
    · dsimp only; rw [hmin]; omega
    · dsimp only; rw [hmin]; omega
    · dsimp only
      unfold Accu.shr
      dsimp only
      rw [if_pos hlt, hmin, Nat.shiftRight_eq_div_pow, hlen]
      have e : 8 * (F.length - b.bw + k) + (a.nover + (a.n - 8 * k)) - 32 =
          (8 * (F.length - b.bw + k) + a.nover - 32) + (a.n - 8 * k) := by omega
      rw [e, Nat.pow_add, ← Nat.div_div_eq_div_mul]
      -- nothing above the 32 bits
      have hB := bval_lt F hF
      have hsmall : bval F / 2 ^ (8 * (F.length - b.bw + k) + a.nover - 32) < 2 ^ 32 := by
        rw [Nat.div_lt_iff_lt_mul (Nat.pow_pos (by decide)), ← Nat.pow_add]
        refine Nat.lt_of_lt_of_le hB ?_
        rw [pow256]
        exact Nat.pow_le_pow_right (by decide) (by omega)
      rw [Nat.mod_eq_of_lt hsmall, Nat.mod_eq_of_lt]
      exact Nat.lt_of_le_of_lt (Nat.div_le_self _ _) hsmall
    · intro _; exact hb0
    · dsimp only
      rw [h8]
      have : ¬ 32 ≤ a.n - 8 * k := by omega
      simp [this]
  · rw [if_neg hn]
    refine ⟨⟨h1, by dsimp only; omega, by dsimp only; omega, by dsimp only; omega, by dsimp only; omega, ?_, ?_, h8, h9⟩,
      by dsimp only; omega, rfl, rfl⟩
    · dsimp only; rw [hlen]
    · intro hov
      have := h7 hov
      dsimp only
      omega

/-- Bits taken from the accumulator. -/
theorem AccuR.take {F : List Nat} {P : Nat} {a : Accu} {b : Buf} (h : AccuR F P a b) (n : Nat)
    (hn : a.n + n ≤ 32) : (a.v >>> a.n) % 2 ^ n = bval F / 2 ^ P % 2 ^ n := by
  obtain ⟨h1, h2, h3, h4, h5, h6, h7, h8, h9⟩ := h
  rw [h6, Nat.shiftRight_eq_div_pow]
  have e : P = (8 * (F.length - b.bw) + a.nover - 32) + a.n := by omega
  rw [e, Nat.pow_add, ← Nat.div_div_eq_div_mul]
  generalize bval F / 2 ^ (8 * (F.length - b.bw) + a.nover - 32) = x
  have e2 : (32 : Nat) = a.n + (32 - a.n) := by omega
  rw [e2, Nat.pow_add, Nat.mod_mul_right_div_self]
  exact Nat.mod_mod_of_dvd _ (Nat.pow_dvd_pow 2 (by omega))

/-- Reading of plain bits. -/
theorem getBits_spec (F : List Nat) (hF : Bytes F) (P n : Nat) (b : Bits)
    (h : AccuR F P b.accu b.buf) (hn : 1 ≤ n) (hn' : n ≤ 31) (hP : P + n < 8 * F.length) :
    let r := getBits b n
    r.1 = bval F / 2 ^ P % 2 ^ n ∧ AccuR F (P + n) r.2.accu r.2.buf ∧ r.2.buf.fw = b.buf.fw ∧
    r.2.ac = b.ac ∧ r.2.rd = b.rd ∧ r.2.accu.sh32 = b.accu.sh32 := by
  -- advance in the accumulator
  have hadv : ∀ (a : Accu) (c : Buf) (P m : Nat) (u : Bool), AccuR F P a c → a.n + m ≤ 32 →
      u = false → AccuR F (P + m) { a with n := a.n + m, ub := u } c := by
    intro a c P m u ⟨h1, h2, h3, h4, h5, h6, h7, h8, h9⟩ hm hu
    exact ⟨h1, h2, hm, by dsimp only; omega, h5, h6, h7, hu, h9⟩
  unfold getBits
  split
  · rename_i hfit
    refine ⟨h.take n hfit, hadv _ _ _ _ _ h hfit ?_, rfl, rfl, rfl, rfl⟩
    have h1 : ¬ 32 ≤ b.accu.n := by omega
    have h2 : ¬ 32 ≤ n := by omega
    rw [h.aub]; simp [h1, h2]
  · rename_i hfit
    unfold getBitsGeneric
    obtain ⟨l1, l2, l3, l4⟩ := accuLoad_spec F hF P b.accu b.buf h (by omega)
    generalize accuLoad b.accu b.buf = q at *
    obtain ⟨a, c⟩ := q
    dsimp only at *
    have hub : (a.ub || decide (32 ≤ a.n) || decide (32 ≤ min (32 - a.n) n)) = false := by
      have h1 : ¬ 32 ≤ a.n := by omega
      have h2 : ¬ 32 ≤ min (32 - a.n) n := by omega
      rw [l1.aub]; simp only [h1, h2, decide_false, Bool.or_self]
    rw [hub]
    by_cases h2 : n - min (32 - a.n) n ≠ 0
    · rw [if_pos h2]
      have hmin : min (32 - a.n) n = 32 - a.n := by omega
      rw [hmin] at h2 ⊢
      have hR := hadv a c P (32 - a.n) false l1 (by omega) rfl
      have hv1 := l1.take (32 - a.n) (by omega)
      obtain ⟨m1, m2, m3, m4⟩ := accuLoad_spec F hF (P + (32 - a.n)) _ c hR (by omega)
      generalize accuLoad { a with n := a.n + (32 - a.n), ub := false } c = q at *
      obtain ⟨a', c'⟩ := q
      dsimp only at *
      have hv2 := m1.take (n - (32 - a.n)) (by omega)
      rw [hv1, hv2]
      have hub' : (a'.ub || decide (32 ≤ a'.n) || decide (32 ≤ n - (32 - a.n))) = false := by
        have h1 : ¬ 32 ≤ a'.n := by omega
        have h2 : ¬ 32 ≤ n - (32 - a.n) := by omega
        rw [m1.aub]; simp only [h1, h2, decide_false, Bool.or_self]
      rw [hub']
      refine ⟨?_, ?_, by rw [m3, l3], rfl, rfl, by rw [m4, l4]⟩
      · generalize hx : 32 - a.n = x at *
        have hsm : (bval F / 2 ^ (P + x) % 2 ^ (n - x)) <<< x % 2 ^ 32 =
            (bval F / 2 ^ (P + x) % 2 ^ (n - x)) <<< x := by
          apply Nat.mod_eq_of_lt
          rw [Nat.shiftLeft_eq]
          calc bval F / 2 ^ (P + x) % 2 ^ (n - x) * 2 ^ x < 2 ^ (n - x) * 2 ^ x :=
                Nat.mul_lt_mul_of_pos_right (Nat.mod_lt _ (Nat.pow_pos (by decide)))
                  (Nat.pow_pos (by decide))
            _ = 2 ^ (n - x + x) := by rw [Nat.pow_add]
            _ ≤ 2 ^ 32 := Nat.pow_le_pow_right (by decide) (by omega)
        rw [hsm, or_shl _ _ _ (Nat.mod_lt _ (Nat.pow_pos (by decide)))]
        have e : n = x + (n - x) := by omega
        conv => rhs; rw [e, Nat.pow_add, Nat.mod_mul]
        rw [Nat.pow_add, ← Nat.div_div_eq_div_mul, Nat.mul_comm (2 ^ x)]
      · have := hadv a' c' (P + (32 - a.n)) (n - (32 - a.n)) false m1 (by omega) rfl
        rw [show P + (32 - a.n) + (n - (32 - a.n)) = P + n by omega] at this
        exact this
    · rw [if_neg h2]
      have hmin : min (32 - a.n) n = n := by omega
      rw [hmin]
      refine ⟨l1.take n (by omega), hadv a c P n false l1 (by omega) rfl, l3, rfl, rfl, l4⟩

/-! #### Symbols -/

/-- Search of the symbol whose interval contains the value. -/
theorem searchSymbol_spec (m : AcModel) (hm : m.WF) (s low range : Nat) (hs : s ≤ 16)
    (h1 : range * (m.sym s).low ≤ low)
    (h2 : low < range * (m.sym s).low + range * (m.sym s).range) :
    searchSymbol m low range = s := by
  have key : ∀ t, t ≤ 16 → (low < range * (m.sym t).low ↔ s < t) := by
    intro t ht
    constructor
    · intro hlt
      rcases Nat.lt_or_ge s t with h | h
      · exact h
      · exfalso
        rcases Nat.lt_or_ge t s with h' | h'
        · have h3 := hm.low_le t s h' hs
          have h4 : range * (m.sym t).low ≤ range * (m.sym s).low :=
            Nat.mul_le_mul_left _ (by omega)
          omega
        · have : t = s := by omega
          subst this; omega
    · intro hst
      have h3 := hm.low_le s t hst ht
      have h4 : range * ((m.sym s).low + (m.sym s).range) ≤ range * (m.sym t).low :=
        Nat.mul_le_mul_left _ h3
      rw [Nat.mul_add] at h4
      omega
  have k := fun t ht => propext (key t ht)
  clear key h1 h2 hm
  unfold searchSymbol
  have hc : s = 0 ∨ s = 1 ∨ s = 2 ∨ s = 3 ∨ s = 4 ∨ s = 5 ∨ s = 6 ∨ s = 7 ∨ s = 8 ∨ s = 9 ∨ s = 10 ∨
      s = 11 ∨ s = 12 ∨ s = 13 ∨ s = 14 ∨ s = 15 ∨ s = 16 := by omega
  rcases hc with h | h | h | h | h | h | h | h | h | h | h | h | h | h | h | h | h <;> subst h <;>
    simp [k 16, k 8, k 4, k 12, k 2, k 6, k 10, k 14, k 1, k 3, k 5, k 7, k 9, k 11, k 13, k 15]

/-- Renormalisation of the reader. -/
theorem readRenorm_spec (F : List Nat) (hF : Bytes F) (f j m T : Nat) (ac : Ac) (b : Buf)
    (hj : j < f) (hd : b.data = F) (hr : 0 < ac.range)
    (hge : 2 ^ 16 ≤ ac.range * 256 ^ j) (hlt : ac.range * 256 ^ j < 2 ^ 24)
    (hlow : ac.low < ac.range) (hT : T + ac.low = pval F m) (hfw : b.fw = min m F.length) :
    let r := readRenorm f ac b
    r.1.range = ac.range * 256 ^ j ∧ T * 256 ^ j + r.1.low = pval F (m + j) ∧
    r.2.fw = min (m + j) F.length ∧ r.2.data = F ∧ r.2.bw = b.bw ∧ r.2.ub = b.ub ∧
    r.1.cache = ac.cache ∧ r.1.carry = ac.carry ∧ r.1.carryCount = ac.carryCount ∧
    r.1.error = ac.error ∧ r.1.ub = ac.ub := by
  induction f generalizing j m T ac b with
  | zero => omega
  | succ f ih =>
    simp only [readRenorm]
    cases j with
    | zero =>
      rw [Nat.pow_zero, Nat.mul_one] at hge
      rw [if_neg (by omega)]
      exact ⟨by simp, by simpa using hT, hfw, hd, rfl, rfl, rfl, rfl, rfl, rfl, rfl⟩
    | succ j =>
      have hpw : ac.range * 256 ^ (j + 1) = ac.range * 256 * 256 ^ j := by
        rw [Nat.pow_succ]; ring
      rw [hpw] at hge hlt
      have h1 : ac.range * 256 ≤ ac.range * 256 * 256 ^ j :=
        Nat.le_mul_of_pos_right _ (Nat.pow_pos (by decide))
      rw [if_pos (by omega)]
      have hget : (acGet b).1 = F.getD m 0 ∧ (acGet b).2 = { b with fw := min (m + 1) F.length } := by
        unfold acGet
        rw [hd]
        split
        · rename_i hlt'
          have : b.fw = m := by omega
          have e : b.fw + 1 = min (m + 1) F.length := by omega
          rw [e]
          exact ⟨by rw [this], rfl⟩
        · have e : b.fw = min (m + 1) F.length := by omega
          refine ⟨(getD_ge _ _ (by omega)).symm, ?_⟩
          rw [← e]
          rw [← hd]
      obtain ⟨g1, g2⟩ := hget
      generalize acGet b = q at *
      obtain ⟨x, b'⟩ := q
      dsimp only at g1 g2 ⊢
      subst g2
      have hx : x < 256 := by rw [g1]; exact hF.getD m
      have hor : ((ac.low <<< 8) ||| x) &&& 0xffffff = ac.low * 256 + x := by
        rw [and_ffffff, Nat.or_comm, or_shl x ac.low 8 hx]
        rw [Nat.mod_eq_of_lt (by omega)]
        omega
      have hsh : (ac.range <<< 8) % 2 ^ 32 = ac.range * 256 := by
        rw [shl8]; exact Nat.mod_eq_of_lt (by omega)
      rw [hor, hsh]
      obtain ⟨i1, i2, i3, i4, i5, i6, i7, i8, i9, i10, i11⟩ := ih j (m + 1) (T * 256)
        { ac with low := ac.low * 256 + x, range := ac.range * 256 }
        { b with fw := min (m + 1) F.length } (by omega) hd (by dsimp only; omega) hge hlt
        (by dsimp only; omega)
        (by dsimp only; rw [pval_succ F hF, ← hT, g1]; ring) rfl
      refine ⟨by rw [i1, hpw], ?_, ?_, i4, i5, i6, i7, i8, i9, i10, i11⟩
      · rw [show m + (j + 1) = m + 1 + j by omega, ← i2, Nat.pow_succ]; ring
      · rw [i3]; congr 1; omega

end LC3
