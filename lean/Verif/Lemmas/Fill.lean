import Verif.Lemmas.BitsFlush
import Verif.Lemmas.BitsSync

/-!
The content of the frame does not depend on the previous content of the memory: two executions that start with different contents agree
outside of the gap between the two pointers, and the flush fills the gap.
-/

namespace LC3

/-- The same buffers, except for the bytes that are not written yet. -/
structure BufSim (a b : Buf) : Prop where
  fw : a.fw = b.fw
  bw : a.bw = b.bw
  ub : a.ub = b.ub
  len : a.data.length = b.data.length
  data : ∀ k, k < a.fw ∨ a.bw ≤ k → a.data[k]? = b.data[k]?

/-- The same states of the writer, except for the bytes that are not written yet. -/
structure BitsSim (a b : Bits) : Prop where
  rd : a.rd = b.rd
  ac : a.ac = b.ac
  accu : a.accu = b.accu
  buf : BufSim a.buf b.buf

theorem BufSim.put {a b : Buf} (h : BufSim a b) (v : Int) : BufSim (acPut a v) (acPut b v) := by
  obtain ⟨h1, h2, h3, h4, h5⟩ := h
  unfold acPut
  by_cases c : a.fw < a.data.length
  · rw [if_pos c, if_pos (by omega)]
    refine ⟨by dsimp only; omega, h2, h3, by simpa using h4, ?_⟩
    intro k hk
    dsimp only at hk ⊢
    rw [← h1, List.getElem?_set, List.getElem?_set]
    by_cases e : a.fw = k
    · rw [if_pos e, if_pos e, h4]
    · rw [if_neg e, if_neg e]
      exact h5 k (by omega)
  · rw [if_neg c, if_neg (by omega)]
    exact ⟨h1, h2, h3, h4, h5⟩

theorem BufSim.putN (n : Nat) (v : Int) {a b : Buf} (h : BufSim a b) : BufSim (acPutN n v a) (acPutN n v b) := by
  induction n generalizing a b with
  | zero => exact h
  | succ n ih => exact ih (h.put v)

theorem BufSim.shift (ac : Ac) {a b : Buf} (h : BufSim a b) :
    (acShift ac a).1 = (acShift ac b).1 ∧ BufSim (acShift ac a).2 (acShift ac b).2 := by
  unfold acShift
  by_cases c : ac.low < 0xff0000 ∨ ac.carry ≠ 0
  · simp only [if_pos c]
    refine ⟨trivial, ?_⟩
    by_cases d : 0 ≤ ac.cache
    · simp only [if_pos d]; exact (h.put _).putN _ _
    · simp only [if_neg d]; exact h.putN _ _
  · simp only [if_neg c]
    exact ⟨trivial, h⟩

theorem BufSim.renorm (f : Nat) (ac : Ac) {a b : Buf} (h : BufSim a b) :
    (writeRenorm f ac a).1 = (writeRenorm f ac b).1 ∧ BufSim (writeRenorm f ac a).2 (writeRenorm f ac b).2 := by
  induction f generalizing ac a b with
  | zero => exact ⟨rfl, h⟩
  | succ f ih =>
    unfold writeRenorm
    by_cases c : ac.range < 0x10000
    · simp only [if_pos c]
      obtain ⟨e, s⟩ := h.shift ac
      rw [e]
      exact ih _ s
    · simp only [if_neg c]
      exact ⟨trivial, h⟩

theorem BufSim.flushLoop (n : Nat) (ac : Accu) {a b : Buf} (h : BufSim a b) (hn : n ≤ a.bw) :
    (flushLoop n ac a).1 = (flushLoop n ac b).1 ∧ BufSim (flushLoop n ac a).2 (flushLoop n ac b).2 := by
  induction n generalizing ac a b with
  | zero => exact ⟨rfl, h⟩
  | succ n ih =>
    obtain ⟨h1, h2, h3, h4, h5⟩ := h
    refine ih _ ⟨h1, by dsimp only; omega, by dsimp only; rw [h2, h3, h4], by simpa using h4, ?_⟩ (by dsimp only; omega)
    intro k hk
    dsimp only at hk ⊢
    rw [← h2, List.getElem?_set, List.getElem?_set]
    by_cases e : a.bw - 1 = k
    · rw [if_pos e, if_pos e, h4]
    · rw [if_neg e, if_neg e]
      exact h5 k (by omega)

theorem BufSim.accuFlush (ac : Accu) {a b : Buf} (h : BufSim a b) :
    (accuFlush ac a).1 = (accuFlush ac b).1 ∧ BufSim (accuFlush ac a).2 (accuFlush ac b).2 := by
  unfold LC3.accuFlush
  simp only
  rw [← h.fw, ← h.bw]
  obtain ⟨e, s⟩ := h.flushLoop (min (ac.n >>> 3) (a.bw - a.fw)) { ac with n := ac.n - 8 * min (ac.n >>> 3) (a.bw - a.fw) } (by omega)
  exact ⟨by rw [e], s⟩

theorem BitsSim.putBits {a b : Bits} (h : BitsSim a b) (v n : Nat) : BitsSim (putBits a v n) (putBits b v n) := by
  obtain ⟨h1, h2, h3, h4⟩ := h
  unfold LC3.putBits
  rw [← h3]
  by_cases c : a.accu.n + n ≤ 32
  · rw [if_pos c, if_pos c]
    exact ⟨h1, h2, rfl, h4⟩
  · rw [if_neg c, if_neg c]
    unfold putBitsGeneric
    simp only
    rw [← h3]
    obtain ⟨e, s⟩ := h4.accuFlush (if min (32 - a.accu.n) n ≠ 0 then
      { a.accu with v := a.accu.v ||| ((v <<< a.accu.n) % 2 ^ 32), n := 32, ub := a.accu.ub || decide (32 ≤ a.accu.n) } else a.accu)
    rw [e]
    exact ⟨h1, h2, rfl, s⟩

theorem BitsSim.putSymbol {a b : Bits} (h : BitsSim a b) (m : AcModel) (s : Nat) : BitsSim (putSymbol a m s) (putSymbol b m s) := by
  obtain ⟨h1, h2, h3, h4⟩ := h
  unfold LC3.putSymbol
  simp only
  rw [← h2]
  split
  · obtain ⟨e, s⟩ := h4.renorm 3 _
    refine ⟨h1, e, h3, s⟩
  · exact ⟨h1, rfl, h3, h4⟩

theorem BitsSim.putOps {a b : Bits} (h : BitsSim a b) (ops : List Op) : BitsSim (putOps a ops) (putOps b ops) := by
  induction ops generalizing a b with
  | nil => exact h
  | cons o l ih =>
    refine ih ?_
    cases o with
    | bits v n => exact h.putBits v n
    | sym m s => exact h.putSymbol m s

theorem BitsSim.left {a b : Bits} (h : BitsSim a b) : getBitsLeft a = getBitsLeft b := by
  obtain ⟨h1, h2, h3, h4⟩ := h
  unfold getBitsLeft bitsLeftRaw
  rw [h1, h2, h3, h4.fw, h4.bw]

theorem BitsSim.padLoop (f n : Nat) {a b : Bits} (h : BitsSim a b) : BitsSim (padLoop f n a) (padLoop f n b) := by
  induction f generalizing n a b with
  | zero => exact h
  | succ f ih =>
    unfold LC3.padLoop
    by_cases c : n = 0
    · rw [if_pos c, if_pos c]; exact h
    · rw [if_neg c, if_neg c]; exact ih _ (h.putBits _ _)

/-! ### The gap -/

theorem flushLoop_ptr (k : Nat) (a : Accu) (b : Buf) :
    (flushLoop k a b).2.bw = b.bw - k ∧ (flushLoop k a b).2.fw = b.fw ∧ (flushLoop k a b).1.n = a.n := by
  induction k generalizing a b with
  | zero => exact ⟨rfl, rfl, rfl⟩
  | succ k ih =>
    obtain ⟨h1, h2, h3⟩ := ih { a with v := a.v >>> 8 }
      { b with data := b.data.set (b.bw - 1) (a.v % 256), bw := b.bw - 1
               ub := b.ub || decide (b.bw = 0) || decide (b.data.length < b.bw) }
    refine ⟨?_, h2, h3⟩
    unfold flushLoop
    rw [h1]
    dsimp only
    omega

theorem accuFlush_ptr (a : Accu) (b : Buf) :
    (accuFlush a b).2.bw = b.bw - min (a.n >>> 3) (b.bw - b.fw) ∧ (accuFlush a b).2.fw = b.fw := by
  unfold accuFlush
  exact ⟨(flushLoop_ptr _ _ _).1, (flushLoop_ptr _ _ _).2.1⟩

theorem putBits_gap (b : Bits) (v m r : Nat) (h : b.accu.n ≤ 32) (hm : m ≤ 32) :
    (putBits b v m).accu.n ≤ 32 ∧ (8 * (b.buf.bw - b.buf.fw) ≤ b.accu.n + m + r →
      8 * ((putBits b v m).buf.bw - (putBits b v m).buf.fw) ≤ (putBits b v m).accu.n + r) := by
  unfold putBits
  by_cases c : b.accu.n + m ≤ 32
  · rw [if_pos c]; exact ⟨c, fun hg => hg⟩
  · rw [if_neg c]
    unfold putBitsGeneric
    dsimp only
    have e : ∀ w u, (if min (32 - b.accu.n) m ≠ 0 then { b.accu with v := w, n := 32, ub := u } else b.accu : Accu).n = 32 := by
      intro w u
      split
      · rfl
      · omega
    generalize hA : (if min (32 - b.accu.n) m ≠ 0 then
      { b.accu with v := b.accu.v ||| ((v <<< b.accu.n) % 2 ^ 32), n := 32, ub := b.accu.ub || decide (32 ≤ b.accu.n) } else b.accu : Accu) = a
    have hn : a.n = 32 := by rw [← hA]; exact e _ _
    obtain ⟨p1, p2⟩ := accuFlush_ptr a b.buf
    rw [hn] at p1
    rw [p1, p2]
    refine ⟨by omega, fun hg => ?_⟩
    have : (32 >>> 3 : Nat) = 4 := rfl
    rw [this]
    omega

theorem padLoop_gap (f n : Nat) (b : Bits) (h : b.accu.n ≤ 32) (hf : n ≤ f) :
    (padLoop f n b).accu.n ≤ 32 ∧ (8 * (b.buf.bw - b.buf.fw) ≤ b.accu.n + n →
      8 * ((padLoop f n b).buf.bw - (padLoop f n b).buf.fw) ≤ (padLoop f n b).accu.n) := by
  induction f generalizing n b with
  | zero =>
    have : n = 0 := by omega
    subst this
    exact ⟨h, fun hg => hg⟩
  | succ f ih =>
    unfold padLoop
    by_cases c : n = 0
    · rw [if_pos c]; subst c; exact ⟨h, fun hg => hg⟩
    · rw [if_neg c]
      obtain ⟨g1, g2⟩ := putBits_gap b 0 (min n 32) (n - 32) h (by omega)
      obtain ⟨i1, i2⟩ := ih (n - 32) (putBits b 0 (min n 32)) g1 (by omega)
      exact ⟨i1, fun hg => i2 (g2 (by omega))⟩

/-- After the padding and the flush of the accumulator, no byte is left between the two pointers. -/
theorem pad_closes (b : Bits) (h : b.accu.n ≤ 32) :
    let n := (8 * ((b.buf.bw : Int) - b.buf.fw) - b.accu.n).toNat
    let c := padLoop n n b
    (accuFlush c.accu c.buf).2.bw ≤ (accuFlush c.accu c.buf).2.fw := by
  intro n c
  obtain ⟨g1, g2⟩ := padLoop_gap n n b h (Nat.le_refl _)
  have hg := g2 (by omega)
  change 8 * (c.buf.bw - c.buf.fw) ≤ c.accu.n at hg
  obtain ⟨p1, p2⟩ := accuFlush_ptr c.accu c.buf
  rw [p1, p2, Nat.shiftRight_eq_div_pow]
  omega

theorem BufSim.full {a b : Buf} (h : BufSim a b) (hc : a.bw ≤ a.fw) : a = b := by
  obtain ⟨h1, h2, h3, h4, h5⟩ := h
  have e : a.data = b.data := List.ext_getElem? fun k => h5 k (by omega)
  cases a; cases b
  simp only at h1 h2 h3 e
  rw [h1, h2, h3, e]

theorem BitsSim.flush {a b : Bits} (h : BitsSim a b) (hn : a.accu.n ≤ 32) : (flushBits a).buf = (flushBits b).buf := by
  unfold flushBits
  simp only
  obtain ⟨h1, h2, h3, h4⟩ := h
  have hc := pad_closes a hn
  simp only at hc
  rw [← h3, ← h4.fw, ← h4.bw]
  generalize (8 * ((a.buf.bw : Int) - a.buf.fw) - a.accu.n).toNat = n at *
  obtain ⟨q1, q2, q3, q4⟩ := BitsSim.padLoop n n ⟨h1, h2, h3, h4⟩
  rw [← q3, ← q2]
  have := (q4.accuFlush (LC3.padLoop n n a).accu).2.full hc
  rw [this]

/-- All the fields of bits have at most 32 bits. -/
def Op.Short : Op → Prop
  | .bits _ n => n ≤ 32
  | .sym _ _ => True

theorem Op.Valid.short {o : Op} (h : o.Valid) : o.Short := by
  cases o with
  | bits v n => have := h.2.1; unfold Op.Short; omega
  | sym m s => trivial

theorem putOps_short (b : Bits) (ops : List Op) (hv : ∀ o ∈ ops, o.Short) (h : b.accu.n ≤ 32) : (putOps b ops).accu.n ≤ 32 := by
  induction ops generalizing b with
  | nil => exact h
  | cons o l ih =>
    refine ih _ (fun x hx => hv x (by simp [hx])) ?_
    have ho := hv o (by simp)
    cases o with
    | bits v n => exact (putBits_gap b v n 0 h ho).1
    | sym m s =>
      change (putSymbol b m s).accu.n ≤ 32
      unfold putSymbol
      exact h

theorem setup_sim (d d' : List Nat) (h : d.length = d'.length) : BitsSim (setupWrite d) (setupWrite d') := by
  refine ⟨rfl, rfl, rfl, rfl, ?_, rfl, h, ?_⟩
  · exact h
  · intro k hk
    change k < 0 ∨ d.length ≤ k at hk
    change d[k]? = d'[k]?
    rw [List.getElem?_eq_none (by omega), List.getElem?_eq_none (by omega)]

end LC3
