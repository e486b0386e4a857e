import Mathlib.Tactic.Ring
import Mathlib.Tactic.Linarith

/-!
Big-endian value of a list of bytes, and arithmetic used by the bitstream proofs.
-/

namespace LC3

/-- Big-endian value of a list of bytes. -/
def bval (l : List Nat) : Nat := l.foldl (fun a x => a * 256 + x) 0

/-- All elements are bytes. -/
def Bytes (l : List Nat) : Prop := ∀ x ∈ l, x < 256

theorem bval_foldl (l : List Nat) (a : Nat) :
    l.foldl (fun a x => a * 256 + x) a = a * 256 ^ l.length + bval l := by
  induction l generalizing a with
  | nil => simp [bval]
  | cons x l ih =>
    simp only [List.foldl_cons, List.length_cons, bval]
    rw [ih, ih (0 * 256 + x)]
    ring

@[simp] theorem bval_nil : bval [] = 0 := rfl

theorem bval_cons (x : Nat) (l : List Nat) : bval (x :: l) = x * 256 ^ l.length + bval l := by
  conv => lhs; unfold bval
  rw [List.foldl_cons, bval_foldl]; ring

theorem bval_append (l m : List Nat) : bval (l ++ m) = bval l * 256 ^ m.length + bval m := by
  conv => lhs; unfold bval
  rw [List.foldl_append, bval_foldl]; rfl

theorem bval_concat (l : List Nat) (x : Nat) : bval (l ++ [x]) = bval l * 256 + x := by
  rw [bval_append]; simp [bval_cons]

theorem bval_lt (l : List Nat) (h : Bytes l) : bval l < 256 ^ l.length := by
  induction l with
  | nil => simp
  | cons x l ih =>
    have h1 := ih (fun y hy => h y (List.mem_cons_of_mem _ hy))
    have h2 := h x List.mem_cons_self
    rw [bval_cons, List.length_cons, Nat.pow_succ]
    have : x * 256 ^ l.length ≤ 255 * 256 ^ l.length := Nat.mul_le_mul_right _ (by omega)
    omega

theorem bval_replicate_ff (k : Nat) : bval (List.replicate k 255) = 256 ^ k - 1 := by
  induction k with
  | zero => rfl
  | succ k ih =>
    rw [List.replicate_succ, bval_cons, ih, List.length_replicate]
    have : 0 < 256 ^ k := Nat.pow_pos (by decide)
    rw [Nat.pow_succ]; omega

theorem bval_replicate_zero (k : Nat) : bval (List.replicate k 0) = 0 := by
  induction k with
  | zero => rfl
  | succ k ih => rw [List.replicate_succ, bval_cons, ih]; simp

theorem Bytes.append {l m : List Nat} (hl : Bytes l) (hm : Bytes m) : Bytes (l ++ m) := by
  intro x hx
  rcases List.mem_append.1 hx with h | h
  · exact hl x h
  · exact hm x h

theorem Bytes.set {l : List Nat} (h : Bytes l) (i : Nat) {x : Nat} (hx : x < 256) :
    Bytes (l.set i x) := by
  intro y hy
  rcases List.mem_or_eq_of_mem_set hy with h1 | h1
  · exact h y h1
  · omega

theorem Bytes.take {l : List Nat} (h : Bytes l) (i : Nat) : Bytes (l.take i) :=
  fun x hx => h x (List.mem_of_mem_take hx)

theorem Bytes.drop {l : List Nat} (h : Bytes l) (i : Nat) : Bytes (l.drop i) :=
  fun x hx => h x (List.mem_of_mem_drop hx)

theorem getD_lt (l : List Nat) (i : Nat) (hi : i < l.length) : l.getD i 0 = l[i] := by
  simp [List.getD_eq_getElem?_getD, hi]

theorem getD_ge (l : List Nat) (i : Nat) (hi : l.length ≤ i) : l.getD i 0 = 0 := by
  simp [List.getD_eq_getElem?_getD, hi]

theorem Bytes.getD {l : List Nat} (h : Bytes l) (i : Nat) : l.getD i 0 < 256 := by
  by_cases hi : i < l.length
  · rw [getD_lt _ _ hi]; exact h _ (List.getElem_mem hi)
  · rw [getD_ge _ _ (by omega)]; decide

/-- Splitting at any point. -/
theorem bval_split (l : List Nat) (i : Nat) :
    bval l = bval (l.take i) * 256 ^ (l.length - i) + bval (l.drop i) := by
  conv => lhs; rw [← List.take_append_drop i l]
  rw [bval_append, List.length_drop]

theorem bval_drop_lt {l : List Nat} (h : Bytes l) (i : Nat) :
    bval (l.drop i) < 256 ^ (l.length - i) := by
  have := bval_lt _ (h.drop i)
  rwa [List.length_drop] at this

theorem bval_take_lt {l : List Nat} (h : Bytes l) (i : Nat) (hi : i ≤ l.length) :
    bval (l.take i) < 256 ^ i := by
  have := bval_lt _ (h.take i)
  rwa [List.length_take, Nat.min_eq_left hi] at this

theorem take_set_succ (l : List Nat) (i x : Nat) (h : i < l.length) :
    (l.set i x).take (i + 1) = l.take i ++ [x] := by
  rw [List.take_succ_eq_append_getElem (by simpa using h), List.take_set_of_le (Nat.le_refl i)]
  simp

theorem drop_set_of_lt' (l : List Nat) (i j x : Nat) (h : i < j) :
    (l.set i x).drop j = l.drop j := List.drop_set_of_lt h

theorem drop_set_self (l : List Nat) (i x : Nat) (h : i < l.length) :
    (l.set i x).drop i = x :: l.drop (i + 1) := by
  rw [List.drop_eq_getElem_cons (by simpa using h)]
  simp [List.drop_set_of_lt]

theorem take_set_le (l : List Nat) (i j x : Nat) (h : j ≤ i) : (l.set i x).take j = l.take j :=
  List.take_set_of_le h

/-! ### Value of a prefix, with zeros after the end -/

/-- Value of the first `m` bytes of `l`, followed by zeros. -/
def pval (l : List Nat) (m : Nat) : Nat := bval l * 256 ^ m / 256 ^ l.length

theorem pval_of_le (l : List Nat) (h : Bytes l) (m : Nat) (hm : m ≤ l.length) :
    pval l m = bval (l.take m) := by
  unfold pval
  rw [bval_split l m]
  have hp : 256 ^ l.length = 256 ^ (l.length - m) * 256 ^ m := by
    rw [← Nat.pow_add]; congr 1; omega
  rw [hp, Nat.mul_div_mul_right _ _ (Nat.pow_pos (by decide))]
  rw [Nat.add_comm, Nat.add_mul_div_right _ _ (Nat.pow_pos (by decide)),
    Nat.div_eq_of_lt (bval_drop_lt h m), Nat.zero_add]

theorem pval_of_ge (l : List Nat) (m : Nat) (hm : l.length ≤ m) :
    pval l m = bval l * 256 ^ (m - l.length) := by
  unfold pval
  have hp : 256 ^ m = 256 ^ (m - l.length) * 256 ^ l.length := by
    rw [← Nat.pow_add]; congr 1; omega
  rw [hp, ← Nat.mul_assoc, Nat.mul_div_cancel _ (Nat.pow_pos (by decide))]

theorem pval_zero (l : List Nat) (h : Bytes l) : pval l 0 = 0 := by
  rw [pval_of_le l h 0 (by omega)]; simp

theorem pval_succ (l : List Nat) (h : Bytes l) (m : Nat) :
    pval l (m + 1) = pval l m * 256 + l.getD m 0 := by
  by_cases hm : m < l.length
  · rw [pval_of_le l h _ hm, pval_of_le l h _ (by omega),
      List.take_succ_eq_append_getElem hm, bval_concat, getD_lt _ _ hm]
  · rw [pval_of_ge l _ (by omega), pval_of_ge l _ (by omega), getD_ge _ _ (by omega)]
    rw [show m + 1 - l.length = (m - l.length) + 1 by omega, Nat.pow_succ]; ring

/-- Appending `j` bytes to the prefix. -/
theorem pval_add (l : List Nat) (h : Bytes l) (m j : Nat) :
    ∃ x, x < 256 ^ j ∧ pval l (m + j) = pval l m * 256 ^ j + x := by
  induction j with
  | zero => exact ⟨0, by simp, by simp⟩
  | succ j ih =>
    obtain ⟨x, hx, hp⟩ := ih
    refine ⟨x * 256 + l.getD (m + j) 0, ?_, ?_⟩
    · have := h.getD (m + j)
      rw [Nat.pow_succ]; omega
    · rw [← Nat.add_assoc, pval_succ l h, hp, Nat.pow_succ]; ring

/-! ### Bit operations as arithmetic -/

theorem or_shl (v x n : Nat) (h : v < 2 ^ n) : v ||| (x <<< n) = v + x * 2 ^ n := by
  rw [Nat.or_comm, ← Nat.shiftLeft_add_eq_or_of_lt h, Nat.shiftLeft_eq]; ring

theorem and_ffffff (x : Nat) : x &&& 0xffffff = x % 2 ^ 24 := Nat.and_two_pow_sub_one_eq_mod x 24

theorem and_ffff (x : Nat) : x &&& 0xffff = x % 2 ^ 16 := Nat.and_two_pow_sub_one_eq_mod x 16

theorem shl8 (x : Nat) : x <<< 8 = x * 256 := by rw [Nat.shiftLeft_eq]

theorem shr8 (x : Nat) : x >>> 8 = x / 256 := by rw [Nat.shiftRight_eq_div_pow]

theorem shr3 (x : Nat) : x >>> 3 = x / 8 := by rw [Nat.shiftRight_eq_div_pow]

theorem shr16 (x : Nat) : x >>> 16 = x / 65536 := by rw [Nat.shiftRight_eq_div_pow]

theorem shr24 (x : Nat) : x >>> 24 = x / 16777216 := by rw [Nat.shiftRight_eq_div_pow]

theorem shr10 (x : Nat) : x >>> 10 = x / 1024 := by rw [Nat.shiftRight_eq_div_pow]

theorem pow256 (n : Nat) : 256 ^ n = 2 ^ (8 * n) := by
  rw [show (256:Nat) = 2 ^ 8 by rfl, ← Nat.pow_mul]

end LC3
