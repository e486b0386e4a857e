import Verif.Lemmas.SyntaxSafe
import Verif.Props.Bits

/-!
A group of fields inside a frame: something before, something after.
-/

namespace LC3

theorem readAll_ready_rest (F : List Nat) (pre rest : List Op) (b r : Bits)
    (h : Ready F b r (pre ++ rest)) :
    (readAll r (pre.map Op.shape)).1 = pre.map Op.val ∧
    Ready F (putOps b pre) (readAll r (pre.map Op.shape)).2 rest := by
  induction pre generalizing b r with
  | nil => exact ⟨rfl, h⟩
  | cons o ops ih =>
    obtain ⟨s1, s2⟩ := h.step
    obtain ⟨i1, i2⟩ := ih _ _ s2
    have e : o.shape.read r = o.get r := by cases o <;> rfl
    simp only [List.map_cons, readAll, e]
    exact ⟨by rw [s1, i1], i2⟩

theorem ready_in_frame (data : List Nat) (pre mid post : List Op) (sh32 : Nat → Nat)
    (hd : Bytes data) (h4 : 4 ≤ data.length) (h1 : ∀ o ∈ pre, o.Valid) (h2 : ∀ o ∈ mid, o.Valid)
    (h3 : ∀ o ∈ post, o.Valid)
    (hl : 0 ≤ bitsLeftRaw (putOps (putOps (putOps (setupWrite data) pre) mid) post)) :
    let F := (flushBits (putOps (putOps (putOps (setupWrite data) pre) mid) post)).buf.data
    Ready F (putOps (setupWrite data) pre)
      (readAll (setupRead sh32 F) (pre.map Op.shape)).2 (mid ++ post) := by
  have e : putOps (putOps (putOps (setupWrite data) pre) mid) post =
      putOps (setupWrite data) (pre ++ (mid ++ post)) := by
    rw [putOps_append, putOps_append]
  intro F
  have hF : F = encodeOps data (pre ++ (mid ++ post)) := by
    unfold encodeOps; rw [← e]
  rw [e] at hl
  have hR := ready_of_encode data (pre ++ (mid ++ post)) sh32 hd h4 (by
    intro o ho
    rw [List.mem_append, List.mem_append] at ho
    rcases ho with ho | ho | ho
    · exact h1 o ho
    · exact h2 o ho
    · exact h3 o ho) hl
  rw [← hF] at hR
  exact (readAll_ready_rest F pre _ _ _ hR).2

/-- What follows is read back. -/
theorem Ready.post {F : List Nat} {b r : Bits} {post : List Op} (h : Ready F b r post) :
    (readAll r (post.map Op.shape)).1 = post.map Op.val := (readAll_ready F post b r h).1

end LC3
