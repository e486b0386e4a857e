import Verif.Model.Shaping
import Verif.Lemmas.Bands
import Verif.Lemmas.Buf
import Verif.Lemmas.SnsPulse
import Verif.Props.Sns

/-! Spectral noise shaping: sizes, folding of the scale factors and loop on the bands. -/

namespace LC3

variable {R : Type}

theorem mapM_range_some {α : Type} (f : Nat → Option α) (n : Nat) (g : Nat → α) (h : ∀ i, i < n → f i = some (g i)) :
    (List.range n).mapM f = some ((List.range n).map g) := by
  have : ∀ l : List Nat, (∀ i ∈ l, i < n) → l.mapM f = some (l.map g) := by
    intro l
    induction l with
    | nil => intro _; rfl
    | cons a l ih =>
      intro hl
      rw [List.mapM_cons, h a (hl a (by simp)), ih fun i hi => hl i (by simp [hi])]
      rfl
  exact this _ fun i hi => List.mem_range.1 hi

/-! ### Sizes -/

theorem numBands_range (dt : Dt) (sr : Srate) (h : Config dt sr) : 17 ≤ numBands dt sr ∧ numBands dt sr ≤ 64 := by
  revert h
  cases dt <;> cases sr <;> decide

theorem padCounts_some (nb : Nat) (h : 17 ≤ nb) (h' : nb ≤ 64) :
    ∃ n4 n2, padCounts nb = some (n4, n2) ∧ n4 + n2 ≤ nb ∧ 4 * n4 + 2 * n2 + (nb - n4 - n2) = 64 := by
  unfold padCounts
  by_cases c : nb < 32
  · rw [if_pos c, if_neg (by omega)]
    have : 32 % nb = 32 - nb := by
      rw [Nat.mod_eq_sub_mod (by omega), Nat.mod_eq_of_lt (by omega)]
    exact ⟨_, _, rfl, by omega, by omega⟩
  · rw [if_neg c]
    exact ⟨_, _, rfl, by omega, by omega⟩

theorem flatMap_replicate_length {α : Type} (l : List α) (n : Nat) : (l.flatMap (List.replicate n)).length = l.length * n := by
  induction l with
  | nil => simp
  | cons a l ih => rw [List.flatMap_cons, List.length_append, ih, List.length_replicate, List.length_cons]; ring

theorem padBands_some (dt : Dt) (sr : Srate) (hc : Config dt sr) (eb : List R) (h : numBands dt sr ≤ eb.length) :
    ∃ e, padBands dt sr eb = some e ∧ e.length = 64 := by
  obtain ⟨h1, h2⟩ := numBands_range dt sr hc
  obtain ⟨n4, n2, a1, a2, a3⟩ := padCounts_some _ h1 h2
  unfold padBands
  dsimp only
  rw [a1, Option.bind_some, if_neg (by omega)]
  refine ⟨_, rfl, ?_⟩
  rw [List.length_append, List.length_append, flatMap_replicate_length, flatMap_replicate_length, List.length_take, List.length_take,
    List.length_take, List.length_drop, List.length_drop]
  dsimp only
  omega

theorem smoothLoop_some (A : Arith R) : ∀ (next ge : List R) (a b s : R), ge.length = next.length + 1 →
    ∃ r, smoothLoop A a b next ge s = some r ∧ r.1.length = next.length + 1
  | [], ge, a, b, s, h => by
    obtain ⟨g, rfl⟩ := List.length_eq_one_iff.1 (by simpa using h)
    exact ⟨_, rfl, rfl⟩
  | c :: next, [], a, b, s, h => by simp at h
  | c :: next, g :: ge, a, b, s, h => by
    rw [smoothLoop]
    obtain ⟨r, h1, h2⟩ := smoothLoop_some A next ge b c
      (A.add s (A.mul (A.add (A.add (A.mul a (A.ofRat (1/4))) (A.mul b (A.ofRat (1/2)))) (A.mul c (A.ofRat (1/4)))) g)) (by simpa using h)
    rw [h1, Option.bind_some]
    exact ⟨_, rfl, by simp [h2]⟩

theorem geTable_length (sr : Srate) : (geTable sr).length = 64 := by cases sr <;> rfl

theorem groupAt_some (A : Arith R) (z : R) (e : List R) (i : Nat) (h : e.length = 64) (hi : i < 16) :
    groupAt A e i = some (A.add (A.add (groupTerm A (e.getD (4 * i - 1) z) (e.getD (min (4 * i + 4) 63) z) 1)
      (groupTerm A (e.getD (4 * i) z) (e.getD (4 * i + 3) z) 2)) (groupTerm A (e.getD (4 * i + 1) z) (e.getD (4 * i + 2) z) 3)) := by
  have q : ∀ k, k < 64 → e[k]? = some (e.getD k z) := by
    intro k hk
    rw [List.getElem?_eq_getElem (by omega), List.getD_eq_getElem e z (by omega)]
  unfold groupAt
  rw [q (4 * i - 1) (by omega), q (min (4 * i + 4) 63) (by omega), q (4 * i) (by omega), q (4 * i + 3) (by omega), q (4 * i + 1) (by omega),
    q (4 * i + 2) (by omega)]
  rfl

theorem scaleScf_length (A : Arith R) (cf s : R) (l : List R) : (scaleScf A cf s l).length = l.length := by simp [scaleScf]

theorem attackLoop_length (A : Arith R) : ∀ (l : List R) (s : R × R × R × R) (sn sum : R), (attackLoop A l s sn sum).1.length = l.length
  | [], _, _, _ => rfl
  | v :: l, (s1, s2, s3, s4), sn, sum => by
    rw [attackLoop]
    simp [attackLoop_length A l]

theorem attackScf_some (A : Arith R) (dt : Dt) (scf : List R) (h : scf.length = 16) :
    ∃ r, attackScf A dt scf = some r ∧ r.length = 16 := by
  match scf, h with
  | s1 :: s2 :: s3 :: s4 :: next, h =>
    refine ⟨_, rfl, ?_⟩
    rw [scaleScf_length]
    simp only [List.length_cons, List.length_append, attackLoop_length, List.length_nil, List.cons_append] at h ⊢
    omega

/-- The 16 scale factors are computed, for any energy. -/
theorem computeScf_some (A : Arith R) (M : SnsMath R) (dt : Dt) (sr : Srate) (hc : Config dt sr) (nbytes : Nat) (eb : List R) (att : Bool)
    (h : numBands dt sr ≤ eb.length) : ∃ scf, computeScf A M dt sr nbytes eb att = some scf ∧ scf.length = 16 := by
  obtain ⟨e, h1, h2⟩ := padBands_some dt sr hc eb h
  unfold computeScf
  rw [h1, Option.bind_some]
  match e, h2 with
  | e0 :: next, h2 =>
    dsimp only
    have hn : next.length = 63 := by simpa using h2
    obtain ⟨s, a1, a2⟩ := smoothLoop_some A next ((geTable sr).map A.ofRat) e0 e0 (A.ofInt 0) (by simp [geTable_length, hn])
    rw [a1, Option.bind_some]
    have hl : (logBands A M s.1 s.2).length = 64 := by simp [logBands, a2, hn]
    rw [mapM_range_some _ 16 _ fun i hi => groupAt_some A (A.ofInt 0) _ i hl hi, Option.bind_some]
    cases att
    · refine ⟨_, rfl, ?_⟩
      rw [scaleScf_length]; simp
    · rw [if_pos rfl]
      refine attackScf_some A dt _ ?_
      rw [scaleScf_length]; simp

/-! ### DCT -/

theorem dctSum_some (A : Arith R) (x : List R) (m : Nat → R) (h : x.length = 16) :
    dctSum A x m = some ((List.range 16).foldl (fun y j => A.add y (A.mul (x.getD j (A.ofInt 0)) (m j))) (A.ofInt 0)) := by
  unfold dctSum
  rw [if_neg (by omega)]

theorem dct16Forward_some (A : Arith R) (x : List R) (h : x.length = 16) : ∃ y, dct16Forward A x = some y ∧ y.length = 16 := by
  unfold dct16Forward
  rw [mapM_range_some _ 16 _ fun i _ => dctSum_some A x _ h]
  exact ⟨_, rfl, by simp⟩

theorem dct16Inverse_some (A : Arith R) (x : List R) (h : x.length = 16) : ∃ y, dct16Inverse A x = some y ∧ y.length = 16 := by
  unfold dct16Inverse
  rw [mapM_range_some _ 16 _ fun i _ => dctSum_some A x _ h]
  exact ⟨_, rfl, by simp⟩

theorem codebooks : snsLfcb.length = 32 ∧ snsHfcb.length = 32 ∧ (∀ l ∈ snsLfcb, l.length = 8) ∧ (∀ l ∈ snsHfcb, l.length = 8) := by
  decide +kernel

theorem gainValues (s : Nat) (hs : s < 4) (g : Nat) (hg : g < snsGains s) :
    ∃ v, (snsGainValues[s]?).bind (fun l => l[g]?) = some v ∧ (snsGainValues.getD s []).getD g 0 = v := by
  have h : (snsGainValues.map List.length) = (List.range 4).map snsGains := by decide +kernel
  have hl : snsGainValues.length = 4 := by decide
  have hs' : s < snsGainValues.length := by omega
  have e : (snsGainValues[s]'hs').length = snsGains s := by
    have h1 : (snsGainValues.map List.length)[s]'(by simpa using hs') = ((List.range 4).map snsGains)[s]'(by simpa using hs) := by
      simp only [h]
    simpa using h1
  rw [List.getElem?_eq_getElem hs', Option.bind_some, List.getElem?_eq_getElem (by omega), List.getD_eq_getElem _ _ hs',
    List.getD_eq_getElem _ _ (by omega)]
  exact ⟨_, rfl, rfl⟩

theorem unquantizeScf_some (A : Arith R) (lf hf : Nat) (cn : List R) (s g : Nat) (h1 : lf < 32) (h2 : hf < 32) (h3 : cn.length = 16)
    (h4 : s < 4) (h5 : g < snsGains s) : ∃ scf, unquantizeScf A lf hf cn s g = some scf ∧ scf.length = 16 := by
  obtain ⟨c1, c2, c3, c4⟩ := codebooks
  obtain ⟨y, d1, d2⟩ := dct16Inverse_some A cn h3
  obtain ⟨v, g1, -⟩ := gainValues s h4 g h5
  have hg : snsGainAt A s g = some (A.ofRat v) := by
    unfold snsGainAt
    cases hq : snsGainValues[s]? with
    | none => rw [hq] at g1; cases g1
    | some l =>
      rw [hq, Option.bind_some] at g1
      rw [Option.bind_some, g1]; rfl
  unfold unquantizeScf
  simp only [Option.bind_eq_bind]
  rw [List.getElem?_eq_getElem (show lf < snsLfcb.length by omega), Option.bind_some,
    List.getElem?_eq_getElem (show hf < snsHfcb.length by omega), Option.bind_some, hg, Option.bind_some, d1, Option.bind_some]
  refine ⟨_, rfl, ?_⟩
  rw [List.length_map, List.length_zip, List.length_append, c3 _ (List.getElem_mem _), c4 _ (List.getElem_mem _), d2]
  rfl

/-! ### Interpolation -/

theorem interpLoop_length (A : Arith R) : ∀ (l : List R) (s : R), (interpLoop A s l).length = 4 * l.length
  | [], _ => rfl
  | s1 :: l, s => by
    rw [interpLoop]
    simp only [List.length_cons, interpLoop_length A l s1]
    omega

theorem interpLast_length (A : Arith R) : ∀ (l : List R), 2 ≤ l.length → (interpLast A l).length = 2
  | [], h => by simp at h
  | [_], h => by simp at h
  | [_, _], _ => rfl
  | _ :: b :: c :: l, _ => by
    rw [interpLast]
    · exact interpLast_length A (b :: c :: l) (by simp)
    · intro h; simp at h
    · intro s1 h; simp at h

theorem interpScf_some (A : Arith R) (scf : List R) (inv : Bool) (h : scf.length = 16) :
    ∃ r, interpScf A scf inv = some r ∧ r.length = 64 := by
  unfold interpScf
  match scf, h with
  | s :: l, h =>
    have hl : l.length = 15 := by simpa using h
    rw [List.map_cons]
    dsimp only
    rw [if_neg (by simp [hl])]
    refine ⟨_, rfl, ?_⟩
    rw [List.length_append, interpLast_length A _ (by simp [hl])]
    simp [interpLoop_length, hl]

/-! ### Folding -/

/-- The value of a band from the 64 interpolated scale factors. -/
def foldAt (A : Arith R) (z : R) (nb n4 n2 : Nat) (s : List R) (b : Nat) : R :=
  if b < n4 then
    A.mul (A.ofRat (1/4)) (A.add (A.add (A.add (s.getD (4 * b) z) (s.getD (4 * b + 1) z)) (s.getD (4 * b + 2) z)) (s.getD (4 * b + 3) z))
  else if b < n4 + n2 then A.mul (A.ofRat (1/2)) (A.add (s.getD (2 * (n4 + b)) z) (s.getD (2 * (n4 + b) + 1) z))
  else s.getD (64 - nb + b) z

theorem foldScf_spec (A : Arith R) (z : R) (nb n4 n2 : Nat) (h : padCounts nb = some (n4, n2)) (h1 : n4 + n2 ≤ nb)
    (h2 : 4 * n4 + 2 * n2 + (nb - n4 - n2) = 64) (s : List R) (hs : s.length = 64) :
    ∃ r, foldScf A nb s = some r ∧ r.length = 64 ∧ ∀ b, b < nb → r.getD b z = foldAt A z nb n4 n2 s b := by
  unfold foldScf
  rw [h, Option.bind_some]
  dsimp only
  obtain ⟨s1, a1, a2, a3⟩ := iter_inv (fun i4 (s : List R) => do
      let a ← rd s (4 * i4); let b ← rd s (4 * i4 + 1); let c ← rd s (4 * i4 + 2); let d ← rd s (4 * i4 + 3)
      wr s i4 (A.mul (A.ofRat (1/4)) (A.add (A.add (A.add a b) c) d)))
    (fun i t => t.length = 64 ∧ ∀ k, k < 64 → t.getD k z = if k < i then foldAt A z nb n4 n2 s k else s.getD k z) n4 0 s
    ⟨hs, fun k _ => by rw [if_neg (by omega)]⟩ (by
      rintro i t - hi ⟨b1, b2⟩
      simp only [Option.bind_eq_bind]
      rw [rd_at z t _ (4 * i) (by push_cast; ring) (by omega), Option.bind_some, rd_at z t _ (4 * i + 1) (by push_cast; ring) (by omega), Option.bind_some,
        rd_at z t _ (4 * i + 2) (by push_cast; ring) (by omega), Option.bind_some, rd_at z t _ (4 * i + 3) (by push_cast; ring) (by omega), Option.bind_some,
        wr_at t _ i _ rfl (by omega)]
      refine ⟨_, rfl, by simpa using b1, ?_⟩
      intro k hk
      rw [getD_set_at z t i _ (by omega)]
      by_cases c : k = i
      · subst c
        rw [if_pos rfl, if_pos (by omega), b2 _ (by omega), b2 _ (by omega), b2 _ (by omega), b2 _ (by omega), if_neg (by omega), if_neg (by omega),
          if_neg (by omega), if_neg (by omega), foldAt, if_pos (by omega)]
      · rw [if_neg c, b2 k hk]
        by_cases d : k < i
        · rw [if_pos d, if_pos (by omega)]
        · rw [if_neg d, if_neg (by omega)])
  rw [a1, Option.bind_some]
  obtain ⟨s2, c1, c2, c3⟩ := iter_inv (fun i2 (s : List R) => do
      let a ← rd s (2 * (n4 + i2)); let b ← rd s (2 * (n4 + i2) + 1)
      wr s i2 (A.mul (A.ofRat (1/2)) (A.add a b)))
    (fun i t => t.length = 64 ∧ ∀ k, k < 64 → t.getD k z = if k < i then foldAt A z nb n4 n2 s k else s.getD k z) n2 n4 s1
    ⟨a2, fun k hk => by simpa using a3 k hk⟩ (by
      rintro i t hi0 hi ⟨b1, b2⟩
      simp only [Option.bind_eq_bind]
      rw [rd_at z t _ (2 * (n4 + i)) (by push_cast; ring) (by omega), Option.bind_some, rd_at z t _ (2 * (n4 + i) + 1) (by push_cast; ring) (by omega),
        Option.bind_some, wr_at t _ i _ rfl (by omega)]
      refine ⟨_, rfl, by simpa using b1, ?_⟩
      intro k hk
      rw [getD_set_at z t i _ (by omega)]
      by_cases c : k = i
      · subst c
        by_cases hk0 : 2 * (n4 + k) < k
        · omega
        rw [if_pos rfl, if_pos (by omega), b2 _ (by omega), b2 _ (by omega), if_neg (by omega), if_neg (by omega), foldAt, if_neg (by omega), if_pos (by omega)]
      · rw [if_neg c, b2 k hk]
        by_cases d : k < i
        · rw [if_pos d, if_pos (by omega)]
        · rw [if_neg d, if_neg (by omega)])
  rw [c1, Option.bind_some, if_neg (by omega)]
  refine ⟨_, rfl, ?_, ?_⟩
  · simp only [List.length_append, List.length_take, List.length_drop]
    omega
  · intro b hb
    have l1 : (s2.take (n4 + n2)).length = n4 + n2 := by rw [List.length_take]; omega
    have l2 : ((s2.drop (4 * n4 + 2 * n2)).take (nb - n4 - n2)).length = nb - n4 - n2 := by
      rw [List.length_take, List.length_drop]; omega
    have hin : ∀ k, k < 64 → s2[k]? = some (s2.getD k z) := by
      intro k hk
      rw [List.getElem?_eq_getElem (by omega), List.getD_eq_getElem s2 z (by omega)]
    rw [List.getD_eq_getElem?_getD, List.append_assoc]
    by_cases d : b < n4 + n2
    · rw [List.getElem?_append_left (by omega), List.getElem?_take, if_pos d, hin b (by omega), Option.getD_some, c3 b (by omega), if_pos d]
    · rw [List.getElem?_append_right (by omega), l1, List.getElem?_append_left (by omega), List.getElem?_take, if_pos (by omega), List.getElem?_drop,
        hin _ (by omega), Option.getD_some, c3 _ (by omega), if_neg (by omega), foldAt, if_neg (by omega), if_neg d]
      congr 1
      omega

/-! ### Loop on the bands -/

theorem shapeBand_spec (A : Arith R) (z : R) (g : R) (x : Option (List R)) (y : List R) (i ie : Nat) (hi : i ≤ ie) (hy : ie ≤ y.length)
    (hx : ∀ x', x = some x' → ie ≤ x'.length) :
    ∃ y', iter (fun i y => (rd (x.getD y) i).bind fun v => wr y i (A.mul v g)) i (ie - i) y = some y' ∧ y'.length = y.length ∧
      ∀ k, y'.getD k z = if i ≤ k ∧ k < ie then A.mul ((x.getD y).getD k z) g else y.getD k z := by
  obtain ⟨y', h1, h2, h3⟩ := iter_inv (fun (i : Nat) y => (rd (x.getD y) i).bind fun v => wr y i (A.mul v g))
    (fun j t => t.length = y.length ∧ ∀ k, t.getD k z = if i ≤ k ∧ k < j then A.mul ((x.getD y).getD k z) g else y.getD k z) (ie - i) i y
    ⟨rfl, fun k => by rw [if_neg (by omega)]⟩ (by
      rintro j t hj0 hj ⟨a1, a2⟩
      have hsrc : j < (x.getD t).length := by
        cases x with
        | none => simp only [Option.getD_none]; omega
        | some x' => have := hx x' rfl; simp only [Option.getD_some]; omega
      have hval : (x.getD t).getD j z = (x.getD y).getD j z := by
        cases x with
        | none => simp only [Option.getD_none]; rw [a2 j, if_neg (by omega)]
        | some x' => rfl
      rw [rd_cast z _ j hsrc, Option.bind_some, wr_cast t j _ (by omega)]
      refine ⟨_, rfl, by simpa using a1, ?_⟩
      intro k
      rw [getD_set_at z t j _ (by omega)]
      by_cases c : k = j
      · subst c
        rw [if_pos rfl, if_pos ⟨hj0, by omega⟩, hval]
      · rw [if_neg c, a2 k]
        by_cases d : i ≤ k ∧ k < j
        · rw [if_pos d, if_pos ⟨d.1, by omega⟩]
        · rw [if_neg d, if_neg (by omega)])
  refine ⟨y', h1, h2, ?_⟩
  rw [show i + (ie - i) = ie by omega] at h3
  exact h3

theorem shapeLoop_spec (A : Arith R) (M : SnsMath R) (z : R) (x : Option (List R)) : ∀ (scf : List R) (lim : List Nat) (i last : Nat) (y : List R),
    scf.length = lim.length → Limits i lim → (i :: lim).getLast? = some last → last ≤ y.length →
    (∀ x', x = some x' → last ≤ x'.length) →
    ∃ y', shapeLoop A M x (scf.zip lim) i y = some y' ∧ y'.length = y.length ∧
      (∀ k, k < i ∨ last ≤ k → y'.getD k z = y.getD k z) ∧
      ∀ b, b < lim.length → ∀ k, (i :: lim).getD b 0 ≤ k → k < (i :: lim).getD (b + 1) 0 →
        y'.getD k z = A.mul ((x.getD y).getD k z) (M.exp2 (A.neg (scf.getD b z)))
  | [], [], i, last, y, _, _, h, _, _ => by
    exact ⟨y, rfl, rfl, fun _ _ => rfl, by intro b hb; simp at hb⟩
  | [], _ :: _, _, _, _, h, _, _, _, _ => by simp at h
  | _ :: _, [], _, _, _, h, _, _, _, _ => by simp at h
  | s :: scf, ie :: lim, i, last, y, hl, hlim, hla, hy, hx => by
    rw [List.getLast?_cons_cons] at hla
    have h1 := Limits.le lim ie last hlim.2 hla
    have h2 := hlim.1
    obtain ⟨y1, a1, a2, a3⟩ := shapeBand_spec A z (M.exp2 (A.neg s)) x y i ie (by omega) (by omega) (fun x' hx' => by have := hx x' hx'; omega)
    obtain ⟨y2, b1, b2, b3, b4⟩ := shapeLoop_spec A M z x scf lim ie last y1 (by simpa using hl) hlim.2 hla (by omega) hx
    refine ⟨y2, ?_, by omega, ?_, ?_⟩
    · rw [List.zip_cons_cons, shapeLoop]
      rw [a1, Option.bind_some, show max ie i = ie by omega, b1]
    · intro k hk
      rw [b3 k (by omega), a3 k, if_neg (by omega)]
    · intro b hb k hk1 hk2
      cases b with
      | zero =>
        simp only [List.getD_cons_zero, List.getD_cons_succ] at hk1 hk2 ⊢
        rw [b3 k (by omega), a3 k, if_pos ⟨hk1, hk2⟩]
      | succ b =>
        simp only [List.getD_cons_succ] at hk2 ⊢
        rw [List.getD_cons_succ] at hk1
        rw [b4 b (by simpa using hb) k hk1 hk2]
        have hge : ie ≤ k := by
          have : ∀ (l : List Nat) (i b : Nat), Limits i l → b ≤ l.length → i ≤ (i :: l).getD b 0 := by
            intro l
            induction l with
            | nil => intro i b _ hb; have : b = 0 := by simpa using hb
                     subst this; simp
            | cons j l ih =>
              intro i b hl hb
              cases b with
              | zero => simp
              | succ b =>
                have := ih j b hl.2 (by simpa using hb)
                have := hl.1
                rw [List.getD_cons_succ]; omega
          have := this lim ie b hlim.2 (by simp at hb; omega)
          omega
        have : (x.getD y1).getD k z = (x.getD y).getD k z := by
          cases x with
          | none => simp only [Option.getD_none]; rw [a3 k, if_neg (by omega)]
          | some _ => rfl
        rw [this]

end LC3
