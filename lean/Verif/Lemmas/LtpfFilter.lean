import Verif.Model.Ltpf

/-!
Synthesis filter of the LTPF: the ring buffer and the rotating accumulators compute the difference equation.
-/

namespace LC3

section
variable {R : Type} (A : Arith R)

/-- Cell of an array, null out of range. -/
def at0 (l : List R) (i : Nat) : R := l.getD i (A.ofInt 0)

theorem at0_some (l : List R) (i : Nat) (h : i < l.length) : l[i]? = some (at0 A l i) := by
  unfold at0
  rw [List.getD_eq_getElem?_getD, List.getElem?_eq_getElem h]
  rfl

theorem at0_set_ne (l : List R) (i j : Nat) (v : R) (h : i ≠ j) : at0 A (l.set i v) j = at0 A l j := by
  unfold at0
  rw [List.getD_eq_getElem?_getD, List.getD_eq_getElem?_getD, List.getElem?_set_ne h]

theorem at0_set_eq (l : List R) (i : Nat) (v : R) (h : i < l.length) : at0 A (l.set i v) i = v := by
  unfold at0
  rw [List.getD_eq_getElem?_getD, List.getElem?_set_self h]
  rfl

/-- Contribution of the sample `i`, multiplied by the coefficients `k`. -/
def tap (c : List R) (w : Nat) (Y X : Nat → R) (i k : Nat) (acc : R) : R :=
  A.add (A.sub acc (A.mul (Y i) (at0 A c k))) (A.mul (X i) (at0 A c (w + k)))

/-- Accumulation, in order of time, of `cnt` samples from the sample `t`. -/
def part (c : List R) (w : Nat) (Y X : Nat → R) (t : Nat) : Nat → R
  | 0 => A.ofInt 0
  | cnt + 1 => tap A c w Y X (t + cnt) cnt (part c w Y X t cnt)

theorem part_congr (c : List R) (w : Nat) (Y Y' X X' : Nat → R) (t cnt : Nat)
    (h : ∀ k < cnt, Y (t + k) = Y' (t + k) ∧ X (t + k) = X' (t + k)) :
    part A c w Y X t cnt = part A c w Y' X' t cnt := by
  induction cnt with
  | zero => rfl
  | succ cnt ih =>
    simp only [part, tap]
    rw [ih (fun k hk => h k (by omega)), (h cnt (by omega)).1, (h cnt (by omega)).2]

theorem updateU_eq (c : List R) (w : Nat) (yi xi : R) (k : Nat → Option Nat) (hc : 2 * w ≤ c.length)
    (f : Nat → R) (n m : Nat) (hk : ∀ i k', k i = some k' → m ≤ i → i < m + n → k' < w) :
    updateU A c w yi xi k m ((List.range' m n).map f) = some ((List.range' m n).map fun i =>
      match k i with
      | none => f i
      | some k => A.add (A.sub (f i) (A.mul yi (at0 A c k))) (A.mul xi (at0 A c (w + k)))) := by
  induction n generalizing m with
  | zero => rfl
  | succ n ih =>
    have := ih (m + 1) (fun i k' h h1 h2 => hk i k' h (by omega) (by omega))
    simp only [List.range'_succ, List.map_cons, updateU]
    rw [this]
    cases hkm : k m with
    | none => rfl
    | some k' =>
      have hk' := hk m k' hkm (Nat.le_refl _) (by omega)
      simp only [at0_some A c k' (by omega), at0_some A c (w + k') (by omega)]
      rfl

theorem range_eq_range' (w : Nat) : List.range w = List.range' 0 w := List.range_eq_range'

theorem map_set (w j : Nat) (f : Nat → R) (v : R) :
    ((List.range w).map f).set j v = (List.range w).map fun m => if m = j then v else f m := by
  apply List.ext_getElem
  · simp
  · intro i h1 h2
    simp only [List.length_set, List.length_map, List.length_range] at h1
    rw [List.getElem_set]
    simp only [List.getElem_map, List.getElem_range]
    by_cases h : j = i
    · subst h; simp
    · rw [if_neg h, if_neg (by omega)]

/-- Position in the ring, next. -/
theorem next_pos (N a i : Nat) (hN : 0 < N) :
    (if (a + i) % N < N - 1 then (a + i) % N + 1 else 0) = (a + (i + 1)) % N := by
  have h := Nat.mod_lt (a + i) hN
  rw [← Nat.add_assoc, ← Nat.mod_add_mod (a + i) N 1]
  by_cases h1 : (a + i) % N < N - 1
  · rw [if_pos h1, Nat.mod_eq_of_lt (a := (a + i) % N + 1) (by omega)]
  · rw [if_neg h1, show (a + i) % N + 1 = N by omega, Nat.mod_self]

/-- Load of the previous samples. -/
theorem ltpfLoad_eq (ring : List R) (N : Nat) (c : List R) (w : Nat) (a : Nat) (X : Nat → R)
    (hN : ring.length = N) (hN0 : 0 < N) (hc : 2 * w ≤ c.length) (x0 : List R) (j : Nat)
    (hl : j + x0.length < w) (hX : ∀ i, i < x0.length → x0[i]? = some (X (j + i))) :
    ltpfLoad A ring N c w j x0 ((a + j) % N)
      ((List.range w).map fun m => part A c w (fun i => at0 A ring ((a + i) % N)) X m (j - m)) =
    some ((a + (j + x0.length)) % N,
      (List.range w).map fun m =>
        part A c w (fun i => at0 A ring ((a + i) % N)) X m (j + x0.length - m)) := by
  induction x0 generalizing j with
  | nil => simp [ltpfLoad]
  | cons xi x0 ih =>
    simp only [List.length_cons] at hl
    have hxi : xi = X j := by simpa using hX 0 (by simp)
    unfold ltpfLoad
    have hr : ring[(a + j) % N]? = some (at0 A ring ((a + j) % N)) :=
      at0_some A ring _ (by rw [hN]; exact Nat.mod_lt _ hN0)
    rw [map_set, hr]
    simp only [Option.bind_eq_bind, Option.bind_some]
    rw [range_eq_range', updateU_eq A c w _ xi _ hc _ w 0 (by
      intro i k' hk _ h2
      split at hk
      · cases hk; omega
      · cases hk), next_pos N a j hN0]
    simp only [Option.bind_some]
    have hstep : ((List.range' 0 w).map fun i =>
        match (if i ≤ j then some (j - i) else none : Option Nat) with
        | none => if i = j then A.ofInt 0 else
            part A c w (fun i => at0 A ring ((a + i) % N)) X i (j - i)
        | some k => A.add (A.sub (if i = j then A.ofInt 0 else
            part A c w (fun i => at0 A ring ((a + i) % N)) X i (j - i))
            (A.mul (at0 A ring ((a + j) % N)) (at0 A c k))) (A.mul xi (at0 A c (w + k)))) =
        (List.range w).map fun m =>
          part A c w (fun i => at0 A ring ((a + i) % N)) X m (j + 1 - m) := by
      rw [← range_eq_range']
      apply List.map_congr_left
      intro m _
      by_cases hm : m ≤ j
      · rw [if_pos hm, show j + 1 - m = (j - m) + 1 by omega]
        simp only [part, tap, show m + (j - m) = j by omega, hxi]
        by_cases hmj : m = j
        · subst hmj
          simp [part]
        · rw [if_neg hmj]
      · rw [if_neg hm, if_neg (by omega), show j - m = 0 by omega, show j + 1 - m = 0 by omega]
    rw [hstep, ih (j + 1) (by omega) (by
      intro i hi
      have := hX (i + 1) (by simpa using hi)
      simpa [Nat.add_assoc, Nat.add_comm 1 i] using this)]
    simp only [List.length_cons, ← range_eq_range']
    rw [show j + (x0.length + 1) = j + 1 + x0.length by omega]

/-- Filtering. -/
theorem ltpfRun_eq (N : Nat) (c : List R) (w : Nat) (incr : R) (a x n : Nat) (X : Nat → R)
    (hw : 0 < w) (hc : 2 * w ≤ c.length)
    (ha : ∀ i t, t < n → i ≤ t + (w - 1) → (a + i) % N < x + t ∨ x + n ≤ (a + i) % N)
    (hx : x + n ≤ N) (k t : Nat) (ring : List R) (g : R) (hN : ring.length = N)
    (ht : t + k = n) (hX : ∀ i, t ≤ i → i < n → at0 A ring (x + i) = X (w - 1 + i)) :
    ∃ ring', ltpfRun A N c w incr k t (x + t) ring ((a + (t + (w - 1))) % N)
        ((List.range w).map fun m =>
          part A c w (fun i => at0 A ring ((a + i) % N)) X (t + (m + w - t % w) % w)
            (w - 1 - (m + w - t % w) % w)) g = some ring' ∧
      ring'.length = N ∧
      (∀ i, i < x + t ∨ x + n ≤ i → at0 A ring' i = at0 A ring i) ∧
      ∃ gs : Nat → R, gs t = g ∧ (∀ i, t ≤ i → i < n → gs (i + 1) = A.add (gs i) incr) ∧
        ∀ i, t ≤ i → i < n → at0 A ring' (x + i) = A.sub (X (w - 1 + i))
          (A.mul (gs i) (part A c w (fun i => at0 A ring' ((a + i) % N)) X i w)) := by
  induction k generalizing t ring g with
  | zero =>
    refine ⟨ring, rfl, hN, fun i _ => rfl, fun _ => g, rfl, ?_, ?_⟩
    · intro i h1 h2; omega
    · intro i h1 h2; omega
  | succ k ih =>
    have hN0 : 0 < N := by omega
    have hj := Nat.mod_lt t hw
    unfold ltpfRun
    rw [at0_some A ring _ (by rw [hN]; exact Nat.mod_lt (a + (t + (w - 1))) hN0),
      at0_some A ring (x + t) (by omega)]
    simp only [Option.bind_eq_bind, Option.bind_some]
    rw [range_eq_range', updateU_eq A c w _ _ _ hc _ w 0 (by
      intro i k' hk _ h2
      cases hk
      exact Nat.mod_lt _ hw), next_pos N a _ hN0]
    simp only [Option.bind_some]
    -- the accumulators after the update
    have hstep : ((List.range' 0 w).map fun m =>
        A.add (A.sub (part A c w (fun i => at0 A ring ((a + i) % N)) X (t + (m + w - t % w) % w)
            (w - 1 - (m + w - t % w) % w))
            (A.mul (at0 A ring ((a + (t + (w - 1))) % N)) (at0 A c ((t % w + (w - 1) + w - m) % w))))
          (A.mul (at0 A ring (x + t)) (at0 A c (w + (t % w + (w - 1) + w - m) % w)))) =
        (List.range w).map fun m =>
          part A c w (fun i => at0 A ring ((a + i) % N)) X (t + (m + w - t % w) % w)
            (w - (m + w - t % w) % w) := by
      rw [← range_eq_range']
      apply List.map_congr_left
      intro m hm
      rw [List.mem_range] at hm
      have hd : (t % w + (w - 1) + w - m) % w = w - 1 - (m + w - t % w) % w := by
        rcases Nat.lt_or_ge m (t % w) with h | h
        · rw [Nat.mod_eq_of_lt (show m + w - t % w < w by omega)]
          rw [show t % w + (w - 1) + w - m = (w - 1 - (m + w - t % w)) + w + w by omega]
          rw [Nat.add_mod_right, Nat.add_mod_right, Nat.mod_eq_of_lt (by omega)]
        · rw [show m + w - t % w = (m - t % w) + w by omega, Nat.add_mod_right,
            Nat.mod_eq_of_lt (show m - t % w < w by omega)]
          rw [show t % w + (w - 1) + w - m = (w - 1 - (m - t % w)) + w by omega]
          rw [Nat.add_mod_right, Nat.mod_eq_of_lt (by omega)]
      have hdw : (m + w - t % w) % w < w := Nat.mod_lt _ hw
      rw [hd]
      generalize (m + w - t % w) % w = δ at *
      rw [show w - δ = (w - 1 - δ) + 1 by omega]
      simp only [part, tap]
      rw [show t + δ + (w - 1 - δ) = t + (w - 1) by omega, hX t (Nat.le_refl _) (by omega),
        Nat.add_comm (w - 1) t]
    rw [hstep]
    -- the accumulator of the output
    have hu : ((List.range w).map fun m =>
          part A c w (fun i => at0 A ring ((a + i) % N)) X (t + (m + w - t % w) % w)
            (w - (m + w - t % w) % w))[t % w]? =
        some (part A c w (fun i => at0 A ring ((a + i) % N)) X t w) := by
      rw [List.getElem?_map, List.getElem?_range hj]
      simp only [Option.map_some]
      rw [show t % w + w - t % w = w by omega, Nat.mod_self]
      rfl
    rw [hu]
    simp only [Option.bind_some]
    rw [hX t (Nat.le_refl _) (by omega), map_set]
    generalize hv : A.sub (X (w - 1 + t)) (A.mul g (part A c w (fun i => at0 A ring ((a + i) % N)) X t w)) = v
    -- cells already read are not modified
    have hread : ∀ i, i ≤ t + (w - 1) →
        at0 A (ring.set (x + t) v) ((a + i) % N) = at0 A ring ((a + i) % N) := by
      intro i hi
      have := ha i t (by omega) hi
      exact at0_set_ne A ring _ _ v (by omega)
    have hrot : ((List.range w).map fun m => if m = t % w then A.ofInt 0 else
          part A c w (fun i => at0 A ring ((a + i) % N)) X (t + (m + w - t % w) % w)
            (w - (m + w - t % w) % w)) =
        (List.range w).map fun m =>
          part A c w (fun i => at0 A (ring.set (x + t) v) ((a + i) % N)) X
            (t + 1 + (m + w - (t + 1) % w) % w) (w - 1 - (m + w - (t + 1) % w) % w) := by
      apply List.map_congr_left
      intro m hm
      rw [List.mem_range] at hm
      have hmod : (t + 1) % w = if t % w + 1 = w then 0 else t % w + 1 := by
        rw [Nat.add_mod]
        rcases Nat.lt_or_ge 1 w with h | h
        · rw [Nat.mod_eq_of_lt h]
          split
          · rename_i h2; rw [h2, Nat.mod_self]
          · rw [Nat.mod_eq_of_lt (by omega)]
        · have : w = 1 := by omega
          subst this
          simp [Nat.mod_one]
      have hδ : (m + w - (t + 1) % w) % w = if m = t % w then w - 1 else (m + w - t % w) % w - 1 := by
        rw [hmod]
        by_cases h : m = t % w
        · rw [if_pos h, ← h]
          split
          · rw [Nat.sub_zero, Nat.add_mod_right, Nat.mod_eq_of_lt hm]; omega
          · rw [show m + w - (m + 1) = w - 1 by omega, Nat.mod_eq_of_lt (by omega)]
        · rw [if_neg h]
          rcases Nat.lt_or_ge m (t % w) with h2 | h2
          · rw [Nat.mod_eq_of_lt (show m + w - t % w < w by omega)]
            split
            · rw [Nat.sub_zero, Nat.add_mod_right, Nat.mod_eq_of_lt hm]; omega
            · rw [Nat.mod_eq_of_lt (by omega)]; omega
          · rw [show m + w - t % w = (m - t % w) + w by omega, Nat.add_mod_right,
              Nat.mod_eq_of_lt (show m - t % w < w by omega)]
            rw [if_neg (by omega), show m + w - (t % w + 1) = (m - t % w - 1) + w by omega,
              Nat.add_mod_right, Nat.mod_eq_of_lt (by omega)]
      have hδ0 : m ≠ t % w → 0 < (m + w - t % w) % w := by
        intro h
        rcases Nat.lt_or_ge m (t % w) with h2 | h2
        · rw [Nat.mod_eq_of_lt (show m + w - t % w < w by omega)]; omega
        · rw [show m + w - t % w = (m - t % w) + w by omega, Nat.add_mod_right,
              Nat.mod_eq_of_lt (show m - t % w < w by omega)]; omega
      have hdw : (m + w - t % w) % w < w := Nat.mod_lt _ hw
      rw [hδ]
      by_cases h : m = t % w
      · rw [if_pos h, if_pos h, Nat.sub_self]
        rfl
      · rw [if_neg h, if_neg h]
        have := hδ0 h
        generalize (m + w - t % w) % w = δ at *
        rw [show t + 1 + (δ - 1) = t + δ by omega, show w - 1 - (δ - 1) = w - δ by omega]
        apply part_congr
        intro k' hk'
        exact ⟨(hread _ (by omega)).symm, rfl⟩
    rw [hrot]
    obtain ⟨ring', e1, e2, e3, gs, e4, e5, e6⟩ := ih (t + 1) (ring.set (x + t) v) (A.add g incr)
      (by rw [List.length_set]; exact hN) (by omega) (by
        intro i h1 h2
        rw [at0_set_ne A ring _ _ v (by omega)]
        exact hX i (by omega) h2)
    rw [show x + t + 1 = x + (t + 1) by omega, show t + (w - 1) + 1 = t + 1 + (w - 1) by omega]
    refine ⟨ring', e1, e2, ?_, fun i => if i = t then g else gs i, by simp, ?_, ?_⟩
    · intro i hi
      rw [e3 i (by omega), at0_set_ne A ring _ _ v (by omega)]
    · intro i h1 h2
      dsimp only
      by_cases h : i = t
      · subst h
        rw [if_neg (by omega), if_pos rfl, e4]
      · rw [if_neg (by omega), if_neg h]
        exact e5 i (by omega) h2
    · intro i h1 h2
      dsimp only
      by_cases h : i = t
      · subst h
        rw [if_pos rfl, e3 _ (by omega), at0_set_eq A ring _ v (by omega), ← hv]
        congr 2
        apply part_congr
        intro k' hk'
        refine ⟨?_, rfl⟩
        have := ha (i + k') i h2 (by omega)
        rw [e3 _ (by omega), hread _ (by omega)]
      · rw [if_neg h]
        exact e6 i (by omega) h2

/-- Input samples: `w - 1` previous ones, then the ones in the ring. -/
def inputs (x0 : List R) (w : Nat) (ring : List R) (x i : Nat) : R :=
  if i < w - 1 then at0 A x0 i else at0 A ring (x + (i - (w - 1)))

/-- Gain of each sample: the increment is added after each sample. -/
def gains (g incr : R) : Nat → R
  | 0 => g
  | n + 1 => A.add (gains g incr n) incr

/-- The equation satisfied by the samples `t < n` of the ring, for the lag `L`: the output is the input, minus
the gain times the accumulation of `w` output samples from the lag, and `w` input samples. -/
def FilterEq (ring : List R) (L : Nat) (X : Nat → R) (x n : Nat) (c : List R) (w : Nat) (gs : Nat → R) : Prop :=
  ∀ t, t < n → at0 A ring (x + t) = A.sub (X (w - 1 + t))
    (A.mul (gs t) (part A c w (fun i => at0 A ring ((x + ring.length - L + i) % ring.length)) X t w))

theorem synthTemplate_eq (ring : List R) (N lag : Nat) (x0 : List R) (x n : Nat) (c : List R) (w : Nat)
    (fade : Int) (hN : ring.length = N) (hw : 0 < w) (hc : 2 * w ≤ c.length) (hn : 0 < n)
    (hd : n % w = 0) (h0 : x0.length = w - 1) (hx : x + n ≤ N) (hl1 : w ≤ lag + w / 2)
    (hl2 : lag + w / 2 + n ≤ N) :
    ∃ ring', synthTemplate A ring N lag x0 x n c w fade = some ring' ∧ ring'.length = N ∧
      (∀ i, i < x ∨ x + n ≤ i → at0 A ring' i = at0 A ring i) ∧
      FilterEq A ring' (lag + w / 2) (inputs A x0 w ring x) x n c w
        (gains A (if fade ≤ 0 then A.ofInt 1 else A.ofInt 0) (A.div (A.ofInt fade.sign) (A.ofInt n))) := by
  unfold synthTemplate
  generalize hL : lag + w / 2 = L at *
  dsimp only
  rw [if_neg (by omega)]
  have hy : (if x < L then x + (N - L) else x - L) = (x + N - L + 0) % N := by
    by_cases h : x < L
    · rw [if_pos h, Nat.mod_eq_of_lt (by omega)]; omega
    · rw [if_neg h, show x + N - L + 0 = (x - L) + N by omega, Nat.add_mod_right,
        Nat.mod_eq_of_lt (by omega)]
  rw [hy, if_neg (by omega)]
  have hinit : List.replicate w (A.ofInt 0) = (List.range w).map fun m =>
      part A c w (fun i => at0 A ring ((x + N - L + i) % N)) (inputs A x0 w ring x) m (0 - m) := by
    apply List.ext_getElem
    · simp
    · intro i h1 h2
      simp [part]
  rw [hinit, ltpfLoad_eq A ring N c w (x + N - L) (inputs A x0 w ring x) hN (by omega) hc x0 0 (by omega) (by
    intro i hi
    rw [at0_some A x0 i hi]
    unfold inputs
    rw [Nat.zero_add, if_pos (by omega)])]
  simp only [Option.bind_eq_bind, Option.bind_some]
  have hcount : (n + w - 1) / w * w = n := by
    obtain ⟨q, hq⟩ := Nat.dvd_of_mod_eq_zero hd
    have hq1 : (n + w - 1) / w = q := by
      rw [hq, show w * q + w - 1 = (w - 1) + w * q by omega, Nat.add_mul_div_left _ _ hw,
        Nat.div_eq_of_lt (by omega)]
      omega
    rw [hq1, hq, Nat.mul_comm]
  rw [hcount]
  have hu : ((List.range w).map fun m =>
        part A c w (fun i => at0 A ring ((x + N - L + i) % N)) (inputs A x0 w ring x) m
          (0 + x0.length - m)) =
      (List.range w).map fun m =>
        part A c w (fun i => at0 A ring ((x + N - L + i) % N)) (inputs A x0 w ring x)
          (0 + (m + w - 0 % w) % w) (w - 1 - (m + w - 0 % w) % w) := by
    apply List.map_congr_left
    intro m hm
    rw [List.mem_range] at hm
    rw [Nat.zero_mod, Nat.sub_zero, Nat.add_mod_right, Nat.mod_eq_of_lt hm, h0, Nat.zero_add, Nat.zero_add]
  rw [hu, h0]
  obtain ⟨ring', e1, e2, e3, gs, e4, e5, e6⟩ := ltpfRun_eq A N c w
    (A.div (A.ofInt fade.sign) (A.ofInt n)) (x + N - L) x n (inputs A x0 w ring x) hw hc (by
      intro i t ht hi
      by_cases h : x + i < L
      · rw [Nat.mod_eq_of_lt (show x + N - L + i < N by omega)]; omega
      · rw [show x + N - L + i = (x + i - L) + N by omega, Nat.add_mod_right,
          Nat.mod_eq_of_lt (by omega)]; omega) hx n 0 ring
    (if fade ≤ 0 then A.ofInt 1 else A.ofInt 0) hN (by omega) (by
      intro i _ h2
      unfold inputs
      rw [if_neg (by omega), show w - 1 + i - (w - 1) = i by omega])
  refine ⟨ring', e1, e2, fun i hi => e3 i (by omega), ?_⟩
  have hgs : ∀ i, i < n → gs i = gains A (if fade ≤ 0 then A.ofInt 1 else A.ofInt 0)
      (A.div (A.ofInt fade.sign) (A.ofInt n)) i := by
    intro i
    induction i with
    | zero => intro _; exact e4
    | succ i ih =>
      intro h
      rw [e5 i (by omega) (by omega), ih (by omega)]
      rfl
  intro t ht
  rw [e6 t (by omega) ht, hgs t ht, e2]

/-! ### Synthesis of a frame -/

/-- Rates of the postfilter: all but the high-resolution ones. -/
def lowRates : List Srate := [.k8, .k16, .k24, .k32, .k48]

theorem mem_lowRates (sr : Srate) (h : sr.hr = false) : sr ∈ lowRates := by
  cases sr <;> simp_all [lowRates, Srate.hr, Srate.idx]

theorem lag_all : lowRates.all (fun sr => [Dt.m2_5, .m5, .m7_5, .m10].all fun dt =>
    (List.range 512).all fun p =>
      decide (ltpfWidth sr ≤ outPitch sr p / 4 + ltpfWidth sr / 2) &&
      decide (outPitch sr p / 4 + ltpfWidth sr / 2 ≤ nh dt sr)) = true := by decide +kernel

theorem lag_range (dt : Dt) (sr : Srate) (h : sr.hr = false) (p : Nat) (hp : p < 512) :
    ltpfWidth sr ≤ outPitch sr p / 4 + ltpfWidth sr / 2 ∧
    outPitch sr p / 4 + ltpfWidth sr / 2 ≤ nh dt sr := by
  have := List.all_eq_true.mp lag_all sr (mem_lowRates sr h)
  have := List.all_eq_true.mp this dt (by cases dt <;> simp)
  have := List.all_eq_true.mp this p (List.mem_range.mpr hp)
  simpa using this

theorem dims_all : lowRates.all (fun sr => [Dt.m2_5, .m5, .m7_5, .m10].all fun dt =>
    let w := ltpfWidth sr
    let nt := ns dt sr / (1 + dt.idx)
    decide (4 ≤ w) && decide (w ≤ 12) && decide (0 < nt) && decide (nt % w = 0) &&
    decide (nt ≤ ns dt sr) && decide ((ns dt sr - nt) % w = 0) && decide (w - 1 ≤ nt) &&
    (ltpfCden sr).all (fun l => decide (w ≤ l.length)) && (ltpfCnum sr).all (fun l => decide (w ≤ l.length)) &&
    decide ((ltpfCden sr).length = 4) && decide ((ltpfCnum sr).length = 4)) = true := by decide +kernel

theorem dims (dt : Dt) (sr : Srate) (h : sr.hr = false) :
    4 ≤ ltpfWidth sr ∧ ltpfWidth sr ≤ 12 ∧ 0 < ns dt sr / (1 + dt.idx) ∧
    ns dt sr / (1 + dt.idx) % ltpfWidth sr = 0 ∧ ns dt sr / (1 + dt.idx) ≤ ns dt sr ∧
    (ns dt sr - ns dt sr / (1 + dt.idx)) % ltpfWidth sr = 0 ∧
    ltpfWidth sr - 1 ≤ ns dt sr / (1 + dt.idx) ∧
    (∀ l ∈ ltpfCden sr, ltpfWidth sr ≤ l.length) ∧ (∀ l ∈ ltpfCnum sr, ltpfWidth sr ≤ l.length) ∧
    (ltpfCden sr).length = 4 ∧ (ltpfCnum sr).length = 4 := by
  have := List.all_eq_true.mp dims_all sr (mem_lowRates sr h)
  have := List.all_eq_true.mp this dt (by cases dt <;> simp)
  simp only [Bool.and_eq_true, decide_eq_true_eq, List.all_eq_true] at this
  obtain ⟨⟨⟨⟨⟨⟨⟨⟨⟨⟨h1, h2⟩, h3⟩, h4⟩, h5⟩, h6⟩, h7⟩, h8⟩, h9⟩, h10⟩, h11⟩ := this
  exact ⟨h1, h2, h3, h4, h5, h6, h7, h8, h9, h10, h11⟩

theorem slice?_eq {α : Type} (l : List α) (base back n : Nat) (h1 : back ≤ base)
    (h2 : base - back + n ≤ l.length) :
    slice? l base back n = some ((l.drop (base - back)).take n) ∧
    ((l.drop (base - back)).take n).length = n := by
  refine ⟨if_pos ⟨h1, h2⟩, ?_⟩
  rw [List.length_take, List.length_drop]
  omega

theorem i32_ok (x : Int) (h1 : -2147483648 ≤ x) (h2 : x ≤ 2147483647) : i32 x = some x :=
  if_pos ⟨h1, h2⟩

/-- Largest size for which the computation of the gain does not overflow. -/
def sizeLimit : Int := 11184810

theorem gainIndex_some (dt : Dt) (sr : Srate) (n : Int) (h0 : 0 ≤ n) (h1 : n ≤ sizeLimit) :
    ∃ g, gainIndex dt sr n = some g ∧ 0 ≤ g := by
  unfold sizeLimit at h1
  unfold gainIndex
  rw [i32_ok _ (by omega) (by omega), Option.bind_some, i32_ok _ (by omega) (by omega), Option.bind_some]
  have key : ∀ nb : Int, ∃ g, (some (max (nb.tdiv 80) (3 + sr.idx) - (3 + sr.idx)) : Option Int) = some g ∧
      0 ≤ g := fun nb => ⟨_, rfl, by omega⟩
  cases dt
  · dsimp only
    rw [i32_ok _ (by omega) (by omega), Option.bind_some, i32_ok _ (by omega) (by omega)]
    exact key _
  · dsimp only
    have : (n * 8 * 4).tdiv 2 = n * 16 := by
      rw [Int.tdiv_eq_ediv_of_nonneg (by omega)]; omega
    rw [this, i32_ok _ (by omega) (by omega)]
    exact key _
  · exact key _
  · exact key _

theorem ltpfCoeffs_some (sr : Srate) (h : sr.hr = false) (pitch : Nat) (active : Bool) (g : Int) (hg : 0 ≤ g) :
    ∃ c, ltpfCoeffs A sr pitch active g = some c ∧ c.length = 2 * ltpfWidth sr := by
  obtain ⟨h1, h2, -, -, -, -, -, h8, h9, h10, h11⟩ := dims .m10 sr h
  unfold ltpfCoeffs
  have hi1 : pitch % 4 < (ltpfCden sr).length := by omega
  have hi2 : (min g 3).toNat < (ltpfCnum sr).length := by omega
  simp only [List.getElem?_eq_getElem hi1, List.getElem?_eq_getElem hi2, Option.bind_eq_bind, Option.bind_some]
  have l1 := h8 _ (List.getElem_mem hi1)
  have l2 := h9 _ (List.getElem_mem hi2)
  rw [if_neg (by omega)]
  refine ⟨_, rfl, ?_⟩
  simp
  omega

/-- State of the postfilter between two frames: size of the arrays, and lag of a pitch of the bitstream when active. -/
structure LtpfS.Ok (sr : Srate) (s : LtpfS R) : Prop where
  c : s.c.length = 24
  x : s.x.length = 12
  pitch : s.active = true → ∃ p < 512, s.pitch = outPitch sr p

/-- Position of a frame in the history. -/
structure FramePos (dt : Dt) (sr : Srate) (x : Nat) : Prop where
  fits : x + ns dt sr ≤ ns dt sr + nh dt sr
  aligned : x % ns dt sr = 0

theorem FramePos.back {dt : Dt} {sr : Srate} {x : Nat} (h : FramePos dt sr x) : x = 0 ∨ ns dt sr ≤ x := by
  have := h.aligned
  rcases Nat.eq_zero_or_pos x with h0 | h0
  · exact Or.inl h0
  · right
    apply Nat.le_of_not_lt
    intro hlt
    rw [Nat.mod_eq_of_lt hlt] at this
    omega

theorem ltpfFilter_some (dt : Dt) (sr : Srate) (h : sr.hr = false) (s : LtpfS R) (hs : s.Ok sr) (ring : List R)
    (x p : Nat) (hp : p < 512) (hr : ring.length = ns dt sr + nh dt sr) (hx : FramePos dt sr x) (active : Bool)
    (c x00 x01 : List R) (hc : c.length = 2 * ltpfWidth sr) (h00 : x00.length = ltpfWidth sr - 1)
    (h01 : active = true → x01.length = ltpfWidth sr - 1) :
    ∃ ring', ltpfFilter A s ring (ns dt sr + nh dt sr) x (ns dt sr) (ns dt sr / (1 + dt.idx)) (ltpfWidth sr)
        (outPitch sr p) active c x00 x01 = some ring' ∧ ring'.length = ns dt sr + nh dt sr ∧
      ∀ i, i < x ∨ x + ns dt sr ≤ i → at0 A ring' i = at0 A ring i := by
  obtain ⟨h1, h2, h3, h4, h5, h6, h7, -⟩ := dims dt sr h
  obtain ⟨l1, l2⟩ := lag_range dt sr h p hp
  have l34 : s.active = true → ltpfWidth sr ≤ s.pitch / 4 + ltpfWidth sr / 2 ∧
      s.pitch / 4 + ltpfWidth sr / 2 ≤ nh dt sr := by
    intro ha
    obtain ⟨p', hp', ep⟩ := hs.pitch ha
    rw [ep]
    exact lag_range dt sr h p' hp'
  have hb := hx.back
  obtain ⟨hf, -⟩ := hx
  have hcs := hs.c
  generalize hN : ns dt sr + nh dt sr = N at *
  generalize hnt : ns dt sr / (1 + dt.idx) = nt at *
  generalize ltpfWidth sr = w at *
  generalize outPitch sr p = pt at *
  generalize ns dt sr = n at *
  generalize nh dt sr = nhh at *
  -- first stage
  have first : ∃ ring1, ltpfTransition A s ring N x nt w pt active c x00 = some ring1 ∧ ring1.length = N ∧
      ∀ i, i < x ∨ x + nt ≤ i → at0 A ring1 i = at0 A ring i := by
    unfold ltpfTransition
    by_cases c1 : (!s.active && active) = true
    · rw [if_pos c1]
      obtain ⟨r, e1, e2, e3, -⟩ := synthTemplate_eq A ring N (pt / 4) x00 x nt c w 1 hr (by omega) (by omega) h3 h4
        h00 (by omega) l1 (by omega)
      exact ⟨r, e1, e2, e3⟩
    · rw [if_neg c1]
      by_cases c2 : (s.active && !active) = true
      · rw [if_pos c2]
        obtain ⟨l3, l4⟩ := l34 (by simp only [Bool.and_eq_true] at c2; exact c2.1)
        obtain ⟨r, e1, e2, e3, -⟩ := synthTemplate_eq A ring N (s.pitch / 4) x00 x nt s.c w (-1) hr (by omega)
          (by omega) h3 h4 h00 (by omega) l3 (by omega)
        exact ⟨r, e1, e2, e3⟩
      · rw [if_neg c2]
        by_cases c3 : (s.active && active && decide (s.pitch = pt)) = true
        · rw [if_pos c3]
          obtain ⟨r, e1, e2, e3, -⟩ := synthTemplate_eq A ring N (pt / 4) x00 x nt c w 0 hr (by omega) (by omega)
            h3 h4 h00 (by omega) l1 (by omega)
          exact ⟨r, e1, e2, e3⟩
        · rw [if_neg c3]
          by_cases c4 : (s.active && active) = true
          · rw [if_pos c4]
            obtain ⟨l3, l4⟩ := l34 (by simp only [Bool.and_eq_true] at c4; exact c4.1)
            obtain ⟨r, e1, e2, e3, -⟩ := synthTemplate_eq A ring N (s.pitch / 4) x00 x nt s.c w (-1) hr (by omega)
              (by omega) h3 h4 h00 (by omega) l3 (by omega)
            rw [e1, Option.bind_some]
            obtain ⟨s1, s2⟩ := slice?_eq r (if x ≤ 0 then x + N else x) (w - 1) (w - 1)
              (by split <;> omega) (by rw [e2]; split <;> omega)
            rw [s1, Option.bind_some]
            obtain ⟨r', f1, f2, f3, -⟩ := synthTemplate_eq A r N (pt / 4) _ x nt c w 1 e2 (by omega)
              (by omega) h3 h4 s2 (by omega) l1 (by omega)
            exact ⟨r', f1, f2, fun i hi => by rw [f3 i hi, e3 i hi]⟩
          · rw [if_neg c4]
            exact ⟨ring, rfl, hr, fun i _ => rfl⟩
  obtain ⟨ring1, e1, e2, e3⟩ := first
  unfold ltpfFilter
  rw [e1, Option.bind_some]
  by_cases c5 : active = true ∧ n > nt
  · rw [if_pos c5]
    obtain ⟨r, f1, f2, f3, -⟩ := synthTemplate_eq A ring1 N (pt / 4) x01 (x + nt) (n - nt) c w 0 e2 (by omega)
      (by omega) (by omega) h6 (h01 c5.1) (by omega) l1 (by omega)
    exact ⟨r, f1, f2, fun i hi => by rw [f3 i (by omega), e3 i (by omega)]⟩
  · rw [if_neg c5]
    exact ⟨ring1, rfl, e2, fun i hi => e3 i (by omega)⟩

theorem ltpfSynthesize_some (dt : Dt) (sr : Srate) (h : sr.hr = false) (nbytes : Int) (s : LtpfS R) (hs : s.Ok sr)
    (data : Option LtpfData) (ring : List R) (x : Nat) (h0 : 0 ≤ nbytes) (h1 : nbytes ≤ sizeLimit)
    (hd : ∀ d, data = some d → d.pitchIndex < 512) (hr : ring.length = ns dt sr + nh dt sr)
    (hx : FramePos dt sr x) :
    ∃ s' ring', ltpfSynthesize A dt sr nbytes s data ring x = some (s', ring') ∧ s'.Ok sr ∧
      ring'.length = ns dt sr + nh dt sr ∧
      ∀ i, i < x ∨ x + ns dt sr ≤ i → at0 A ring' i = at0 A ring i := by
  obtain ⟨d1, d2, d3, d4, d5, d6, d7, -⟩ := dims dt sr h
  have hb := hx.back
  have hf := hx.fits
  obtain ⟨g, eg, hg⟩ := gainIndex_some dt sr nbytes h0 h1
  unfold ltpfSynthesize
  have hp : dataIndex data < 512 := by
    cases data with
    | none => exact Nat.zero_lt_succ _
    | some d => exact hd d rfl
  generalize dataIndex data = p at *
  dsimp only
  rw [eg, Option.bind_some]
  generalize dataActive g data = active
  obtain ⟨c, ec, hc⟩ := ltpfCoeffs_some A sr h (outPitch sr p) active g hg
  rw [ec]
  rw [Option.bind_some]
  obtain ⟨a1, a2⟩ := slice?_eq s.x 0 0 (ltpfWidth sr - 1) (by omega) (by rw [hs.x]; omega)
  rw [a1]
  rw [Option.bind_some]
  obtain ⟨b1, b2⟩ := slice?_eq ring (x + ns dt sr) (ltpfWidth sr - 1) (ltpfWidth sr - 1) (by omega)
    (by rw [hr]; omega)
  rw [b1]
  rw [Option.bind_some]
  obtain ⟨c1, c2⟩ := slice?_eq ring (x + ns dt sr / (1 + dt.idx)) (ltpfWidth sr - 1) (ltpfWidth sr - 1) (by omega)
    (by rw [hr]; omega)
  have h01 : ∃ x01, (if active = true then slice? ring (x + ns dt sr / (1 + dt.idx)) (ltpfWidth sr - 1)
      (ltpfWidth sr - 1) else some []) = some x01 ∧ (active = true → x01.length = ltpfWidth sr - 1) := by
    by_cases ha : active = true
    · rw [if_pos ha, c1]; exact ⟨_, rfl, fun _ => c2⟩
    · rw [if_neg ha]; exact ⟨_, rfl, fun h => absurd h ha⟩
  obtain ⟨x01, e01, hl01⟩ := h01
  rw [e01]
  rw [Option.bind_some]
  obtain ⟨ring', f1, f2, f3⟩ := ltpfFilter_some A dt sr h s hs ring x p hp hr hx active c _ x01 hc a2 hl01
  rw [f1]
  refine ⟨_, ring', rfl, ⟨?_, ?_, fun _ => ⟨p, hp, rfl⟩⟩, f2, f3⟩
  · simp only [List.length_append, List.length_drop, hc, hs.c]; omega
  · simp only [List.length_append, List.length_drop, hs.x, b2]; omega

end

end LC3
