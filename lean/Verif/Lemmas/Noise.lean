import Verif.Model.Noise

/-!
Lemmas on the noise level and the noise filling: both visit the same lines.
-/

namespace LC3

/-- Length of the run of zero values that ends before `m`, from `i0`. -/
def zrun (zero : Nat → Bool) (i0 : Nat) : Nat → Nat
  | 0 => 0
  | m + 1 => if m < i0 then 0 else if zero m then zrun zero i0 m + 1 else 0

theorem zrun_gt (zero : Nat → Bool) (i0 m c : Nat) :
    c < zrun zero i0 m ↔ i0 + c < m ∧ ∀ k, m ≤ k + 1 + c → k < m → zero k = true := by
  induction m generalizing c with
  | zero => constructor
            · intro h; exact absurd h (by simp [zrun])
            · intro h; omega
  | succ m ih =>
    rw [zrun]
    by_cases h1 : m < i0
    · rw [if_pos h1]; constructor
      · intro h; omega
      · intro h; omega
    · rw [if_neg h1]
      by_cases h2 : zero m = true
      · rw [if_pos h2]
        cases c with
        | zero =>
          constructor
          · intro _
            refine ⟨by omega, fun k k1 k2 => ?_⟩
            obtain rfl : k = m := by omega
            exact h2
          · intro _; omega
        | succ c =>
          rw [Nat.add_lt_add_iff_right, ih c]
          constructor
          · rintro ⟨a, b⟩
            refine ⟨by omega, fun k k1 k2 => ?_⟩
            by_cases hk : k = m
            · rw [hk]; exact h2
            · exact b k (by omega) (by omega)
          · rintro ⟨a, b⟩
            exact ⟨by omega, fun k k1 k2 => b k (by omega) (by omega)⟩
      · rw [if_neg h2]
        constructor
        · intro h; omega
        · rintro ⟨_, b⟩
          exact absurd (b m (by omega) (by omega)) h2

theorem mem_opt (c : Prop) [Decidable c] (a j : Nat) (h : j ∈ (if c then [a] else [])) : j = a := by
  split at h
  · exact List.mem_singleton.mp h
  · cases h

/-- The lines visited by the loops. -/
def walk (zero : Nat → Bool) (w : Nat) : Nat → Nat → Nat → List Nat
  | 0, _, _ => []
  | n + 1, i, z =>
    (if (if zero i then z + 1 else 0) > 2 * w then [i - w] else []) ++
      walk zero w n (i + 1) (if zero i then z + 1 else 0)

/-- A line surrounded by `w` zero values on each side, not before `i0`. -/
def quiet (zero : Nat → Bool) (i0 w j : Nat) : Bool :=
  decide (i0 + w ≤ j) && (List.range (2 * w + 1)).all fun d => zero (j - w + d)

theorem quiet_iff (zero : Nat → Bool) (i0 w j : Nat) :
    quiet zero i0 w j = true ↔ i0 + w ≤ j ∧ ∀ k, j ≤ k + w → k ≤ j + w → zero k = true := by
  unfold quiet
  rw [Bool.and_eq_true, decide_eq_true_eq, List.all_eq_true]
  constructor
  · rintro ⟨h1, h2⟩
    refine ⟨h1, fun k k1 k2 => ?_⟩
    have := h2 (k - (j - w)) (by rw [List.mem_range]; omega)
    rw [show j - w + (k - (j - w)) = k by omega] at this
    exact this
  · rintro ⟨h1, h2⟩
    refine ⟨h1, fun d hd => ?_⟩
    rw [List.mem_range] at hd
    exact h2 _ (by omega) (by omega)

theorem walk_eq (zero : Nat → Bool) (w i0 n i : Nat) (h : i0 ≤ i) (hw : w ≤ i) :
    walk zero w n i (zrun zero i0 i) = (List.range' (i - w) n).filter (quiet zero i0 w) := by
  induction n generalizing i with
  | zero => rfl
  | succ n ih =>
    rw [walk, List.range'_succ, List.filter_cons]
    have e : (if zero i = true then zrun zero i0 i + 1 else 0) = zrun zero i0 (i + 1) := by
      rw [zrun]; exact (if_neg (show ¬ i < i0 by omega)).symm
    rw [e, ih (i + 1) (by omega) (by omega), show i + 1 - w = i - w + 1 by omega]
    have hq : (zrun zero i0 (i + 1) > 2 * w) ↔ quiet zero i0 w (i - w) = true := by
      rw [gt_iff_lt, zrun_gt, quiet_iff]
      constructor
      · rintro ⟨a, b⟩
        exact ⟨by omega, fun k k1 k2 => b k (by omega) (by omega)⟩
      · rintro ⟨a, b⟩
        exact ⟨by omega, fun k k1 k2 => b k (by omega) (by omega)⟩
    by_cases hc : zrun zero i0 (i + 1) > 2 * w
    · rw [if_pos hc, if_pos (hq.mp hc)]; rfl
    · rw [if_neg hc, if_neg (fun hh => hc (hq.mpr hh))]; rfl

/-- The walk from the beginning, until `stop + w`. -/
theorem walk_all (zero : Nat → Bool) (w i0 stop : Nat) (hw : w ≤ i0) (hs : i0 ≤ stop) :
    walk zero w (stop + w - i0) i0 0 = (List.range stop).filter (quiet zero i0 w) := by
  have h0 : zrun zero i0 i0 = 0 := by
    cases i0 with
    | zero => rfl
    | succ m => rw [zrun, if_pos (by omega)]
  have h := walk_eq zero w i0 (stop + w - i0) i0 (Nat.le_refl _) hw
  rw [h0] at h
  rw [h, List.range_eq_range']
  have h2 : List.range' 0 stop = List.range' 0 (i0 - w) ++ List.range' (i0 - w) (stop + w - i0) := by
    have := List.range'_append (s := 0) (m := i0 - w) (n := stop + w - i0) (step := 1)
    rw [show 0 + 1 * (i0 - w) = i0 - w by omega, show i0 - w + (stop + w - i0) = stop by omega] at this
    exact this.symm
  rw [h2, List.filter_append]
  have h3 : (List.range' 0 (i0 - w)).filter (quiet zero i0 w) = [] := by
    rw [List.filter_eq_nil_iff]
    intro j hj
    rw [List.mem_range'_1] at hj
    intro hq
    have := ((quiet_iff zero i0 w j).mp hq).1
    omega
  rw [h3]; rfl

theorem walk_append (zero : Nat → Bool) (w n m i z : Nat) :
    ∃ z', walk zero w (n + m) i z = walk zero w n i z ++ walk zero w m (i + n) z' ∧
      ((∀ k, i ≤ k → k < i + n → zero k = true) → z' = z + n) := by
  induction n generalizing i z with
  | zero => exact ⟨z, by rw [Nat.zero_add, walk]; rfl, fun _ => by omega⟩
  | succ n ih =>
    obtain ⟨z', h1, h2⟩ := ih (i + 1) (if zero i then z + 1 else 0)
    refine ⟨z', ?_, ?_⟩
    · rw [show n + 1 + m = n + m + 1 by omega, walk, walk, h1, List.append_assoc,
        show i + 1 + n = i + (n + 1) by omega]
    · intro hk
      rw [h2 (fun k k1 k2 => hk k (by omega) (by omega)), if_pos (hk i (by omega) (by omega))]
      omega

/-! ### Filling -/

variable {R : Type}

/-- The noise value according to the seed. -/
def noiseVal (A : Arith R) (s : R) (seed : Nat) : R :=
  if seed &&& 0x8000 ≠ 0 then A.sub (A.ofRat 0) s else s

/-- Filling of the lines `L`. -/
def fillAll (A : Arith R) (s : R) : List Nat → Nat × List R → Nat × List R
  | [], q => q
  | j :: L, q => fillAll A s L (noiseLcg q.1, q.2.set j (noiseVal A s (noiseLcg q.1)))

theorem fillAll_append (A : Arith R) (s : R) (L M : List Nat) (q : Nat × List R) :
    fillAll A s (L ++ M) q = fillAll A s M (fillAll A s L q) := by
  induction L generalizing q with
  | nil => rfl
  | cons j L ih => exact ih _

theorem fillAll_length (A : Arith R) (s : R) (L : List Nat) (q : Nat × List R) :
    (fillAll A s L q).2.length = q.2.length := by
  induction L generalizing q with
  | nil => rfl
  | cons j L ih => rw [fillAll, ih, List.length_set]

theorem fillAll_not_mem (A : Arith R) (s : R) (L : List Nat) (q : Nat × List R) (j : Nat) (h : j ∉ L) :
    (fillAll A s L q).2[j]? = q.2[j]? := by
  induction L generalizing q with
  | nil => rfl
  | cons i L ih =>
    rw [List.mem_cons, not_or] at h
    rw [fillAll, ih _ h.2, List.getElem?_set_ne (Ne.symm h.1)]

/-- The `k`-th seed. -/
def lcgIter : Nat → Nat → Nat
  | 0, s => s
  | k + 1, s => lcgIter k (noiseLcg s)

theorem idxOf_ne {i j : Nat} {L : List Nat} (h : i ≠ j) : (i :: L).idxOf j = L.idxOf j + 1 := by
  rw [List.idxOf_cons]
  have : (i == j) = false := by simpa using h
  rw [this]; rfl

theorem fillAll_mem (A : Arith R) (s : R) (L : List Nat) (hL : L.Nodup) (q : Nat × List R) (j : Nat) (h : j ∈ L)
    (hj : j < q.2.length) :
    (fillAll A s L q).2[j]? = some (noiseVal A s (lcgIter (L.idxOf j + 1) q.1)) := by
  induction L generalizing q with
  | nil => cases h
  | cons i L ih =>
    rw [List.nodup_cons] at hL
    rw [fillAll]
    by_cases hij : i = j
    · subst hij
      rw [fillAll_not_mem _ _ _ _ _ hL.1, List.idxOf_cons_self]
      simp only [List.getElem?_set_self hj]
      rfl
    · have hm : j ∈ L := by
        rw [List.mem_cons] at h
        rcases h with h | h
        · exact absurd h.symm hij
        · exact h
      rw [ih hL.2 _ hm (by simpa using hj), idxOf_ne hij]
      rfl

theorem fillStep_eq (A : Arith R) (s : R) (w z i : Nat) (q : Nat × List R) (h : w ≤ i)
    (hi : i - w < q.2.length) :
    fillStep A s w z i q = some (fillAll A s (if z > 2 * w then [i - w] else []) q) := by
  unfold fillStep
  by_cases hz : z > 2 * w
  · rw [if_pos hz, if_pos hz]
    dsimp only
    rw [if_pos ⟨h, hi⟩]
    rfl
  · rw [if_neg hz, if_neg hz]; rfl

theorem walk_lt (zero : Nat → Bool) (w n i z : Nat) (hw : w ≤ i) : ∀ j ∈ walk zero w n i z, i ≤ j + w := by
  induction n generalizing i z with
  | zero => intro j hj; cases hj
  | succ n ih =>
    intro j hj
    rw [walk, List.mem_append] at hj
    rcases hj with hj | hj
    · have := mem_opt _ _ _ hj
      omega
    · have := ih (i + 1) _ (by omega) j hj
      omega

theorem fillLoop1_eq (A : Arith R) (s : R) (w : Nat) (hw1 : 1 ≤ w) (x : List R) (zero : Nat → Bool) (n i z : Nat)
    (hw : w ≤ i) (hi : i + n ≤ x.length) (q : Nat × List R) (hq : q.2.length = x.length)
    (hx : ∀ k, i ≤ k → q.2[k]? = x[k]?)
    (hz : ∀ k v, i ≤ k → k < i + n → x[k]? = some v → zero k = A.isZero v) :
    ∃ z', fillLoop1 A s w n i z q = some (z', fillAll A s (walk zero w n i z) q) ∧
      ∀ m, walk zero w (n + m) i z = walk zero w n i z ++ walk zero w m (i + n) z' := by
  induction n generalizing i z q with
  | zero => exact ⟨z, rfl, fun m => by rw [Nat.zero_add]; rfl⟩
  | succ n ih =>
    have hlt : i < x.length := by omega
    have e1 : q.2[i]? = some x[i] := by rw [hx i (Nat.le_refl _)]; exact List.getElem?_eq_getElem hlt
    have e2 : zero i = A.isZero x[i] := hz i _ (Nat.le_refl _) (by omega) (List.getElem?_eq_getElem hlt)
    rw [fillLoop1, e1]
    dsimp only [Option.bind_some]
    rw [← e2, fillStep_eq A s w _ i q hw (by omega)]
    dsimp only [Option.bind_some]
    obtain ⟨z', h1, h2⟩ := ih (i + 1) (if zero i then z + 1 else 0) (by omega) (by omega)
      (fillAll A s (if (if zero i then z + 1 else 0) > 2 * w then [i - w] else []) q)
      (by rw [fillAll_length]; exact hq)
      (by
        intro k hk
        rw [fillAll_not_mem]
        · exact hx k (by omega)
        · intro hm
          have := mem_opt _ _ _ hm
          omega)
      (fun k v k1 k2 hv => hz k v (by omega) (by omega) hv)
    refine ⟨z', ?_, ?_⟩
    · rw [h1, walk, fillAll_append]
    · intro m
      rw [show n + 1 + m = n + m + 1 by omega, walk, h2, walk, List.append_assoc,
        show i + 1 + n = i + (n + 1) by omega]

theorem fillLoop2_eq (A : Arith R) (s : R) (w : Nat) (zero : Nat → Bool) (n i z : Nat)
    (hw : w ≤ i) (q : Nat × List R) (hq : i + n ≤ q.2.length + w)
    (hz : ∀ k, i ≤ k → k < i + n → zero k = true) :
    fillLoop2 A s w n i z q = some (fillAll A s (walk zero w n i z) q) := by
  induction n generalizing i z q with
  | zero => rfl
  | succ n ih =>
    rw [fillLoop2, fillStep_eq A s w _ i q hw (by omega)]
    dsimp only [Option.bind_some]
    rw [walk, hz i (Nat.le_refl _) (by omega), if_pos rfl, fillAll_append]
    exact ih (i + 1) (z + 1) (by omega) _ (by rw [fillAll_length]; omega)
      (fun k k1 k2 => hz k (by omega) (by omega))

/-- Values considered as zero by the noise filling: those from the number of coefficients or the
bandwidth, and the zero values. -/
def zeroFill (A : Arith R) (lim : Nat) (x : List R) (k : Nat) : Bool :=
  decide (lim ≤ k) || match x[k]? with
    | some v => A.isZero v
    | none => true

theorem noiseW_range (dt : Dt) : 1 ≤ noiseW dt ∧ noiseW dt ≤ noiseStart dt := by cases dt <;> decide

theorem noiseStart_stop (dt : Dt) (bw : Nat) : noiseStart dt ≤ bwStop dt bw := by
  unfold bwStop srateOfBw
  repeat' split
  all_goals cases dt <;> decide

/-- The lines visited. -/
def noiseLines (dt : Dt) (bw : Nat) (zero : Nat → Bool) : List Nat :=
  (List.range (bwStop dt bw)).filter (quiet zero (noiseStart dt) (noiseW dt))

theorem fillNoise_eq (A : Arith R) (dt : Dt) (bw nf seed : Nat) (g : R) (nq : Nat) (x : List R)
    (hx : bwStop dt bw ≤ x.length) :
    fillNoise A dt bw nf seed g nq x =
      some (fillAll A (A.div (A.mul g (A.ofInt (8 - (nf : Int)))) (A.ofRat 16))
        (noiseLines dt bw (zeroFill A (min nq (bwStop dt bw)) x)) (seed, x)).2 := by
  unfold fillNoise
  dsimp only
  generalize hs : A.div (A.mul g (A.ofInt (8 - (nf : Int)))) (A.ofRat 16) = s
  obtain ⟨w1, w2⟩ := noiseW_range dt
  have w3 := noiseStart_stop dt bw
  unfold noiseLines
  generalize noiseW dt = w at *
  generalize noiseStart dt = i0 at *
  generalize hst : bwStop dt bw = stop at *
  generalize hi1 : max i0 (min nq stop) = i1
  obtain ⟨z', h1, h2⟩ := fillLoop1_eq A s w w1 x (zeroFill A (min nq stop) x) (i1 - i0) i0 0 w2 (by omega)
    (seed, x) rfl (fun _ _ => rfl) (by
      intro k v k1 k2 hv
      unfold zeroFill
      rw [decide_eq_false (by omega), hv]; rfl)
  rw [h1]
  dsimp only [Option.bind_some]
  rw [fillLoop2_eq A s w (zeroFill A (min nq stop) x) _ i1 z' (by omega) _ (by rw [fillAll_length]; dsimp only; omega) (by
    intro k k1 k2
    unfold zeroFill
    rw [decide_eq_true (by omega)]; rfl)]
  dsimp only [Option.map_some]
  rw [← fillAll_append]
  have e := h2 (stop + w - i1)
  rw [show i0 + (i1 - i0) = i1 by omega] at e
  rw [← e, show i1 - i0 + (stop + w - i1) = stop + w - i0 by omega, walk_all _ _ _ _ w2 w3]

/-! ### Estimation -/

/-- The accumulation over the lines `L`. -/
def noiseAll (A : Arith R) (x : List R) (L : List Nat) (q : R × Nat) : R × Nat :=
  L.foldl (fun q j => (A.add q.1 (A.abs ((x[j]?).getD (A.ofRat 0))), q.2 + 1)) q

theorem noiseStep_eq (A : Arith R) (x : List R) (w z i : Nat) (q : R × Nat) (h : w ≤ i) (hi : i - w < x.length) :
    noiseStep A x w z i q = some (noiseAll A x (if z > 2 * w then [i - w] else []) q) := by
  unfold noiseStep
  by_cases hz : z > 2 * w
  · rw [if_pos hz, if_pos hz, if_pos h, List.getElem?_eq_getElem hi]
    simp [noiseAll, List.getElem?_eq_getElem hi]
  · rw [if_neg hz, if_neg hz]; rfl

theorem noiseLoop1_eq (A : Arith R) (lim : R) (x : List R) (w : Nat) (zero : Nat → Bool) (n i z : Nat)
    (hw : w ≤ i) (hi : i + n ≤ x.length) (q : R × Nat)
    (hz : ∀ k v, i ≤ k → k < i + n → x[k]? = some v → zero k = A.lt (A.abs v) lim) :
    ∃ z', noiseLoop1 A lim x w n i z q = some (z', noiseAll A x (walk zero w n i z) q) ∧
      ∀ m, walk zero w (n + m) i z = walk zero w n i z ++ walk zero w m (i + n) z' := by
  induction n generalizing i z q with
  | zero => exact ⟨z, rfl, fun m => by rw [Nat.zero_add]; rfl⟩
  | succ n ih =>
    have hlt : i < x.length := by omega
    have e2 := hz i _ (Nat.le_refl _) (by omega) (List.getElem?_eq_getElem hlt)
    rw [noiseLoop1, List.getElem?_eq_getElem hlt]
    dsimp only [Option.bind_some]
    rw [← e2, noiseStep_eq A x w _ i q hw (by omega)]
    dsimp only [Option.bind_some]
    obtain ⟨z', h1, h2⟩ := ih (i + 1) (if zero i then z + 1 else 0) (by omega) (by omega)
      (noiseAll A x (if (if zero i then z + 1 else 0) > 2 * w then [i - w] else []) q)
      (fun k v k1 k2 hv => hz k v (by omega) (by omega) hv)
    refine ⟨z', ?_, ?_⟩
    · rw [h1, walk]; unfold noiseAll; rw [List.foldl_append]
    · intro m
      rw [show n + 1 + m = n + m + 1 by omega, walk, h2, walk, List.append_assoc,
        show i + 1 + n = i + (n + 1) by omega]

theorem noiseLoop2_eq (A : Arith R) (x : List R) (w : Nat) (zero : Nat → Bool) (n i z : Nat)
    (hw : w ≤ i) (q : R × Nat) (hq : i + n ≤ x.length + w)
    (hz : ∀ k, i ≤ k → k < i + n → zero k = true) :
    noiseLoop2 A x w n i z q = some (noiseAll A x (walk zero w n i z) q) := by
  induction n generalizing i z q with
  | zero => rfl
  | succ n ih =>
    rw [noiseLoop2, noiseStep_eq A x w _ i q hw (by omega)]
    dsimp only [Option.bind_some]
    rw [walk, hz i (Nat.le_refl _) (by omega), if_pos rfl]
    rw [ih (i + 1) (z + 1) (by omega) _ (by omega) (fun k k1 k2 => hz k (by omega) (by omega))]
    unfold noiseAll
    rw [List.foldl_append]

/-- Values considered as zero by the noise estimation. -/
def zeroEst (A : Arith R) (hr : Bool) (lim : Nat) (x : List R) (k : Nat) : Bool :=
  decide (lim ≤ k) || match x[k]? with
    | some v => A.lt (A.abs v) (A.ofRat (if hr then 1/2 else 10/16))
    | none => true

/-- The noise factor derived from the sum and the count. -/
def noiseFactor (A : Arith R) (q : R × Nat) : Nat :=
  let nf : Int := if q.2 ≠ 0 then
      8 - A.trunc (A.add (A.div (A.mul (A.ofRat 16) q.1) (A.ofInt q.2)) (A.ofRat (1/2)))
    else 8
  (if nf < 0 then 0 else if nf > 7 then 7 else nf).toNat

theorem noiseFactor_le (A : Arith R) (q : R × Nat) : noiseFactor A q ≤ 7 := by
  unfold noiseFactor
  dsimp only
  generalize (if q.2 ≠ 0 then _ else _ : Int) = nf
  split
  · decide
  · split
    · decide
    · omega

theorem estimateNoise_eq (A : Arith R) (dt : Dt) (bw : Nat) (hr : Bool) (x : List R) (n : Nat)
    (hx : bwStop dt bw ≤ x.length) :
    estimateNoise A dt bw hr x n = some (noiseFactor A (noiseAll A x
      (noiseLines dt bw (zeroEst A hr (min n (bwStop dt bw)) x)) (A.ofRat 0, 0))) := by
  unfold estimateNoise
  dsimp only
  obtain ⟨w1, w2⟩ := noiseW_range dt
  have w3 := noiseStart_stop dt bw
  unfold noiseLines
  generalize noiseW dt = w at *
  generalize noiseStart dt = i0 at *
  generalize hst : bwStop dt bw = stop at *
  generalize hi1 : max i0 (min n stop) = i1
  obtain ⟨z', h1, h2⟩ := noiseLoop1_eq A (A.ofRat (if hr then 1/2 else 10/16)) x w (zeroEst A hr (min n stop) x)
    (i1 - i0) i0 0 w2 (by omega) (A.ofRat 0, 0) (by
      intro k v k1 k2 hv
      unfold zeroEst
      rw [decide_eq_false (by omega), hv]; rfl)
  rw [h1]
  dsimp only [Option.bind_some]
  rw [noiseLoop2_eq A x w (zeroEst A hr (min n stop) x) _ i1 z' (by omega) _ (by omega) (by
    intro k k1 k2
    unfold zeroEst
    rw [decide_eq_true (by omega)]; rfl)]
  have e := h2 (stop + w - i1)
  rw [show i0 + (i1 - i0) = i1 by omega] at e
  have e2 : noiseAll A x (walk (zeroEst A hr (min n stop) x) w (stop + w - i1) i1 z')
      (noiseAll A x (walk (zeroEst A hr (min n stop) x) w (i1 - i0) i0 0) (A.ofRat 0, 0)) =
      noiseAll A x (walk (zeroEst A hr (min n stop) x) w (stop + w - i0) i0 0) (A.ofRat 0, 0) := by
    rw [show stop + w - i0 = i1 - i0 + (stop + w - i1) by omega, e]
    unfold noiseAll
    rw [List.foldl_append]
  dsimp only [Option.map_some]
  rw [e2, walk_all _ _ _ _ w2 w3]
  rfl

end LC3
