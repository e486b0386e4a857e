import Verif.Props.Constants

/-!
# C76: the pitch analysis finds the lag of the greatest correlation

The search of the lag in the signals at 6.4 kHz and 12.8 kHz, with any rounding of the operations in floating point.
-/

namespace LC3

/-- Sum of the products of `n` samples from `base` with those `s` and `t` samples before. -/
def lagSum (buf : List Int) (base n s t : Nat) : Int := ∑ m ∈ Finset.range n, buf.getD (base - s + m) 0 * buf.getD (base - t + m) 0

/-- The correlation between the samples `s` and `t` before, with 6 bits less, in 32 bits. -/
def lagCorr (rnd : Rat → Rat) (buf : List Int) (base n s t : Nat) : Rat := rnd (toI32 ((lagSum buf base n s t + 32) / 64) : Int)

theorem zipWith_sum_range : ∀ (a b : List Int) (n : Nat), a.length = n → b.length = n →
    (List.zipWith (· * ·) a b).sum = ∑ m ∈ Finset.range n, a.getD m 0 * b.getD m 0
  | [], b, n, h1, h2 => by subst h1; simp
  | a :: l, [], n, h1, h2 => by subst h2; simp at h1
  | a :: l, b :: l', 0, h1, h2 => by simp at h1
  | a :: l, b :: l', n + 1, h1, h2 => by
    rw [Finset.sum_range_succ']
    simp only [List.zipWith_cons_cons, List.sum_cons, List.getD_cons_succ, List.getD_cons_zero]
    rw [zipWith_sum_range l l' n (by simpa using h1) (by simpa using h2), Int.add_comm]

theorem dotI_lag (rnd : Rat → Rat) (buf : List Int) (base n s t : Nat) (hs : s ≤ base) (ht : t ≤ base) (hl : base + n ≤ buf.length) :
    dotI (Arith.rounded rnd) ((buf.drop (base - s)).take n) ((buf.drop (base - t)).take n) = lagCorr rnd buf base n s t := by
  unfold dotI lagCorr lagSum
  rw [zipWith_sum_range _ _ n (by rw [List.length_take, List.length_drop]; omega) (by rw [List.length_take, List.length_drop]; omega)]
  rw [Finset.sum_congr rfl fun m hm => by
    rw [getD_slice' _ _ _ _ (Finset.mem_range.mp hm), getD_slice' _ _ _ _ (Finset.mem_range.mp hm)]]
  rfl

theorem correlate_val (rnd : Rat → Rat) (buf : List Int) (base n : Nat) (hl : base + n ≤ buf.length) : ∀ (nc lag : Nat), lag + nc ≤ base + 1 →
    correlate (Arith.rounded rnd) buf base n lag nc = some ((List.range nc).map fun k => lagCorr rnd buf base n 0 (lag + k))
  | 0, _, _ => rfl
  | nc + 1, lag, h => by
    unfold correlate
    rw [(slice?_eq buf base 0 n (Nat.zero_le _) (by omega)).1, (slice?_eq buf base lag n (by omega) (by omega)).1,
      correlate_val rnd buf base n hl nc (lag + 1) (by omega)]
    simp only [Option.bind_eq_bind, Option.bind_some]
    rw [dotI_lag rnd buf base n 0 lag (Nat.zero_le _) (by omega) hl, List.range_succ_eq_map, List.map_cons, List.map_map, Nat.add_zero]
    refine congrArg some (congrArg (List.cons _) (List.map_congr_left fun k _ => ?_))
    show _ = lagCorr rnd buf base n 0 (lag + (k + 1))
    rw [show lag + 1 + k = lag + (k + 1) by omega]

/-! ### Maximum -/

theorem argmaxFrom_spec (rnd : Rat → Rat) (g : Nat → Rat) : ∀ (l : List Rat) (i arg : Nat), (∀ k < l.length, l.getD k 0 = g (i + k)) → arg < i →
    (∀ j < i, g j ≤ g arg) → (∀ j < arg, g j < g arg) →
    ∃ a, argmaxFrom (Arith.rounded rnd) i arg (g arg) l = (a, g a) ∧ a < i + l.length ∧ (∀ j < i + l.length, g j ≤ g a) ∧ ∀ j < a, g j < g a
  | [], i, arg, _, h0, h1, h2 => ⟨arg, rfl, by simpa using h0, by simpa using h1, h2⟩
  | v :: l, i, arg, hg, h0, h1, h2 => by
    have hv : v = g i := by simpa using hg 0 (by simp)
    have hg' : ∀ k < l.length, l.getD k 0 = g (i + 1 + k) := fun k hk => by
      have := hg (k + 1) (by simpa using hk)
      rw [List.getD_cons_succ] at this
      rw [this, show i + (k + 1) = i + 1 + k by omega]
    unfold argmaxFrom
    by_cases c : g arg < v
    · rw [if_pos (show (Arith.rounded rnd).lt (g arg) v = true from decide_eq_true c), hv]
      rw [hv] at c
      obtain ⟨a, r1, r2, r3, r4⟩ := argmaxFrom_spec rnd g l (i + 1) i hg' (by omega)
        (fun j hj => by
          rcases Nat.lt_or_ge j i with hh | hh
          · exact le_of_lt (lt_of_le_of_lt (h1 j hh) c)
          · rw [show j = i by omega])
        (fun j hj => lt_of_le_of_lt (h1 j hj) c)
      exact ⟨a, r1, by simp only [List.length_cons]; omega, fun j hj => r3 j (by simp only [List.length_cons] at hj; omega), r4⟩
    · rw [if_neg (by simpa [Arith.rounded] using c)]
      obtain ⟨a, r1, r2, r3, r4⟩ := argmaxFrom_spec rnd g l (i + 1) arg hg' (by omega)
        (fun j hj => by
          rcases Nat.lt_or_ge j i with hh | hh
          · exact h1 j hh
          · rw [show j = i by omega, ← hv]; exact not_lt.mp c)
        h2
      exact ⟨a, r1, by simp only [List.length_cons]; omega, fun j hj => r3 j (by simp only [List.length_cons] at hj; omega), r4⟩

/-- `argmax` gives the first position of the maximum. -/
theorem argmax_spec (rnd : Rat → Rat) (g : Nat → Rat) (n : Nat) (hn : 0 < n) (l : List Rat) (hl : l.length = n) (hg : ∀ k < n, l.getD k 0 = g k) :
    ∃ a < n, argmax (Arith.rounded rnd) l = some (a, g a) ∧ (∀ j < n, g j ≤ g a) ∧ ∀ j < a, g j < g a := by
  cases l with
  | nil => simp at hl; omega
  | cons v l =>
    have hv : v = g 0 := by simpa using hg 0 hn
    simp only [List.length_cons] at hl
    obtain ⟨a, r1, r2, r3, r4⟩ := argmaxFrom_spec rnd g l 1 0 (fun k hk => by
        have := hg (k + 1) (by omega)
        rw [List.getD_cons_succ] at this
        rw [this, Nat.add_comm]) (by omega) (fun j hj => by rw [show j = 0 by omega]) (fun j hj => by omega)
    refine ⟨a, by omega, ?_, fun j hj => r3 j (by omega), r4⟩
    rw [hv]
    exact congrArg some r1

/-- The weight of the lags of the first search: decreasing from 1, by steps of 1/194. -/
def lagWeight (rnd : Rat → Rat) : Nat → Rat
  | 0 => rnd ((1 : Int) : Rat)
  | k + 1 => rnd (lagWeight rnd k + rnd (-(1 / 2) / 97))

/-- The value compared by the first search. -/
def lagValue (rnd : Rat → Rat) (g : Nat → Rat) (k : Nat) : Rat := if k = 0 then g 0 else rnd (g k * lagWeight rnd k)

theorem argmaxWFrom_spec (rnd : Rat → Rat) (g : Nat → Rat) : ∀ (l : List Rat) (i arg : Nat), (∀ k < l.length, l.getD k 0 = g (i + k)) → arg < i →
    (∀ j < i, lagValue rnd g j ≤ lagValue rnd g arg) → (∀ j < arg, lagValue rnd g j < lagValue rnd g arg) →
    ∃ a, argmaxWFrom (Arith.rounded rnd) (rnd (-(1 / 2) / 97)) i arg (g arg) (lagValue rnd g arg) (lagWeight rnd i) l = (a, g a) ∧ a < i + l.length ∧
      (∀ j < i + l.length, lagValue rnd g j ≤ lagValue rnd g a) ∧ ∀ j < a, lagValue rnd g j < lagValue rnd g a
  | [], i, arg, _, h0, h1, h2 => ⟨arg, rfl, by simpa using h0, by simpa using h1, h2⟩
  | v :: l, i, arg, hg, h0, h1, h2 => by
    have hv : v = g i := by simpa using hg 0 (by simp)
    have hg' : ∀ k < l.length, l.getD k 0 = g (i + 1 + k) := fun k hk => by
      have := hg (k + 1) (by simpa using hk)
      rw [List.getD_cons_succ] at this
      rw [this, show i + (k + 1) = i + 1 + k by omega]
    have hw : (Arith.rounded rnd).mul v (lagWeight rnd i) = lagValue rnd g i := by
      unfold lagValue; rw [if_neg (by omega), hv]; rfl
    unfold argmaxWFrom
    rw [hw]
    have hn : (Arith.rounded rnd).add (lagWeight rnd i) (rnd (-(1 / 2) / 97)) = lagWeight rnd (i + 1) := rfl
    rw [hn]
    by_cases c : lagValue rnd g arg < lagValue rnd g i
    · rw [if_pos (show (Arith.rounded rnd).lt (lagValue rnd g arg) (lagValue rnd g i) = true from decide_eq_true c), hv]
      obtain ⟨a, r1, r2, r3, r4⟩ := argmaxWFrom_spec rnd g l (i + 1) i hg' (by omega)
        (fun j hj => by
          rcases Nat.lt_or_ge j i with hh | hh
          · exact le_of_lt (lt_of_le_of_lt (h1 j hh) c)
          · rw [show j = i by omega])
        (fun j hj => lt_of_le_of_lt (h1 j hj) c)
      exact ⟨a, r1, by simp only [List.length_cons]; omega, fun j hj => r3 j (by simp only [List.length_cons] at hj; omega), r4⟩
    · rw [if_neg (by simpa [Arith.rounded] using c)]
      obtain ⟨a, r1, r2, r3, r4⟩ := argmaxWFrom_spec rnd g l (i + 1) arg hg' (by omega)
        (fun j hj => by
          rcases Nat.lt_or_ge j i with hh | hh
          · exact h1 j hh
          · rw [show j = i by omega]; exact not_lt.mp c)
        h2
      exact ⟨a, r1, by simp only [List.length_cons]; omega, fun j hj => r3 j (by simp only [List.length_cons] at hj; omega), r4⟩

theorem argmaxW_spec (rnd : Rat → Rat) (g : Nat → Rat) (n : Nat) (hn : 0 < n) (l : List Rat) (hl : l.length = n) (hg : ∀ k < n, l.getD k 0 = g k) :
    ∃ a < n, argmaxW (Arith.rounded rnd) (rnd (-(1 / 2) / 97)) l = some (a, g a) ∧ (∀ j < n, lagValue rnd g j ≤ lagValue rnd g a) ∧
      ∀ j < a, lagValue rnd g j < lagValue rnd g a := by
  cases l with
  | nil => simp at hl; omega
  | cons v l =>
    have hv : v = g 0 := by simpa using hg 0 hn
    simp only [List.length_cons] at hl
    obtain ⟨a, r1, r2, r3, r4⟩ := argmaxWFrom_spec rnd g l 1 0 (fun k hk => by
        have := hg (k + 1) (by omega)
        rw [List.getD_cons_succ] at this
        rw [this, Nat.add_comm]) (by omega) (fun j hj => by rw [show j = 0 by omega]) (fun j hj => by omega)
    refine ⟨a, by omega, ?_, fun j hj => r3 j (by omega), r4⟩
    unfold argmaxW
    have e : lagValue rnd g 0 = g 0 := if_pos rfl
    rw [e] at r1
    rw [hv]
    exact congrArg some r1

/-- In exact arithmetic, the weights decrease by 1/194 from 1: the longest lag has the half of the weight of the shortest. -/
theorem lagWeight_id (k : Nat) : lagWeight id k = 1 - (k : Rat) / 194 := by
  induction k with
  | zero => simp [lagWeight]
  | succ k ih => rw [lagWeight, ih]; simp only [id]; push_cast; ring

/-! ### Search at 6.4 kHz -/

/-- The normalised correlation of the lag `17 + k`, 0 when the correlation is not positive. -/
def lagNorm (rnd sqrtf : Rat → Rat) (buf : List Int) (base n k : Nat) : Rat :=
  if lagCorr rnd buf base n 0 (17 + k) ≤ rnd ((0 : Int) : Rat) then rnd ((0 : Int) : Rat)
  else rnd (lagCorr rnd buf base n 0 (17 + k) / sqrtf (rnd (lagCorr rnd buf base n 0 0 * lagCorr rnd buf base n (17 + k) (17 + k))))

/-- **C76.** The search at 6.4 kHz, among the 98 lags from 17: the lag `t1` is the first that has the greatest weighted correlation, `t2` the first that
has the greatest correlation at most 4 lags away from the previous result; `t1` is preferred when its normalised correlation is clearly greater. A
pitch is present when the normalised correlation of the result is above 0.6. -/
theorem C76_detect (rnd sqrtf : Rat → Rat) (buf : List Int) (base n tc : Nat) (hb : 114 ≤ base) (hl : base + n ≤ buf.length) (htc : tc < 98) :
    ∃ t1 t2 t : Nat, ∃ present : Bool, detectPitch (Arith.rounded rnd) sqrtf buf base n tc = some (present, 17 + t, t) ∧
      t1 < 98 ∧ (∀ k < 98, lagValue rnd (fun k => lagCorr rnd buf base n 0 (17 + k)) k ≤ lagValue rnd (fun k => lagCorr rnd buf base n 0 (17 + k)) t1) ∧
      (∀ k < t1, lagValue rnd (fun k => lagCorr rnd buf base n 0 (17 + k)) k < lagValue rnd (fun k => lagCorr rnd buf base n 0 (17 + k)) t1) ∧
      (t2 < 98 ∧ tc ≤ t2 + 4 ∧ t2 ≤ tc + 4) ∧
      (∀ k < 98, tc ≤ k + 4 → k ≤ tc + 4 → lagCorr rnd buf base n 0 (17 + k) ≤ lagCorr rnd buf base n 0 (17 + t2) ∧
        (k < t2 → lagCorr rnd buf base n 0 (17 + k) < lagCorr rnd buf base n 0 (17 + t2))) ∧
      (lagNorm rnd sqrtf buf base n t2 ≤ rnd (rnd (85 / 100) * lagNorm rnd sqrtf buf base n t1) → t = t1) ∧
      (¬ lagNorm rnd sqrtf buf base n t2 ≤ rnd (rnd (85 / 100) * lagNorm rnd sqrtf buf base n t1) → t = t2) ∧
      (present = true ↔ rnd (6 / 10) < lagNorm rnd sqrtf buf base n t) := by
  obtain ⟨t1, a1, a2, a3, a4⟩ := argmaxW_spec rnd (fun k => lagCorr rnd buf base n 0 (17 + k)) 98 (by omega)
    ((List.range 98).map fun k => lagCorr rnd buf base n 0 (17 + k)) (by simp) (fun k hk => by
      rw [List.getD_eq_getElem?_getD, List.getElem?_map, List.getElem?_range hk]; rfl)
  have hk0 : max 0 (tc - 4) = tc - 4 := by omega
  have hnk : 0 < min (98 - 1) (tc + 4) - (tc - 4) + 1 := by omega
  obtain ⟨s1, s2⟩ := slice?_eq ((List.range 98).map fun k => lagCorr rnd buf base n 0 (17 + k)) (tc - 4) 0 (min (98 - 1) (tc + 4) - (tc - 4) + 1)
    (Nat.zero_le _) (by simp; omega)
  obtain ⟨u, b1, b2, b3, b4⟩ := argmax_spec rnd (fun k => lagCorr rnd buf base n 0 (17 + (tc - 4 + k))) _ hnk _ s2 (fun k hk => by
      rw [getD_slice _ _ _ _ hk, List.getD_eq_getElem?_getD, List.getElem?_map, List.getElem?_range (by omega)]; rfl)
  refine ⟨t1, tc - 4 + u, if lagNorm rnd sqrtf buf base n (tc - 4 + u) ≤ rnd (rnd (85 / 100) * lagNorm rnd sqrtf buf base n t1) then t1 else tc - 4 + u,
    decide (rnd (6 / 10) < lagNorm rnd sqrtf buf base n
      (if lagNorm rnd sqrtf buf base n (tc - 4 + u) ≤ rnd (rnd (85 / 100) * lagNorm rnd sqrtf buf base n t1) then t1 else tc - 4 + u)),
    ?_, a1, a3, a4, by omega, ?_, fun h => if_pos h, fun h => if_neg h, decide_eq_true_iff⟩
  · unfold detectPitch
    dsimp only
    rw [correlate_val rnd buf base n hl 98 17 (by omega), Option.bind_eq_bind, Option.bind_some, hk0, s1]
    have a2' : argmaxW (Arith.rounded rnd) ((Arith.rounded rnd).ofRat (-(1 / 2) / 97)) ((List.range 98).map fun k => lagCorr rnd buf base n 0 (17 + k)) = _ := a2
    rw [a2']
    simp only [Option.bind_eq_bind, Option.bind_some, b2]
    rw [(slice?_eq buf base 0 n (Nat.zero_le _) (by omega)).1, (slice?_eq buf base (17 + t1) n (by omega) (by omega)).1,
      (slice?_eq buf base (17 + (tc - 4 + u)) n (by omega) (by omega)).1]
    simp only [Option.bind_some]
    rw [dotI_lag rnd buf base n 0 0 (Nat.zero_le _) (Nat.zero_le _) hl, dotI_lag rnd buf base n (17 + t1) (17 + t1) (by omega) (by omega) hl,
      dotI_lag rnd buf base n (17 + (tc - 4 + u)) (17 + (tc - 4 + u)) (by omega) (by omega) hl]
    have hnc : ∀ k, normCorr (Arith.rounded rnd) sqrtf (lagCorr rnd buf base n 0 (17 + k)) (lagCorr rnd buf base n 0 0)
        (lagCorr rnd buf base n (17 + k) (17 + k)) = lagNorm rnd sqrtf buf base n k := by
      intro k
      unfold normCorr lagNorm
      by_cases c : lagCorr rnd buf base n 0 (17 + k) ≤ rnd ((0 : Int) : Rat)
      · rw [if_pos c, if_pos (show (Arith.rounded rnd).le (lagCorr rnd buf base n 0 (17 + k)) ((Arith.rounded rnd).ofInt 0) = true from decide_eq_true c)]; rfl
      · rw [if_neg c, if_neg (by
          show ¬ decide (lagCorr rnd buf base n 0 (17 + k) ≤ rnd ((0 : Int) : Rat)) = true
          rw [decide_eq_true_iff]; exact c)]
        rfl
    rw [hnc, hnc]
    generalize lagNorm rnd sqrtf buf base n = nc
    by_cases c : nc (tc - 4 + u) ≤ rnd (rnd (85 / 100) * nc t1)
    · have c' : (Arith.rounded rnd).le (nc (tc - 4 + u)) ((Arith.rounded rnd).mul ((Arith.rounded rnd).ofRat (85 / 100)) (nc t1)) = true := decide_eq_true c
      rw [c', if_pos c]
      rfl
    · have c' : (Arith.rounded rnd).le (nc (tc - 4 + u)) ((Arith.rounded rnd).mul ((Arith.rounded rnd).ofRat (85 / 100)) (nc t1)) = false := decide_eq_false c
      rw [c', if_neg c]
      rfl
  · intro k hk h1 h2
    have e : tc - 4 + (k - (tc - 4)) = k := by omega
    have h3 := b3 (k - (tc - 4)) (by omega)
    rw [e] at h3
    refine ⟨h3, fun h4 => ?_⟩
    have h5 := b4 (k - (tc - 4)) (by omega)
    rw [e] at h5
    exact h5

/-! ### Search at 12.8 kHz -/

theorem interpolateCorr_local (A : Arith Rat) (r : List Rat) (pos : Nat) (d : Int) (h1 : 4 ≤ pos) (h2 : pos + 5 ≤ r.length) :
    interpolateCorr A r pos d = interpolateCorr A ((r.drop (pos - 4)).take 9) 4 d := by
  obtain ⟨s1, s2⟩ := slice?_eq r pos 4 9 h1 (by omega)
  obtain ⟨s3, -⟩ := slice?_eq ((r.drop (pos - 4)).take 9) 4 4 9 (by omega) (by rw [s2])
  unfold interpolateCorr
  rw [s1, s3, Nat.sub_self, List.drop_zero, List.take_take, Nat.min_self]

theorem refineFrac_max (rnd : Rat → Rat) (ic : Int → Option Rat) (v : Int → Rat) (e : Nat) (hic : ∀ d : Int, -3 ≤ d → d ≤ 3 → ic d = some (v d)) :
    ∀ (k i : Nat) (f : Int), i + k = 4 → 1 ≤ i → FracOk e f → (∀ g, FracOk e g → g.natAbs < i → v g ≤ v f) →
      ∃ f', refineFrac (Arith.rounded rnd) ic e k i (v f) f = some f' ∧ FracOk e f' ∧ ∀ g, FracOk e g → g.natAbs < 4 → v g ≤ v f'
  | 0, i, f, hi, _, hf, hm => ⟨f, rfl, hf, fun g hg hgi => hm g hg (by omega)⟩
  | k + 1, i, f, hi, hi1, hf, hm => by
    unfold refineFrac
    by_cases c : 127 ≤ e ∧ (i % 2 = 1 ∨ 157 ≤ e)
    · rw [if_pos c]
      refine refineFrac_max rnd ic v e hic k (i + 1) f (by omega) (by omega) hf fun g hg hgi => ?_
      refine hm g hg ?_
      obtain ⟨g1, g2, g3, g4, g5⟩ := hg
      rcases c.2 with c2 | c2
      · have := g3 c.1; omega
      · have := g4 c2; omega
    · rw [if_neg c, hic i (by omega) (by omega), Option.bind_eq_bind, Option.bind_some]
      have okp : FracOk e i := ⟨by omega, by omega, fun h => by omega, fun h => by omega, fun _ => by omega⟩
      obtain ⟨f1, hf1, hp, hv1, hq1, e1⟩ : ∃ f1 : Int, FracOk e f1 ∧ (∀ g, FracOk e g → g.natAbs < i → v g ≤ v f1) ∧ v i ≤ v f1 ∧ v f ≤ v f1 ∧
          (if (Arith.rounded rnd).lt (v f) (v i) = true then (v i, (i : Int)) else (v f, f)) = (v f1, f1) := by
        by_cases c1 : v f < v i
        · exact ⟨i, okp, fun g hg hgi => le_trans (hm g hg hgi) c1.le, le_refl _, c1.le, if_pos (decide_eq_true c1)⟩
        · exact ⟨f, hf, hm, not_lt.mp c1, le_refl _, if_neg (by simpa [Arith.rounded] using c1)⟩
      rw [e1]
      dsimp only
      by_cases c3 : 32 < e
      · rw [if_pos c3, hic (-i) (by omega) (by omega), Option.bind_some]
        have okn : FracOk e (-i) := ⟨by omega, by omega, fun h => by omega, fun h => by omega, fun _ => by omega⟩
        obtain ⟨f2, hf2, hp2, hv2, hq2, e2⟩ : ∃ f2 : Int, FracOk e f2 ∧ (∀ g, FracOk e g → g.natAbs < i → v g ≤ v f2) ∧ v (-i) ≤ v f2 ∧ v f1 ≤ v f2 ∧
            (if (Arith.rounded rnd).lt (v f1) (v (-i)) = true then (v (-i), -(i : Int)) else (v f1, f1)) = (v f2, f2) := by
          by_cases c1 : v f1 < v (-i)
          · exact ⟨-i, okn, fun g hg hgi => le_trans (hp g hg hgi) c1.le, le_refl _, c1.le, if_pos (decide_eq_true c1)⟩
          · exact ⟨f1, hf1, hp, not_lt.mp c1, le_refl _, if_neg (by simpa [Arith.rounded] using c1)⟩
        rw [e2]
        refine refineFrac_max rnd ic v e hic k (i + 1) f2 (by omega) (by omega) hf2 fun g hg hgi => ?_
        rcases Nat.lt_or_ge g.natAbs i with hh | hh
        · exact hp2 g hg hh
        · rcases (show g = i ∨ g = -i by omega) with rfl | rfl
          · exact le_trans hv1 hq2
          · exact hv2
      · rw [if_neg c3]
        refine refineFrac_max rnd ic v e hic k (i + 1) f1 (by omega) (by omega) hf1 fun g hg hgi => ?_
        rcases Nat.lt_or_ge g.natAbs i with hh | hh
        · exact hp g hg hh
        · have := hg.2.2.2.2 (by omega)
          rw [show g = i by omega]
          exact hv1

/-- The correlation interpolated at the lag `e + d/4`, from the 9 correlations around `e` (`C75_correlation`). -/
def lagInter (rnd : Rat → Rat) (buf : List Int) (base n e : Nat) (d : Int) : Rat :=
  (interpolateCorr (Arith.rounded rnd) ((List.range 9).map fun i => lagCorr rnd buf base n 0 (e - 4 + i)) 4 d).getD 0

/-- **C76.** The search at 12.8 kHz, around the double of the lag at 6.4 kHz: the whole lag `e` is the first that has the greatest correlation, between 32 and
228 and at most 4 away; the fraction `f` has the greatest interpolated correlation, among the fractions of the resolution at that lag: quarters
under 127, halves under 157, none above, no negative one at 32. The lag is `e + f/4`. -/
theorem C76_refine (rnd : Rat → Rat) (buf : List Int) (base n tc : Nat) (hb : 232 ≤ base) (hl : base + n ≤ buf.length) (h1 : 17 ≤ tc) (h2 : tc ≤ 114) :
    ∃ (e : Nat) (f : Int) (index : Int), refinePitch (Arith.rounded rnd) buf base n tc = some (4 * (e : Int) + f, index) ∧
      (32 ≤ e ∧ e ≤ 228 ∧ 2 * tc ≤ e + 4 ∧ e ≤ 2 * tc + 4) ∧
      (∀ k, 32 ≤ k → k ≤ 228 → 2 * tc ≤ k + 4 → k ≤ 2 * tc + 4 → lagCorr rnd buf base n 0 k ≤ lagCorr rnd buf base n 0 e ∧
        (k < e → lagCorr rnd buf base n 0 k < lagCorr rnd buf base n 0 e)) ∧
      (-3 ≤ f ∧ f ≤ 3 ∧ (127 ≤ e → f % 2 = 0) ∧ (157 ≤ e → f = 0) ∧ (e ≤ 32 → 0 ≤ f)) ∧
      ∀ g : Int, -3 ≤ g → g ≤ 3 → (127 ≤ e → g % 2 = 0) → (157 ≤ e → g = 0) → (e ≤ 32 → 0 ≤ g) →
        lagInter rnd buf base n e g ≤ lagInter rnd buf base n e f := by
  have hr0 : 32 ≤ max 32 (2 * tc - 4) := by omega
  have hr1 : 2 * tc - 4 ≤ max 32 (2 * tc - 4) := by omega
  have hr2 : max 32 (2 * tc - 4) ≤ 224 := by omega
  have hr3 : max 32 (2 * tc - 4) = 32 ∨ max 32 (2 * tc - 4) = 2 * tc - 4 := by omega
  unfold refinePitch
  dsimp only
  generalize max 32 (2 * tc - 4) = r0 at *
  have hnr : 0 < min 228 (2 * tc + 4) - r0 + 1 := by omega
  have hnr2 : r0 + (min 228 (2 * tc + 4) - r0 + 1) = min 228 (2 * tc + 4) + 1 := by omega
  have hnr3 : min 228 (2 * tc + 4) - r0 + 1 ≤ 9 := by omega
  generalize hN : min 228 (2 * tc + 4) - r0 + 1 = nr at *
  rw [if_neg (by omega), correlate_val rnd buf base n hl (nr + 8) (r0 - 4) (by omega), Option.bind_eq_bind, Option.bind_some]
  set r := (List.range (nr + 8)).map fun k => lagCorr rnd buf base n 0 (r0 - 4 + k) with hr
  have hrl : r.length = nr + 8 := by rw [hr]; simp
  have hrg : ∀ k < nr + 8, r.getD k 0 = lagCorr rnd buf base n 0 (r0 - 4 + k) := fun k hk => by
    rw [hr, List.getD_eq_getElem?_getD, List.getElem?_map, List.getElem?_range hk]; rfl
  obtain ⟨s1, s2⟩ := slice?_eq r 4 0 nr (Nat.zero_le _) (by omega)
  obtain ⟨u, b1, b2, b3, b4⟩ := argmax_spec rnd (fun k => lagCorr rnd buf base n 0 (r0 + k)) nr hnr _ s2 (fun k hk => by
      rw [getD_slice _ _ _ _ hk, hrg _ (by omega), show r0 - 4 + (4 - 0 + k) = r0 + k by omega])
  rw [s1, Option.bind_eq_bind, Option.bind_some, b2, Option.bind_some]
  dsimp only
  have hic : ∀ d : Int, -3 ≤ d → d ≤ 3 → interpolateCorr (Arith.rounded rnd) r (r0 + u - (r0 - 4)) d = some (lagInter rnd buf base n (r0 + u) d) := by
    intro d d1 d2
    rw [interpolateCorr_local _ r _ d (by omega) (by omega)]
    have el : (r.drop (r0 + u - (r0 - 4) - 4)).take 9 = (List.range 9).map fun i => lagCorr rnd buf base n 0 (r0 + u - 4 + i) := by
      apply List.ext_getElem
      · rw [List.length_take, List.length_drop, hrl]; simp; omega
      · intro i i1 i2
        simp only [List.length_map, List.length_range] at i2
        have := getD_slice r (r0 + u - (r0 - 4) - 4) 9 i i2
        rw [hrg _ (by omega), List.getD_eq_getElem?_getD, List.getElem?_eq_getElem i1, Option.getD_some] at this
        rw [this, List.getElem_map, List.getElem_range, show r0 - 4 + (r0 + u - (r0 - 4) - 4 + i) = r0 + u - 4 + i by omega]
    rw [el]
    obtain ⟨w, ew⟩ := interpolateCorr_some (Arith.rounded rnd) ((List.range 9).map fun i => lagCorr rnd buf base n 0 (r0 + u - 4 + i)) 4 d ⟨d1, d2⟩
      (le_refl _) (by simp)
    unfold lagInter
    rw [ew]; rfl
  obtain ⟨f, c1, c2, c3⟩ := refineFrac_max rnd _ _ (r0 + u) hic 3 1 0 rfl (le_refl _)
    ⟨by omega, by omega, fun _ => by omega, fun _ => rfl, fun _ => by omega⟩
    (fun g _ hg => by rw [show g = 0 by omega])
  rw [hic 0 (by omega) (by omega), Option.bind_eq_bind, Option.bind_some, c1, Option.bind_eq_bind, Option.bind_some]
  refine ⟨r0 + u, f, (pitchIndex (r0 + u) f).2, ?_, by omega, ?_, c2, fun g g1 g2 g3 g4 g5 => c3 g ⟨g1, g2, g3, g4, g5⟩ (by omega)⟩
  · have : (pitchIndex (r0 + u) f).1 = 4 * ((r0 + u : Nat) : Int) + f := by
      unfold pitchIndex
      dsimp only
      split <;> omega
    rw [← this]
    rfl
  · intro k k1 k2 k3 k4
    have ek : r0 + (k - r0) = k := by omega
    have h3 := b3 (k - r0) (by omega)
    rw [ek] at h3
    refine ⟨h3, fun hk => ?_⟩
    have h4 := b4 (k - r0) (by omega)
    rw [ek] at h4
    exact h4

/-! ### Resampling at 6.4 kHz -/

theorem resample6k4_len (buf : List Int) (base : Nat) : ∀ (k n : Nat) (y : List Int), resample6k4 buf base k n = some y →
    ∀ i < k, base + 2 * (n + i) + 1 < buf.length
  | 0, _, _, _ => fun i hi => by omega
  | k + 1, n, y, h => by
    unfold resample6k4 at h
    obtain ⟨w, ew, h⟩ := Option.bind_eq_some_iff.mp h
    have hw : 3 ≤ base + 2 * n ∧ base + 2 * n - 3 + 5 ≤ buf.length := by
      unfold slice? at ew
      by_contra c
      split at ew
      · omega
      · cases ew
    obtain ⟨s1, s2⟩ := slice?_eq buf (base + 2 * n) 3 5 hw.1 hw.2
    rw [s1] at ew
    cases ew
    generalize (buf.drop (base + 2 * n - 3)).take 5 = w at *
    match w, s2 with
    | [a, b, c, d, e], _ =>
      dsimp only at h
      obtain ⟨t0, e0, h⟩ := Option.bind_eq_some_iff.mp h
      obtain ⟨t1, e1, h⟩ := Option.bind_eq_some_iff.mp h
      obtain ⟨t2, e2, h⟩ := Option.bind_eq_some_iff.mp h
      obtain ⟨t3, e3, h⟩ := Option.bind_eq_some_iff.mp h
      obtain ⟨t4, e4, h⟩ := Option.bind_eq_some_iff.mp h
      obtain ⟨l, el, h⟩ := Option.bind_eq_some_iff.mp h
      intro i hi
      cases i with
      | zero => omega
      | succ i =>
        have := resample6k4_len buf base k (n + 1) l el i (by omega)
        omega

theorem resample6k4_val (buf : List Int) (base : Nat) (hb : ∀ v ∈ buf, -32768 ≤ v ∧ v ≤ 32767) : ∀ (k n : Nat) (y : List Int),
    resample6k4 buf base k n = some y → y.length = k ∧ ∀ i < k, 3 ≤ base + 2 * (n + i) ∧
      y.getD i 0 = (18477 * buf.getD (base + 2 * (n + i) - 1) 0 + 15424 * (buf.getD (base + 2 * (n + i) - 2) 0 + buf.getD (base + 2 * (n + i)) 0) +
        8105 * (buf.getD (base + 2 * (n + i) - 3) 0 + buf.getD (base + 2 * (n + i) + 1) 0)) / 65536
  | 0, _, y, h => by
    unfold resample6k4 at h
    cases h
    exact ⟨rfl, fun i hi => by omega⟩
  | k + 1, n, y, h => by
    unfold resample6k4 at h
    obtain ⟨w, ew, h⟩ := Option.bind_eq_some_iff.mp h
    have hw : 3 ≤ base + 2 * n ∧ base + 2 * n - 3 + 5 ≤ buf.length := by
      unfold slice? at ew
      by_contra c
      split at ew
      · omega
      · cases ew
    obtain ⟨s1, s2⟩ := slice?_eq buf (base + 2 * n) 3 5 hw.1 hw.2
    rw [s1] at ew
    cases ew
    have g : ∀ j < 5, ((buf.drop (base + 2 * n - 3)).take 5).getD j 0 = buf.getD (base + 2 * n - 3 + j) 0 := fun j hj => getD_slice' _ _ _ _ hj
    have r : ∀ j < 5, -32768 ≤ buf.getD (base + 2 * n - 3 + j) 0 ∧ buf.getD (base + 2 * n - 3 + j) 0 ≤ 32767 := fun j hj => by
      rw [List.getD_eq_getElem?_getD, List.getElem?_eq_getElem (by omega), Option.getD_some]
      exact hb _ (List.getElem_mem _)
    have g0 := g 0 (by omega)
    have g1 := g 1 (by omega)
    have g2 := g 2 (by omega)
    have g3 := g 3 (by omega)
    have g4 := g 4 (by omega)
    have r0 := r 0 (by omega)
    have r1 := r 1 (by omega)
    have r2 := r 2 (by omega)
    have r3 := r 3 (by omega)
    have r4 := r 4 (by omega)
    clear g r
    generalize (buf.drop (base + 2 * n - 3)).take 5 = w at *
    match w, s2 with
    | [a, b, c, d, e], _ =>
      dsimp only at h
      simp only [List.getD_cons_zero, List.getD_cons_succ, Nat.add_zero] at g0 g1 g2 g3 g4 r0
      rw [← g0] at r0
      rw [← g1] at r1
      rw [← g2] at r2
      rw [← g3] at r3
      rw [← g4] at r4
      obtain ⟨t0, e0, h⟩ := Option.bind_eq_some_iff.mp h
      obtain ⟨t1, e1, h⟩ := Option.bind_eq_some_iff.mp h
      obtain ⟨t2, e2, h⟩ := Option.bind_eq_some_iff.mp h
      obtain ⟨t3, e3, h⟩ := Option.bind_eq_some_iff.mp h
      obtain ⟨t4, e4, h⟩ := Option.bind_eq_some_iff.mp h
      obtain ⟨l, el, h⟩ := Option.bind_eq_some_iff.mp h
      have q : ∀ {u v : Int}, i32 u = some v → v = u := fun {u v} hh => by
        unfold i32 at hh
        split at hh
        · cases hh; rfl
        · cases hh
      have q0 := q e0
      have q1 := q e1
      have q2 := q e2
      have q3 := q e3
      have q4 := q e4
      cases h
      obtain ⟨l1, l2⟩ := resample6k4_val buf base hb k (n + 1) l el
      refine ⟨by simp [l1], fun i hi => ?_⟩
      cases i with
      | zero =>
        refine ⟨by omega, ?_⟩
        rw [List.getD_cons_zero, Nat.add_zero, show base + 2 * n - 1 = base + 2 * n - 3 + 2 by omega, show base + 2 * n - 2 = base + 2 * n - 3 + 1 by omega,
          show buf.getD (base + 2 * n) 0 = buf.getD (base + 2 * n - 3 + 3) 0 by rw [show base + 2 * n - 3 + 3 = base + 2 * n by omega],
          show base + 2 * n + 1 = base + 2 * n - 3 + 4 by omega, ← g0, ← g1, ← g2, ← g3, ← g4]
        have ht : t4 = 18477 * c + 15424 * (b + d) + 8105 * (a + e) := by omega
        rw [← ht]
        have b1 : -32768 ≤ t4 / 65536 := by omega
        have b2 : t4 / 65536 ≤ 32767 := by omega
        unfold toI16
        omega
      | succ i =>
        rw [List.getD_cons_succ, show n + (i + 1) = n + 1 + i by omega]
        exact l2 i (by omega)

/-- **C76.** The resampling at 6.4 kHz gives every other sample of the signal at 12.8 kHz filtered by a symmetric low pass filter of 5 taps, of gain
65535/65536 for the constants, without wrap in 16 bits; the delay is of one sample. A constant is kept, less one at most. -/
theorem C76_resample_6k4 (buf : List Int) (base k : Nat) (hb : ∀ v ∈ buf, -32768 ≤ v ∧ v ≤ 32767) (y : List Int) (h : resample6k4 buf base k 0 = some y) :
    y.length = k ∧ (∀ i < k, y.getD i 0 = (18477 * buf.getD (base + 2 * i - 1) 0 + 15424 * (buf.getD (base + 2 * i - 2) 0 + buf.getD (base + 2 * i) 0) +
        8105 * (buf.getD (base + 2 * i - 3) 0 + buf.getD (base + 2 * i + 1) 0)) / 65536 ∧ -32768 ≤ y.getD i 0 ∧ y.getD i 0 ≤ 32767) ∧
      ∀ c : Int, (∀ m < buf.length, buf.getD m 0 = c) → ∀ i < k, c - 1 ≤ y.getD i 0 ∧ y.getD i 0 ≤ c := by
  obtain ⟨h1, h2⟩ := resample6k4_val buf base hb k 0 y h
  have hr : ∀ m, -32768 ≤ buf.getD m 0 ∧ buf.getD m 0 ≤ 32767 := fun m => by
    rw [List.getD_eq_getElem?_getD]
    rcases Nat.lt_or_ge m buf.length with c | c
    · rw [List.getElem?_eq_getElem c, Option.getD_some]; exact hb _ (List.getElem_mem _)
    · rw [List.getElem?_eq_none c]; decide
  have hd := resample6k4_len buf base k 0 y h
  refine ⟨h1, fun i hi => ?_, fun c hc i hi => ?_⟩
  · obtain ⟨a1, a2⟩ := h2 i hi
    rw [Nat.zero_add] at a2
    have r1 := hr (base + 2 * i - 1)
    have r2 := hr (base + 2 * i - 2)
    have r3 := hr (base + 2 * i)
    have r4 := hr (base + 2 * i - 3)
    have r5 := hr (base + 2 * i + 1)
    refine ⟨a2, ?_⟩
    rw [a2]
    omega
  · obtain ⟨a1, a2⟩ := h2 i hi
    have a3 := hd i hi
    rw [Nat.zero_add] at a1 a2 a3
    rw [hc _ (by omega), hc _ (by omega), hc _ (by omega), hc _ (by omega), hc _ (by omega)] at a2
    have r1 := hr (base + 2 * i)
    rw [hc _ (by omega)] at r1
    rw [a2]
    omega

/-! ### Activation -/

theorem ltpfPitch_absent {rnd sqrtf : Rat → Rat} {dt : Dt} {x y : List Int} {tc tc' : Nat} {index : Option Int} {pitch : Int} {nc : Rat}
    (h : ltpfPitch (Arith.rounded rnd) sqrtf dt x y tc = some (false, index, pitch, nc, tc')) : nc = rnd ((0 : Int) : Rat) ∧ pitch = 0 := by
  unfold ltpfPitch at h
  dsimp only at h
  obtain ⟨⟨p, lag, t⟩, -, h⟩ := Option.bind_eq_some_iff.mp h
  dsimp only at h
  cases p with
  | false =>
    rw [if_neg (by decide)] at h
    cases h
    exact ⟨rfl, rfl⟩
  | true =>
    rw [if_pos rfl] at h
    obtain ⟨⟨a, b⟩, -, h⟩ := Option.bind_eq_some_iff.mp h
    dsimp only at h
    generalize (1 + dt.idx) * 32 + (if dt = Dt.m2_5 then (1 + dt.idx) * 32 else 0) = N at h
    split at h
    · cases h
    · obtain ⟨u, -, h⟩ := Option.bind_eq_some_iff.mp h
      obtain ⟨v, -, h⟩ := Option.bind_eq_some_iff.mp h
      cases h

theorem ltpfAnalyse_facts {rnd sqrtf : Rat → Rat} {dt : Dt} {sr : Srate} {s s' : LtpfA Rat} {buf : List Int} {base : Nat} {o : LtpfOut}
    (h : ltpfAnalyse (Arith.rounded rnd) sqrtf dt sr s buf base = some (o, s')) :
    s'.nc1 = s.nc0 ∧ s'.active = o.active ∧ (o.present = false → s'.nc0 = rnd ((0 : Int) : Rat)) ∧
      o.active = ltpfActive (Arith.rounded rnd) dt sr s o.present s'.pitch s'.nc0 := by
  unfold ltpfAnalyse at h
  obtain ⟨r, er, h⟩ := Option.bind_eq_some_iff.mp h
  obtain ⟨⟨present, index, pitch, nc, tc⟩, ep, h⟩ := Option.bind_eq_some_iff.mp h
  cases h
  have e : r.nc0 = s.nc0 ∧ r.nc1 = s.nc1 ∧ r.active = s.active ∧ r.pitch = s.pitch := by
    unfold ltpfResample at er
    obtain ⟨⟨y, hp⟩, -, er⟩ := Option.bind_eq_some_iff.mp er
    obtain ⟨y6, -, er⟩ := Option.bind_eq_some_iff.mp er
    cases er
    exact ⟨rfl, rfl, rfl, rfl⟩
  obtain ⟨e1, e2, e3, e4⟩ := e
  refine ⟨e1, rfl, fun hp => ?_, ?_⟩
  · dsimp only at hp
    rw [hp] at ep
    exact (ltpfPitch_absent ep).1
  · dsimp only
    unfold ltpfActive
    rw [e1, e2, e3, e4]

/-- **C76.** The post filter is signalled active only with a pitch, and never in the high resolution mode. It gets active only after consecutive frames
with a pitch, two at 10 ms and three for the shorter frames; it remains so only on a normalised correlation above 0.84. -/
theorem C76_activation (rnd sqrtf : Rat → Rat) (hm : Monotone rnd) (dt : Dt) (sr : Srate) (s0 s1 s2 s3 : LtpfA Rat) (buf1 buf2 buf3 : List Int) (base1 base2 base3 : Nat)
    (o1 o2 o3 : LtpfOut) (h1 : ltpfAnalyse (Arith.rounded rnd) sqrtf dt sr s0 buf1 base1 = some (o1, s1))
    (h2 : ltpfAnalyse (Arith.rounded rnd) sqrtf dt sr s1 buf2 base2 = some (o2, s2))
    (h3 : ltpfAnalyse (Arith.rounded rnd) sqrtf dt sr s2 buf3 base3 = some (o3, s3)) (ha : o3.active = true) :
    sr.hr = false ∧ o3.present = true ∧ rnd (84 / 100) < s3.nc0 ∧
      (o2.active = false → o2.present = true ∧ (dt = .m10 ∨ o1.present = true) ∧ rnd (94 / 100) < s2.nc0 ∧ rnd (94 / 100) < s3.nc0) := by
  obtain ⟨a1, a2, a3, a4⟩ := ltpfAnalyse_facts h1
  obtain ⟨b1, b2, b3, b4⟩ := ltpfAnalyse_facts h2
  obtain ⟨c1, c2, c3, c4⟩ := ltpfAnalyse_facts h3
  have z : rnd ((0 : Int) : Rat) ≤ rnd (94 / 100) := hm (by norm_num)
  have z1 : rnd (84 / 100) ≤ rnd (9 / 10) := hm (by norm_num)
  have z2 : rnd (84 / 100) ≤ rnd (94 / 100) := hm (by norm_num)
  have lt : ∀ u v : Rat, (Arith.rounded rnd).lt ((Arith.rounded rnd).ofRat u) v = true → rnd u < v := fun u v hh => of_decide_eq_true hh
  rw [ha] at c4
  have c4 := c4.symm
  unfold ltpfActive at c4
  cases hs : s2.active with
  | true =>
    rw [hs, if_pos rfl] at c4
    simp only [Bool.and_eq_true, Bool.or_eq_true, Bool.not_eq_true', decide_eq_true_eq] at c4
    obtain ⟨⟨d1, d2⟩, d3⟩ := c4
    refine ⟨d1, d2, ?_, fun hf => by rw [b2, hf] at hs; cases hs⟩
    rcases d3 with d3 | ⟨⟨d3, -⟩, -⟩
    · exact lt_of_le_of_lt z1 (lt _ _ d3)
    · exact lt _ _ d3
  | false =>
    rw [hs, if_neg (by decide)] at c4
    simp only [Bool.and_eq_true, Bool.or_eq_true, Bool.not_eq_true', decide_eq_true_eq] at c4
    obtain ⟨⟨d1, d2⟩, d3, d4, d5⟩ := c4
    refine ⟨d1, d2, lt_of_le_of_lt z2 (lt _ _ d5), fun _ => ⟨?_, ?_, lt _ _ d4, lt _ _ d5⟩⟩
    · by_contra hp
      rw [b3 (by simpa using hp)] at d4
      exact absurd (lt _ _ d4) (not_lt.mpr z)
    · rcases d3 with d3 | d3
      · exact Or.inl d3
      · right
        by_contra hp
        rw [b1, a3 (by simpa using hp)] at d3
        exact absurd (lt _ _ d3) (not_lt.mpr z)

/-- **C76.** The exact decision, from the previous decision, the normalised correlations `nc0` of the successive frames and the lags, in quarters: from the
inactive state, above 0.94 on the last frames; from the active state, above 0.9, or above 0.84 for a lag that moved by less than two samples and a
correlation that did not fall by 0.1. -/
theorem C76_hysteresis (rnd sqrtf : Rat → Rat) (dt : Dt) (sr : Srate) (s1 s2 s3 : LtpfA Rat) (buf2 buf3 : List Int) (base2 base3 : Nat)
    (o2 o3 : LtpfOut) (h2 : ltpfAnalyse (Arith.rounded rnd) sqrtf dt sr s1 buf2 base2 = some (o2, s2))
    (h3 : ltpfAnalyse (Arith.rounded rnd) sqrtf dt sr s2 buf3 base3 = some (o3, s3)) :
    o3.active = true ↔ sr.hr = false ∧ o3.present = true ∧
      (o2.active = true → rnd (9 / 10) < s3.nc0 ∨
        (rnd (84 / 100) < s3.nc0 ∧ |s3.pitch - s2.pitch| < 8 ∧ rnd (-1 / 10) < rnd (s3.nc0 - s2.nc0))) ∧
      (o2.active = false → (dt = .m10 ∨ rnd (94 / 100) < s1.nc0) ∧ rnd (94 / 100) < s2.nc0 ∧ rnd (94 / 100) < s3.nc0) := by
  obtain ⟨b1, b2, b3, b4⟩ := ltpfAnalyse_facts h2
  obtain ⟨c1, c2, c3, c4⟩ := ltpfAnalyse_facts h3
  have lt : ∀ u v : Rat, (Arith.rounded rnd).lt ((Arith.rounded rnd).ofRat u) v = true ↔ rnd u < v := fun u v => decide_eq_true_iff
  have hab : max s3.pitch s2.pitch - min s3.pitch s2.pitch = |s3.pitch - s2.pitch| := max_sub_min_eq_abs' _ _
  rw [c4]
  unfold ltpfActive
  rw [← b2, ← b1]
  cases s2.active with
  | true =>
    rw [if_pos rfl]
    dsimp only
    rw [hab]
    simp only [Bool.and_eq_true, Bool.or_eq_true, Bool.not_eq_true', decide_eq_true_eq, lt, reduceCtorEq, forall_const, false_implies, and_true, and_assoc]
    rfl
  | false =>
    rw [if_neg (by decide)]
    simp only [Bool.and_eq_true, Bool.or_eq_true, Bool.not_eq_true', decide_eq_true_eq, lt, reduceCtorEq, forall_const, false_implies, true_and, and_assoc]

/-! ### Examples -/

/-- A signal of period 40: a pulse every 40 samples. -/
def pulses40 (n : Nat) : List Int := (List.range n).map fun i => if i % 40 = 0 then 1000 else 0

/-- The lag 40 has the greatest correlation, and is found. -/
example : (detectPitch (Arith.rounded id) (fun v => if v = 0 then 1 else v) (pulses40 178) 114 64 20).map (fun r => r.2.1) = some 40 := by decide +kernel

/-- At 12.8 kHz, from the estimation 21, the lag 40 is found, of index 32. -/
example : refinePitch (Arith.rounded id) (pulses40 384) 232 128 21 = some (160, 32) := by decide +kernel

/-- A constant of 1000 gives 999 at 6.4 kHz. -/
example : resample6k4 (List.replicate 20 1000) 4 3 0 = some [999, 999, 999] := by decide +kernel

end LC3
