import Verif.Lemmas.OrdField
import Verif.Props.Sns

/-!
Properties of the search of the pulses of SNS: C81 (each pulse is the one that brings the configuration closest to the direction of the residual).
-/

namespace LC3

section
variable {K : Type} [Field K] [LinearOrder K] [IsStrictOrderedRing K]

/-- The correlation of a vector with a configuration of pulses. -/
def corrOf (x : List K) (c : List Int) : K := ((c.zip x).map fun p => (p.1 : K) * p.2).sum

/-- The energy of a configuration of pulses. -/
def energyOf (c : List Int) : K := (c.map fun v : Int => (v : K) ^ 2).sum

/-- The square of the cosine of the angle between the vector and the configuration, times the energy of the vector: the greater it is, the smaller the
error of the configuration with its best gain. -/
def matching (x : List K) (c : List Int) : K := corrOf x c ^ 2 / energyOf c

/-- A configuration with one more pulse at a position. -/
def onePulse (c : List Int) (p : Nat) : List Int := c.set p (c.getD p 0 + 1)

/-- A pulse is added at the position, from `lo` to `hi - 1`, of the best matching. -/
def BestStep (x : List K) (lo hi : Nat) (c c' : List Int) : Prop :=
  ∃ p, lo ≤ p ∧ p < hi ∧ c' = onePulse c p ∧ ∀ q, lo ≤ q → q < hi → matching x (onePulse c q) ≤ matching x c'

/-- `k` pulses are added one after the other, each at the position of the best matching. -/
def BestSteps (x : List K) (lo hi : Nat) : Nat → List Int → List Int → Prop
  | 0, c, c' => c' = c
  | k + 1, c, c' => ∃ z, BestStep x lo hi c z ∧ BestSteps x lo hi k z c'

/-! ### Correlation and energy of one more pulse -/

theorem corrOf_onePulse : ∀ (x : List K) (c : List Int) (p : Nat), p < c.length → p < x.length → corrOf x (onePulse c p) = corrOf x c + x.getD p 0
  | _, [], p, h, _ => by simp at h
  | [], _, p, _, h => by simp at h
  | a :: x, b :: c, 0, _, _ => by
    unfold corrOf onePulse
    rw [List.getD_cons_zero, List.set_cons_zero, List.zip_cons_cons, List.zip_cons_cons, List.map_cons, List.map_cons, List.sum_cons, List.sum_cons,
      List.getD_cons_zero]
    push_cast
    ring
  | a :: x, b :: c, p + 1, h, h' => by
    have := corrOf_onePulse x c p (by simpa using h) (by simpa using h')
    unfold corrOf onePulse at this ⊢
    rw [List.getD_cons_succ, List.set_cons_succ, List.zip_cons_cons, List.zip_cons_cons, List.map_cons, List.map_cons, List.sum_cons, List.sum_cons,
      List.getD_cons_succ, this]
    ring

theorem energyOf_onePulse : ∀ (c : List Int) (p : Nat), p < c.length → (energyOf (onePulse c p) : K) = energyOf c + 2 * (c.getD p 0 : K) + 1
  | [], p, h => by simp at h
  | b :: c, 0, _ => by
    unfold energyOf onePulse
    rw [List.getD_cons_zero, List.set_cons_zero, List.map_cons, List.map_cons, List.sum_cons, List.sum_cons]
    push_cast
    ring
  | b :: c, p + 1, h => by
    have := energyOf_onePulse c p (by simpa using h)
    unfold energyOf onePulse at this ⊢
    rw [List.getD_cons_succ, List.set_cons_succ, List.map_cons, List.map_cons, List.sum_cons, List.sum_cons, this]
    ring

theorem energyOf_nonneg (c : List Int) : (0 : K) ≤ energyOf c := by
  unfold energyOf
  refine List.sum_nonneg fun v hv => ?_
  obtain ⟨u, -, rfl⟩ := List.mem_map.mp hv
  exact sq_nonneg _

theorem energyOf_append (a b : List Int) : (energyOf (a ++ b) : K) = energyOf a + energyOf b := by
  unfold energyOf
  rw [List.map_append, List.sum_append]

theorem corrOf_append (x y : List K) (a b : List Int) (h : a.length = x.length) : corrOf (x ++ y) (a ++ b) = corrOf x a + corrOf y b := by
  unfold corrOf
  rw [List.zip_append h, List.map_append, List.sum_append]

theorem energyOf_zeros (n : Nat) : (energyOf (List.replicate n 0) : K) = 0 := by
  unfold energyOf
  rw [List.map_replicate, List.sum_replicate]
  simp

theorem corrOf_zeros : ∀ (n : Nat) (x : List K), corrOf x (List.replicate n 0) = 0
  | 0, _ => rfl
  | n + 1, [] => by unfold corrOf; rw [List.zip_nil_right]; rfl
  | n + 1, a :: x => by
    have := corrOf_zeros n x
    unfold corrOf at this ⊢
    rw [List.replicate_succ, List.zip_cons_cons, List.map_cons, List.sum_cons, this]
    simp

/-! ### Search of a position -/

variable [FloorRing K] [Inhabited K]

theorem bestPulse_best (corr energy : K) (x : List K) (y : List Int) (n : Nat) (hE : ∀ j < n, 0 < pulseE (Arith.ofField K) energy y j)
    (k i nb : Nat) (hnb : nb < n) (hk : i + k ≤ n) :
    let p := bestPulse (Arith.ofField K) corr energy x y k i (pulseC2 (Arith.ofField K) corr x nb) (pulseE (Arith.ofField K) energy y nb) nb
    p < n ∧ ∀ j, (j = nb ∨ (i ≤ j ∧ j < i + k)) → pulseC2 (Arith.ofField K) corr x j / pulseE (Arith.ofField K) energy y j ≤
      pulseC2 (Arith.ofField K) corr x p / pulseE (Arith.ofField K) energy y p := by
  induction k generalizing i nb with
  | zero =>
    refine ⟨hnb, fun j hj => ?_⟩
    rcases hj with rfl | hj
    · exact le_refl _
    · omega
  | succ k ih =>
    dsimp only
    unfold bestPulse
    dsimp only
    have e : (Arith.ofField K).lt ((Arith.ofField K).mul (pulseE (Arith.ofField K) energy y i) (pulseC2 (Arith.ofField K) corr x nb))
        ((Arith.ofField K).mul (pulseC2 (Arith.ofField K) corr x i) (pulseE (Arith.ofField K) energy y nb)) = true ↔
        pulseC2 (Arith.ofField K) corr x nb / pulseE (Arith.ofField K) energy y nb <
          pulseC2 (Arith.ofField K) corr x i / pulseE (Arith.ofField K) energy y i := by
      rw [div_lt_div_iff₀ (hE nb hnb) (hE i (by omega))]
      refine Iff.trans (@decide_eq_true_iff _ (Classical.dec _)) ?_
      show pulseE (Arith.ofField K) energy y i * _ < _ * _ ↔ _
      rw [mul_comm (pulseE (Arith.ofField K) energy y i)]
    by_cases hc : pulseC2 (Arith.ofField K) corr x nb / pulseE (Arith.ofField K) energy y nb <
          pulseC2 (Arith.ofField K) corr x i / pulseE (Arith.ofField K) energy y i
    · rw [if_pos (e.mpr hc)]
      obtain ⟨h1, h2⟩ := ih (i + 1) i (by omega) (by omega)
      refine ⟨h1, fun j hj => ?_⟩
      rcases hj with rfl | hj
      · exact le_trans hc.le (h2 i (Or.inl rfl))
      · rcases Nat.eq_or_lt_of_le hj.1 with h | h
        · subst h; exact h2 _ (Or.inl rfl)
        · exact h2 j (Or.inr ⟨by omega, by omega⟩)
    · rw [if_neg (fun h => hc (e.mp h))]
      obtain ⟨h1, h2⟩ := ih (i + 1) nb hnb (by omega)
      refine ⟨h1, fun j hj => ?_⟩
      rcases hj with rfl | hj
      · exact h2 _ (Or.inl rfl)
      · rcases Nat.eq_or_lt_of_le hj.1 with h | h
        · subst h; exact le_trans (not_lt.mp hc) (h2 nb (Or.inl rfl))
        · exact h2 j (Or.inr ⟨by omega, by omega⟩)

/-- The pulses added from the position `off`, on the correlation and the energy of the whole vector. -/
theorem addPulse_best (x : List K) (hx : x.length = 16) (off n : Nat) (h1 : 1 ≤ n) (hn : off + n ≤ 16) (k : Nat) (y : List Int) (hy : y.length = 16)
    (h0 : Nonneg y) :
    let r := addPulse (Arith.ofField K) (x.drop off) n k (y.drop off) (corrOf x y) (energyOf y)
    BestSteps x off (off + n) k y (y.take off ++ r.1) ∧ r.2.1 = corrOf x (y.take off ++ r.1) ∧ r.2.2 = energyOf (y.take off ++ r.1) := by
  induction k generalizing y with
  | zero =>
    intro r
    have : y.take off ++ r.1 = y := List.take_append_drop off y
    rw [this]
    exact ⟨rfl, rfl, rfl⟩
  | succ k ih =>
    have hcell : ∀ j < n, cell (x.drop off) j = x.getD (off + j) 0 := by
      intro j hj
      unfold cell
      rw [List.getD_eq_getElem _ _ (by rw [List.length_drop]; omega), List.getD_eq_getElem _ _ (by omega), List.getElem_drop]
    have hget : ∀ j, (y.drop off).getD j 0 = y.getD (off + j) 0 := by
      intro j
      rw [List.getD_eq_getElem?_getD, List.getD_eq_getElem?_getD, List.getElem?_drop]
    have hpE : ∀ j < n, pulseE (Arith.ofField K) (energyOf y) (y.drop off) j = energyOf (onePulse y (off + j)) := by
      intro j hj
      rw [energyOf_onePulse y (off + j) (by omega), ← hget j]
      unfold pulseE
      show energyOf y + (((2 * (y.drop off).getD j 0 : Int) : Rat) : K) + (((1 : Int) : Rat) : K) = _
      push_cast
      ring
    have hpC : ∀ j < n, pulseC2 (Arith.ofField K) (corrOf x y) (x.drop off) j = corrOf x (onePulse y (off + j)) ^ 2 := by
      intro j hj
      rw [corrOf_onePulse x y (off + j) (by omega) (by omega), ← hcell j hj]
      unfold pulseC2
      show (corrOf x y + _) * (corrOf x y + _) = _
      ring
    have hE : ∀ j < n, 0 < pulseE (Arith.ofField K) (energyOf y) (y.drop off) j := by
      intro j hj
      rw [hpE j hj, energyOf_onePulse y (off + j) (by omega)]
      have a1 : (0 : K) ≤ energyOf y := energyOf_nonneg y
      have a2 : (0 : K) ≤ ((y.getD (off + j) 0 : Int) : K) := by
        have : 0 ≤ y.getD (off + j) 0 := by
          rw [List.getD_eq_getElem _ _ (by omega)]
          exact h0 _ (List.getElem_mem _)
        exact_mod_cast this
      linarith
    obtain ⟨p1, p2⟩ := bestPulse_best (corrOf x y) (energyOf y) (x.drop off) (y.drop off) n hE (n - 1) 1 0 (by omega) (by omega)
    dsimp only
    unfold addPulse
    dsimp only
    generalize bestPulse (Arith.ofField K) (corrOf x y) (energyOf y) (x.drop off) (y.drop off) (n - 1) 1
      (pulseC2 (Arith.ofField K) (corrOf x y) (x.drop off) 0) (pulseE (Arith.ofField K) (energyOf y) (y.drop off) 0) 0 = p at *
    have e1 : (y.drop off).set p ((y.drop off).getD p 0 + 1) = (onePulse y (off + p)).drop off := by
      unfold onePulse
      rw [hget p, List.drop_set, if_neg (by omega), show off + p - off = p by omega]
    have e2 : (Arith.ofField K).add (corrOf x y) (cell (x.drop off) p) = corrOf x (onePulse y (off + p)) := by
      rw [corrOf_onePulse x y (off + p) (by omega) (by omega), ← hcell p p1]
      rfl
    have e3 : (Arith.ofField K).add (energyOf y) ((Arith.ofField K).ofInt (2 * (y.drop off).getD p 0 + 1)) = energyOf (onePulse y (off + p)) := by
      rw [energyOf_onePulse y (off + p) (by omega), ← hget p]
      show energyOf y + (((2 * (y.drop off).getD p 0 + 1 : Int) : Rat) : K) = _
      push_cast
      ring
    have e4 : (onePulse y (off + p)).take off = y.take off := by
      unfold onePulse
      rw [List.take_set_of_le (by omega)]
    rw [e1, e2, e3]
    obtain ⟨i1, i2, i3⟩ := ih (onePulse y (off + p)) (by unfold onePulse; rw [List.length_set]; exact hy) (nonneg_set _ _ h0)
    rw [e4] at i1 i2 i3
    refine ⟨⟨onePulse y (off + p), ⟨off + p, by omega, by omega, rfl, fun q hq1 hq2 => ?_⟩, i1⟩, i2, i3⟩
    obtain ⟨j, rfl⟩ := Nat.exists_eq_add_of_le hq1
    have := p2 j (by omega)
    rw [hpE j (by omega), hpC j (by omega), hpE p p1, hpC p p1] at this
    exact this

theorem initCorr_eq (x : List K) (c : List Int) : initCorr (Arith.ofField K) x c = (corrOf x c, energyOf (c.take x.length)) := by
  have key : ∀ (x : List K) (c : List Int) (a b : K), (c.zip x).foldl (fun (ce : K × K) (cx : Int × K) =>
      ((Arith.ofField K).add ce.1 ((Arith.ofField K).mul ((Arith.ofField K).ofInt cx.1) cx.2), (Arith.ofField K).add ce.2 ((Arith.ofField K).ofInt (cx.1 * cx.1)))) (a, b) =
      (a + corrOf x c, b + energyOf (c.take x.length)) := by
    intro x c
    induction c generalizing x with
    | nil => intro a b; unfold corrOf energyOf; simp
    | cons v c ih =>
      intro a b
      match x with
      | [] => unfold corrOf energyOf; simp
      | w :: x =>
        rw [List.zip_cons_cons, List.foldl_cons, ih]
        unfold corrOf energyOf
        rw [List.zip_cons_cons, List.map_cons, List.sum_cons, List.length_cons, List.take_succ_cons, List.map_cons, List.sum_cons]
        rw [Prod.mk.injEq]
        constructor
        · show a + (((v : Int) : Rat) : K) * w + _ = _
          push_cast; ring
        · show b + (((v * v : Int) : Rat) : K) + _ = _
          push_cast; ring
  unfold initCorr
  have := key x c ((Arith.ofField K).ofInt 0) ((Arith.ofField K).ofInt 0)
  rw [this]
  have z : (Arith.ofField K).ofInt 0 = (0 : K) := by
    show (((0 : Int) : Rat) : K) = 0
    push_cast; rfl
  rw [z, zero_add, zero_add]

theorem dropCorr_eq (x : List K) (hx : x.length = 16) (c : List Int) (hc : c.length = 16) :
    dropCorr (Arith.ofField K) x c (corrOf x c) (energyOf c) =
      (corrOf x (c.take 10 ++ List.replicate 6 0), energyOf (c.take 10 ++ List.replicate 6 0)) := by
  have key : ∀ (x : List K) (c : List Int) (a b : K), c.length ≤ x.length → (c.zip x).foldl (fun (ce : K × K) (cx : Int × K) =>
      ((Arith.ofField K).sub ce.1 ((Arith.ofField K).mul ((Arith.ofField K).ofInt cx.1) cx.2), (Arith.ofField K).sub ce.2 ((Arith.ofField K).ofInt (cx.1 * cx.1)))) (a, b) =
      (a - corrOf x c, b - energyOf c) := by
    intro x c
    induction c generalizing x with
    | nil => intro a b _; unfold corrOf energyOf; simp
    | cons v c ih =>
      intro a b hl
      match x, hl with
      | w :: x, hl =>
        rw [List.zip_cons_cons, List.foldl_cons, ih x _ _ (by simpa using hl)]
        unfold corrOf energyOf
        rw [List.zip_cons_cons, List.map_cons, List.sum_cons, List.map_cons, List.sum_cons]
        rw [Prod.mk.injEq]
        constructor
        · show a - (((v : Int) : Rat) : K) * w - _ = _
          push_cast; ring
        · show b - (((v * v : Int) : Rat) : K) - _ = _
          push_cast; ring
  unfold dropCorr
  rw [key _ _ _ _ (by rw [List.length_drop, List.length_drop]; omega)]
  have t1 : (c.take 10).length = (x.take 10).length := by rw [List.length_take, List.length_take]; omega
  have s1 : corrOf x c = corrOf (x.take 10) (c.take 10) + corrOf (x.drop 10) (c.drop 10) := by
    rw [← corrOf_append _ _ _ _ t1, List.take_append_drop, List.take_append_drop]
  have s2 : corrOf x (c.take 10 ++ List.replicate 6 0) = corrOf (x.take 10) (c.take 10) := by
    conv_lhs => rw [← List.take_append_drop 10 x]
    rw [corrOf_append _ _ _ _ t1, corrOf_zeros, add_zero]
  have s3 : (energyOf c : K) = energyOf (c.take 10) + energyOf (c.drop 10) := by rw [← energyOf_append, List.take_append_drop]
  have s4 : (energyOf (c.take 10 ++ List.replicate 6 0) : K) = energyOf (c.take 10) := by rw [energyOf_append, energyOf_zeros, add_zero]
  rw [s1, s2, s3, s4]
  simp

/-- The initial pulses. -/
theorem initPulses_field (xm : List K) (h : ∀ v ∈ xm, 0 ≤ v) :
    initPulses (Arith.ofField K) xm = xm.map (fun v => ⌊5 * v / max xm.sum (1 / 10 ^ 31)⌋) ∧ Nonneg (initPulses (Arith.ofField K) xm) ∧
      (initPulses (Arith.ofField K) xm).sum ≤ 5 := by
  have hs : sumAbs (Arith.ofField K) xm = xm.sum := by
    unfold sumAbs
    have : ∀ (l : List K) (s : K), l.foldl (Arith.ofField K).add s = s + l.sum := by
      intro l
      induction l with
      | nil => intro s; simp
      | cons a l ih => intro s; rw [List.foldl_cons, ih, List.sum_cons]; show s + a + _ = _; ring
    rw [this]
    show (((0 : Int) : Rat) : K) + _ = _
    push_cast; ring
  have e : initPulses (Arith.ofField K) xm = xm.map (fun v => ⌊5 * v / max xm.sum (1 / 10 ^ 31)⌋) := by
    unfold initPulses projFactor
    rw [hs]
    refine List.map_congr_left fun v _ => ?_
    show ⌊v * ((((6 - 1 : Int) : Rat) : K) / max xm.sum (((1 / 10 ^ 31 : Rat)) : K))⌋ = _
    congr 1
    push_cast
    ring
  have hM : (0 : K) < max xm.sum (1 / 10 ^ 31) := lt_of_lt_of_le (by positivity) (le_max_right _ _)
  refine ⟨e, ?_, ?_⟩
  · rw [e]
    intro w hw
    obtain ⟨v, hv, rfl⟩ := List.mem_map.mp hw
    have := h v hv
    exact Int.floor_nonneg.mpr (by positivity)
  · rw [e]
    have key : ∀ l : List K, (((l.map fun v => ⌊5 * v / max xm.sum (1 / 10 ^ 31)⌋).sum : Int) : K) ≤ 5 * l.sum / max xm.sum (1 / 10 ^ 31) := by
      intro l
      induction l with
      | nil => simp
      | cons a l ih =>
        rw [List.map_cons, List.sum_cons, List.sum_cons, Int.cast_add]
        have := Int.floor_le (5 * a / max xm.sum (1 / 10 ^ 31))
        have e : 5 * (a + l.sum) / max xm.sum (1 / 10 ^ 31) = 5 * a / max xm.sum (1 / 10 ^ 31) + 5 * l.sum / max xm.sum (1 / 10 ^ 31) := by ring
        rw [e]
        linarith
    have h1 := key xm
    have h2 : 5 * xm.sum / max xm.sum (1 / 10 ^ 31) ≤ 5 := by
      rw [div_le_iff₀ hM]
      have := le_max_left xm.sum (1 / 10 ^ 31)
      linarith
    exact_mod_cast le_trans h1 h2

/-- **C81.** The search of the pulses, in the arithmetic of any ordered field, on the magnitudes `x` of the transformed residual. The shape 3 starts from the
projection of the vector on the pyramid of 5 pulses, rounded down; the pulses missing to its 6 pulses, then those of the shape 2 to 8 pulses, are added one
after the other at the position, of 16, that gives the best matching. The shape 1 starts from the first 10 values of the shape 2, and adds up to 10 pulses
in these values; the shape 0 adds to it one pulse in the last 6 values. -/
theorem C81_search (x : List K) (hx : x.length = 16) (h : ∀ v ∈ x, 0 ≤ v) :
    let c := pulses (Arith.ofField K) x
    let c0 := c.1
    let c1 := c.2.1
    let c2 := c.2.2.1
    let c3 := c.2.2.2
    let s : List Int := x.map fun v => ⌊5 * v / max x.sum (1 / 10 ^ 31)⌋
    (∃ k : Nat, (k : Int) = 6 - s.sum ∧ BestSteps x 0 16 k s c3) ∧
    BestSteps x 0 16 2 c3 c2 ∧
    (∃ k : Nat, (k : Int) = 10 - (c2.take 10).sum ∧ BestSteps x 0 10 k (c2.take 10 ++ List.replicate 6 0) c1) ∧
    BestSteps x 10 16 1 c1 c0 := by
  obtain ⟨e1, n1, l1⟩ := initPulses_field x h
  have hle : (initPulses (Arith.ofField K) x).length = 16 := by rw [e1, List.length_map]; exact hx
  obtain ⟨-, -, ok2, ok3, m0, m1, m2, m3⟩ := pulses_spec (Arith.ofField K) x hx n1 (by omega)
  unfold pulses at ok2 ok3 m0 m1 m2 m3
  dsimp only at ok2 ok3 m0 m1 m2 m3
  unfold pulses
  dsimp only
  rw [← e1]
  generalize initPulses (Arith.ofField K) x = s at *
  have ei := initCorr_eq x s
  rw [hx, List.take_of_length_le (by omega)] at ei
  rw [ei] at ok2 ok3 m0 m1 m2 m3 ⊢
  dsimp only at ok2 ok3 m0 m1 m2 m3 ⊢
  obtain ⟨a1, a2, a3⟩ := addPulse_best x hx 0 16 (by omega) (by omega) (6 - s.sum).toNat s hle n1
  rw [List.drop_zero, List.drop_zero, List.take_zero, List.nil_append] at a1 a2 a3
  generalize addPulse (Arith.ofField K) x 16 (6 - s.sum).toNat s (corrOf x s) (energyOf s) = q3 at *
  rw [a2, a3] at ok2 m0 m1 m2 ⊢
  have l3 : q3.1.length = 16 := ok3.1
  obtain ⟨b1, b2, b3⟩ := addPulse_best x hx 0 16 (by omega) (by omega) 2 q3.1 l3 m3
  rw [List.drop_zero, List.drop_zero, List.take_zero, List.nil_append] at b1 b2 b3
  change PulsesOk 2 (addPulse (Arith.ofField K) x 16 2 q3.1 (corrOf x q3.1) (energyOf q3.1)).1 at ok2
  change Nonneg (addPulse (Arith.ofField K) x 16 2 q3.1 (corrOf x q3.1) (energyOf q3.1)).1 at m2
  simp only [show 8 - 6 = 2 from rfl] at *
  generalize addPulse (Arith.ofField K) x 16 2 q3.1 (corrOf x q3.1) (energyOf q3.1) = q2 at *
  have l2 : q2.1.length = 16 := ok2.1
  rw [b2, b3] at m0 m1 ⊢
  rw [dropCorr_eq x hx q2.1 l2] at m0 m1 ⊢
  dsimp only at m0 m1 ⊢
  have hl1' : (q2.1.take 10 ++ List.replicate 6 (0 : Int)).length = 16 := by
    rw [List.length_append, List.length_take, l2]; rfl
  have hn1 : Nonneg (q2.1.take 10 ++ List.replicate 6 0) := by
    intro v hv
    rw [List.mem_append] at hv
    rcases hv with hv | hv
    · exact m2.take 10 v hv
    · rw [List.eq_of_mem_replicate hv]
  have hsum : q2.1.sum = 8 := by
    have := psum_nonneg _ m2
    have h2 : psum q2.1 = 8 := ok2.2
    omega
  have hsd := sum_take_drop q2.1 10
  have d1 := (m2.drop 10).sum
  obtain ⟨c1, c2, c3⟩ := addPulse_best x hx 0 10 (by omega) (by omega) (10 - (8 - (q2.1.drop 10).sum)).toNat
    (q2.1.take 10 ++ List.replicate 6 0) hl1' hn1
  rw [List.drop_zero, List.drop_zero, List.take_zero, List.nil_append] at c1 c2 c3
  have l1' := (addPulse_spec (Arith.ofField K) x 10 (10 - (8 - (q2.1.drop 10).sum)).toNat (q2.1.take 10 ++ List.replicate 6 0)
    (corrOf x (q2.1.take 10 ++ List.replicate 6 0)) (energyOf (q2.1.take 10 ++ List.replicate 6 0)) (by omega) (by omega) hn1).1
  generalize addPulse (Arith.ofField K) x 10 (10 - (8 - (q2.1.drop 10).sum)).toNat (q2.1.take 10 ++ List.replicate 6 0)
    (corrOf x (q2.1.take 10 ++ List.replicate 6 0)) (energyOf (q2.1.take 10 ++ List.replicate 6 0)) = q1 at *
  rw [c2, c3]
  rw [hl1'] at l1'
  obtain ⟨d1', -, -⟩ := addPulse_best x hx 10 6 (by omega) (by omega) 1 q1.1 l1' m1
  exact ⟨⟨(6 - s.sum).toNat, by omega, a1⟩, b1, ⟨(10 - (8 - (q2.1.drop 10).sum)).toNat, by omega, c1⟩, d1'⟩

/-- The squared distance of a vector to a configuration scaled by a gain. -/
def distance (x : List K) (c : List Int) (g : K) : K := ((c.zip x).map fun p => (p.2 - g * p.1) ^ 2).sum

omit [FloorRing K] [Inhabited K] in
theorem distance_eq : ∀ (x : List K) (c : List Int) (g : K), c.length = x.length →
    distance x c g = (x.map fun v => v ^ 2).sum - 2 * g * corrOf x c + g ^ 2 * energyOf c
  | [], [], g, _ => by simp [distance, corrOf, energyOf]
  | a :: x, b :: c, g, h => by
    have := distance_eq x c g (by simpa using h)
    unfold distance corrOf energyOf at this ⊢
    rw [List.zip_cons_cons, List.map_cons, List.map_cons, List.map_cons, List.map_cons, List.sum_cons, List.sum_cons, List.sum_cons, List.sum_cons, this]
    ring
  | [], _ :: _, _, h => by simp at h
  | _ :: _, [], _, h => by simp at h

omit [FloorRing K] [Inhabited K] in
/-- **C81.** The sense of the matching: the distance of the vector to the configuration, at the best gain. -/
theorem C81_distance (x : List K) (c : List Int) (h : c.length = x.length) (h0 : (0 : K) < energyOf c) :
    (∀ g, (x.map fun v => v ^ 2).sum - matching x c ≤ distance x c g) ∧
    distance x c (corrOf x c / energyOf c) = (x.map fun v => v ^ 2).sum - matching x c := by
  have h1 : (energyOf c : K) ≠ 0 := ne_of_gt h0
  constructor
  · intro g
    rw [distance_eq x c g h]
    unfold matching
    have e : (x.map fun v => v ^ 2).sum - 2 * g * corrOf x c + g ^ 2 * energyOf c - ((x.map fun v => v ^ 2).sum - corrOf x c ^ 2 / energyOf c) =
        energyOf c * (g - corrOf x c / energyOf c) ^ 2 := by
      field_simp
      ring
    have := mul_nonneg h0.le (sq_nonneg (g - corrOf x c / energyOf c))
    linarith
  · rw [distance_eq x c _ h]
    unfold matching
    field_simp
    ring

omit [FloorRing K] [Inhabited K] in
/-- **C81.** One pulse of the search: no other position, with any gain, is closer than the position retained with its best gain. -/
theorem C81_closest (x : List K) (lo hi : Nat) (c c' : List Int) (h : c.length = x.length) (hh : hi ≤ x.length) (h0 : ∀ v ∈ c, 0 ≤ v)
    (hb : BestStep x lo hi c c') (q : Nat) (h1 : lo ≤ q) (h2 : q < hi) (g : K) :
    distance x c' (corrOf x c' / energyOf c') ≤ distance x (onePulse c q) g := by
  obtain ⟨p, p1, p2, rfl, p4⟩ := hb
  have hpos : ∀ j < hi, (0 : K) < energyOf (onePulse c j) := by
    intro j hj
    rw [energyOf_onePulse c j (by omega)]
    have a1 : (0 : K) ≤ energyOf c := energyOf_nonneg c
    have a2 : (0 : K) ≤ ((c.getD j 0 : Int) : K) := by
      have : 0 ≤ c.getD j 0 := by
        rw [List.getD_eq_getElem _ _ (by omega)]
        exact h0 _ (List.getElem_mem _)
      exact_mod_cast this
    linarith
  have hl : ∀ j, (onePulse c j).length = x.length := by intro j; unfold onePulse; rw [List.length_set]; exact h
  rw [(C81_distance x _ (hl p) (hpos p p2)).2]
  have a := (C81_distance x _ (hl q) (hpos q h2)).1 g
  have b := p4 q h1 h2
  linarith

omit [Inhabited K] in
/-- **C81.** The signs: the configurations have the signs of the residual, hence are as close to it as those of the magnitudes. -/
theorem C81_signs (x : List K) (c : List Int) (h : c.length = x.length) (g : K) :
    distance x (withSigns (Arith.ofField K) x c) g = distance (x.map fun v => |v|) c g := by
  have key : ∀ (x : List K) (c : List Int), c.length = x.length →
      distance x (withSigns (Arith.ofField K) x c) g = distance (x.map fun v => |v|) c g := by
    intro x
    induction x with
    | nil => intro c _; unfold distance; simp
    | cons a x ih =>
      intro c hc
      match c, hc with
      | b :: c, hc =>
        have := ih c (by simpa using hc)
        unfold distance withSigns at this ⊢
        rw [List.zip_cons_cons, List.map_cons, List.zip_cons_cons, List.map_cons, List.sum_cons, this, List.map_cons, List.zip_cons_cons, List.map_cons,
          List.sum_cons]
        congr 1
        dsimp only
        have hlt : (Arith.ofField K).lt a ((Arith.ofField K).ofInt 0) = true ↔ a < 0 := by
          refine Iff.trans (@decide_eq_true_iff _ (Classical.dec _)) ?_
          show a < (((0 : Int) : Rat) : K) ↔ _
          push_cast; rfl
        by_cases ha : a < 0
        · rw [if_pos (hlt.mpr ha), abs_of_neg ha]; push_cast; ring
        · rw [if_neg (fun h => ha (hlt.mp h)), abs_of_nonneg (not_lt.mp ha)]
  exact key x c h

end

/-- A vector of magnitudes, whose projection rounded down has no pulse in the last values. -/
def exMagnitudes : List Rat := [3, 1, 5/2, 1/4, 0, 1, 1/2, 0, 2, 1/8, 1, 0, 0, 3/2, 0, 1/2]

/-- A case of `C81_search`: the projection has 1 pulse, the shapes 6, 8, 10 and 11 pulses, and the pulse of the shape 0 in the last 6 values is at
the greatest of them. -/
example : exMagnitudes.length = 16 ∧ (∀ v ∈ exMagnitudes, 0 ≤ v) ∧ pulses Arith.exact exMagnitudes =
    ([3, 1, 3, 0, 0, 1, 0, 0, 2, 0, 0, 0, 0, 1, 0, 0], [3, 1, 3, 0, 0, 1, 0, 0, 2, 0, 0, 0, 0, 0, 0, 0],
      [2, 1, 2, 0, 0, 1, 0, 0, 1, 0, 0, 0, 0, 1, 0, 0], [2, 1, 1, 0, 0, 0, 0, 0, 1, 0, 0, 0, 0, 1, 0, 0]) := by decide +kernel

end LC3
