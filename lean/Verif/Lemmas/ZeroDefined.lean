import Verif.Lemmas.ZeroGain
import Verif.Props.Gain

/-! The rate control of a null spectrum is defined. -/

namespace LC3

variable {rnd : Rat → Rat}

/-- What the gain estimation of a null spectrum requires of the mathematical functions: `sqrtf`, `fminf` and `ldexpf` of zero, `roundf` to the
nearest integer, and the logarithm of the threshold `1e-10f`; `1e-5f` is a `float`. -/
structure GainSane (rnd : Rat → Rat) (G : GainMath Rat) : Prop where
  sqrt : G.sqrt 0 = 0
  min : ∀ b, 0 ≤ b → G.min 0 b = 0
  ldexp : ∀ e, G.ldexp 0 e = 0
  round : ∀ x, |(G.round x : Rat) - x| ≤ 1 / 2
  small : rnd (rnd (1 / 100000)) = rnd (1 / 100000)
  db : -100000000 ≤ G.db (rnd (1 / 10000000000)) ∧ G.db (rnd (1 / 10000000000)) ≤ -1000000

theorem gainBlocks_nulls (h0 : rnd 0 = 0) : ∀ (n : Nat) (l : List Rat) (m : Rat), l.length ≤ n → AllZ (Arith.rounded rnd) l →
    ∀ v ∈ (gainBlocks (Arith.rounded rnd) l m).2, v = 0 := by
  have hz : (Arith.rounded rnd).ofRat 0 = 0 := h0
  have hmul : (Arith.rounded rnd).mul 0 0 = 0 := by show rnd (0 * 0) = 0; rw [mul_zero, h0]
  have hadd : (Arith.rounded rnd).add 0 0 = 0 := by show rnd (0 + 0) = 0; rw [add_zero, h0]
  intro n
  induction n with
  | zero =>
    intro l m hl _ v hv
    have e : l = [] := List.length_eq_zero_iff.1 (by omega)
    rw [e] at hv
    cases hv
  | succ n ih =>
    intro l m hl h v hv
    match l with
    | x0 :: x1 :: x2 :: x3 :: l =>
      unfold AllZ at h
      rw [hz] at h
      have e0 := h x0 (by simp)
      have e1 := h x1 (by simp)
      have e2 := h x2 (by simp)
      have e3 := h x3 (by simp)
      subst e0 e1 e2 e3
      unfold gainBlocks at hv
      dsimp only at hv
      rw [hmul, hadd, hadd, hadd] at hv
      rcases List.mem_cons.1 hv with hv | hv
      · exact hv
      · exact ih l _ (by simp at hl; omega) (fun v hv => by rw [hz]; exact h v (by simp [hv])) v hv
    | [] => cases hv
    | [_] => cases hv
    | [_, _] => cases hv
    | [_, _, _] => cases hv

theorem slopeSums_null (h : RoundF rnd) (c : Rat) (hc : rnd c = c) : ∀ (l : List Rat) (k : Rat), AllZ (Arith.rounded rnd) l →
    (slopeSums (Arith.rounded rnd) l (c, c, k)).1 = c ∧ (slopeSums (Arith.rounded rnd) l (c, c, k)).2.1 = c := by
  have hz : (Arith.rounded rnd).ofRat 0 = 0 := h.zero
  intro l
  induction l with
  | nil => intro k _; exact ⟨rfl, rfl⟩
  | cons x l ih =>
    intro k hl
    have e : x = 0 := (hl x (List.mem_cons_self ..)).trans hz
    subst e
    unfold slopeSums
    have ha : (Arith.rounded rnd).abs 0 = 0 := by show (if (0 : Rat) < 0 then -0 else 0) = 0; simp
    rw [ha]
    have hm : (Arith.rounded rnd).mul 0 k = 0 := by show rnd (0 * k) = 0; rw [zero_mul, h.zero]
    have hadd : (Arith.rounded rnd).add c 0 = c := by show rnd (c + 0) = c; rw [add_zero, hc]
    rw [hm, hadd]
    exact ih _ fun v hv => hl v (List.mem_cons_of_mem _ hv)

theorem nbitsOffset_null (h : RoundF rnd) (G : GainMath Rat) (hG : GainSane rnd G) : nbitsOffset (Arith.rounded rnd) G ⟨0, 0⟩ = 0 := by
  unfold nbitsOffset
  dsimp only
  have e0 : (Arith.rounded rnd).ofInt 0 = 0 := by show rnd ((0 : Int) : Rat) = 0; rw [Int.cast_zero, h.zero]
  have e1 : (Arith.rounded rnd).add 0 0 = 0 := by show rnd (0 + 0) = 0; rw [add_zero, h.zero]
  have e2 : (Arith.rounded rnd).max 0 ((Arith.rounded rnd).ofInt (-40)) = 0 := by
    show (if (0 : Rat) ≤ rnd ((-40 : Int) : Rat) then rnd ((-40 : Int) : Rat) else 0) = 0
    have := abs_le.1 (h.near ((-40 : Int) : Rat) (by norm_num))
    rw [if_neg]
    norm_num at this ⊢
    linarith
  have e3 : G.min 0 ((Arith.rounded rnd).ofInt 40) = 0 := by
    refine hG.min _ ?_
    show 0 ≤ rnd ((40 : Int) : Rat)
    have := (h.pos (x := ((40 : Int) : Rat)) (by norm_num) (by norm_num)).1
    norm_num at this ⊢
    linarith
  have em : ∀ a, (Arith.rounded rnd).mul a 0 = 0 := fun a => by show rnd (a * 0) = 0; rw [mul_zero, h.zero]
  rw [e0, e1, e2, e3, em, em, e1]

theorem lowBits_null (h : RoundF rnd) (G : GainMath Rat) (hG : GainSane rnd G) (dt : Dt) (x : List Rat)
    (hx : AllZ (Arith.rounded rnd) x) : ∃ b, lowBits (Arith.rounded rnd) G dt x = some b := by
  unfold lowBits
  dsimp only
  obtain ⟨s1, s2⟩ := slopeSums_null h (rnd (1 / 100000)) hG.small x (rnd 0) hx
  have e : ((Arith.rounded rnd).ofRat (1/100000), (Arith.rounded rnd).ofRat (1/100000), (Arith.rounded rnd).ofRat 0) =
    (rnd (1 / 100000), rnd (1 / 100000), rnd 0) := rfl
  rw [e, s1, s2]
  show ∃ b, (i32 (G.round (rnd (rnd (rnd (16 / 10) * rnd (1 / 100000)) / rnd (rnd ((1 + dt.idx : Int) : Rat) * rnd (1 / 100000)))))).bind
    (fun m => i32 (8 - min m 8)) = some b
  obtain ⟨a1, a2⟩ := h.pos (x := 16 / 10) (by norm_num) (by norm_num)
  obtain ⟨b1, b2⟩ := h.pos (x := 1 / 100000) (by norm_num) (by norm_num)
  have hd1 : (1 : Rat) ≤ ((1 + dt.idx : Int) : Rat) := by cases dt <;> norm_num [Dt.idx]
  have hd2 : ((1 + dt.idx : Int) : Rat) ≤ 4 := by cases dt <;> norm_num [Dt.idx]
  obtain ⟨c1, c2⟩ := h.pos (x := ((1 + dt.idx : Int) : Rat)) (by norm_num; linarith) (hd2.trans (by norm_num))
  generalize rnd (1 / 100000) = t at *
  generalize rnd (16 / 10) = a at *
  generalize rnd ((1 + dt.idx : Int) : Rat) = c at *
  have ht : 0 < t := by linarith [show (0 : Rat) < 1 / 100000 by norm_num]
  have p1 : 8 / 10 * t ≤ a * t := by nlinarith
  have p2 : a * t ≤ 32 / 10 * t := by nlinarith
  have q1 : 1 / 2 * t ≤ c * t := by nlinarith
  obtain ⟨d1, d2⟩ := h.pos (x := a * t) (by norm_num at b1 ⊢; linarith) (by norm_num at b2 ⊢; linarith)
  have q2 : c * t ≤ 8 * t := by nlinarith
  obtain ⟨f1, f2⟩ := h.pos (x := c * t) (by norm_num at b1 ⊢; linarith) (by norm_num at b2 ⊢; linarith)
  generalize rnd (a * t) = u at *
  generalize rnd (c * t) = w at *
  have hw : 0 < w := by linarith
  have hu : 0 < u := by linarith
  have r1 : u / w ≤ 32 := by rw [div_le_iff₀ hw]; linarith
  have r2 : 0 ≤ u / w := by positivity
  have r3 := h.mag (x := u / w) (b := 32) (by rw [abs_of_nonneg r2]; exact r1) (by norm_num)
  have r4 := abs_le.1 (hG.round (rnd (u / w)))
  have r5 := abs_le.1 r3
  have k1 : (-100 : Rat) ≤ (G.round (rnd (u / w)) : Rat) := by norm_num at r5; linarith
  have k2 : (G.round (rnd (u / w)) : Rat) ≤ 100 := by norm_num at r5; linarith
  have k1 : -100 ≤ G.round (rnd (u / w)) := by exact_mod_cast k1
  have k2 : G.round (rnd (u / w)) ≤ 100 := by exact_mod_cast k2
  generalize G.round (rnd (u / w)) = z at *
  rw [i32_ok _ (by omega) (by omega), Option.bind_some, i32_ok _ (by omega) (by omega)]
  exact ⟨_, rfl⟩

theorem noiseFloor_null (h : RoundF rnd) (G : GainMath Rat) (hG : GainSane rnd G) (dt : Dt) (sr : Srate) (n : Nat) (x : List Rat)
    (hx : AllZ (Arith.rounded rnd) x) : noiseFloor (Arith.rounded rnd) G dt sr n x 0 = some 0 := by
  unfold noiseFloor
  split
  · obtain ⟨b, hb⟩ := lowBits_null h G hG dt x hx
    rw [hb, Option.map_some, hG.ldexp]
    show some (rnd (0 * _)) = some 0
    rw [zero_mul, h.zero]
  · show some (rnd 0) = some 0
    rw [h.zero]

/-- The gain estimation of a null spectrum. -/
theorem estimateGain_null (h : RoundF rnd) (G : GainMath Rat) (hG : GainSane rnd G) (dt : Dt) (sr : Srate) (n : Nat) (hn : n ≤ 625)
    (budget : Int) (hb0 : 0 ≤ budget) (hb1 : budget ≤ 5000) (x : List Rat) (hl : x.length ≤ 960) (hx : AllZ (Arith.rounded rnd) x) :
    ∃ est, estimateGain (Arith.rounded rnd) G dt sr x n budget 0 (gainOffset sr n) = some est := by
  have hz : (Arith.rounded rnd).ofRat 0 = 0 := h.zero
  have hgo : gainOffset sr n ≤ 255 := by unfold gainOffset; dsimp only; generalize n * 8 / (10 * (1 + srInd sr)) = q; split <;> omega
  have hgo2 : 105 ≤ gainOffset sr n := by unfold gainOffset; dsimp only; generalize n * 8 / (10 * (1 + srInd sr)) = q; split <;> omega
  have hdb : ∀ v ∈ (gainBlocks (Arith.rounded rnd) x 0).2,
      (Arith.rounded rnd).max ((Arith.rounded rnd).add v 0) ((Arith.rounded rnd).ofRat (1/10000000000)) = rnd (1 / 10000000000) := by
    intro v hv
    rw [gainBlocks_nulls h.zero _ x 0 (Nat.le_refl _) hx v hv]
    show (if rnd (0 + 0) ≤ rnd (1 / 10000000000) then rnd (1 / 10000000000) else rnd (0 + 0)) = _
    rw [add_zero, h.zero, if_pos]
    have := (h.pos (x := 1 / 10000000000) (by norm_num) (by norm_num)).1
    linarith
  refine C48_defined_partial (Arith.rounded rnd) G dt sr x hl n budget 0 (gainOffset sr n) hgo 0 (-1000000) ?_ ?_ ?_ ?_
  · rw [hz, gainBlocks_null h.zero _ x (Nat.le_refl _) hx, hG.sqrt]
    exact noiseFloor_null h G hG dt sr n x hx
  · have m1 : gainF (-1000000 - (127 - (gainOffset sr n : Int)) * 46811) ≤ gainF (-1000000 - (127 - 255) * 46811) := gainF_mono _ _ (by omega)
    have m2 : gainF (-1000000 - (127 - 255) * 46811) = 7624320 := by decide
    have m3 : 0 ≤ gainF (-1000000 - (127 - (gainOffset sr n : Int)) * 46811) := by unfold gainF; split <;> [skip; split] <;> omega
    have : ((x.length / 4 : Nat) : Int) ≤ 240 := by omega
    nlinarith
  · intro v hv
    rw [hz] at hv
    rw [hdb v hv]
    exact ⟨hG.db.1, by have := hG.db.2; omega, hG.db.2⟩
  · have hb : |((budget : Int) : Rat)| ≤ 5000 := by
      rw [abs_of_nonneg (by exact_mod_cast hb0)]; exact_mod_cast hb1
    have hbn : (0 : Rat) ≤ (budget : Rat) := by exact_mod_cast hb0
    have a1 := abs_le.1 (h.err hb (by norm_num))
    have hb1' : (budget : Rat) ≤ 5000 := by exact_mod_cast hb1
    have a2 := abs_le.1 (h.err (x := rnd (budget : Rat) + 0) (b := 5001) (by rw [add_zero, abs_le]; norm_num at a1 ⊢; constructor <;> linarith) (by norm_num))
    have a3 := abs_le.1 (h.err (x := 1 / 2) (b := 1) (by norm_num [abs_le]) (by norm_num))
    have a4 := abs_le.1 (h.err (x := rnd (rnd (budget : Rat) + 0) + rnd (1 / 2)) (b := 5010) (by rw [abs_le]; norm_num at a1 a2 a3 ⊢; constructor <;> linarith) (by norm_num))
    show -5200 ≤ (if rnd (rnd (rnd (budget : Rat) + 0) + rnd (1 / 2)) < 0 then -(Rat.floor (-(rnd (rnd (rnd (budget : Rat) + 0) + rnd (1 / 2)))))
        else Rat.floor (rnd (rnd (rnd (budget : Rat) + 0) + rnd (1 / 2)))) ∧ _ ≤ (5200 : Int)
    have v1 : (-100 : Rat) ≤ rnd (rnd (rnd (budget : Rat) + 0) + rnd (1 / 2)) := by norm_num at a1 a2 a3 a4 ⊢; linarith
    have v2 : rnd (rnd (rnd (budget : Rat) + 0) + rnd (1 / 2)) ≤ 5100 := by norm_num at a1 a2 a3 a4 ⊢; linarith
    show _ ∧ (if rnd (rnd (rnd (budget : Rat) + 0) + rnd (1 / 2)) < 0 then -(Rat.floor (-(rnd (rnd (rnd (budget : Rat) + 0) + rnd (1 / 2)))))
        else Rat.floor (rnd (rnd (rnd (budget : Rat) + 0) + rnd (1 / 2)))) ≤ (5200 : Int)
    generalize rnd (rnd (rnd (budget : Rat) + 0) + rnd (1 / 2)) = w at *
    have fl1 : ∀ y : Rat, (Rat.floor y : Rat) ≤ y := fun y => Rat.floor_le y
    have fl2 : ∀ y : Rat, y < (Rat.floor y : Rat) + 1 := fun y => by exact_mod_cast Rat.lt_floor_add_one y
    split
    · have g1 := fl1 (-w)
      have g2 := fl2 (-w)
      constructor
      · have : ((-w).floor : Rat) ≤ 5200 := by linarith
        have : (-w).floor ≤ 5200 := by exact_mod_cast this
        omega
      · have : (-5201 : Rat) ≤ ((-w).floor : Rat) := by linarith
        have : -5201 ≤ (-w).floor := by exact_mod_cast this
        have g3 : (-1 : Rat) < ((-w).floor : Rat) := by linarith
        have : -1 < (-w).floor := by exact_mod_cast g3
        omega
    · have g1 := fl1 w
      have g2 := fl2 w
      constructor
      · have : (-5200 : Rat) ≤ (w.floor : Rat) := by linarith
        exact_mod_cast this
      · have : (w.floor : Rat) ≤ 5200 := by linarith
        exact_mod_cast this

/-- The rate control of a null spectrum without filter, with the state of an encoder just setup, is defined. -/
theorem specAnalyze_null (h : RoundF rnd) (G : GainMath Rat) (hG : GainSane rnd G) (dt : Dt) (sr : Srate) (n : Nat) (hn : 20 ≤ n) (hn' : n ≤ 625) (pitch : Bool)
    (tns : TnsData) (ht : ∀ f ∈ tns.filters, f = []) (hl : tns.filters.length ≤ 2) (x : List Rat) (hx : x.length = ne dt sr)
    (hz : AllZ (Arith.rounded rnd) x) : ∃ r, specAnalyze (Arith.rounded rnd) G dt sr n pitch tns ⟨0, 0⟩ x = some r := by
  have hA := zeroOk_rounded h.zero
  obtain ⟨m, hm⟩ : ∃ m, ne dt sr = 2 * m := ⟨ne dt sr / 2, by have := (nbitsNq_spec dt sr).2.2.2.1; omega⟩
  have hb := specBudget_silent dt sr n hn pitch tns ht hl
  have hb1 : specBudget dt sr n pitch tns ≤ 5000 := by unfold specBudget; omega
  have hne : ne dt sr ≤ 960 := by cases dt <;> cases sr <;> decide
  have hgo : 0 ≤ (gainOffset sr n : Int) := Int.natCast_nonneg _
  obtain ⟨est, hest⟩ := estimateGain_null h G hG dt sr n hn' (specBudget dt sr n pitch tns) hb hb1 x (by omega) hz
  have hE := estimateGain_silent h G hG.sqrt dt sr n x _ _ hz est hest
  subst hE
  obtain ⟨gi, hgi⟩ := unquantizeGain_some (Arith.rounded rnd) (-(-(gainOffset sr n : Int)))
  have hqz : AllZ (Arith.rounded rnd) (x.map fun v => (Arith.rounded rnd).mul v gi) := hz.map_mul hA gi
  have hq : quantize (Arith.rounded rnd) dt sr (-(gainOffset sr n : Int)) x = some (x.map fun v => (Arith.rounded rnd).mul v gi, 0) := by
    unfold quantize
    rw [hgi, Option.map_some]
    dsimp only
    rw [quantCount_zero h sr (ne dt sr) m _ _ (by rw [List.length_map]; omega) hqz, show ((ne dt sr : Nat) : Int) - 2 * m = 0 by omega]
  unfold specAnalyze
  dsimp only
  rw [nbitsOffset_null h G hG, hest, Option.bind_some]
  dsimp only
  rw [hq, Option.bind_some]
  dsimp only
  rw [if_neg (by omega)]
  have hmg : ∀ l : List Rat, magnitudes (Arith.rounded rnd) sr (Int.toNat 0) l = some [] := by
    intro l
    unfold magnitudes
    rfl
  rw [hmg, Option.bind_some, computeNbits_nil dt sr n 0 (le_refl _)]
  dsimp only
  have hadj : adjustGain dt sr (↑(gainOffset sr n) + -(gainOffset sr n : Int)) 0 (specBudget dt sr n pitch tns)
      (↑(gainOffset sr n) + -(gainOffset sr n : Int)) = 0 := by
    unfold adjustGain
    rw [if_neg (by rintro ⟨-, hh⟩; omega)]
    split
    · rw [decide_eq_false (lt_irrefl _)]; rfl
    · rw [if_neg (by rintro ⟨-, hh⟩; omega)]
  rw [hadj, if_neg (by decide), Option.bind_some]
  dsimp only
  rw [if_neg (by omega)]
  rw [show (Int.toNat ((0 : Nat) : Int)) = Int.toNat 0 from rfl, hmg, Option.bind_some, computeNbits_nil dt sr n _ hb]
  dsimp only
  rw [if_neg (by omega)]
  exact ⟨_, rfl⟩

end LC3
