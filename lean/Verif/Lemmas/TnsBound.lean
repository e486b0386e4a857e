import Verif.Lemmas.RoundF
import Verif.Lemmas.Tns
import Mathlib.Tactic.Ring
import Mathlib.Tactic.Positivity
import Mathlib.Tactic.FieldSimp

/-! The energy of the lattice filter of the TNS synthesis. -/

namespace LC3

/-- The product of the `1 - rc^2`. -/
def latW : List Rat → Rat
  | [] => 1
  | r :: rs => (1 - r ^ 2) * latW rs

/-- The energy of the states of the lattice. -/
def latV : List Rat → List Rat → Rat
  | r :: rs, s :: ss => latW (r :: rs) * s ^ 2 + latV rs ss
  | _, _ => 0

/-- The energy of the states given by the loop, before they are moved by one. -/
def latO : List Rat → List Rat → Rat
  | _ :: rs, o :: os => latW rs * o ^ 2 + latO rs os
  | _, _ => 0

/-- The coefficients of the filters. -/
def RcOk (rs : List Rat) : Prop := ∀ r ∈ rs, 1 / 121 ≤ 1 - r ^ 2

theorem RcOk.tail {r : Rat} {rs : List Rat} (h : RcOk (r :: rs)) : RcOk rs := fun x hx => h x (List.mem_cons_of_mem _ hx)

theorem latW_bounds (rs : List Rat) (h : RcOk rs) : (1 / 121) ^ rs.length ≤ latW rs ∧ latW rs ≤ 1 ∧ 0 < latW rs := by
  induction rs with
  | nil => exact ⟨by norm_num [latW], by norm_num [latW], by norm_num [latW]⟩
  | cons r rs ih =>
    obtain ⟨i1, i2, i3⟩ := ih h.tail
    have h0 := h r List.mem_cons_self
    unfold latW
    refine ⟨?_, ?_, by have : 0 < 1 - r ^ 2 := by linarith
                       positivity⟩
    · rw [List.length_cons, pow_succ, mul_comm]
      exact mul_le_mul h0 i1 (by positivity) (by linarith)
    · have h1 : 1 - r ^ 2 ≤ 1 := by nlinarith [sq_nonneg r]
      calc (1 - r ^ 2) * latW rs ≤ 1 * 1 := mul_le_mul h1 i2 (le_of_lt i3) (by norm_num)
        _ = 1 := by norm_num

theorem latV_nonneg (rs ss : List Rat) (h : RcOk rs) : 0 ≤ latV rs ss := by
  induction rs generalizing ss with
  | nil => simp [latV]
  | cons r rs ih =>
    cases ss with
    | nil => simp [latV]
    | cons s ss =>
      unfold latV
      have := (latW_bounds _ h).2.2
      have := ih ss h.tail
      positivity

theorem latO_nonneg (rs ss : List Rat) (h : RcOk rs) : 0 ≤ latO rs ss := by
  induction rs generalizing ss with
  | nil => simp [latO]
  | cons r rs ih =>
    cases ss with
    | nil => simp [latO]
    | cons s ss =>
      unfold latO
      have := (latW_bounds _ h.tail).2.2
      have := ih ss h.tail
      positivity

/-- The growth of the energy allowed to the roundings. -/
def latG : Rat := 1 + 1 / 3000

/-- A stage of the lattice does not give energy, but by its roundings. -/
theorem lattice_stage {rnd : Rat → Rat} (h : RoundF rnd) (a s r w : Rat) (hr : 1 / 121 ≤ 1 - r ^ 2) (hw0 : 0 < w) (hw1 : w ≤ 1) (ha : |a| ≤ 2 ^ 110)
    (hs : |s| ≤ 2 ^ 110) :
    let f := rnd (a - rnd (s * r))
    (1 - r ^ 2) * w * f ^ 2 + w * (rnd (s + rnd (r * f))) ^ 2 ≤ (1 + 1 / 3001) * (w * a ^ 2 + (1 - r ^ 2) * w * s ^ 2) + 1 / 2 ^ 150 := by
  intro f
  have hr1 : |r| ≤ 1 := by
    rw [← sq_le_one_iff_abs_le_one]; linarith
  have mulr : ∀ x y : Rat, |y| ≤ 1 → |x| ≤ 2 ^ 120 → |rnd (x * y) - x * y| ≤ (|x| + 1 / 2 ^ 126) / 2 ^ 24 := by
    intro x y hy hx
    refine h.err ?_ (hx.trans (by norm_num))
    rw [abs_mul]
    have := mul_le_mul_of_nonneg_left hy (abs_nonneg x)
    linarith
  obtain ⟨e1, he1⟩ : ∃ e, f = a - s * r + e := ⟨f - (a - s * r), by ring⟩
  have b1 : |e1| ≤ (|a| + |s| + 1 / 2 ^ 100) * (101 / 100) / 2 ^ 23 := by
    have := h.lattice (a := a) (s := s) (r := r) (-1) (Or.inr rfl) hr1 (ha.trans (by norm_num)) (hs.trans (by norm_num)) (rnd (s * r))
      (mulr s r hr1 (hs.trans (by norm_num)))
    rw [show a + -1 * rnd (s * r) = a - rnd (s * r) by ring, show a + -1 * (s * r) = a - s * r by ring] at this
    rw [show e1 = f - (a - s * r) by rw [he1]; ring]
    exact this
  obtain ⟨u, hu⟩ : ∃ u, u = |a| + |s| + 1 / 2 ^ 100 := ⟨_, rfl⟩
  have a0 := abs_nonneg a
  have s0 := abs_nonneg s
  have u0 : 0 < u := by rw [hu]; positivity
  have hsr : |s * r| ≤ |s| := by
    rw [abs_mul]
    have := mul_le_mul_of_nonneg_left hr1 (abs_nonneg s)
    linarith
  rw [← hu] at b1
  have bf : |f| ≤ |a| + |s| + u * (101 / 100) / 2 ^ 23 := by
    rw [he1]
    have h1 := abs_add_le (a - s * r) e1
    have h2 := abs_sub a (s * r)
    linarith
  have bf2 : |f| ≤ 2 ^ 112 := by
    rw [hu] at bf
    norm_num at ha hs bf ⊢
    linarith
  obtain ⟨o, ho⟩ : ∃ o, o = rnd (s + rnd (r * f)) := ⟨_, rfl⟩
  rw [← ho]
  obtain ⟨e2, he2⟩ : ∃ e, o = s + r * f + e := ⟨o - (s + r * f), by ring⟩
  have b2 : |e2| ≤ (|s| + |f| + 1 / 2 ^ 100) * (101 / 100) / 2 ^ 23 := by
    have := h.lattice (a := s) (s := f) (r := r) 1 (Or.inl rfl) hr1 (hs.trans (by norm_num)) (bf2.trans (by norm_num)) (rnd (r * f))
      (by rw [mul_comm r f]; exact mulr f r hr1 (bf2.trans (by norm_num)))
    rw [one_mul, one_mul, mul_comm f r, ← ho] at this
    rw [show e2 = o - (s + r * f) by rw [he2]; ring]
    exact this
  have c1 : |a| ≤ u := by rw [hu]; have : (0 : Rat) < 1 / 2 ^ 100 := by norm_num
                          linarith
  have c2 : |s| ≤ u := by rw [hu]; have : (0 : Rat) < 1 / 2 ^ 100 := by norm_num
                          linarith
  have c3 : |f| ≤ 101 / 100 * u := by
    have : |a| + |s| ≤ u := by rw [hu]; have : (0 : Rat) < 1 / 2 ^ 100 := by norm_num
                               linarith
    norm_num at bf
    linarith
  have c4 : |e2| ≤ 202 / 100 * u * (101 / 100) / 2 ^ 23 := by
    refine b2.trans ?_
    apply div_le_div_of_nonneg_right _ (by norm_num)
    have : |s| + 1 / 2 ^ 100 ≤ u := by rw [hu]; linarith
    apply mul_le_mul_of_nonneg_right _ (by norm_num)
    linarith
  have c5 : |s + r * f| ≤ 201 / 100 * u := by
    have h1 := abs_add_le s (r * f)
    rw [abs_mul] at h1
    have h2 := mul_le_mul_of_nonneg_right hr1 (abs_nonneg f)
    linarith
  -- the identity of the lattice
  have key : (1 - r ^ 2) * f ^ 2 + o ^ 2 = a ^ 2 + (1 - r ^ 2) * s ^ 2 + (2 * (a * e1) + e1 ^ 2) + (2 * ((s + r * f) * e2) + e2 ^ 2) := by
    rw [he2, he1]; ring
  have d1 : a * e1 ≤ u * (u * (101 / 100) / 2 ^ 23) := by
    refine (le_abs_self _).trans ?_
    rw [abs_mul]
    exact mul_le_mul c1 b1 (abs_nonneg _) u0.le
  have d2 : (s + r * f) * e2 ≤ 201 / 100 * u * (202 / 100 * u * (101 / 100) / 2 ^ 23) := by
    refine (le_abs_self _).trans ?_
    rw [abs_mul]
    exact mul_le_mul c5 c4 (abs_nonneg _) (by linarith)
  have d3 : e1 ^ 2 ≤ (u * (101 / 100) / 2 ^ 23) ^ 2 := by
    rw [← sq_abs e1]
    exact pow_le_pow_left₀ (abs_nonneg _) b1 2
  have d4 : e2 ^ 2 ≤ (202 / 100 * u * (101 / 100) / 2 ^ 23) ^ 2 := by
    rw [← sq_abs e2]
    exact pow_le_pow_left₀ (abs_nonneg _) c4 2
  have d5 : (1 - r ^ 2) * f ^ 2 + o ^ 2 ≤ a ^ 2 + (1 - r ^ 2) * s ^ 2 + 12 * u ^ 2 / 2 ^ 23 := by
    rw [key]
    have u2 : 0 ≤ u ^ 2 := sq_nonneg u
    ring_nf at d1 d2 d3 d4 ⊢
    norm_num at d1 d2 d3 d4 ⊢
    linarith
  have d6 : u ^ 2 ≤ 123 * (a ^ 2 + (1 - r ^ 2) * s ^ 2 + 1 / 2 ^ 200) := by
    have h1 : s ^ 2 / 121 ≤ (1 - r ^ 2) * s ^ 2 := by
      have := mul_le_mul_of_nonneg_right hr (sq_nonneg s)
      linarith
    have h2 : u ^ 2 ≤ 123 * (a ^ 2 + s ^ 2 / 121 + (1 / 2 ^ 100) ^ 2) := by
      rw [hu, ← sq_abs a, ← sq_abs s]
      generalize (1 / 2 ^ 100 : Rat) = t
      nlinarith [sq_nonneg (121 * |a| - |s|), sq_nonneg (|a| - t), sq_nonneg (|s| - 121 * t)]
    have h3 : ((1 : Rat) / 2 ^ 100) ^ 2 = 1 / 2 ^ 200 := by norm_num
    rw [h3] at h2
    linarith
  have e3 : 0 ≤ a ^ 2 + (1 - r ^ 2) * s ^ 2 := by
    have : 0 ≤ 1 - r ^ 2 := by linarith
    positivity
  have d7 : (1 - r ^ 2) * f ^ 2 + o ^ 2 ≤ (1 + 1 / 3001) * (a ^ 2 + (1 - r ^ 2) * s ^ 2) + 1 / 2 ^ 150 := by
    generalize a ^ 2 + (1 - r ^ 2) * s ^ 2 = m at *
    norm_num at d5 d6 ⊢
    linarith
  calc (1 - r ^ 2) * w * f ^ 2 + w * o ^ 2 = w * ((1 - r ^ 2) * f ^ 2 + o ^ 2) := by ring
    _ ≤ w * ((1 + 1 / 3001) * (a ^ 2 + (1 - r ^ 2) * s ^ 2) + 1 / 2 ^ 150) := mul_le_mul_of_nonneg_left d7 hw0.le
    _ = (1 + 1 / 3001) * (w * a ^ 2 + (1 - r ^ 2) * w * s ^ 2) + w * (1 / 2 ^ 150) := by ring
    _ ≤ (1 + 1 / 3001) * (w * a ^ 2 + (1 - r ^ 2) * w * s ^ 2) + 1 / 2 ^ 150 := by
      have := mul_le_mul_of_nonneg_right hw1 (show (0 : Rat) ≤ 1 / 2 ^ 150 by norm_num)
      linarith

theorem abs_of_energy {w a : Rat} (n : Nat) (hn : n ≤ 8) (hw : (1 / 121) ^ n ≤ w) (h : w * a ^ 2 ≤ 2 ^ 160) : |a| ≤ 2 ^ 110 := by
  have h8 : (1 / 121 : Rat) ^ 8 ≤ (1 / 121) ^ n := pow_le_pow_of_le_one (by norm_num) (by norm_num) hn
  have h1 : (1 / 121 : Rat) ^ 8 * a ^ 2 ≤ 2 ^ 160 := (mul_le_mul_of_nonneg_right (h8.trans hw) (sq_nonneg a)).trans h
  apply abs_le_of_sq_le_sq _ (by norm_num)
  norm_num at h1 ⊢
  linarith

theorem latG_pow (n : Nat) : 1 ≤ latG ^ n := one_le_pow₀ (by norm_num [latG])

/-- The energy of the loop of `inverse_filtering`. -/
theorem invLoop_energy {rnd : Rat → Rat} (h : RoundF rnd) (rs : List Rat) (hrc : RcOk rs) (hlen : rs.length ≤ 8) (ss : List Rat) (hl : ss.length = rs.length)
    (x : Rat) (hE : latG ^ rs.length * (x ^ 2 + latV rs ss + 1) ≤ 2 ^ 160) :
    ∃ f out, invLoop (Arith.rounded rnd) rs ss x = some (f, out) ∧ out.length = rs.length ∧
      latW rs * f ^ 2 + latO rs out + 1 ≤ latG ^ rs.length * (x ^ 2 + latV rs ss + 1) := by
  induction rs generalizing ss with
  | nil =>
    refine ⟨x, [], rfl, rfl, ?_⟩
    simp [latW, latO, latV]
  | cons r rs ih =>
    cases ss with
    | nil => simp at hl
    | cons s ss =>
      rw [List.length_cons, List.length_cons] at hl
      rw [List.length_cons] at hlen hE ⊢
      obtain ⟨w1, w2, w3⟩ := latW_bounds rs hrc.tail
      obtain ⟨v1, v2, v3⟩ := latW_bounds (r :: rs) hrc
      have hr := hrc r List.mem_cons_self
      have hV := latV_nonneg rs ss hrc.tail
      have g1 := latG_pow rs.length
      have g2 := latG_pow (rs.length + 1)
      have hg : latG ^ (rs.length + 1) = latG * latG ^ rs.length := by rw [pow_succ, mul_comm]
      have hs0 : 0 ≤ latW (r :: rs) * s ^ 2 := by positivity
      have e1 : x ^ 2 + latV (r :: rs) (s :: ss) + 1 = (x ^ 2 + latV rs ss + 1) + latW (r :: rs) * s ^ 2 := by
        rw [latV]; ring
      have hx0 : 0 ≤ x ^ 2 + latV rs ss + 1 := by positivity
      have hE1 : latG ^ rs.length * (x ^ 2 + latV rs ss + 1) ≤ 2 ^ 160 := by
        refine le_trans ?_ hE
        rw [hg, e1]
        have hG1 : (1 : Rat) ≤ latG := by norm_num [latG]
        have : latG ^ rs.length ≤ latG * latG ^ rs.length := le_mul_of_one_le_left (by linarith) hG1
        exact mul_le_mul this (by linarith) hx0 (by linarith)
      obtain ⟨a, out, i1, i2, i3⟩ := ih hrc.tail (by omega) ss (by omega) hE1
      have hO := latO_nonneg rs out hrc.tail
      have ha : |a| ≤ 2 ^ 110 := abs_of_energy rs.length (by omega) w1 (by linarith)
      have hs : |s| ≤ 2 ^ 110 := by
        apply abs_of_energy (rs.length + 1) (by omega) v1
        refine le_trans ?_ hE
        rw [e1]
        have : latW (r :: rs) * s ^ 2 ≤ (x ^ 2 + latV rs ss + 1) + latW (r :: rs) * s ^ 2 := by linarith
        exact this.trans (le_mul_of_one_le_left (by linarith) g2)
      have st := lattice_stage h a s r (latW rs) hr w3 w2 ha hs
      refine ⟨rnd (a - rnd (s * r)), rnd (s + rnd (r * rnd (a - rnd (s * r)))) :: out, ?_, by rw [List.length_cons, i2], ?_⟩
      · rw [invLoop, i1]; rfl
      · rw [latO, e1, hg]
        rw [show latW (r :: rs) = (1 - r ^ 2) * latW rs from rfl] at hs0 ⊢
        dsimp only at st
        have ha0 : 0 ≤ latW rs * a ^ 2 := by positivity
        generalize (1 - r ^ 2) * latW rs * rnd (a - rnd (s * r)) ^ 2 = t1 at st ⊢
        generalize latW rs * rnd (s + rnd (r * rnd (a - rnd (s * r)))) ^ 2 = t2 at st ⊢
        generalize (1 - r ^ 2) * latW rs * s ^ 2 = t3 at st hs0 ⊢
        generalize latW rs * a ^ 2 = t4 at st i3 ha0
        generalize latO rs out = t5 at i3 hO ⊢
        have hG : latG * (t4 + t5 + 1 + t3) ≤ latG * (latG ^ rs.length * (x ^ 2 + latV rs ss + 1 + t3)) := by
          apply mul_le_mul_of_nonneg_left _ (by norm_num [latG])
          rw [mul_add]
          have : t3 ≤ latG ^ rs.length * t3 := le_mul_of_one_le_left hs0 g1
          linarith
        rw [← mul_assoc] at hG
        refine le_trans ?_ hG
        unfold latG
        have t40 : 0 ≤ t4 + t3 := by linarith
        norm_num at st ⊢
        linarith

theorem latV_shift (rs : List Rat) (hrc : RcOk rs) (f : Rat) (out : List Rat) (ho : out.length = rs.length) :
    latV rs ((f :: out).take rs.length) ≤ latW rs * f ^ 2 + latO rs out := by
  induction rs generalizing f out with
  | nil => simp [latV, latW, latO]; positivity
  | cons r rs ih =>
    cases out with
    | nil => simp at ho
    | cons o out =>
      rw [List.length_cons, List.length_cons] at ho
      rw [List.length_cons, List.take_succ_cons, latV, latO]
      have := ih hrc.tail o out (by omega)
      linarith

/-- The sum of the squares. -/
def sumSq (l : List Rat) : Rat := (l.map (· ^ 2)).sum

theorem sumSq_cons (a : Rat) (l : List Rat) : sumSq (a :: l) = a ^ 2 + sumSq l := by simp [sumSq]

theorem sumSq_nonneg (l : List Rat) : 0 ≤ sumSq l := by
  induction l with
  | nil => simp [sumSq]
  | cons a l ih => rw [sumSq_cons]; positivity

theorem sumSq_le (l : List Rat) (X : Rat) (h : ∀ v ∈ l, |v| ≤ X) : sumSq l ≤ l.length * X ^ 2 := by
  induction l with
  | nil => simp [sumSq]
  | cons a l ih =>
    rw [sumSq_cons, List.length_cons]
    have h1 := ih fun v hv => h v (List.mem_cons_of_mem _ hv)
    have h2 : a ^ 2 ≤ X ^ 2 := by
      rw [← sq_abs a]
      exact pow_le_pow_left₀ (abs_nonneg _) (h a List.mem_cons_self) 2
    push_cast
    linarith

/-- The energy of the filtering of a slice. -/
theorem invRun_energy {rnd : Rat → Rat} (h : RoundF rnd) (rs : List Rat) (hrc : RcOk rs) (hlen : rs.length = 8) (l : List Rat) : ∀ (ss : List Rat),
    ss.length = 8 → latG ^ (8 * l.length) * (latV rs ss + sumSq l + 1) ≤ 2 ^ 160 →
    ∃ y t, filterRun (invStep (Arith.rounded rnd) rs) l ss = some (y, t) ∧ y.length = l.length ∧ t.length = 8 ∧
      (∀ v ∈ y, latW rs * v ^ 2 ≤ latG ^ (8 * l.length) * (latV rs ss + sumSq l + 1)) ∧
      latV rs t ≤ latG ^ (8 * l.length) * (latV rs ss + sumSq l + 1) := by
  induction l with
  | nil =>
    intro ss hs _
    refine ⟨[], ss, rfl, rfl, hs, by simp, ?_⟩
    simp [sumSq]
  | cons x l ih =>
    intro ss hs hE
    have hV := latV_nonneg rs ss hrc
    have hS := sumSq_nonneg l
    have hg : latG ^ (8 * (x :: l).length) = latG ^ (8 * l.length) * latG ^ 8 := by rw [List.length_cons, mul_add, pow_add]
    have g1 := latG_pow (8 * l.length)
    have g8 := latG_pow 8
    have x0 := sq_nonneg x
    rw [sumSq_cons, hg] at hE ⊢
    have hE0 : latG ^ rs.length * (x ^ 2 + latV rs ss + 1) ≤ latG ^ (8 * l.length) * latG ^ 8 * (latV rs ss + (x ^ 2 + sumSq l) + 1) := by
      rw [hlen]
      refine mul_le_mul (le_mul_of_one_le_left (by linarith) g1) (by linarith) (by linarith) (by positivity)
    obtain ⟨f, out, i1, i2, i3⟩ := invLoop_energy h rs hrc (by omega) ss (by omega) x (hE0.trans hE)
    have hsh := latV_shift rs hrc f out i2
    rw [hlen] at hsh
    have hO := latO_nonneg rs out hrc
    have hW := (latW_bounds rs hrc).2.2
    have hf0 : 0 ≤ latW rs * f ^ 2 := by positivity
    rw [hlen] at i3
    have hst : latG ^ (8 * l.length) * (latV rs ((f :: out).take 8) + sumSq l + 1) ≤ latG ^ (8 * l.length) * latG ^ 8 * (latV rs ss + (x ^ 2 + sumSq l) + 1) := by
      rw [mul_assoc]
      apply mul_le_mul_of_nonneg_left _ (by linarith)
      have : sumSq l ≤ latG ^ 8 * sumSq l := le_mul_of_one_le_left hS g8
      have e : latG ^ 8 * (latV rs ss + (x ^ 2 + sumSq l) + 1) = latG ^ 8 * (x ^ 2 + latV rs ss + 1) + latG ^ 8 * sumSq l := by ring
      rw [e]
      linarith
    obtain ⟨y, t, j1, j2, j3, j4, j5⟩ := ih ((f :: out).take 8) (by rw [List.length_take, List.length_cons]; omega) (hst.trans hE)
    refine ⟨f :: y, t, ?_, by rw [List.length_cons, List.length_cons, j2], j3, ?_, j5.trans hst⟩
    · rw [filterRun, invStep, i1, Option.map_some, Option.bind_some]
      dsimp only
      rw [j1]; rfl
    · intro v hv
      rcases List.mem_cons.1 hv with e | hv
      · rw [e]
        rw [hlen] at hE0
        linarith
      · exact (j4 v hv).trans hst

/-! ### From a filter to the next one -/

def latU : List Rat → Rat
  | [] => 0
  | s :: ss => s ^ 2 + 121 * latU ss

theorem latU_nonneg (ss : List Rat) : 0 ≤ latU ss := by
  induction ss with
  | nil => simp [latU]
  | cons s ss ih => unfold latU; positivity

theorem latV_le_latU (rs : List Rat) (hrc : RcOk rs) (ss : List Rat) : latV rs ss ≤ latW rs * latU ss := by
  induction rs generalizing ss with
  | nil => simp [latV, latW]; exact latU_nonneg ss
  | cons r rs ih =>
    have hW := (latW_bounds _ hrc).2.2
    cases ss with
    | nil => simp [latV, latU]
    | cons s ss =>
      rw [latV, latU]
      have h1 := ih hrc.tail ss
      have h2 : latW rs ≤ 121 * latW (r :: rs) := by
        rw [show latW (r :: rs) = (1 - r ^ 2) * latW rs from rfl]
        have := mul_le_mul_of_nonneg_right (hrc r List.mem_cons_self) (latW_bounds rs hrc.tail).2.2.le
        linarith
      have h3 := mul_le_mul_of_nonneg_right h2 (latU_nonneg ss)
      linarith

theorem latU_le_latV (rs : List Rat) (hrc : RcOk rs) (ss : List Rat) (hl : ss.length = rs.length) : latU ss ≤ 121 ^ rs.length * latV rs ss := by
  induction rs generalizing ss with
  | nil => rw [List.length_nil, List.length_eq_zero_iff] at hl; subst hl; simp [latV, latU]
  | cons r rs ih =>
    cases ss with
    | nil => simp at hl
    | cons s ss =>
      rw [List.length_cons, List.length_cons] at hl
      rw [latV, latU, List.length_cons]
      have h1 := ih hrc.tail ss (by omega)
      have h2 := (latW_bounds _ hrc).1
      rw [List.length_cons] at h2
      have h3 : 1 ≤ 121 ^ (rs.length + 1) * latW (r :: rs) := by
        have := mul_le_mul_of_nonneg_left h2 (show (0 : Rat) ≤ 121 ^ (rs.length + 1) by positivity)
        rw [← mul_pow] at this
        norm_num at this
        exact this
      have h4 := mul_le_mul_of_nonneg_right h3 (sq_nonneg s)
      have h5 : (121 : Rat) ^ (rs.length + 1) * latV rs ss = 121 * (121 ^ rs.length * latV rs ss) := by rw [pow_succ]; ring
      rw [mul_add, h5, ← mul_assoc]
      linarith

theorem latU_zeros (n : Nat) : latU (List.replicate n 0) = 0 := by
  induction n with
  | zero => rfl
  | succ n ih => rw [List.replicate_succ, latU, ih]; norm_num

theorem latU_cut (t : List Rat) (k n : Nat) : latU (t.take k ++ List.replicate n 0) ≤ latU t := by
  induction t generalizing k with
  | nil => rw [List.take_nil, List.nil_append, latU_zeros]; simp [latU]
  | cons a t ih =>
    cases k with
    | zero => rw [List.take_zero, List.nil_append, latU_zeros]; exact latU_nonneg _
    | succ k =>
      rw [List.take_succ_cons, List.cons_append, latU, latU]
      have := ih k
      linarith

/-- A filter, from a state of bounded energy. -/
theorem invSlice_bound {rnd : Rat → Rat} (h : RoundF rnd) (rc : List Rat) (hrc : RcOk rc) (h8 : rc.length ≤ 8) (i0 ie : Nat) (hi : i0 ≤ ie) (s x : List Rat)
    (hx : ie ≤ x.length) (hs : s.length = 8) (X E : Rat) (hX : ∀ k, i0 ≤ k → k < ie → ∀ v, x[k]? = some v → |v| ≤ X) (hE : latU s ≤ E)
    (hE2 : latG ^ (8 * (ie - i0)) * (E + ((ie - i0 : Nat) : Rat) * X ^ 2 + 1) ≤ 2 ^ 160) :
    ∃ y t, filterSlice (invStep (Arith.rounded rnd) (rc ++ List.replicate (8 - rc.length) ((Arith.rounded rnd).ofRat 0))) i0 ie s x = some (y, t) ∧
      y.length = x.length ∧ t.length = 8 ∧ (∀ j, j < i0 ∨ ie ≤ j → y[j]? = x[j]?) ∧
      (∀ j, i0 ≤ j → j < ie → ∀ v, y[j]? = some v → v ^ 2 ≤ latG ^ (8 * (ie - i0)) * (E + 121 ^ 8 * (((ie - i0 : Nat) : Rat) * X ^ 2 + 1))) ∧
      latU t ≤ 121 ^ 8 * (latG ^ (8 * (ie - i0)) * (E + ((ie - i0 : Nat) : Rat) * X ^ 2 + 1)) := by
  have hz : (Arith.rounded rnd).ofRat 0 = 0 := h.zero
  rw [hz]
  obtain ⟨rs, hrs⟩ : ∃ rs, rs = rc ++ List.replicate (8 - rc.length) (0 : Rat) := ⟨_, rfl⟩
  rw [← hrs]
  have hl : rs.length = 8 := by rw [hrs, List.length_append, List.length_replicate]; omega
  have hok : RcOk rs := by
    intro r hr
    rw [hrs] at hr
    rcases List.mem_append.1 hr with hr | hr
    · exact hrc r hr
    · rw [(List.mem_replicate.1 hr).2]; norm_num
  obtain ⟨l, hll⟩ : ∃ l, l = (x.take ie).drop i0 := ⟨_, rfl⟩
  have hln : l.length = ie - i0 := by rw [hll, List.length_drop, List.length_take]; omega
  have hsq : sumSq l ≤ ((ie - i0 : Nat) : Rat) * X ^ 2 := by
    rw [← hln]
    apply sumSq_le
    intro v hv
    obtain ⟨k, hk, e⟩ := List.getElem_of_mem hv
    apply hX (i0 + k) (by omega) (by omega) v
    rw [← e]
    simp only [hll]
    rw [List.getElem_drop, List.getElem_take, List.getElem?_eq_getElem]
  obtain ⟨w1, w2, w3⟩ := latW_bounds rs hok
  rw [hl] at w1
  have hU := latU_nonneg s
  have hV0 := latV_nonneg rs s hok
  have hS0 := sumSq_nonneg l
  have hV : latV rs s ≤ latW rs * E := (latV_le_latU rs hok s).trans (mul_le_mul_of_nonneg_left hE w3.le)
  have hVE : latW rs * E ≤ E := by
    have := mul_le_mul_of_nonneg_right w2 (hU.trans hE)
    linarith
  have g1 := latG_pow (8 * (ie - i0))
  have hmain : latG ^ (8 * (ie - i0)) * (latV rs s + sumSq l + 1) ≤ latG ^ (8 * (ie - i0)) * (E + ((ie - i0 : Nat) : Rat) * X ^ 2 + 1) :=
    mul_le_mul_of_nonneg_left (by linarith) (by linarith)
  obtain ⟨y, t, a1, a2, a3, a4, a5⟩ := invRun_energy h rs hok hl l s hs (by rw [hln]; exact hmain.trans hE2)
  rw [hln] at a2 a4 a5
  obtain ⟨y', t', b1, b2, b3, b4⟩ := filterSlice_some (invStep (Arith.rounded rnd) rs) (fun s x hs => invStep_some _ _ hl s x hs) i0 ie s x hs hx hi
  refine ⟨y', t', b1, b2, b3, b4, ?_, ?_⟩
  · unfold filterSlice at b1
    rw [if_neg (by omega), ← hll, a1, Option.map_some] at b1
    injection b1 with b1
    injection b1 with b1 b1'
    intro j hj hj2 v hv
    have hmem : v ∈ y := by
      rw [← b1, List.append_assoc, List.getElem?_append_right (by rw [List.length_take]; omega), List.length_take, Nat.min_eq_left (by omega),
        List.getElem?_append_left (show _ < y.length by omega)] at hv
      exact List.mem_of_getElem? hv
    have h1 := a4 v hmem
    have h2 : latG ^ (8 * (ie - i0)) * (latV rs s + sumSq l + 1) ≤ latW rs * (latG ^ (8 * (ie - i0)) * (E + 121 ^ 8 * (((ie - i0 : Nat) : Rat) * X ^ 2 + 1))) := by
      rw [mul_left_comm]
      apply mul_le_mul_of_nonneg_left _ (by linarith)
      rw [mul_add, ← mul_assoc]
      have : 1 ≤ latW rs * 121 ^ 8 := by
        have := mul_le_mul_of_nonneg_right w1 (show (0 : Rat) ≤ 121 ^ 8 by norm_num)
        norm_num at this ⊢
        linarith
      have h3 : ((ie - i0 : Nat) : Rat) * X ^ 2 + 1 ≤ latW rs * 121 ^ 8 * (((ie - i0 : Nat) : Rat) * X ^ 2 + 1) := le_mul_of_one_le_left (by positivity) this
      linarith
    exact le_of_mul_le_mul_left (h1.trans h2) w3
  · unfold filterSlice at b1
    rw [if_neg (by omega), ← hll, a1, Option.map_some] at b1
    injection b1 with b1
    injection b1 with b1 b1'
    dsimp only at b1'
    rw [← b1']
    have := latU_le_latV rs hok t (by omega)
    rw [hl] at this
    exact this.trans (mul_le_mul_of_nonneg_left (a5.trans hmain) (by norm_num))

theorem latG_limit (n : Nat) (h : n ≤ 400) : latG ^ (8 * n) ≤ 3 := by
  have h1 : latG ^ (8 * n) ≤ latG ^ 3200 := pow_le_pow_right₀ (by norm_num [latG]) (by omega)
  refine h1.trans ?_
  have h2 : latG ≤ 1 + 1 / 3000 := le_refl _
  have h3 : latG ^ 100 ≤ 1034 / 1000 := by unfold latG; norm_num
  have h4 : latG ^ 3200 = (latG ^ 100) ^ 32 := by rw [← pow_mul]
  rw [h4]
  exact (pow_le_pow_left₀ (by unfold latG; norm_num) h3 32).trans (by norm_num)

/-- The filters of `inverse_filtering`: their output is bounded, whatever their coefficients. -/
theorem invFilters_bound {rnd : Rat → Rat} (h : RoundF rnd) (nf : Nat) (rcs : List (List Rat)) (hrc : ∀ rc ∈ rcs, RcOk rc ∧ rc.length ≤ 8) (i0 n : Nat)
    (x : List Rat) (h2 : rcs.length ≤ 2) (hb : BoundsOk nf n rcs.length 0 i0) (hn : n ≤ 400) (hx : n ≤ x.length) (X : Rat) (hX1 : 1 ≤ X) (hX2 : X ≤ 2 ^ 40)
    (hX : ∀ k, k < n → ∀ v, x[k]? = some v → |v| ≤ X) :
    ∃ y, invFilters (Arith.rounded rnd) nf rcs 0 i0 (List.replicate 8 ((Arith.rounded rnd).ofRat 0)) x = some y ∧ y.length = x.length ∧
      (∀ j, n ≤ j → y[j]? = x[j]?) ∧ ∀ j, j < n → ∀ v, y[j]? = some v → |v| ≤ 41 * 11 ^ 8 * X := by
  obtain ⟨y, y1, y2, y3⟩ := invFilters_some (Arith.rounded rnd) nf rcs (fun r hr => (hrc r hr).2) 0 i0 (List.replicate 8 ((Arith.rounded rnd).ofRat 0)) x
    List.length_replicate (boundsOk_mono _ _ _ _ _ _ hx hb) n hb
  refine ⟨y, y1, y2, fun j hj => y3 j (Or.inr hj), ?_⟩
  have hXsq : 1 ≤ X ^ 2 := one_le_pow₀ hX1
  have hXsq2 : X ^ 2 ≤ 2 ^ 80 := by
    have := pow_le_pow_left₀ (by linarith) hX2 2
    norm_num at this ⊢
    linarith
  have fin : ∀ (m : Nat) (v : Rat), m ≤ 400 → v ^ 2 ≤ 3 * (121 ^ 8 * ((m : Rat) * X ^ 2 + 2)) → |v| ≤ 41 * 11 ^ 8 * X := by
    intro m v hm hv
    apply abs_le_of_sq_le_sq _ (by positivity)
    refine hv.trans ?_
    have hm' : (m : Rat) ≤ 400 := by exact_mod_cast hm
    have h1 : (m : Rat) * X ^ 2 ≤ 400 * X ^ 2 := mul_le_mul_of_nonneg_right hm' (by linarith)
    rw [mul_pow]
    norm_num
    linarith
  have small : ∀ v : Rat, |v| ≤ X → |v| ≤ 41 * 11 ^ 8 * X := by
    intro v hv
    norm_num
    linarith
  have hz : (Arith.rounded rnd).ofRat 0 = 0 := h.zero
  have hU0 : latU (List.replicate 8 ((Arith.rounded rnd).ofRat 0)) = 0 := by rw [hz, latU_zeros]
  have lim : ∀ (m : Nat) (E : Rat), m ≤ 400 → E ≤ 3 * (121 ^ 8 * (400 * X ^ 2 + 1)) → latG ^ (8 * m) * (E + (m : Rat) * X ^ 2 + 1) ≤ 2 ^ 160 := by
    intro m E hm hE
    have h3 := latG_limit m hm
    have h1 := latG_pow (8 * m)
    have hm' : (m : Rat) ≤ 400 := by exact_mod_cast hm
    have h4 : (m : Rat) * X ^ 2 ≤ 400 * X ^ 2 := mul_le_mul_of_nonneg_right hm' (by linarith)
    have h5 : E + (m : Rat) * X ^ 2 + 1 ≤ 3 * (121 ^ 8 * (400 * X ^ 2 + 1)) + 400 * X ^ 2 + 1 := by linarith
    calc latG ^ (8 * m) * (E + (m : Rat) * X ^ 2 + 1) ≤ latG ^ (8 * m) * (3 * (121 ^ 8 * (400 * X ^ 2 + 1)) + 400 * X ^ 2 + 1) :=
          mul_le_mul_of_nonneg_left h5 (by linarith)
      _ ≤ 3 * (3 * (121 ^ 8 * (400 * X ^ 2 + 1)) + 400 * X ^ 2 + 1) := mul_le_mul_of_nonneg_right h3 (by positivity)
      _ ≤ 2 ^ 160 := by norm_num at hXsq2 ⊢; linarith
  -- the first filter, or none
  have first : ∀ (rc : List Rat), RcOk rc → rc.length ≤ 8 → i0 ≤ nf → nf ≤ n → ∃ z s,
      (∀ (tl : List (List Rat)), invFilters (Arith.rounded rnd) nf (rc :: tl) 0 i0 (List.replicate 8 ((Arith.rounded rnd).ofRat 0)) x =
        invFilters (Arith.rounded rnd) nf tl 1 nf s z) ∧ z.length = x.length ∧ s.length = 8 ∧
      (∀ j, nf ≤ j → z[j]? = x[j]?) ∧ (∀ j, j < nf → ∀ v, z[j]? = some v → |v| ≤ 41 * 11 ^ 8 * X) ∧
      latU s ≤ 121 ^ 8 * (latG ^ (8 * (nf - i0)) * (((nf - i0 : Nat) : Rat) * X ^ 2 + 1)) := by
    intro rc r1 r2 b1 b2
    by_cases h0 : rc.length = 0
    · refine ⟨x, List.replicate 8 ((Arith.rounded rnd).ofRat 0), fun tl => ?_, rfl, List.length_replicate, fun _ _ => rfl,
        fun j hj v hv => small v (hX j (by omega) v hv), ?_⟩
      · rw [invFilters]
        dsimp only
        rw [if_pos h0, Nat.add_zero, Nat.mul_one]
      · rw [hU0]
        have := latG_pow (8 * (nf - i0))
        positivity
    · obtain ⟨z, t, z1, z2, z3, z4, z5, z6⟩ := invSlice_bound h rc r1 r2 i0 nf b1 (List.replicate 8 ((Arith.rounded rnd).ofRat 0)) x (by omega)
        List.length_replicate X 0 (fun k _ hk v hv => hX k (by omega) v hv) (le_of_eq hU0) (lim (nf - i0) 0 (by omega) (by positivity))
      refine ⟨z, t.take rc.length ++ List.replicate (8 - rc.length) ((Arith.rounded rnd).ofRat 0), fun tl => ?_, z2, ?_, fun j hj => z4 j (Or.inr hj), ?_, ?_⟩
      · rw [invFilters]
        dsimp only
        rw [if_neg h0, Nat.add_zero, Nat.mul_one, z1]
        rfl
      · rw [List.length_append, List.length_take, List.length_replicate]; omega
      · intro j hj v hv
        by_cases hj0 : j < i0
        · rw [z4 j (Or.inl hj0)] at hv
          exact small v (hX j (by omega) v hv)
        · apply fin (nf - i0) v (by omega)
          refine (z5 j (by omega) hj v hv).trans ?_
          rw [zero_add]
          refine mul_le_mul (latG_limit _ (by omega)) ?_ (by positivity) (by norm_num)
          apply mul_le_mul_of_nonneg_left _ (by norm_num)
          linarith
      · rw [hz]
        refine (latU_cut t _ _).trans ?_
        rw [zero_add] at z6
        exact z6
  match rcs, hrc, h2, hb, y1 with
  | [], _, _, _, y1 =>
    rw [invFilters] at y1
    injection y1 with y1
    subst y1
    exact fun j hj v hv => small v (hX j hj v hv)
  | [rc], hrc, _, hb, y1 =>
    obtain ⟨b1, b2, -⟩ := hb
    rw [Nat.add_zero, Nat.mul_one] at b1 b2
    obtain ⟨r1, r2⟩ := hrc rc List.mem_cons_self
    obtain ⟨z, s, a1, a2, a3, a4, a5, a6⟩ := first rc r1 r2 b1 b2
    rw [a1, invFilters] at y1
    injection y1 with y1
    subst y1
    intro j hj v hv
    by_cases hj2 : j < nf
    · exact a5 j hj2 v hv
    · rw [a4 j (by omega)] at hv
      exact small v (hX j hj v hv)
  | [rc, rc'], hrc, _, hb, y1 =>
    obtain ⟨b1, b2, b3, b4, -⟩ := hb
    rw [Nat.add_zero, Nat.mul_one] at b1 b2 b3
    rw [show 1 + (0 + 1) = 2 from rfl] at b4
    obtain ⟨r1, r2⟩ := hrc rc List.mem_cons_self
    obtain ⟨r3, r4⟩ := hrc rc' (List.mem_cons_of_mem _ List.mem_cons_self)
    obtain ⟨z, s, a1, a2, a3, a4, a5, a6⟩ := first rc r1 r2 b1 b2
    have g0 := latG_pow (8 * (nf - i0))
    have g0' := latG_limit (nf - i0) (by omega)
    rw [a1, invFilters] at y1
    dsimp only at y1
    rw [show 1 + 1 = 2 from rfl] at y1
    by_cases h0 : rc'.length = 0
    · rw [if_pos h0, invFilters] at y1
      injection y1 with y1
      subst y1
      intro j hj v hv
      by_cases hj2 : j < nf
      · exact a5 j hj2 v hv
      · rw [a4 j (by omega)] at hv
        exact small v (hX j hj v hv)
    · rw [if_neg h0] at y1
      have hm1 : ((nf - i0 : Nat) : Rat) ≤ 400 := by exact_mod_cast (by omega : nf - i0 ≤ 400)
      have hE : 121 ^ 8 * (latG ^ (8 * (nf - i0)) * (((nf - i0 : Nat) : Rat) * X ^ 2 + 1)) ≤ 3 * (121 ^ 8 * (400 * X ^ 2 + 1)) := by
        have h1 : ((nf - i0 : Nat) : Rat) * X ^ 2 ≤ 400 * X ^ 2 := mul_le_mul_of_nonneg_right hm1 (by linarith)
        have h2 : latG ^ (8 * (nf - i0)) * (((nf - i0 : Nat) : Rat) * X ^ 2 + 1) ≤ 3 * (400 * X ^ 2 + 1) :=
          mul_le_mul g0' (by linarith) (by positivity) (by norm_num)
        linarith
      obtain ⟨w, t, z1, z2, z3, z4, z5, z6⟩ := invSlice_bound h rc' r3 r4 nf (nf * 2) b3 s z (by omega) a3 X _
        (fun k hk1 hk v hv => hX k (by omega) v (by rw [← a4 k hk1]; exact hv)) a6 (lim (nf * 2 - nf) _ (by omega) hE)
      rw [z1, Option.bind_some, invFilters] at y1
      injection y1 with y1
      subst y1
      intro j hj v hv
      by_cases hj2 : j < nf
      · rw [z4 j (Or.inl hj2)] at hv
        exact a5 j hj2 v hv
      · by_cases hj3 : j < nf * 2
        · have h5 := z5 j (by omega) hj3 v hv
          apply fin ((nf - i0) + (nf * 2 - nf)) v (by omega)
          refine h5.trans ?_
          have g1 := latG_pow (8 * (nf * 2 - nf))
          have g3 := latG_limit ((nf * 2 - nf) + (nf - i0)) (by omega)
          rw [Nat.mul_add, pow_add] at g3
          rw [Nat.cast_add]
          have p0 : (0 : Rat) ≤ ((nf * 2 - nf : Nat) : Rat) := Nat.cast_nonneg _
          have p1 : (0 : Rat) ≤ ((nf - i0 : Nat) : Rat) := Nat.cast_nonneg _
          generalize ((nf * 2 - nf : Nat) : Rat) = q1 at *
          generalize ((nf - i0 : Nat) : Rat) = q0 at *
          generalize latG ^ (8 * (nf * 2 - nf)) = γ1 at *
          generalize latG ^ (8 * (nf - i0)) = γ0 at *
          have x0 : 0 ≤ X ^ 2 := by linarith
          have k0 : 0 ≤ q0 * X ^ 2 := mul_nonneg p1 x0
          have k1 : 0 ≤ q1 * X ^ 2 := mul_nonneg p0 x0
          have k2 : q1 * X ^ 2 + 1 ≤ γ0 * (q1 * X ^ 2 + 1) := le_mul_of_one_le_left (by linarith) g0
          calc γ1 * (121 ^ 8 * (γ0 * (q0 * X ^ 2 + 1)) + 121 ^ 8 * (q1 * X ^ 2 + 1)) ≤
                γ1 * (121 ^ 8 * (γ0 * (q0 * X ^ 2 + 1)) + 121 ^ 8 * (γ0 * (q1 * X ^ 2 + 1))) := by
                  apply mul_le_mul_of_nonneg_left _ (by linarith)
                  linarith
            _ = γ1 * γ0 * (121 ^ 8 * ((q0 + q1) * X ^ 2 + 2)) := by ring
            _ ≤ 3 * (121 ^ 8 * ((q0 + q1) * X ^ 2 + 2)) := mul_le_mul_of_nonneg_right g3 (by rw [add_mul]; positivity)
        · rw [z4 j (Or.inr (by omega)), a4 j (by omega)] at hv
          exact small v (hX j hj v hv)

theorem tnsInv_bound (k : Nat) (v : Rat) (h : tnsInv[k]? = some v) : 0 ≤ v ∧ v ≤ 0x7f74 / 32768 := by
  have : ∀ v ∈ tnsInv, 0 ≤ v ∧ v ≤ 0x7f74 / 32768 := by decide +kernel
  exact this v (List.mem_of_getElem? h)

/-- The coefficients of a frame. -/
theorem unquantizeRc_ok {rnd : Rat → Rat} (h : RoundF rnd) (rc : List Int) (l : List Rat) (hl : unquantizeRc (Arith.rounded rnd) rc = some l) : RcOk l := by
  have bound : ∀ x : Rat, |x| ≤ 0x7f74 / 32768 + 1 / 2 ^ 20 → 1 / 121 ≤ 1 - x ^ 2 := by
    intro x hx
    rw [← sq_abs]
    have := pow_le_pow_left₀ (abs_nonneg x) hx 2
    norm_num at this ⊢
    linarith
  induction rc generalizing l with
  | nil =>
    unfold unquantizeRc at hl
    rw [List.mapM_nil] at hl
    obtain rfl := Option.some.inj hl
    intro r hr
    cases hr
  | cons q rc ih =>
    unfold unquantizeRc at hl ih
    rw [List.mapM_cons] at hl
    obtain ⟨a, h1, hl⟩ := Option.bind_eq_some_iff.1 hl
    obtain ⟨l', h2, hl⟩ := Option.bind_eq_some_iff.1 hl
    obtain rfl := Option.some.inj hl
    intro r hr
    rcases List.mem_cons.1 hr with e | hr
    · subst e
      obtain ⟨v, h3, h4⟩ := Option.map_eq_some_iff.1 h1
      obtain ⟨v0, v1⟩ := tnsInv_bound _ _ h3
      have m1 := h.mag (x := v) (b := 0x7f74 / 32768) (by rw [abs_of_nonneg v0]; exact v1) (by norm_num)
      have m1' : |rnd v| ≤ 0x7f74 / 32768 + 1 / 2 ^ 22 := m1.trans (by norm_num)
      apply bound
      split at h4
      · rw [← h4]
        change |rnd (rnd 0 - rnd v)| ≤ _
        rw [h.zero, zero_sub]
        refine (h.mag (x := -rnd v) (b := 0x7f74 / 32768 + 1 / 2 ^ 22) (by rw [abs_neg]; exact m1') (by norm_num)).trans (by norm_num)
      · rw [← h4]
        exact m1'.trans (by norm_num)
    · exact ih l' h2 r hr

/-- `lc3_tns_synthesize` on any parameters that a frame can carry. -/
theorem tnsSynthesize_bound {rnd : Rat → Rat} (h : RoundF rnd) (dt : Dt) (bw nbytes : Nat) (d : TnsData) (hd : d.Valid dt bw nbytes) (x : List Rat)
    (hx : bwStop dt bw ≤ x.length) (X : Rat) (hX1 : 1 ≤ X) (hX2 : X ≤ 2 ^ 40) (hX : ∀ k, k < bwStop dt bw → ∀ v, x[k]? = some v → |v| ≤ X) :
    ∃ y, tnsSynthesize (Arith.rounded rnd) dt bw d x = some y ∧ y.length = x.length ∧ (∀ j, bwStop dt bw ≤ j → y[j]? = x[j]?) ∧
      ∀ j, j < bwStop dt bw → ∀ v, y[j]? = some v → |v| ≤ 41 * 11 ^ 8 * X := by
  obtain ⟨rc, r1, r2, r3⟩ := unquantizeFilters_some (Arith.rounded rnd) dt d.filters hd.filters
  have hn : rc.length = tnsNfilters dt bw := r2.trans hd.count
  have hb := tns_bounds dt bw
  rw [← hn] at hb
  have h2 : rc.length ≤ 2 := by rw [hn]; unfold tnsNfilters b2n; split <;> omega
  have h400 : bwStop dt bw ≤ 400 := by
    unfold bwStop srateOfBw
    split_ifs <;> cases dt <;> decide
  have hok : ∀ l ∈ rc, RcOk l ∧ l.length ≤ 8 := by
    intro l hl
    refine ⟨?_, r3 l hl⟩
    have : ∀ (fs : List (List Int)) (rc : List (List Rat)), fs.mapM (unquantizeRc (Arith.rounded rnd)) = some rc → ∀ l ∈ rc, RcOk l := by
      intro fs
      induction fs with
      | nil =>
        intro rc hrc l hl
        rw [List.mapM_nil] at hrc
        obtain rfl := Option.some.inj hrc
        cases hl
      | cons f fs ih =>
        intro rc hrc l hl
        rw [List.mapM_cons] at hrc
        obtain ⟨a, h1, hrc⟩ := Option.bind_eq_some_iff.1 hrc
        obtain ⟨l', h2, hrc⟩ := Option.bind_eq_some_iff.1 hrc
        obtain rfl := Option.some.inj hrc
        rcases List.mem_cons.1 hl with e | hl
        · subst e; exact unquantizeRc_ok h f _ h1
        · exact ih l' h2 l hl
    exact this _ _ r1 l hl
  obtain ⟨y, y1, y2, y3, y4⟩ := invFilters_bound h (tnsNf dt bw) rc hok (3 * (1 + dt.idx)) (bwStop dt bw) x h2 hb h400 hx X hX1 hX2 hX
  refine ⟨y, ?_, y2, y3, y4⟩
  unfold tnsSynthesize
  rw [r1, Option.bind_some]
  exact y1

end LC3
