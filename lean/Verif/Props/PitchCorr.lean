import Verif.Props.Pitch

/-!
# C83: the correlation that decides on the post filter is that of the signal at the pitch lag

The signal at 12.8 kHz is interpolated at the fraction of the lag; in 16 bits, the filter of the fraction 0 wraps at full scale.
-/

namespace LC3

/-- The interpolation filter of the fraction `d`, in Q15: the coefficient of the sample `t` samples before the next one. -/
def fracTap (d t : Nat) : Int := (h4q15.getD d []).getD t 0

/-- The signal interpolated at the sample `p`, delayed by `d` quarters of sample; the shift rounds down. -/
def fracSample (x : List Int) (p d : Nat) : Int :=
  (∑ t ∈ Finset.range 4, fracTap d t * x.getD (p + 1 - t) 0) / 32768

theorem interpolateFrom_len (buf : List Int) (base : Nat) (h : List Int) (hl : h.length = 4) : ∀ (k i : Nat) (y : List Int),
    interpolateFrom buf base h k i = some y → y.length = k
  | 0, _, y, e => by
    unfold interpolateFrom at e
    cases e
    rfl
  | k + 1, i, y, e => by
    obtain ⟨h0, h1, h2, h3, rfl⟩ : ∃ a b c d, h = [a, b, c, d] := four h hl
    unfold interpolateFrom at e
    obtain ⟨l, e1, e⟩ := Option.bind_eq_some_iff.mp e
    split at e
    · obtain ⟨_, _, e⟩ := Option.bind_eq_some_iff.mp e
      obtain ⟨_, _, e⟩ := Option.bind_eq_some_iff.mp e
      obtain ⟨_, _, e⟩ := Option.bind_eq_some_iff.mp e
      obtain ⟨_, _, e⟩ := Option.bind_eq_some_iff.mp e
      obtain ⟨_, _, e⟩ := Option.bind_eq_some_iff.mp e
      obtain ⟨_, _, e⟩ := Option.bind_eq_some_iff.mp e
      obtain ⟨_, _, e⟩ := Option.bind_eq_some_iff.mp e
      obtain ⟨l', el, e⟩ := Option.bind_eq_some_iff.mp e
      cases e
      rw [List.length_cons, interpolateFrom_len buf base _ hl k (i + 1) l' el]
    · cases e

theorem interpolate_val (buf : List Int) (base back n d : Nat) (u : List Int) (h : interpolate buf base back n d = some u) :
    back ≤ base ∧ d < 4 ∧ u.length = n ∧ ∀ j < n, u.getD j 0 = toI16 (fracSample buf (base - back + j) d) := by
  unfold interpolate at h
  obtain ⟨hh, h1, h⟩ := Option.bind_eq_some_iff.mp h
  have hd : d < 4 := by
    rcases Nat.lt_or_ge d 4 with c | c
    · exact c
    · rw [List.getElem?_eq_none (by exact c)] at h1; cases h1
  have e : h4q15.getD d [] = hh := by rw [List.getD_eq_getElem?_getD, h1]; rfl
  have hl : hh.length = 4 := by rw [← e]; exact (h4q15_check d hd).1
  split at h
  · next c =>
    refine ⟨c, hd, interpolateFrom_len _ _ _ hl _ _ _ h, fun j hj => ?_⟩
    obtain ⟨g1, g2, g3⟩ := interpolateFrom_val buf (base - back) hh hl n 0 u h j hj
    rw [g3]
    unfold fracSample fracTap
    rw [e]
    congr 2
    rw [Finset.sum_range_succ, Finset.sum_range_succ, Finset.sum_range_succ, Finset.sum_range_succ, Finset.sum_range_zero,
      Finset.sum_range_succ, Finset.sum_range_succ, Finset.sum_range_succ, Finset.sum_range_succ, Finset.sum_range_zero]
    simp only [Nat.add_zero] at g1 g2 ⊢
    rw [show base - back + j + 1 - 0 = base - back + j - 2 + 3 by omega, show base - back + j + 1 - 1 = base - back + j - 2 + 2 by omega,
      show base - back + j + 1 - 2 = base - back + j - 2 + 1 by omega, show base - back + j + 1 - 3 = base - back + j - 2 by omega]
    simp only [Nat.sub_zero, Nat.reduceSub]
    ring
  · cases h

/-- The number of samples, at 12.8 kHz, of the correlation: that of the frame, or 5 ms. -/
def corrLength : Dt → Nat | .m2_5 => 64 | .m5 => 64 | .m7_5 => 96 | .m10 => 128

/-- The delay of the analysis, in samples at 12.8 kHz. -/
def corrDelay (dt : Dt) : Nat := if dt = .m7_5 then 44 else 24

/-- The sum of the products of two signals. -/
def crossSum (n : Nat) (a b : Nat → Int) : Int := ∑ i ∈ Finset.range n, a i * b i

theorem ltpfPitch_present {R : Type} {A : Arith R} {sqrtf : R → R} {dt : Dt} {x y : List Int} {tc tc' : Nat} {index : Option Int} {pitch : Int} {nc : R}
    (h : ltpfPitch A sqrtf dt x y tc = some (true, index, pitch, nc, tc')) :
    let n := corrLength dt
    let b := 384 - corrDelay dt - n
    ∃ (p : Nat) (u v : List Int), pitch = p ∧ p / 4 ≤ b ∧ u.length = n ∧ v.length = n ∧
      (∀ i < n, u.getD i 0 = toI16 (fracSample x (b + i) 0)) ∧
      (∀ i < n, v.getD i 0 = toI16 (fracSample x (b - p / 4 + i) (p % 4))) ∧
      nc = A.div (dotI A u v) (sqrtf (A.mul (dotI A u u) (dotI A v v))) := by
  unfold ltpfPitch at h
  dsimp only at h
  obtain ⟨⟨p, lag, t⟩, -, h⟩ := Option.bind_eq_some_iff.mp h
  dsimp only at h
  cases p with
  | false =>
    rw [if_neg (by decide)] at h
    cases h
  | true =>
    rw [if_pos rfl] at h
    obtain ⟨⟨a, b⟩, -, h⟩ := Option.bind_eq_some_iff.mp h
    dsimp only at h
    have hn : (1 + dt.idx) * 32 + (if dt = Dt.m2_5 then (1 + dt.idx) * 32 else 0) = corrLength dt := by cases dt <;> decide
    have hb : 384 - (1 + dt.idx) * 32 - (if dt = .m7_5 then 44 else 24) - (if dt = Dt.m2_5 then (1 + dt.idx) * 32 else 0) =
      384 - corrDelay dt - corrLength dt := by cases dt <;> decide
    rw [hn, hb] at h
    split at h
    · cases h
    · next c =>
      obtain ⟨u, eu, h⟩ := Option.bind_eq_some_iff.mp h
      obtain ⟨v, ev, h⟩ := Option.bind_eq_some_iff.mp h
      cases h
      obtain ⟨-, -, u2, u3⟩ := interpolate_val _ _ _ _ _ _ eu
      obtain ⟨v0, v1, v2, v3⟩ := interpolate_val _ _ _ _ _ _ ev
      rw [Nat.sub_zero] at u3
      exact ⟨pitch.toNat, u, v, by omega, v0, u2, v2, u3, v3, rfl⟩

theorem toI16_within (v : Int) (h : -32768 ≤ v ∧ v ≤ 32767) : toI16 v = v := by unfold toI16; omega

theorem toI32_within (v : Int) (h : -2147483648 ≤ v ∧ v ≤ 2147483647) : toI32 v = v := by unfold toI32; omega

/-- The samples interpolated do not wrap when the signal is under 32661 in magnitude, nor at the fractions other than 0. -/
theorem fracSample_range (x : List Int) (p d : Nat) (hd : d < 4) (m : Int) (hm : 0 ≤ m) (hx : ∀ v ∈ x, -m ≤ v ∧ v ≤ m) (h : m ≤ 32660 ∨ (d ≠ 0 ∧ m ≤ 32768)) :
    -32767 ≤ fracSample x p d ∧ fracSample x p d ≤ 32767 := by
  have hg : ∀ j, -m ≤ x.getD j 0 ∧ x.getD j 0 ≤ m := by
    intro j
    rcases Nat.lt_or_ge j x.length with c | c
    · rw [List.getD_eq_getElem _ _ c]; exact hx _ (List.getElem_mem c)
    · rw [List.getD_eq_default _ _ c]; omega
  have a0 := hg (p + 1 - 0); have a1 := hg (p + 1 - 1); have a2 := hg (p + 1 - 2); have a3 := hg (p + 1 - 3)
  unfold fracSample
  rw [Finset.sum_range_succ, Finset.sum_range_succ, Finset.sum_range_succ, Finset.sum_range_succ, Finset.sum_range_zero]
  generalize x.getD (p + 1 - 0) 0 = b0 at *
  generalize x.getD (p + 1 - 1) 0 = b1 at *
  generalize x.getD (p + 1 - 2) 0 = b2 at *
  generalize x.getD (p + 1 - 3) 0 = b3 at *
  have hc : (fracTap d 0 = 6877 ∧ fracTap d 1 = 19121 ∧ fracTap d 2 = 6877 ∧ fracTap d 3 = 0 ∧ d = 0) ∨
      (fracTap d 0 = 3506 ∧ fracTap d 1 = 18025 ∧ fracTap d 2 = 11000 ∧ fracTap d 3 = 220 ∧ d ≠ 0) ∨
      (fracTap d 0 = 1300 ∧ fracTap d 1 = 15048 ∧ fracTap d 2 = 15048 ∧ fracTap d 3 = 1300 ∧ d ≠ 0) ∨
      (fracTap d 0 = 220 ∧ fracTap d 1 = 11000 ∧ fracTap d 2 = 18025 ∧ fracTap d 3 = 3506 ∧ d ≠ 0) := by
    have : ∀ d < 4, (fracTap d 0 = 6877 ∧ fracTap d 1 = 19121 ∧ fracTap d 2 = 6877 ∧ fracTap d 3 = 0 ∧ d = 0) ∨
      (fracTap d 0 = 3506 ∧ fracTap d 1 = 18025 ∧ fracTap d 2 = 11000 ∧ fracTap d 3 = 220 ∧ d ≠ 0) ∨
      (fracTap d 0 = 1300 ∧ fracTap d 1 = 15048 ∧ fracTap d 2 = 15048 ∧ fracTap d 3 = 1300 ∧ d ≠ 0) ∨
      (fracTap d 0 = 220 ∧ fracTap d 1 = 11000 ∧ fracTap d 2 = 18025 ∧ fracTap d 3 = 3506 ∧ d ≠ 0) := by decide
    exact this d hd
  rcases hc with ⟨h0, h1, h2, h3, h4⟩ | ⟨h0, h1, h2, h3, h4⟩ | ⟨h0, h1, h2, h3, h4⟩ | ⟨h0, h1, h2, h3, h4⟩ <;> rw [h0, h1, h2, h3] <;> omega

theorem crossSum_bound (n : Nat) (a b : Nat → Int) (ha : ∀ i < n, -32767 ≤ a i ∧ a i ≤ 32767) (hb : ∀ i < n, -32767 ≤ b i ∧ b i ≤ 32767) :
    -(n * 1073676289 : Int) ≤ crossSum n a b ∧ crossSum n a b ≤ n * 1073676289 := by
  unfold crossSum
  induction n with
  | zero => simp
  | succ n ih =>
    rw [Finset.sum_range_succ]
    obtain ⟨i1, i2⟩ := ih (fun i hi => ha i (by omega)) (fun i hi => hb i (by omega))
    obtain ⟨a1, a2⟩ := ha n (by omega)
    obtain ⟨b1, b2⟩ := hb n (by omega)
    have h : -1073676289 ≤ a n * b n ∧ a n * b n ≤ 1073676289 := by constructor <;> nlinarith
    push_cast
    constructor <;> linarith [h.1, h.2]

theorem dotI_val {R : Type} (A : Arith R) (n : Nat) (hn : n ≤ 128) (u v : List Int) (a b : Nat → Int) (hu : u.length = n) (hv : v.length = n)
    (eu : ∀ i < n, u.getD i 0 = a i) (ev : ∀ i < n, v.getD i 0 = b i) (ha : ∀ i < n, -32767 ≤ a i ∧ a i ≤ 32767) (hb : ∀ i < n, -32767 ≤ b i ∧ b i ≤ 32767) :
    dotI A u v = A.ofInt ((crossSum n a b + 32) / 64) := by
  unfold dotI
  rw [zipWith_sum_range u v n hu hv]
  have e : ∑ m ∈ Finset.range n, u.getD m 0 * v.getD m 0 = crossSum n a b :=
    Finset.sum_congr rfl fun m hm => by rw [eu m (Finset.mem_range.mp hm), ev m (Finset.mem_range.mp hm)]
  rw [e]
  obtain ⟨h1, h2⟩ := crossSum_bound n a b ha hb
  rw [toI32_within]
  have : (n : Int) ≤ 128 := by exact_mod_cast hn
  omega

/-- **C83**, the part that holds: when the signal at 12.8 kHz is under 32661 in magnitude, the correlation retained for a frame with a pitch is the one of
the signal `u` of the frame, delayed by the analysis, with the signal `v` one pitch lag before, interpolated at its fraction, divided by the square root of the
product of their energies; the sums are exact, rounded to 6 bits less. Without a pitch it is 0. What is missing is the wrap of the signal `u` at full scale, see
`C83_refuted`. -/
theorem C83_correlation_partial {R : Type} (A : Arith R) (sqrtf : R → R) (dt : Dt) (sr : Srate) (s s' : LtpfA R) (buf : List Int) (base : Nat) (o : LtpfOut)
    (h : ltpfAnalyse A sqrtf dt sr s buf base = some (o, s')) (hx : ∀ v ∈ s'.x12k8, -32660 ≤ v ∧ v ≤ 32660) :
    let n := corrLength dt
    let b := 384 - corrDelay dt - n
    let sum := fun f g : Nat → Int => A.ofInt ((crossSum n f g + 32) / 64)
    (o.present = true → ∃ p : Nat, s'.pitch = p ∧
      (let u := fun i => fracSample s'.x12k8 (b + i) 0
       let v := fun i => fracSample s'.x12k8 (b - p / 4 + i) (p % 4)
       s'.nc0 = A.div (sum u v) (sqrtf (A.mul (sum u u) (sum v v))))) ∧
    (o.present = false → s'.nc0 = A.ofInt 0) := by
  intro n b sum
  unfold ltpfAnalyse at h
  obtain ⟨r, er, h⟩ := Option.bind_eq_some_iff.mp h
  obtain ⟨⟨present, index, pitch, nc, tc⟩, ep, h⟩ := Option.bind_eq_some_iff.mp h
  cases h
  dsimp only at hx ⊢
  constructor
  · intro hp
    subst hp
    obtain ⟨p, u, v, h1, h2, h3, h4, h5, h6, h7⟩ := ltpfPitch_present ep
    refine ⟨p, h1, ?_⟩
    have hN : n ≤ 128 := by show corrLength dt ≤ 128; cases dt <;> decide
    have ru : ∀ i < n, -32767 ≤ fracSample r.x12k8 (b + i) 0 ∧ fracSample r.x12k8 (b + i) 0 ≤ 32767 := fun i _ =>
      fracSample_range _ _ 0 (by omega) 32660 (by omega) hx (Or.inl (by omega))
    have rv : ∀ i < n, -32767 ≤ fracSample r.x12k8 (b - p / 4 + i) (p % 4) ∧ fracSample r.x12k8 (b - p / 4 + i) (p % 4) ≤ 32767 := fun i _ =>
      fracSample_range _ _ _ (by omega) 32660 (by omega) hx (Or.inl (by omega))
    have eu : ∀ i < n, u.getD i 0 = fracSample r.x12k8 (b + i) 0 := fun i hi => by
      rw [h5 i hi, toI16_within _ ⟨by have := ru i hi; omega, (ru i hi).2⟩]
    have ev : ∀ i < n, v.getD i 0 = fracSample r.x12k8 (b - p / 4 + i) (p % 4) := fun i hi => by
      rw [h6 i hi, toI16_within _ ⟨by have := rv i hi; omega, (rv i hi).2⟩]
    rw [h7, dotI_val A n hN u v _ _ h3 h4 eu ev ru rv, dotI_val A n hN u u _ _ h3 h3 eu eu ru ru, dotI_val A n hN v v _ _ h4 h4 ev ev rv rv]
  · intro hp
    subst hp
    unfold ltpfPitch at ep
    dsimp only at ep
    obtain ⟨⟨p, lag, t⟩, -, ep⟩ := Option.bind_eq_some_iff.mp ep
    dsimp only at ep
    cases p with
    | false =>
      rw [if_neg (by decide)] at ep
      cases ep
      rfl
    | true =>
      rw [if_pos rfl] at ep
      obtain ⟨⟨a, b⟩, -, ep⟩ := Option.bind_eq_some_iff.mp ep
      dsimp only at ep
      generalize (1 + dt.idx) * 32 + (if dt = Dt.m2_5 then (1 + dt.idx) * 32 else 0) = N at ep
      split at ep
      · cases ep
      · obtain ⟨u, -, ep⟩ := Option.bind_eq_some_iff.mp ep
        obtain ⟨v, -, ep⟩ := Option.bind_eq_some_iff.mp ep
        cases ep

/-- A first frame of 10 ms at 8 kHz, preceded by the zeroes of the setup: a square signal with a period of 30 samples. -/
def squareWave : List Int := List.replicate 10 0 ++ (List.range 80).map fun i => if i % 30 < 15 then (8000 : Int) else -8000

/-- The hypotheses are met, with a pitch of 48 samples at 12.8 kHz, in exact arithmetic with a rounded square root. -/
example : (match ltpfAnalyse Arith.exact (fun v => (Nat.sqrt v.num.toNat : Rat)) .m10 .k8 (LtpfA.init Arith.exact) squareWave (nt .k8) with
    | none => false
    | some (o, s) => o.present && s.pitch == 192 && s.x12k8.all fun v => decide (-32660 ≤ v ∧ v ≤ 32660)) = true := by decide +kernel

/-- A first frame of 10 ms at 16 kHz, preceded by the zeroes of the setup: a transition between the extreme values, shaped. -/
def fullStep : List Int := List.replicate 20 0 ++ List.replicate 100 (-32768) ++ [-17375, 11720, 27343, 29855, 32119, 32767, 32767, 32767, 32603] ++
  List.replicate 51 32767

/-- The values of the resampling of `fullStep`, and of the interpolation. -/
theorem fullStep_check : ∃ y hp y6 u, resample (resampler .k16) fullStep 20 128 0 ⟨0, 0⟩ = some (y, hp) ∧
    resample6k4 (List.replicate 256 0 ++ y) 232 64 0 = some y6 ∧
    interpolate (List.replicate 256 0 ++ y) 232 0 128 0 = some u ∧
    fracSample (List.replicate 256 0 ++ y) (232 + 115) 0 = 32789 ∧ u.getD 115 0 = -32747 := by
  have h : (match resample (resampler .k16) fullStep 20 128 0 ⟨0, 0⟩ with
    | none => false
    | some (y, _) => (resample6k4 (List.replicate 256 0 ++ y) 232 64 0).isSome &&
      (match interpolate (List.replicate 256 0 ++ y) 232 0 128 0 with
        | none => false
        | some u => decide (((6877 : Int) * (List.replicate 256 0 ++ y).getD 348 0 + 19121 * (List.replicate 256 0 ++ y).getD 347 0 +
            6877 * (List.replicate 256 0 ++ y).getD 346 0) / 32768 = 32789 ∧ u.getD 115 0 = -32747))) = true := by decide +kernel
  cases e1 : resample (resampler .k16) fullStep 20 128 0 ⟨0, 0⟩ with
  | none => rw [e1] at h; cases h
  | some q =>
    obtain ⟨y, hp⟩ := q
    rw [e1] at h
    dsimp only at h
    rw [Bool.and_eq_true] at h
    obtain ⟨y6, e2⟩ := Option.isSome_iff_exists.mp h.1
    cases e3 : interpolate (List.replicate 256 0 ++ y) 232 0 128 0 with
    | none => rw [e3] at h; cases h.2
    | some u =>
      rw [e3] at h
      have h2 := of_decide_eq_true h.2
      refine ⟨y, hp, y6, u, rfl, e2, e3, ?_, h2.2⟩
      have h3 := h2.1
      clear h2 h e1 e2 e3
      generalize (List.replicate 256 0 ++ y) = Y at *
      unfold fracSample
      rw [Finset.sum_range_succ, Finset.sum_range_succ, Finset.sum_range_succ, Finset.sum_range_succ, Finset.sum_range_zero]
      have t0 : fracTap 0 0 = 6877 ∧ fracTap 0 1 = 19121 ∧ fracTap 0 2 = 6877 ∧ fracTap 0 3 = 0 := by decide
      rw [t0.1, t0.2.1, t0.2.2.1, t0.2.2.2]
      simp only [Nat.reduceAdd, Nat.reduceSub, zero_mul, add_zero, zero_add]
      exact h3

/-- **C83**, refuted at full scale: from the state of the setup, the resampling of a signal of 16 bits is defined, and the interpolation of the signal at
12.8 kHz wraps: a value of 32789 becomes -32747. -/
theorem C83_refuted {R : Type} (A : Arith R) : (∀ v ∈ fullStep, -32768 ≤ v ∧ v ≤ 32767) ∧ fullStep.length = nt .k16 + ns .m10 .k16 ∧
    ∃ s u, ltpfResample .m10 .k16 (LtpfA.init A) fullStep (nt .k16) = some s ∧
      interpolate s.x12k8 (384 - corrDelay .m10 - corrLength .m10) 0 (corrLength .m10) 0 = some u ∧
      ∃ i < corrLength .m10, fracSample s.x12k8 (384 - corrDelay .m10 - corrLength .m10 + i) 0 = 32789 ∧ u.getD i 0 = -32747 := by
  refine ⟨by decide +kernel, by decide +kernel, ?_⟩
  obtain ⟨y, hp, y6, u, e1, e2, e3, e4⟩ := fullStep_check
  refine ⟨{ LtpfA.init A with hp50 := hp, x12k8 := List.replicate 256 0 ++ y, x6k4 := (List.replicate 178 (0 : Int)).drop 64 ++ y6 }, u, ?_, e3, 115, by decide, e4⟩
  unfold ltpfResample
  dsimp only
  have e0 : resample (resampler .k16) fullStep (nt .k16) ((1 + Dt.m10.idx) * 32) 0 (LtpfA.init A).hp50 = some (y, hp) := e1
  rw [e0, Option.bind_eq_bind, Option.bind_some]
  dsimp only
  have e5 : resample6k4 ((LtpfA.init A).x12k8.drop ((1 + Dt.m10.idx) * 32) ++ y) (384 - (1 + Dt.m10.idx) * 32 - if Dt.m10 = Dt.m7_5 then 44 else 24)
      ((1 + Dt.m10.idx) * 32 / 2) 0 = some y6 := e2
  rw [e5]
  rfl

end LC3
