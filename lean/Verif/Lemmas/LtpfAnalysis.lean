import Verif.Model.Ltpf
import Verif.Lemmas.LtpfFilter

/-
Lemmas on the analysis of the long term postfilter: accesses in the arrays, overflows, and range of the pitch.
-/

namespace LC3

/-- Value of an `int16_t`. -/
def I16 (x : Int) : Prop := -32768 ≤ x ∧ x ≤ 32767

/-- List of `int16_t`. -/
def All16 (l : List Int) : Prop := ∀ x ∈ l, I16 x

theorem toI16_range (v : Int) : I16 (toI16 v) := by unfold I16 toI16; omega

theorem mem_slice {α : Type} {l : List α} {base back n : Nat} {m : List α}
    (h : slice? l base back n = some m) (x : α) (hx : x ∈ m) : x ∈ l := by
  unfold slice? at h
  by_cases c : back ≤ base ∧ base - back + n ≤ l.length
  · rw [if_pos c] at h
    have : m = (l.drop (base - back)).take n := (Option.some.inj h).symm
    rw [this] at hx
    exact List.mem_of_mem_drop (List.mem_of_mem_take hx)
  · rw [if_neg c] at h; cases h

theorem All16.slice {l : List Int} {base back n : Nat} {m : List Int} (hl : All16 l)
    (h : slice? l base back n = some m) : All16 m := fun x hx => hl x (mem_slice h x hx)

/-- Sum of the magnitudes. -/
def absSum : List Int → Int
  | [] => 0
  | h :: l => h.natAbs + absSum l

theorem absSum_nonneg : ∀ l, 0 ≤ absSum l
  | [] => by simp [absSum]
  | h :: l => by have := absSum_nonneg l; simp only [absSum]; omega

theorem mul_bound (x h : Int) (hx : I16 x) : -(32768 * (h.natAbs : Int)) ≤ x * h ∧ x * h ≤ 32768 * (h.natAbs : Int) := by
  have h1 : (x * h).natAbs ≤ 32768 * h.natAbs := by
    rw [Int.natAbs_mul]
    apply Nat.mul_le_mul_right
    unfold I16 at hx; omega
  omega

theorem accumulate_some : ∀ (xs hs : List Int) (un : Int), All16 xs →
    (un.natAbs : Int) + 32768 * absSum hs ≤ 2147483647 →
    ∃ v, accumulate un xs hs = some v ∧ (v.natAbs : Int) ≤ un.natAbs + 32768 * absSum hs
  | [], hs, un, _, _ => by
    have := absSum_nonneg hs
    refine ⟨un, ?_, by omega⟩
    cases hs <;> rfl
  | x :: xs, [], un, _, _ => ⟨un, rfl, by simp [absSum]⟩
  | x :: xs, h :: hs, un, hx, hb => by
    have h0 := absSum_nonneg hs
    simp only [absSum] at hb ⊢
    have h1 := mul_bound x h (hx x (List.mem_cons_self ..))
    unfold accumulate
    simp only [Option.bind_eq_bind]
    rw [i32_ok _ (by omega) (by omega), Option.bind_some, i32_ok _ (by omega) (by omega), Option.bind_some]
    obtain ⟨v, e, hv⟩ := accumulate_some xs hs (un + x * h) (fun y hy => hx y (List.mem_cons_of_mem _ hy)) (by omega)
    exact ⟨v, e, by omega⟩

/-- All the rates. -/
def allRates : List Srate := [.k8, .k16, .k24, .k32, .k48, .k48hr, .k96hr]

theorem mem_allRates (sr : Srate) : sr ∈ allRates := by cases sr <;> simp [allRates]

theorem rows_all : allRates.all (fun sr => let r := resampler sr
    decide (0 < r.p) && decide (r.h.length = r.p * r.w) && decide (1 ≤ r.w) && decide (r.w - 1 ≤ nt sr) &&
    (List.range r.p).all fun k => decide (absSum ((r.h.drop (k * r.w)).take r.w) ≤ 65535)) = true := by
  decide +kernel

theorem rows (sr : Srate) : 0 < (resampler sr).p ∧ (resampler sr).h.length = (resampler sr).p * (resampler sr).w ∧
    1 ≤ (resampler sr).w ∧ (resampler sr).w - 1 ≤ nt sr ∧ ∀ k < (resampler sr).p,
      absSum (((resampler sr).h.drop (k * (resampler sr).w)).take (resampler sr).w) ≤ 65535 := by
  have := List.all_eq_true.mp rows_all sr (mem_allRates sr)
  simp only [Bool.and_eq_true, decide_eq_true_eq, List.all_eq_true, List.mem_range] at this
  exact ⟨this.1.1.1.1, this.1.1.1.2, this.1.1.2, this.1.2, this.2⟩

/-- Position of the last input sample of an output sample, within the frame. -/
theorem pos_all : allRates.all (fun sr => [Dt.m2_5, .m5, .m7_5, .m10].all fun dt =>
    (List.range ((1 + dt.idx) * 32)).all fun n =>
      decide ((resampler sr).inc * n / (resampler sr).p < ns dt sr)) = true := by decide +kernel

theorem pos_lt (dt : Dt) (sr : Srate) (n : Nat) (hn : n < (1 + dt.idx) * 32) :
    (resampler sr).inc * n / (resampler sr).p < ns dt sr := by
  have := List.all_eq_true.mp pos_all sr (mem_allRates sr)
  have := List.all_eq_true.mp this dt (by cases dt <;> simp)
  have := List.all_eq_true.mp this n (List.mem_range.mpr hn)
  simpa using this

theorem resampleAcc_some (dt : Dt) (sr : Srate) (buf : List Int) (base n : Nat) (hb : All16 buf)
    (h1 : nt sr ≤ base) (h2 : base + ns dt sr ≤ buf.length) (hn : n < (1 + dt.idx) * 32) :
    ∃ v, resampleAcc (resampler sr) buf base n = some v ∧ (v.natAbs : Int) ≤ 32768 * 65535 := by
  obtain ⟨r1, r2, r3, r4, r5⟩ := rows sr
  have hp := pos_lt dt sr n hn
  unfold resampleAcc
  dsimp only
  have hk := Nat.mod_lt ((resampler sr).inc * n) r1
  have hrow := r5 _ hk
  have hkw : ((resampler sr).inc * n % (resampler sr).p) * (resampler sr).w + (resampler sr).w ≤
      (resampler sr).h.length := by
    rw [r2, ← Nat.succ_mul]
    exact Nat.mul_le_mul_right _ hk
  obtain ⟨s1, -⟩ := slice?_eq (resampler sr).h ((resampler sr).inc * n % (resampler sr).p * (resampler sr).w) 0
    (resampler sr).w (Nat.zero_le _) (by omega)
  generalize (resampler sr).inc * n / (resampler sr).p = j at *
  obtain ⟨s2, -⟩ := slice?_eq buf (base + j) ((resampler sr).w - 1) (resampler sr).w (by omega) (by omega)
  rw [s1, s2]
  simp only [Option.bind_eq_bind, Option.bind_some, Nat.sub_zero]
  obtain ⟨v, e, hv⟩ := accumulate_some _ _ 0 (hb.slice s2) (show _ + 32768 * absSum
    (((resampler sr).h.drop ((resampler sr).inc * n % (resampler sr).p * (resampler sr).w)).take (resampler sr).w) ≤ _ by
    simp only [Int.natAbs_zero]; omega)
  exact ⟨v, e, by simp only [Int.natAbs_zero] at hv; omega⟩

/-- The arithmetic of the high-pass filter on resampled samples: filter, then rounding to 16 bits. -/
def hpRun : List Int → Hp50 → Option (List Int × Hp50)
  | [], hp => some ([], hp)
  | un :: l, hp =>
    (filterHp50 hp un).bind fun y =>
    (i32 (y.1 + 32768)).bind fun v =>
    (hpRun l y.2).bind fun q =>
    some (toI16 (v / 65536) :: q.1, q.2)

theorem resample_eq (dt : Dt) (sr : Srate) (buf : List Int) (base : Nat) (hb : All16 buf)
    (h1 : nt sr ≤ base) (h2 : base + ns dt sr ≤ buf.length) :
    ∀ (k n : Nat) (hp : Hp50), n + k ≤ (1 + dt.idx) * 32 →
      ∃ us : List Int, us.length = k ∧ (∀ u ∈ us, (u.natAbs : Int) ≤ 32768 * 65535) ∧
        (∀ i < k, resampleAcc (resampler sr) buf base (n + i) = us[i]?) ∧
        resample (resampler sr) buf base k n hp = hpRun us hp
  | 0, n, hp, _ => ⟨[], rfl, by simp, by intro i hi; omega, rfl⟩
  | k + 1, n, hp, hk => by
    obtain ⟨v, e, hv⟩ := resampleAcc_some dt sr buf base n hb h1 h2 (by omega)
    have ih := fun hp => resample_eq dt sr buf base hb h1 h2 k (n + 1) hp (by omega)
    obtain ⟨us, e1, e2, e3, -⟩ := ih hp
    have hall : ∀ hp, resample (resampler sr) buf base k (n + 1) hp = hpRun us hp := by
      intro hp
      obtain ⟨us', f1, f2, f3, f4⟩ := ih hp
      have : us' = us := by
        apply List.ext_getElem (by omega)
        intro i a1 a2
        have := (f3 i (by omega)).symm.trans (e3 i (by omega))
        rw [List.getElem?_eq_getElem a1, List.getElem?_eq_getElem a2] at this
        exact Option.some.inj this
      rw [f4, this]
    refine ⟨v :: us, by simp [e1], ?_, ?_, ?_⟩
    · intro u hu
      rcases List.mem_cons.mp hu with h | h
      · rw [h]; exact hv
      · exact e2 u h
    · intro i hi
      cases i with
      | zero => simpa using e
      | succ i =>
        rw [List.getElem?_cons_succ, ← e3 i (by omega)]
        congr 1; omega
    · unfold resample hpRun
      rw [e]
      simp only [Option.bind_eq_bind, Option.bind_some]
      cases filterHp50 hp v with
      | none => rfl
      | some y =>
        simp only [Option.bind_some]
        cases i32 (y.1 + 32768) with
        | none => rfl
        | some t =>
          simp only [Option.bind_some, hall]
          rfl

theorem hpRun_out : ∀ (us : List Int) (hp : Hp50) (y : List Int) (hp' : Hp50), hpRun us hp = some (y, hp') →
    y.length = us.length ∧ All16 y
  | [], hp, y, hp', h => by
    have := Option.some.inj h
    have h1 : y = [] := (Prod.mk.inj this).1.symm
    subst h1
    exact ⟨rfl, fun _ h => by cases h⟩
  | u :: us, hp, y, hp', h => by
    unfold hpRun at h
    cases e1 : filterHp50 hp u with
    | none => rw [e1] at h; cases h
    | some q =>
      rw [e1, Option.bind_some] at h
      cases e2 : i32 (q.1 + 32768) with
      | none => rw [e2] at h; cases h
      | some v =>
        rw [e2, Option.bind_some] at h
        cases e3 : hpRun us q.2 with
        | none => rw [e3] at h; cases h
        | some t =>
          rw [e3, Option.bind_some] at h
          obtain ⟨l1, l2⟩ := hpRun_out us q.2 t.1 t.2 e3
          have := (Prod.mk.inj (Option.some.inj h)).1
          subst this
          refine ⟨by simp [l1], ?_⟩
          intro x hx
          rcases List.mem_cons.mp hx with hh | hh
          · rw [hh]; exact toI16_range _
          · exact l2 x hh

theorem five {α : Type} (l : List α) (h : l.length = 5) : ∃ a b c d e, l = [a, b, c, d, e] := by
  match l, h with
  | [a, b, c, d, e], _ => exact ⟨a, b, c, d, e, rfl⟩

theorem resample6k4_some (buf : List Int) (base : Nat) (hb : All16 buf) (h1 : 3 ≤ base) :
    ∀ (k n : Nat), base + 2 * (n + k) ≤ buf.length →
      ∃ y, resample6k4 buf base k n = some y ∧ y.length = k ∧ All16 y
  | 0, n, _ => ⟨[], rfl, rfl, fun _ h => by cases h⟩
  | k + 1, n, h2 => by
    obtain ⟨s1, s2⟩ := slice?_eq buf (base + 2 * n) 3 5 (by omega) (by omega)
    obtain ⟨y, e, ey, hy⟩ := resample6k4_some buf base hb h1 k (n + 1) (by omega)
    have h16 := hb.slice s1
    unfold resample6k4
    rw [s1]
    generalize (buf.drop (base + 2 * n - 3)).take 5 = l at *
    obtain ⟨a, b, c, d, f, rfl⟩ := five l s2
    have ha := h16 a (by simp)
    have hb := h16 b (by simp)
    have hc := h16 c (by simp)
    have hd := h16 d (by simp)
    have hf := h16 f (by simp)
    unfold I16 at ha hb hc hd hf
    simp only [Option.bind_eq_bind, Option.bind_some]
    rw [i32_ok _ (by omega) (by omega), Option.bind_some, i32_ok _ (by omega) (by omega), Option.bind_some,
      i32_ok _ (by omega) (by omega), Option.bind_some, i32_ok _ (by omega) (by omega), Option.bind_some,
      i32_ok _ (by omega) (by omega), Option.bind_some, e, Option.bind_some]
    refine ⟨_, rfl, by simp [ey], ?_⟩
    intro x hx
    rcases List.mem_cons.mp hx with hh | hh
    · rw [hh]; exact toI16_range _
    · exact hy x hh

theorem four {α : Type} (l : List α) (h : l.length = 4) : ∃ a b c d, l = [a, b, c, d] := by
  match l, h with
  | [a, b, c, d], _ => exact ⟨a, b, c, d, rfl⟩

theorem h4q15_rows : ∀ d < 4, ∃ h0 h1 h2 h3 : Nat, h4q15[d]? = some [(h0 : Int), h1, h2, h3] ∧
    h0 ≤ 6877 ∧ h1 ≤ 19121 ∧ h2 ≤ 18025 ∧ h3 ≤ 3506 := by
  intro d hd
  match d, hd with
  | 0, _ => exact ⟨6877, 19121, 6877, 0, rfl, by decide⟩
  | 1, _ => exact ⟨3506, 18025, 11000, 220, rfl, by decide⟩
  | 2, _ => exact ⟨1300, 15048, 15048, 1300, rfl, by decide⟩
  | 3, _ => exact ⟨220, 11000, 18025, 3506, rfl, by decide⟩

theorem mul_small (x : Int) (h c : Nat) (hx : I16 x) (hc : h ≤ c) :
    -(32768 * (c : Int)) ≤ x * h ∧ x * h ≤ 32768 * (c : Int) := by
  have := mul_bound x h hx
  omega

theorem interpolateFrom_some (buf : List Int) (base : Nat) (hb : All16 buf) (hbase : 2 ≤ base) (h0 h1 h2 h3 : Nat)
    (b0 : h0 ≤ 6877) (b1 : h1 ≤ 19121) (b2 : h2 ≤ 18025) (b3 : h3 ≤ 3506) :
    ∀ (k i : Nat), base + i + k + 1 ≤ buf.length →
      ∃ y, interpolateFrom buf base [(h0 : Int), h1, h2, h3] k i = some y ∧ y.length = k ∧ All16 y
  | 0, _, _ => ⟨[], rfl, rfl, fun _ h => by cases h⟩
  | k + 1, i, hl => by
    obtain ⟨s1, s2⟩ := slice?_eq buf (base + i) 2 4 (by omega) (by omega)
    obtain ⟨y, e, ey, hy⟩ := interpolateFrom_some buf base hb hbase h0 h1 h2 h3 b0 b1 b2 b3 k (i + 1) (by omega)
    have h16 := hb.slice s1
    unfold interpolateFrom
    rw [s1]
    generalize (buf.drop (base + i - 2)).take 4 = l at *
    obtain ⟨a, b, c, d, rfl⟩ := four l s2
    have ha := mul_small a h3 _ (h16 a (by simp)) b3
    have hb := mul_small b h2 _ (h16 b (by simp)) b2
    have hc := mul_small c h1 _ (h16 c (by simp)) b1
    have hd := mul_small d h0 _ (h16 d (by simp)) b0
    simp only [Option.bind_eq_bind, Option.bind_some]
    rw [i32_ok _ (by omega) (by omega), Option.bind_some, i32_ok _ (by omega) (by omega), Option.bind_some,
      i32_ok _ (by omega) (by omega), Option.bind_some, i32_ok _ (by omega) (by omega), Option.bind_some,
      i32_ok _ (by omega) (by omega), Option.bind_some, i32_ok _ (by omega) (by omega), Option.bind_some,
      i32_ok _ (by omega) (by omega), Option.bind_some, e, Option.bind_some]
    refine ⟨_, rfl, by simp [ey], ?_⟩
    intro x hx
    rcases List.mem_cons.mp hx with hh | hh
    · rw [hh]; exact toI16_range _
    · exact hy x hh

theorem interpolate_some (buf : List Int) (base back n d : Nat) (hb : All16 buf) (hd : d < 4) (h1 : back + 2 ≤ base)
    (h2 : base + n + 1 ≤ buf.length) : ∃ y, interpolate buf base back n d = some y ∧ y.length = n ∧ All16 y := by
  obtain ⟨h0, h1', h2', h3, e, b0, b1, b2, b3⟩ := h4q15_rows d hd
  unfold interpolate
  rw [e]
  simp only [Option.bind_eq_bind, Option.bind_some]
  rw [if_pos (by omega)]
  exact interpolateFrom_some buf (base - back) hb (by omega) h0 h1' h2' h3 b0 b1 b2 b3 n 0 (by omega)

section
variable {R : Type} (A : Arith R) (sqrtf : R → R)

theorem correlate_some (buf : List Int) (base n : Nat) (h2 : base + n ≤ buf.length) :
    ∀ (nc lag : Nat), lag + nc ≤ base + 1 → ∃ r, correlate A buf base n lag nc = some r ∧ r.length = nc
  | 0, _, _ => ⟨[], rfl, rfl⟩
  | nc + 1, lag, hl => by
    obtain ⟨s1, -⟩ := slice?_eq buf base 0 n (Nat.zero_le _) (by omega)
    obtain ⟨s2, -⟩ := slice?_eq buf base lag n (by omega) (by omega)
    obtain ⟨r, e, er⟩ := correlate_some buf base n h2 nc (lag + 1) (by omega)
    unfold correlate
    rw [s1, s2, e]
    exact ⟨_, rfl, by simp [er]⟩

theorem argmaxFrom_lt : ∀ (l : List R) (i arg : Nat) (m : R), arg < i → (argmaxFrom A i arg m l).1 < i + l.length
  | [], _, _, _, h => h
  | v :: l, i, arg, m, h => by
    unfold argmaxFrom
    by_cases c : A.lt m v
    · rw [if_pos c]
      have := argmaxFrom_lt l (i + 1) i v (by omega)
      simp only [List.length_cons]; omega
    · rw [if_neg c]
      have := argmaxFrom_lt l (i + 1) arg m (by omega)
      simp only [List.length_cons]; omega

theorem argmax_some (l : List R) (h : 0 < l.length) : ∃ q, argmax A l = some q ∧ q.1 < l.length := by
  match l, h with
  | v :: l, _ =>
    refine ⟨_, rfl, ?_⟩
    have := argmaxFrom_lt A l 1 0 v (by omega)
    simp only [List.length_cons]; omega

theorem argmaxWFrom_lt (incr : R) : ∀ (l : List R) (i arg : Nat) (m xw w : R), arg < i →
    (argmaxWFrom A incr i arg m xw w l).1 < i + l.length
  | [], _, _, _, _, _, h => h
  | v :: l, i, arg, m, xw, w, h => by
    unfold argmaxWFrom
    by_cases c : A.lt xw (A.mul v w)
    · rw [if_pos c]
      have := argmaxWFrom_lt incr l (i + 1) i v (A.mul v w) (A.add w incr) (by omega)
      simp only [List.length_cons]; omega
    · rw [if_neg c]
      have := argmaxWFrom_lt incr l (i + 1) arg m xw (A.add w incr) (by omega)
      simp only [List.length_cons]; omega

theorem argmaxW_some (incr : R) (l : List R) (h : 0 < l.length) :
    ∃ q, argmaxW A incr l = some q ∧ q.1 < l.length := by
  match l, h with
  | v :: l, _ =>
    refine ⟨_, rfl, ?_⟩
    have := argmaxWFrom_lt A incr l 1 0 v v (A.add (A.ofInt 1) incr) (by omega)
    simp only [List.length_cons]; omega

theorem detectPitch_some (buf : List Int) (base n tc : Nat) (h1 : 114 ≤ base) (h2 : base + n ≤ buf.length)
    (htc : tc ≤ 97) :
    ∃ p tc', detectPitch A sqrtf buf base n tc = some (p, 17 + tc', tc') ∧ tc' ≤ 97 := by
  unfold detectPitch
  obtain ⟨r, er, lr⟩ := correlate_some A buf base n h2 98 17 (by omega)
  obtain ⟨q1, e1, l1⟩ := argmaxW_some A (A.ofRat (-(1 / 2) / 97)) r (by omega)
  obtain ⟨s1, t1⟩ := slice?_eq r (max 0 (tc - 4)) 0 (min (98 - 1) (tc + 4) - max 0 (tc - 4) + 1) (by omega) (by omega)
  obtain ⟨q2, e2, l2⟩ := argmax_some A _ (show 0 < List.length _ by rw [t1]; omega)
  rw [t1] at l2
  obtain ⟨a1, -⟩ := slice?_eq buf base 0 n (by omega) (by omega)
  obtain ⟨a2, -⟩ := slice?_eq buf base (17 + q1.1) n (by omega) (by omega)
  obtain ⟨a3, -⟩ := slice?_eq buf base (17 + (max 0 (tc - 4) + q2.1)) n (by omega) (by omega)
  simp only [er, e1, s1, e2, a1, a2, a3, Option.bind_eq_bind, Option.bind_some]
  refine ⟨_, _, rfl, ?_⟩
  split
  · omega
  · omega

theorem h4_rows (d : Int) (_ : -3 ≤ d ∧ d ≤ 3) : ∃ h, h4[((4 + d) % 4).toNat]? = some h ∧ h.length = 8 := by
  have hk : ((4 + d) % 4).toNat < 4 := by omega
  match ((4 + d) % 4).toNat, hk with
  | 0, _ => exact ⟨_, rfl, rfl⟩
  | 1, _ => exact ⟨_, rfl, rfl⟩
  | 2, _ => exact ⟨_, rfl, rfl⟩
  | 3, _ => exact ⟨_, rfl, rfl⟩

theorem interpolateCorr_some (r : List R) (pos : Nat) (d : Int) (hd : -3 ≤ d ∧ d ≤ 3) (h1 : 4 ≤ pos)
    (h2 : pos + 5 ≤ r.length) : ∃ v, interpolateCorr A r pos d = some v := by
  obtain ⟨h, eh, lh⟩ := h4_rows d hd
  obtain ⟨s1, s2⟩ := slice?_eq r pos 4 9 h1 (by omega)
  unfold interpolateCorr
  rw [eh, s1]
  generalize (r.drop (pos - 4)).take 9 = x at *
  simp only [Option.bind_eq_bind, Option.bind_some]
  have hx : ∀ i, i < 9 → ∃ v, x[i]? = some v := fun i hi =>
    ⟨x[i]'(by omega), List.getElem?_eq_getElem (by omega)⟩
  have hh : ∀ i, i < 8 → ∃ v, h[i]? = some v := fun i hi =>
    ⟨h[i]'(by omega), List.getElem?_eq_getElem (by omega)⟩
  obtain ⟨x0, ex0⟩ := hx 0 (by omega)
  obtain ⟨x1, ex1⟩ := hx 1 (by omega)
  obtain ⟨x2, ex2⟩ := hx 2 (by omega)
  obtain ⟨x3, ex3⟩ := hx 3 (by omega)
  obtain ⟨x4, ex4⟩ := hx 4 (by omega)
  obtain ⟨x5, ex5⟩ := hx 5 (by omega)
  obtain ⟨x6, ex6⟩ := hx 6 (by omega)
  obtain ⟨x7, ex7⟩ := hx 7 (by omega)
  obtain ⟨x8, ex8⟩ := hx 8 (by omega)
  obtain ⟨y0, ey0⟩ := hh 0 (by omega)
  obtain ⟨y1, ey1⟩ := hh 1 (by omega)
  obtain ⟨y2, ey2⟩ := hh 2 (by omega)
  obtain ⟨y3, ey3⟩ := hh 3 (by omega)
  obtain ⟨y4, ey4⟩ := hh 4 (by omega)
  obtain ⟨y5, ey5⟩ := hh 5 (by omega)
  obtain ⟨y6, ey6⟩ := hh 6 (by omega)
  obtain ⟨y7, ey7⟩ := hh 7 (by omega)
  by_cases c1 : d < 0
  · simp only [if_pos c1, ex0, ex1, ex2, ex3, ex4, ex5, ex6, ex7, ex8, ey0, ey1, ey2, ey3, ey4, ey5, ey6, ey7,
      Option.bind_some, Option.map_some, pure, Nat.reduceAdd]
    exact ⟨_, rfl⟩
  · simp only [if_neg c1]
    by_cases c2 : 0 < d
    · simp only [if_pos c2, ex0, ex1, ex2, ex3, ex4, ex5, ex6, ex7, ex8, ey0, ey1, ey2, ey3, ey4, ey5, ey6, ey7,
        Option.bind_some, Option.map_some, pure, Nat.reduceAdd]
      exact ⟨_, rfl⟩
    · simp only [if_neg c2, ex0, ex1, ex2, ex3, ex4, ex5, ex6, ex7, ex8, ey0, ey1, ey2, ey3, ey4, ey5, ey6, ey7,
        Option.bind_some, Option.map_some, pure, Nat.reduceAdd]
      exact ⟨_, rfl⟩

/-- Fractions allowed around the position `e`. -/
def FracOk (e : Nat) (f : Int) : Prop :=
  -3 ≤ f ∧ f ≤ 3 ∧ (127 ≤ e → f % 2 = 0) ∧ (157 ≤ e → f = 0) ∧ (e ≤ 32 → 0 ≤ f)

theorem refineFrac_some (ic : Int → Option R) (e : Nat) (hic : ∀ d : Int, -3 ≤ d ∧ d ≤ 3 → ∃ v, ic d = some v) :
    ∀ (k i : Nat) (dm : R) (f : Int), i + k ≤ 4 → FracOk e f →
      ∃ f', refineFrac A ic e k i dm f = some f' ∧ FracOk e f'
  | 0, _, _, f, _, h => ⟨f, rfl, h⟩
  | k + 1, i, dm, f, hk, h => by
    unfold refineFrac
    by_cases c : 127 ≤ e ∧ (i % 2 = 1 ∨ 157 ≤ e)
    · rw [if_pos c]
      exact refineFrac_some ic e hic k (i + 1) dm f (by omega) h
    · rw [if_neg c]
      obtain ⟨v, ev⟩ := hic i (by omega)
      obtain ⟨v', ev'⟩ := hic (-(i : Int)) (by omega)
      have o1 : FracOk e (i : Int) := by unfold FracOk; omega
      have o2 : 32 < e → FracOk e (-(i : Int)) := by intro _; unfold FracOk; omega
      rw [ev]
      simp only [Option.bind_eq_bind, Option.bind_some]
      by_cases c1 : A.lt dm v
      · simp only [if_pos c1]
        by_cases c2 : 32 < e
        · rw [if_pos c2, ev', Option.bind_some]
          by_cases c3 : A.lt v v'
          · simp only [if_pos c3]
            exact refineFrac_some ic e hic k (i + 1) v' _ (by omega) (o2 c2)
          · simp only [if_neg c3]
            exact refineFrac_some ic e hic k (i + 1) v _ (by omega) o1
        · rw [if_neg c2]
          exact refineFrac_some ic e hic k (i + 1) v _ (by omega) o1
      · simp only [if_neg c1]
        by_cases c2 : 32 < e
        · rw [if_pos c2, ev', Option.bind_some]
          by_cases c3 : A.lt dm v'
          · simp only [if_pos c3]
            exact refineFrac_some ic e hic k (i + 1) v' _ (by omega) (o2 c2)
          · simp only [if_neg c3]
            exact refineFrac_some ic e hic k (i + 1) dm f (by omega) h
        · rw [if_neg c2]
          exact refineFrac_some ic e hic k (i + 1) dm f (by omega) h

theorem pitchIndex_spec (e : Nat) (f : Int) (h1 : 32 ≤ e) (h2 : e ≤ 228) (hf : FracOk e f) :
    ∃ p : Nat, p < 512 ∧ (pitchIndex e f).2 = (p : Int) ∧ (pitchIndex e f).1 = (indexPitch p : Int) ∧
      (pitchIndex e f).1 = 4 * e + f := by
  unfold FracOk at hf
  unfold pitchIndex indexPitch
  dsimp only
  by_cases c : f < 0
  · rw [if_pos c]
    by_cases c1 : (e : Int) - 1 < 127
    · refine ⟨(4 * ((e : Int) - 1) + (f + 4 * 1) - 128).toNat, ?_⟩
      rw [if_pos c1, if_neg (by omega), if_neg (by omega)]
      omega
    · rw [if_neg c1]
      by_cases c2 : (e : Int) - 1 < 157
      · refine ⟨(2 * ((e : Int) - 1) + (f + 4 * 1) / 2 + 126).toNat, ?_⟩
        rw [if_pos c2, if_neg (by omega), if_pos (by omega)]
        omega
      · omega
  · rw [if_neg c]
    by_cases c1 : (e : Int) - 0 < 127
    · refine ⟨(4 * ((e : Int) - 0) + (f + 4 * 0) - 128).toNat, ?_⟩
      rw [if_pos c1, if_neg (by omega), if_neg (by omega)]
      omega
    · rw [if_neg c1]
      by_cases c2 : (e : Int) - 0 < 157
      · refine ⟨(2 * ((e : Int) - 0) + (f + 4 * 0) / 2 + 126).toNat, ?_⟩
        rw [if_pos c2, if_neg (by omega), if_pos (by omega)]
        omega
      · refine ⟨((e : Int) - 0 + 283).toNat, ?_⟩
        rw [if_neg c2, if_pos (by omega)]
        omega

theorem refinePitch_some (buf : List Int) (base n tc : Nat) (h1 : 232 ≤ base) (h2 : base + n ≤ buf.length)
    (h3 : 17 ≤ tc) (h4 : tc ≤ 114) :
    ∃ p : Nat, p < 512 ∧ refinePitch A buf base n tc = some ((indexPitch p : Int), (p : Int)) ∧
      ∃ (e : Nat) (f : Int), 2 * tc ≤ e + 4 ∧ e ≤ 2 * tc + 4 ∧ FracOk e f ∧ (indexPitch p : Int) = 4 * e + f := by
  unfold refinePitch
  dsimp only
  generalize hr0 : max 32 (2 * tc - 4) = r0
  generalize hnr : min 228 (2 * tc + 4) - r0 + 1 = nr
  rw [if_neg (by omega)]
  obtain ⟨r, er, lr⟩ := correlate_some A buf base n h2 (nr + 8) (r0 - 4) (by omega)
  obtain ⟨s1, t1⟩ := slice?_eq r 4 0 nr (by omega) (by omega)
  obtain ⟨q, e1, l1⟩ := argmax_some A _ (show 0 < List.length _ by rw [t1]; omega)
  rw [t1] at l1
  rw [er]
  simp only [s1, e1, Option.bind_eq_bind, Option.bind_some]
  have hic : ∀ d : Int, -3 ≤ d ∧ d ≤ 3 → ∃ v, interpolateCorr A r (r0 + q.1 - (r0 - 4)) d = some v :=
    fun d hd => interpolateCorr_some A r _ d hd (by omega) (by omega)
  obtain ⟨dm, edm⟩ := hic 0 (by omega)
  rw [edm, Option.bind_some]
  obtain ⟨f, ef, hf⟩ := refineFrac_some A _ (r0 + q.1) hic 3 1 dm 0 (by omega) (by unfold FracOk; omega)
  rw [ef, Option.bind_some]
  obtain ⟨p, hp, e2, e3, e4⟩ := pitchIndex_spec (r0 + q.1) f (by omega) (by omega) hf
  refine ⟨p, hp, ?_, r0 + q.1, f, by omega, by omega, hf, by rw [← e3, e4]⟩
  rw [← e2, ← e3]
  rfl

/-- State of the analysis between two frames. -/
structure LtpfA.Ok (s : LtpfA R) : Prop where
  l12 : s.x12k8.length = 384
  l6 : s.x6k4.length = 178
  v12 : All16 s.x12k8
  v6 : All16 s.x6k4
  tc : s.tc ≤ 97

theorem indexPitch_range (p : Nat) (hp : p < 512) : 128 ≤ indexPitch p ∧ indexPitch p ≤ 912 := by
  unfold indexPitch
  by_cases c1 : 440 ≤ p
  · rw [if_pos c1]; omega
  · rw [if_neg c1]
    by_cases c2 : 380 ≤ p
    · rw [if_pos c2]; omega
    · rw [if_neg c2]; omega

theorem ltpfPitch_some (dt : Dt) (x12k8 x6k4 : List Int) (tc : Nat) (l12 : x12k8.length = 384)
    (l6 : x6k4.length = 178) (v12 : All16 x12k8) (htc : tc ≤ 97) :
    ∃ present index pitch nc tc', ltpfPitch A sqrtf dt x12k8 x6k4 tc = some (present, index, pitch, nc, tc') ∧
      tc' ≤ 97 ∧ (present = true → ∃ p : Nat, p < 512 ∧ index = some (p : Int) ∧ pitch = (indexPitch p : Int)) ∧
      (present = false → pitch = 0) := by
  unfold ltpfPitch
  have hb : ∃ b12 n b6 n6, ((if dt = .m2_5 then (1 + dt.idx) * 32 else 0) = 0 ∨ True) ∧
      384 - (1 + dt.idx) * 32 - (if dt = .m7_5 then 44 else 24) - (if dt = .m2_5 then (1 + dt.idx) * 32 else 0) = b12 ∧
      (1 + dt.idx) * 32 + (if dt = .m2_5 then (1 + dt.idx) * 32 else 0) = n ∧
      178 - (1 + dt.idx) * 32 / 2 - (if dt = .m2_5 then (1 + dt.idx) * 32 / 2 else 0) = b6 ∧
      (1 + dt.idx) * 32 / 2 + (if dt = .m2_5 then (1 + dt.idx) * 32 / 2 else 0) = n6 ∧
      232 ≤ b12 ∧ b12 + n + 1 ≤ 384 ∧ n ≤ 128 ∧ 114 ≤ b6 ∧ b6 + n6 ≤ 178 := by
    refine ⟨_, _, _, _, Or.inr trivial, rfl, rfl, rfl, rfl, ?_⟩
    cases dt <;> decide
  obtain ⟨b12, n, b6, n6, -, e1, e2, e3, e4, g1, g2, g3, g4, g5⟩ := hb
  dsimp only
  rw [e1, e2, e3, e4]
  obtain ⟨present, tc', ed, ht⟩ := detectPitch_some A sqrtf x6k4 b6 n6 tc g4 (by omega) htc
  rw [ed]
  simp only [Option.bind_eq_bind, Option.bind_some]
  cases present with
  | false => exact ⟨_, _, _, _, _, rfl, ht, by simp, by simp⟩
  | true =>
    obtain ⟨p, hp, er, -⟩ := refinePitch_some A x12k8 b12 n (17 + tc') g1 (by omega) (by omega) (by omega)
    have hr := indexPitch_range p hp
    rw [if_pos rfl, er]
    simp only [Option.bind_some]
    rw [if_neg (by omega)]
    obtain ⟨u, eu, -⟩ := interpolate_some x12k8 b12 0 n 0 v12 (by omega) (by omega) (by omega)
    obtain ⟨v, ev, -⟩ := interpolate_some x12k8 b12 ((indexPitch p : Int).toNat / 4) n
      ((indexPitch p : Int).toNat % 4) v12 (by omega) (by omega) (by omega)
    rw [eu, ev]
    simp only [Option.bind_some]
    exact ⟨_, _, _, _, _, rfl, ht, fun _ => ⟨p, hp, rfl, rfl⟩, by simp⟩

theorem All16.append {a b : List Int} (ha : All16 a) (hb : All16 b) : All16 (a ++ b) := by
  intro x hx
  rcases List.mem_append.mp hx with h | h
  · exact ha x h
  · exact hb x h

theorem All16.drop {a : List Int} (ha : All16 a) (n : Nat) : All16 (a.drop n) :=
  fun x hx => ha x (List.mem_of_mem_drop hx)

/-- The analysis of a frame is defined as soon as the arithmetic of the high-pass filter is. -/
theorem ltpfAnalyse_resample (dt : Dt) (sr : Srate) (s : LtpfA R) (hs : s.Ok) (buf : List Int) (base : Nat)
    (hb : All16 buf) (h1 : nt sr ≤ base) (h2 : base + ns dt sr ≤ buf.length) :
    ∃ us : List Int, us.length = (1 + dt.idx) * 32 ∧ (∀ u ∈ us, (u.natAbs : Int) ≤ 32768 * 65535) ∧
      resample (resampler sr) buf base ((1 + dt.idx) * 32) 0 s.hp50 = hpRun us s.hp50 ∧
      (hpRun us s.hp50 = none → ltpfAnalyse A sqrtf dt sr s buf base = none) ∧
      (∀ y hp, hpRun us s.hp50 = some (y, hp) → ∃ o s', ltpfAnalyse A sqrtf dt sr s buf base = some (o, s') ∧
        s'.Ok ∧ s'.hp50 = hp ∧ s'.x12k8 = s.x12k8.drop ((1 + dt.idx) * 32) ++ y ∧
        (o.present = true → ∃ p : Nat, p < 512 ∧ o.index = some (p : Int) ∧ s'.pitch = (indexPitch p : Int)) ∧
        (o.active = true → o.present = true ∧ sr.hr = false)) := by
  obtain ⟨us, u1, u2, -, u4⟩ := resample_eq dt sr buf base hb h1 h2 ((1 + dt.idx) * 32) 0 s.hp50 (by omega)
  refine ⟨us, u1, u2, u4, ?_, ?_⟩
  · intro hn
    unfold ltpfAnalyse ltpfResample
    dsimp only
    rw [u4, hn]
    rfl
  · intro y hp e
    obtain ⟨ly, vy⟩ := hpRun_out us s.hp50 y hp e
    have ln : (1 + dt.idx) * 32 ≤ 128 := by cases dt <;> decide
    have l12 : (s.x12k8.drop ((1 + dt.idx) * 32) ++ y).length = 384 := by
      rw [List.length_append, List.length_drop, hs.l12, ly, u1]; omega
    have v12 : All16 (s.x12k8.drop ((1 + dt.idx) * 32) ++ y) := (hs.v12.drop _).append vy
    obtain ⟨y6, e6, l6, v6⟩ := resample6k4_some (s.x12k8.drop ((1 + dt.idx) * 32) ++ y)
      (384 - (1 + dt.idx) * 32 - (if dt = .m7_5 then 44 else 24)) v12 (by cases dt <;> decide)
      ((1 + dt.idx) * 32 / 2) 0 (by rw [l12]; cases dt <;> decide)
    have l6' : (s.x6k4.drop ((1 + dt.idx) * 32 / 2) ++ y6).length = 178 := by
      rw [List.length_append, List.length_drop, hs.l6, l6]; omega
    obtain ⟨present, index, pitch, nc, tc', ep, ht, hpr, -⟩ := ltpfPitch_some A sqrtf dt _ _ s.tc l12 l6' v12 hs.tc
    unfold ltpfAnalyse ltpfResample
    dsimp only
    rw [u4, e]
    simp only [Option.bind_eq_bind, Option.bind_some]
    rw [e6]
    simp only [Option.bind_some, pure]
    rw [ep]
    simp only [Option.bind_some]
    refine ⟨_, _, rfl, ⟨l12, l6', v12, (hs.v6.drop _).append v6, ht⟩, rfl, rfl, hpr, ?_⟩
    intro ha
    dsimp only at ha ⊢
    unfold ltpfActive at ha
    generalize present = pr at *
    generalize sr.hr = hr at *
    cases pr <;> cases hr <;> first | exact ⟨rfl, rfl⟩ | (exfalso; revert ha; simp)

theorem ltpfAnalyse_some (dt : Dt) (sr : Srate) (s : LtpfA R) (hs : s.Ok) (buf : List Int) (base : Nat)
    (hb : All16 buf) (h1 : nt sr ≤ base) (h2 : base + ns dt sr ≤ buf.length) :
    ∃ us : List Int, us.length = (1 + dt.idx) * 32 ∧ (∀ u ∈ us, (u.natAbs : Int) ≤ 32768 * 65535) ∧
      (hpRun us s.hp50 = none → ltpfAnalyse A sqrtf dt sr s buf base = none) ∧
      (∀ y hp, hpRun us s.hp50 = some (y, hp) → ∃ o s', ltpfAnalyse A sqrtf dt sr s buf base = some (o, s') ∧
        s'.Ok ∧ s'.hp50 = hp ∧ s'.x12k8 = s.x12k8.drop ((1 + dt.idx) * 32) ++ y ∧
        (o.present = true → ∃ p : Nat, p < 512 ∧ o.index = some (p : Int) ∧ s'.pitch = (indexPitch p : Int)) ∧
        (o.active = true → o.present = true ∧ sr.hr = false)) := by
  obtain ⟨us, u1, u2, -, u3⟩ := ltpfAnalyse_resample A sqrtf dt sr s hs buf base hb h1 h2
  exact ⟨us, u1, u2, u3⟩

end

end LC3
