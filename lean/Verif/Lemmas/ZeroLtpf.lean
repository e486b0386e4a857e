import Verif.Lemmas.LtpfLevel
import Verif.Lemmas.RoundF

/-! The analysis of the pitch of digital silence, from the state of an encoder just setup. -/

namespace LC3

/-- The states reached with null samples only. -/
structure LtpfA.Zero {R : Type} (s : LtpfA R) : Prop where
  ok : s.Ok
  hp : s.hp50 = ⟨0, 0⟩
  x12 : ∀ x ∈ s.x12k8, x = 0
  x6 : ∀ x ∈ s.x6k4, x = 0

theorem LtpfA.init_zero {R : Type} (A : Arith R) : (LtpfA.init A).Zero :=
  ⟨(LtpfA.init_level A).ok, rfl, fun _ hx => List.eq_of_mem_replicate hx, fun _ hx => List.eq_of_mem_replicate hx⟩

theorem within_null {m : Int} (hm : 0 ≤ m) {l : List Int} (h : ∀ x ∈ l, x = 0) : Within m l := by
  intro x hx
  rw [h x hx]
  exact ⟨by omega, by omega⟩

theorem LtpfA.Zero.level {R : Type} {s : LtpfA R} (h : s.Zero) : s.Level :=
  ⟨h.ok, by rw [h.hp]; exact Hp50.bounded_zero, within_null (by decide) h.x12, within_null (by decide) h.x6⟩

theorem slice_null {buf w : List Int} {b k n : Nat} (h : slice? buf b k n = some w) (hb : ∀ x ∈ buf, x = 0) : ∀ x ∈ w, x = 0 :=
  fun x hx => hb x (mem_slice h x hx)

theorem dotSum_null (h : List Int) : ∀ x : List Int, (∀ v ∈ x, v = 0) → dotSum x h = 0 := by
  intro x hx
  have := dotSum_level 0 (le_refl _) x h (fun v hv => by rw [hx v hv]; decide)
  rw [zero_mul] at this
  exact abs_eq_zero.1 (le_antisymm this (abs_nonneg _))

theorem resampleAcc_null (sr : Srate) (buf : List Int) (base n : Nat) (hb : ∀ x ∈ buf, x = 0) (v : Int)
    (e : resampleAcc (resampler sr) buf base n = some v) : v = 0 := by
  unfold resampleAcc at e
  simp only [Option.bind_eq_bind, Option.bind_eq_some_iff] at e
  obtain ⟨h, -, x, ex, e⟩ := e
  have := accumulate_val _ _ _ _ e
  rw [zero_add, dotSum_null h x (slice_null ex hb)] at this
  exact this

theorem hpRun_null : ∀ us : List Int, (∀ u ∈ us, u = 0) → ∃ y, hpRun us ⟨0, 0⟩ = some (y, ⟨0, 0⟩) ∧ ∀ v ∈ y, v = 0 := by
  intro us
  induction us with
  | nil => exact fun _ => ⟨[], rfl, fun v hv => by cases hv⟩
  | cons u l ih =>
    intro h
    obtain ⟨y, e, hy⟩ := ih fun u hu => h u (List.mem_cons_of_mem _ hu)
    have hf : filterHp50 ⟨0, 0⟩ 0 = some (0, ⟨0, 0⟩) := by decide
    refine ⟨0 :: y, ?_, ?_⟩
    · unfold hpRun
      rw [h u (List.mem_cons_self ..), hf, Option.bind_some, show i32 ((0 : Int) + 32768) = some 32768 by decide, Option.bind_some]
      dsimp only
      rw [e]
      rfl
    · intro v hv
      rcases List.mem_cons.1 hv with rfl | hv
      · rfl
      · exact hy v hv

theorem resample6k4_null (buf : List Int) (base : Nat) (hb : ∀ x ∈ buf, x = 0) : ∀ (k n : Nat) (y : List Int),
    resample6k4 buf base k n = some y → ∀ v ∈ y, v = 0 := by
  intro k
  induction k with
  | zero => intro n y h v hv; cases h; cases hv
  | succ k ih =>
    intro n y h v hv
    unfold resample6k4 at h
    simp only [Option.bind_eq_bind, Option.bind_eq_some_iff] at h
    obtain ⟨w, hw, h⟩ := h
    have hz := slice_null hw hb
    match w, h with
    | [a, b, c, d, e], h =>
      have ea := hz a (by simp)
      have eb := hz b (by simp)
      have ec := hz c (by simp)
      have ed := hz d (by simp)
      have ee := hz e (by simp)
      subst ea eb ec ed ee
      simp only [Option.bind_eq_some_iff] at h
      obtain ⟨t0, h0, t1, h1, t2, h2, s, h3, s', h4, l, hl, h⟩ := h
      have z : ∀ {x : Int}, i32 (0 : Int) = some x → x = 0 := fun h => by
        rw [show i32 (0 : Int) = some 0 by decide] at h; exact (Option.some.inj h).symm
      have e0 := z h0
      have e1 := z h1
      have e2 := z h2
      subst e0 e1 e2
      have e3 := z h3
      subst e3
      have e4 := z h4
      subst e4
      cases h
      rcases List.mem_cons.1 hv with rfl | hv
      · decide
      · exact ih _ _ hl v hv

section
variable {R : Type} (A : Arith R)

theorem dotI_null (a b : List Int) (ha : ∀ x ∈ a, x = 0) : dotI A a b = A.ofInt 0 := by
  have : (List.zipWith (· * ·) a b).sum = 0 := by
    induction a generalizing b with
    | nil => rfl
    | cons x a ih =>
      cases b with
      | nil => rfl
      | cons y b =>
        rw [List.zipWith_cons_cons, List.sum_cons, ih b fun v hv => ha v (List.mem_cons_of_mem _ hv), ha x (List.mem_cons_self ..)]
        norm_num
  unfold dotI
  rw [this]
  rfl

theorem correlate_null (buf : List Int) (base n : Nat) (hb : ∀ x ∈ buf, x = 0) : ∀ (k lag : Nat) (r : List R),
    correlate A buf base n lag k = some r → ∀ v ∈ r, v = A.ofInt 0 := by
  intro k
  induction k with
  | zero => intro lag r h v hv; cases h; cases hv
  | succ k ih =>
    intro lag r h v hv
    unfold correlate at h
    simp only [Option.bind_eq_bind, Option.bind_eq_some_iff] at h
    obtain ⟨a, ha, b, -, l, hl, h⟩ := h
    cases h
    rcases List.mem_cons.1 hv with rfl | hv
    · exact dotI_null A a b (slice_null ha hb)
    · exact ih _ _ hl v hv

theorem argmaxFrom_const (z : R) : ∀ (l : List R) (i arg : Nat), (∀ v ∈ l, v = z) → (argmaxFrom A i arg z l).2 = z := by
  intro l
  induction l with
  | nil => intros; rfl
  | cons v l ih =>
    intro i arg h
    unfold argmaxFrom
    rw [h v (List.mem_cons_self ..)]
    split <;> exact ih _ _ fun w hw => h w (List.mem_cons_of_mem _ hw)

theorem argmaxWFrom_const (incr z : R) : ∀ (l : List R) (i arg : Nat) (xw w : R), (∀ v ∈ l, v = z) → (argmaxWFrom A incr i arg z xw w l).2 = z := by
  intro l
  induction l with
  | nil => intros; rfl
  | cons v l ih =>
    intro i arg xw w h
    unfold argmaxWFrom
    rw [h v (List.mem_cons_self ..)]
    split <;> exact ih _ _ _ _ fun w hw => h w (List.mem_cons_of_mem _ hw)

/-- No pitch is detected on null samples. -/
theorem detectPitch_null (h0 : A.le (A.ofInt 0) (A.ofInt 0) = true) (h6 : A.lt (A.ofRat (6 / 10)) (A.ofInt 0) = false) (sqrtf : R → R)
    (buf : List Int) (hb : ∀ x ∈ buf, x = 0) (base n tc : Nat) (o : Bool × Nat × Nat) (h : detectPitch A sqrtf buf base n tc = some o) : o.1 = false := by
  unfold detectPitch at h
  simp only [Option.bind_eq_bind, Option.bind_eq_some_iff] at h
  obtain ⟨r, hr, ⟨t1, rm1⟩, h1, rk, hrk, ⟨t2, rm2⟩, h2, x, -, x1, -, x2, -, h⟩ := h
  have hz := correlate_null A buf base n hb _ _ r hr
  have hzk : ∀ v ∈ rk, v = A.ofInt 0 := fun v hv => hz v (mem_slice hrk v hv)
  have e1 : rm1 = A.ofInt 0 := by
    cases r with
    | nil => cases h1
    | cons v l =>
      have e := Option.some.inj h1
      have := argmaxWFrom_const A (A.ofRat (-(1 / 2) / 97)) (A.ofInt 0) l 1 0 (A.ofInt 0) (A.add (A.ofInt 1) (A.ofRat (-(1 / 2) / 97)))
        fun w hw => hz w (List.mem_cons_of_mem _ hw)
      rw [hz v (List.mem_cons_self ..)] at e
      rw [e] at this
      exact this
  have e2 : rm2 = A.ofInt 0 := by
    cases rk with
    | nil => cases h2
    | cons v l =>
      have e := Option.some.inj h2
      have := argmaxFrom_const A (A.ofInt 0) l 1 0 fun w hw => hzk w (List.mem_cons_of_mem _ hw)
      rw [hzk v (List.mem_cons_self ..)] at e
      rw [e] at this
      exact this
  subst e1 e2
  have hn : ∀ d d1, normCorr A sqrtf (A.ofInt 0) d d1 = A.ofInt 0 := fun d d1 => by unfold normCorr; rw [if_pos h0]
  rw [← Option.some.inj h]
  dsimp only
  rw [hn, hn, ite_self, h6]

/-- The analysis of null samples: no pitch, and the state remains null. -/
theorem ltpfAnalyse_null (h0 : A.le (A.ofInt 0) (A.ofInt 0) = true) (h6 : A.lt (A.ofRat (6 / 10)) (A.ofInt 0) = false) (sqrtf : R → R)
    (dt : Dt) (sr : Srate) (s : LtpfA R) (hs : s.Zero) (buf : List Int) (base : Nat) (hb : ∀ x ∈ buf, x = 0) (h1 : nt sr ≤ base)
    (h2 : base + ns dt sr ≤ buf.length) :
    ∃ o s', ltpfAnalyse A sqrtf dt sr s buf base = some (o, s') ∧ o.present = false ∧ o.active = false ∧ s'.Zero := by
  have hl : ∀ x ∈ buf, |x| ≤ 15600 := fun x hx => by rw [hb x hx]; decide
  obtain ⟨-, o, s', g1, g2⟩ := ltpfAnalyse_level A sqrtf dt sr s hs.level buf base hl h1 h2
  refine ⟨o, s', g1, ?_⟩
  obtain ⟨us, u1, u2, u3, u4⟩ := resample_eq dt sr buf base (all16_of_level hl) h1 h2 ((1 + dt.idx) * 32) 0 s.hp50 (by omega)
  have hu : ∀ u ∈ us, u = 0 := by
    intro u hu
    obtain ⟨i, hi, rfl⟩ := List.mem_iff_getElem.mp hu
    have := u3 i (by omega)
    rw [List.getElem?_eq_getElem hi] at this
    exact resampleAcc_null sr buf base _ hb _ this
  obtain ⟨y, f1, f2⟩ := hpRun_null us hu
  rw [hs.hp, f1] at u4
  unfold ltpfAnalyse at g1
  simp only [Option.bind_eq_bind, Option.bind_eq_some_iff] at g1
  obtain ⟨r, er, ⟨present, index, pitch, nc, tc⟩, ep, g1⟩ := g1
  unfold ltpfResample at er
  dsimp only at er
  rw [hs.hp, u4] at er
  simp only [Option.bind_eq_bind, Option.bind_some, Option.bind_eq_some_iff] at er
  obtain ⟨y6, e6, er⟩ := er
  have z12 : ∀ x ∈ s.x12k8.drop ((1 + dt.idx) * 32) ++ y, x = 0 := by
    intro x hx
    rcases List.mem_append.1 hx with hx | hx
    · exact hs.x12 x (List.mem_of_mem_drop hx)
    · exact f2 x hx
  have z6 : ∀ x ∈ s.x6k4.drop ((1 + dt.idx) * 32 / 2) ++ y6, x = 0 := by
    intro x hx
    rcases List.mem_append.1 hx with hx | hx
    · exact hs.x6 x (List.mem_of_mem_drop hx)
    · exact resample6k4_null _ _ z12 _ _ _ e6 x hx
  cases er
  have hp : present = false := by
    unfold ltpfPitch at ep
    simp only [Option.bind_eq_bind, Option.bind_eq_some_iff] at ep
    obtain ⟨⟨pr, lag, tc'⟩, hd, ep⟩ := ep
    have hpr : pr = false := detectPitch_null A h0 h6 sqrtf _ z6 _ _ _ _ hd
    subst hpr
    rw [if_neg (by simp)] at ep
    cases ep
    rfl
  subst hp
  cases g1
  refine ⟨rfl, ?_, g2.ok, rfl, z12, z6⟩
  show ltpfActive A dt sr _ false pitch nc = false
  unfold ltpfActive
  split <;> simp

end

end LC3
