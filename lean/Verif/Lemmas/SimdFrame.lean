import Verif.Lemmas.Simd

/-! The analysis of a frame, with the functions for the ARM processors. -/

namespace LC3

section
variable {R : Type} (A : Arith R) (sqrtf : R → R) (K : LtpfKernels R) (Q : Int → Prop)

/-- The functions `dot` and `correlate` give the results of `src/ltpf.c`, on the values that satisfy `Q`. -/
structure LtpfKernels.Agree : Prop where
  dot : ∀ a b : List Int, (∀ x ∈ a, Q x) → (∀ x ∈ b, Q x) → b.length = a.length → a.length % 16 = 0 → K.dot a b = some (dotI A a b)
  corr : ∀ (buf : List Int) (base n lag nc : Nat), (∀ x ∈ buf, Q x) → base % 2 = 0 → 0 < n → n % 16 = 0 → base + n ≤ buf.length →
    0 < nc → lag + nc ≤ base + 1 → lag + nc / 4 * 4 ≤ base → K.correlate buf base n lag nc = LC3.correlate A buf base n lag nc

variable {A K Q}

theorem detectPitchK_eq (hK : K.Agree A Q) (buf : List Int) (base n tc : Nat) (h1 : 114 ≤ base) (h2 : base + n ≤ buf.length)
    (he : base % 2 = 0) (hn : 0 < n) (h16 : n % 16 = 0) (hq : ∀ x ∈ buf, Q x) (htc : tc ≤ 97) :
    detectPitchK A sqrtf K buf base n tc = detectPitch A sqrtf buf base n tc := by
  unfold detectPitchK detectPitch
  rw [hK.corr buf base n 17 98 hq he hn h16 h2 (by omega) (by omega) (by omega)]
  obtain ⟨r, er, lr⟩ := correlate_some A buf base n h2 98 17 (by omega)
  obtain ⟨q1, e1, l1⟩ := argmaxW_some A (A.ofRat (-(1 / 2) / 97)) r (by omega)
  obtain ⟨s1, t1⟩ := slice?_eq r (max 0 (tc - 4)) 0 (min (98 - 1) (tc + 4) - max 0 (tc - 4) + 1) (by omega) (by omega)
  obtain ⟨q2, e2, l2⟩ := argmax_some A _ (show 0 < List.length _ by rw [t1]; omega)
  rw [t1] at l2
  obtain ⟨a1, b1⟩ := slice?_eq buf base 0 n (by omega) (by omega)
  obtain ⟨a2, b2⟩ := slice?_eq buf base (17 + q1.1) n (by omega) (by omega)
  obtain ⟨a3, b3⟩ := slice?_eq buf base (17 + (max 0 (tc - 4) + q2.1)) n (by omega) (by omega)
  simp only [er, e1, s1, e2, a1, a2, a3, Option.bind_eq_bind, Option.bind_some]
  have hs : ∀ i, ∀ x ∈ (buf.drop i).take n, Q x := fun i x hx => hq x (List.mem_of_mem_drop (List.mem_of_mem_take hx))
  rw [hK.dot _ _ (hs _) (hs _) rfl (by rw [b1]; exact h16), hK.dot _ _ (hs _) (hs _) rfl (by rw [b2]; exact h16),
    hK.dot _ _ (hs _) (hs _) rfl (by rw [b3]; exact h16)]
  rfl

theorem refinePitchK_eq (hK : K.Agree A Q) (buf : List Int) (base n tc : Nat) (h1 : 232 ≤ base) (h2 : base + n ≤ buf.length)
    (he : base % 2 = 0) (hn : 0 < n) (h16 : n % 16 = 0) (hq : ∀ x ∈ buf, Q x) (h3 : 17 ≤ tc) (h4 : tc ≤ 114) :
    refinePitchK A K buf base n tc = refinePitch A buf base n tc := by
  unfold refinePitchK refinePitch
  dsimp only
  rw [hK.corr buf base n _ _ hq he hn h16 h2 (by omega) (by omega) (by omega)]

theorem ltpfPitchK_eq (hK : K.Agree A Q) (dt : Dt) (x12k8 x6k4 : List Int) (tc : Nat) (l12 : x12k8.length = 384)
    (l6 : x6k4.length = 178) (v12 : All16 x12k8) (htc : tc ≤ 97) (q12 : ∀ x ∈ x12k8, Q x) (q6 : ∀ x ∈ x6k4, Q x)
    (qi : ∀ base back n d u, interpolate x12k8 base back n d = some u → ∀ x ∈ u, Q x) :
    ltpfPitchK A sqrtf K dt x12k8 x6k4 tc = ltpfPitch A sqrtf dt x12k8 x6k4 tc := by
  unfold ltpfPitchK ltpfPitch
  have hb : ∃ b12 n b6 n6,
      384 - (1 + dt.idx) * 32 - (if dt = .m7_5 then 44 else 24) - (if dt = .m2_5 then (1 + dt.idx) * 32 else 0) = b12 ∧
      (1 + dt.idx) * 32 + (if dt = .m2_5 then (1 + dt.idx) * 32 else 0) = n ∧
      178 - (1 + dt.idx) * 32 / 2 - (if dt = .m2_5 then (1 + dt.idx) * 32 / 2 else 0) = b6 ∧
      (1 + dt.idx) * 32 / 2 + (if dt = .m2_5 then (1 + dt.idx) * 32 / 2 else 0) = n6 ∧
      232 ≤ b12 ∧ b12 + n + 1 ≤ 384 ∧ n ≤ 128 ∧ 114 ≤ b6 ∧ b6 + n6 ≤ 178 ∧ b12 % 2 = 0 ∧ b6 % 2 = 0 ∧ 0 < n ∧ 0 < n6 ∧
      n % 16 = 0 ∧ n6 % 16 = 0 := by
    refine ⟨_, _, _, _, rfl, rfl, rfl, rfl, ?_⟩
    cases dt <;> decide
  obtain ⟨b12, n, b6, n6, e1, e2, e3, e4, g1, g2, g3, g4, g5, g6, g7, g8, g9, g10, g11⟩ := hb
  dsimp only
  rw [e1, e2, e3, e4, detectPitchK_eq sqrtf hK x6k4 b6 n6 tc g4 (by omega) g7 g9 g11 q6 htc]
  obtain ⟨present, tc', ed, ht⟩ := detectPitch_some A sqrtf x6k4 b6 n6 tc g4 (by omega) htc
  rw [ed]
  simp only [Option.bind_eq_bind, Option.bind_some]
  cases present with
  | false => rfl
  | true =>
    rw [refinePitchK_eq hK x12k8 b12 n (17 + tc') g1 (by omega) g6 g8 g10 q12 (by omega) (by omega)]
    obtain ⟨p, hp, er, -⟩ := refinePitch_some A x12k8 b12 n (17 + tc') g1 (by omega) (by omega) (by omega)
    have hr := indexPitch_range p hp
    rw [if_pos rfl, if_pos rfl, er]
    simp only [Option.bind_some]
    rw [if_neg (by omega), if_neg (by omega)]
    obtain ⟨u, eu, lu, -⟩ := interpolate_some x12k8 b12 0 n 0 v12 (by omega) (by omega) (by omega)
    obtain ⟨v, ev, lv, -⟩ := interpolate_some x12k8 b12 ((indexPitch p : Int).toNat / 4) n
      ((indexPitch p : Int).toNat % 4) v12 (by omega) (by omega) (by omega)
    have qu := qi _ _ _ _ _ eu
    have qv := qi _ _ _ _ _ ev
    rw [eu, ev]
    simp only [Option.bind_some]
    rw [hK.dot u v qu qv (lv.trans lu.symm) (by rw [lu]; exact g10), hK.dot u u qu qu rfl (by rw [lu]; exact g10),
      hK.dot v v qv qv rfl (by rw [lv]; exact g10)]
    rfl

theorem resampleK_eq (dt : Dt) (sr : Srate) (buf : List Int) (base : Nat)
    (ha : ∀ n, n < (1 + dt.idx) * 32 → K.acc sr buf base n = resampleAcc (resampler sr) buf base n) :
    ∀ (k n : Nat) (hp : Hp50), n + k ≤ (1 + dt.idx) * 32 → resampleK K sr buf base k n hp = resample (resampler sr) buf base k n hp
  | 0, _, _, _ => rfl
  | k + 1, n, hp, h => by
    unfold resampleK resample
    rw [ha n (by omega)]
    have := fun hp => resampleK_eq dt sr buf base ha k (n + 1) hp (by omega)
    simp only [this]

theorem ltpfResampleK_eq (dt : Dt) (sr : Srate) (s : LtpfA R) (buf : List Int) (base : Nat)
    (ha : ∀ n, n < (1 + dt.idx) * 32 → K.acc sr buf base n = resampleAcc (resampler sr) buf base n) :
    ltpfResampleK K dt sr s buf base = ltpfResample dt sr s buf base := by
  unfold ltpfResampleK ltpfResample
  dsimp only
  rw [resampleK_eq dt sr buf base ha _ 0 _ (by omega)]

theorem ltpfResample_ok (dt : Dt) (sr : Srate) (s : LtpfA R) (hs : s.Ok) (buf : List Int) (base : Nat) (hb : All16 buf)
    (h1 : nt sr ≤ base) (h2 : base + ns dt sr ≤ buf.length) (s' : LtpfA R) (e : ltpfResample dt sr s buf base = some s') :
    s'.Ok ∧ s'.tc = s.tc := by
  obtain ⟨us, u1, u2, -, u4⟩ := resample_eq dt sr buf base hb h1 h2 ((1 + dt.idx) * 32) 0 s.hp50 (by omega)
  unfold ltpfResample at e
  dsimp only at e
  rw [u4] at e
  cases eh : hpRun us s.hp50 with
  | none => rw [eh] at e; cases e
  | some q =>
    obtain ⟨y, hp⟩ := q
    rw [eh] at e
    obtain ⟨ly, vy⟩ := hpRun_out us s.hp50 y hp eh
    have ln : (1 + dt.idx) * 32 ≤ 128 := by cases dt <;> decide
    have l12 : (s.x12k8.drop ((1 + dt.idx) * 32) ++ y).length = 384 := by
      rw [List.length_append, List.length_drop, hs.l12, ly, u1]; omega
    have v12 : All16 (s.x12k8.drop ((1 + dt.idx) * 32) ++ y) := (hs.v12.drop _).append vy
    obtain ⟨y6, e6, l6, v6⟩ := resample6k4_some (s.x12k8.drop ((1 + dt.idx) * 32) ++ y)
      (384 - (1 + dt.idx) * 32 - (if dt = .m7_5 then 44 else 24)) v12 (by cases dt <;> decide)
      ((1 + dt.idx) * 32 / 2) 0 (by rw [l12]; cases dt <;> decide)
    have l6' : (s.x6k4.drop ((1 + dt.idx) * 32 / 2) ++ y6).length = 178 := by
      rw [List.length_append, List.length_drop, hs.l6, l6]; omega
    simp only [Option.bind_eq_bind, Option.bind_some] at e
    rw [e6] at e
    simp only [Option.bind_some, pure, Option.some.injEq] at e
    subst e
    exact ⟨⟨l12, l6', v12, (hs.v6.drop _).append v6, hs.tc⟩, rfl⟩

theorem ltpfAnalyseK_eq (hK : K.Agree A Q) (dt : Dt) (sr : Srate) (s : LtpfA R) (hs : s.Ok) (buf : List Int) (base : Nat)
    (hb : All16 buf) (h1 : nt sr ≤ base) (h2 : base + ns dt sr ≤ buf.length)
    (ha : ∀ n, n < (1 + dt.idx) * 32 → K.acc sr buf base n = resampleAcc (resampler sr) buf base n)
    (hq : ∀ s', ltpfResample dt sr s buf base = some s' → (∀ x ∈ s'.x12k8, Q x) ∧ (∀ x ∈ s'.x6k4, Q x) ∧
      ∀ base back n d u, interpolate s'.x12k8 base back n d = some u → ∀ x ∈ u, Q x) :
    ltpfAnalyseK A sqrtf K dt sr s buf base = ltpfAnalyse A sqrtf dt sr s buf base := by
  unfold ltpfAnalyseK ltpfAnalyse
  rw [ltpfResampleK_eq dt sr s buf base ha]
  cases e : ltpfResample dt sr s buf base with
  | none => rfl
  | some s' =>
    obtain ⟨ok, -⟩ := ltpfResample_ok dt sr s hs buf base hb h1 h2 s' e
    obtain ⟨q1, q2, q3⟩ := hq s' e
    simp only [Option.bind_eq_bind, Option.bind_some]
    rw [ltpfPitchK_eq sqrtf hK dt s'.x12k8 s'.x6k4 s'.tc ok.l12 ok.l6 ok.v12 ok.tc q1 q2 q3]

theorem armKernels_agree : (armKernels A).Agree A (fun _ => True) where
  dot := fun _ _ _ _ _ _ => rfl
  corr := fun buf base n lag nc _ he _ h16 h2 hnc h _ => armCorrelate_eq A buf base n lag nc h2 h16 he hnc h

theorem neonKernels_agree : (neonKernels A).Agree A (fun x => -32768 < x ∧ x ≤ 32767) where
  dot := fun a b ha hb hl h16 => neonDot_eq A a b hl h16 (Above.all16 ha) (Above.all16 hb) (Above.noWrap ha b)
  corr := fun buf base n lag nc hq _ hn h16 h2 _ h h' => neonCorrelate_eq A buf base n lag nc h2 hn h16 h h' hq

theorem armKernels_acc (dt : Dt) (sr : Srate) (buf : List Int) (base n : Nat) (hb : All16 buf) (he : base % 2 = 0)
    (h1 : nt sr ≤ base) (h2 : base + ns dt sr ≤ buf.length) (hn : n < (1 + dt.idx) * 32) :
    (armKernels A).acc sr buf base n = resampleAcc (resampler sr) buf base n := by
  cases sr with
  | k96hr => rfl
  | k8 => exact armAcc_eq dt .k8 6 armH8k (by simp) buf base n hb he h1 h2 hn
  | k16 => exact armAcc_eq dt .k16 12 armH16k (by simp) buf base n hb he h1 h2 hn
  | k24 => exact armAcc_eq dt .k24 16 armH24k (by simp) buf base n hb he h1 h2 hn
  | k32 => exact armAcc_eq dt .k32 24 armH32k (by simp) buf base n hb he h1 h2 hn
  | k48 => exact armAcc_eq dt .k48 32 armH48k (by simp) buf base n hb he h1 h2 hn
  | k48hr => exact armAcc_eq dt .k48hr 32 armH48k (by simp) buf base n hb he h1 h2 hn

theorem neonKernels_acc (dt : Dt) (sr : Srate) (buf : List Int) (base n : Nat) (hb : All16 buf)
    (h1 : nt sr ≤ base) (h2 : base + ns dt sr ≤ buf.length) (hn : n < (1 + dt.idx) * 32) :
    (neonKernels A).acc sr buf base n = resampleAcc (resampler sr) buf base n := by
  cases sr with
  | k8 => rfl
  | k24 => rfl
  | k96hr => rfl
  | k16 => exact neonAcc_eq dt .k16 2 20 neonH16k (by simp) buf base n hb h1 h2 hn
  | k32 => exact neonAcc_eq dt .k32 1 40 neonH32k (by simp) buf base n hb h1 h2 hn
  | k48 => exact neonAcc_eq dt .k48 2 64 neonH48k (by simp) buf base n hb h1 h2 hn
  | k48hr => exact neonAcc_eq dt .k48hr 2 64 neonH48k (by simp) buf base n hb h1 h2 hn

end

/-! ### Levels -/

/-- The values are within ±`m`. -/
def Within (m : Int) (l : List Int) : Prop := ∀ x ∈ l, -m ≤ x ∧ x ≤ m

theorem interpolateFrom_within (buf : List Int) (base : Nat) (h0 h1 h2 h3 : Nat) (hh : h0 + h1 + h2 + h3 ≤ 32875)
    (hb : Within 32660 buf) : ∀ (k i : Nat) (u : List Int), interpolateFrom buf base [(h0 : Int), h1, h2, h3] k i = some u →
      ∀ x ∈ u, -32768 < x ∧ x ≤ 32767
  | 0, i, u, e => by
    unfold interpolateFrom at e
    cases e
    intro x hx
    cases hx
  | k + 1, i, u, e => by
    unfold interpolateFrom at e
    simp only [Option.bind_eq_bind, Option.bind_eq_some_iff] at e
    obtain ⟨w, ew, e⟩ := e
    have hw : ∀ x ∈ w, -32660 ≤ x ∧ x ≤ 32660 := fun x hx => hb x (mem_slice ew x hx)
    match w, hw, e with
    | [x3, x2, x1, x0], hw, e =>
      simp only [Option.bind_eq_some_iff] at e
      obtain ⟨p0, e0, p1, e1, p2, e2, p3, e3, s0, f0, s1, f1, s2, f2, l, el, e⟩ := e
      have ih := interpolateFrom_within buf base h0 h1 h2 h3 hh hb k (i + 1) l el
      have i32v : ∀ a b : Int, i32 a = some b → b = a := by
        intro a b h; unfold i32 at h; split at h <;> simp_all
      have e0 := i32v _ _ e0; have e1 := i32v _ _ e1; have e2 := i32v _ _ e2; have e3 := i32v _ _ e3
      have f0 := i32v _ _ f0; have f1 := i32v _ _ f1; have f2 := i32v _ _ f2
      have b3 := hw x3 (by simp); have b2 := hw x2 (by simp); have b1 := hw x1 (by simp); have b0 := hw x0 (by simp)
      have mb : ∀ (x : Int) (h : Nat), -32660 ≤ x ∧ x ≤ 32660 → -(32660 * (h : Int)) ≤ x * h ∧ x * h ≤ 32660 * h := by
        intro x h hx
        have hn : (0 : Int) ≤ h := Int.natCast_nonneg h
        have g1 := Int.mul_le_mul_of_nonneg_right hx.2 hn
        have g2 := Int.mul_le_mul_of_nonneg_right hx.1 hn
        rw [Int.neg_mul] at g2
        exact ⟨g2, g1⟩
      have m0 := mb x0 h0 b0; have m1 := mb x1 h1 b1; have m2 := mb x2 h2 b2; have m3 := mb x3 h3 b3
      have hs : -(32660 * 32875) ≤ s2 ∧ s2 ≤ 32660 * 32875 := by
        rw [← e0] at m0; rw [← e1] at m1; rw [← e2] at m2; rw [← e3] at m3
        omega
      cases e
      intro x hx
      rcases List.mem_cons.mp hx with rfl | hx
      · unfold toI16; omega
      · exact ih x hx

theorem interpolate_within (buf : List Int) (hb : Within 32660 buf) (base back n d : Nat) (u : List Int)
    (e : interpolate buf base back n d = some u) : ∀ x ∈ u, -32768 < x ∧ x ≤ 32767 := by
  unfold interpolate at e
  simp only [Option.bind_eq_bind, Option.bind_eq_some_iff] at e
  obtain ⟨h, eh, e⟩ := e
  split at e
  · have hd : d < 4 := by
      have := (List.getElem?_eq_some_iff.mp eh).1
      exact this
    have : ∃ h0 h1 h2 h3 : Nat, h = [(h0 : Int), h1, h2, h3] ∧ h0 + h1 + h2 + h3 ≤ 32875 := by
      match d, hd, eh with
      | 0, _, eh => cases eh; exact ⟨6877, 19121, 6877, 0, rfl, by decide⟩
      | 1, _, eh => cases eh; exact ⟨3506, 18025, 11000, 220, rfl, by decide⟩
      | 2, _, eh => cases eh; exact ⟨1300, 15048, 15048, 1300, rfl, by decide⟩
      | 3, _, eh => cases eh; exact ⟨220, 11000, 18025, 3506, rfl, by decide⟩
    obtain ⟨h0, h1, h2, h3, rfl, hh⟩ := this
    exact interpolateFrom_within buf _ h0 h1 h2 h3 hh hb n 0 u e
  · cases e

theorem resample6k4_within (buf : List Int) (base : Nat) (hb : Within 32660 buf) : ∀ (k n : Nat) (y : List Int),
    resample6k4 buf base k n = some y → Within 32660 y
  | 0, n, y, e => by
    unfold resample6k4 at e
    cases e
    intro x hx
    cases hx
  | k + 1, n, y, e => by
    unfold resample6k4 at e
    simp only [Option.bind_eq_bind, Option.bind_eq_some_iff] at e
    obtain ⟨w, ew, e⟩ := e
    have hw : ∀ x ∈ w, -32660 ≤ x ∧ x ≤ 32660 := fun x hx => hb x (mem_slice ew x hx)
    match w, hw, e with
    | [a, b, c, d, f], hw, e =>
      simp only [Option.bind_eq_some_iff] at e
      obtain ⟨t0, e0, t1, e1, t2, e2, s, es, s', es', l, el, e⟩ := e
      have ih := resample6k4_within buf base hb k (n + 1) l el
      have i32v : ∀ a b : Int, i32 a = some b → b = a := by
        intro a b h; unfold i32 at h; split at h <;> simp_all
      have e0 := i32v _ _ e0; have e1 := i32v _ _ e1; have e2 := i32v _ _ e2; have es := i32v _ _ es; have es' := i32v _ _ es'
      have ba := hw a (by simp); have bb := hw b (by simp); have bc := hw c (by simp); have bd := hw d (by simp); have bf := hw f (by simp)
      have hs : -(32660 * 65535) ≤ s' ∧ s' ≤ 32660 * 65535 := by omega
      have hd : -32660 ≤ s' / 65536 ∧ s' / 65536 ≤ 32660 := by omega
      cases e
      intro x hx
      rcases List.mem_cons.mp hx with rfl | hx
      · clear es' es e0 e1 e2; unfold toI16; omega
      · exact ih x hx

theorem Within.append {m : Int} {a b : List Int} (ha : Within m a) (hb : Within m b) : Within m (a ++ b) := by
  intro x hx
  rcases List.mem_append.mp hx with h | h
  · exact ha x h
  · exact hb x h

theorem Within.drop {m : Int} {a : List Int} (ha : Within m a) (n : Nat) : Within m (a.drop n) :=
  fun x hx => ha x (List.mem_of_mem_drop hx)

theorem ltpfResample_within {R : Type} (dt : Dt) (sr : Srate) (s : LtpfA R) (buf : List Int) (base : Nat) (h6 : Within 32660 s.x6k4)
    (s' : LtpfA R) (e : ltpfResample dt sr s buf base = some s') (h12 : Within 32660 s'.x12k8) : Within 32660 s'.x6k4 := by
  unfold ltpfResample at e
  simp only [Option.bind_eq_bind, Option.bind_eq_some_iff] at e
  obtain ⟨⟨y, hp⟩, e1, y6, e2, e⟩ := e
  cases e
  exact (h6.drop _).append (resample6k4_within _ _ h12 _ _ _ e2)

end LC3
