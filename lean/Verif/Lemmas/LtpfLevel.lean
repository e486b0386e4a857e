import Verif.Lemmas.HpLevel
import Verif.Lemmas.SimdFrame

/-! The analysis of the pitch of a signal of limited level, over any number of frames. -/

namespace LC3

theorem mem_slice_level {m : Int} {buf w : List Int} {b k n : Nat} (h : slice? buf b k n = some w) (hb : ∀ x ∈ buf, |x| ≤ m) :
    ∀ x ∈ w, |x| ≤ m := fun x hx => hb x (mem_slice h x hx)

theorem resampleAcc_level (sr : Srate) (buf : List Int) (base n : Nat) (hb : ∀ x ∈ buf, |x| ≤ 15600) (v : Int)
    (e : resampleAcc (resampler sr) buf base n = some v) : |v| ≤ hpM := by
  unfold resampleAcc at e
  simp only [Option.bind_eq_bind, Option.bind_eq_some_iff] at e
  obtain ⟨h, eh, x, ex, e⟩ := e
  have := accumulate_val _ _ _ _ e
  rw [zero_add] at this
  subst this
  have hk := Nat.mod_lt ((resampler sr).inc * n) (rows sr).1
  have hg := resampler_gain sr _ hk
  have hh : h = ((resampler sr).h.drop ((resampler sr).inc * n % (resampler sr).p * (resampler sr).w)).take (resampler sr).w := by
    unfold slice? at eh
    split at eh
    · rw [← Option.some.inj eh, Nat.sub_zero]
    · cases eh
  rw [← hh] at hg
  have := dotSum_level 15600 (by decide) x h (mem_slice_level ex hb)
  unfold hpM
  linarith

theorem all16_of_level {l : List Int} (h : ∀ x ∈ l, |x| ≤ 15600) : All16 l := fun x hx => by
  have := abs_le.mp (h x hx)
  exact ⟨by omega, by omega⟩

/-- The states reached with a signal of limited level. -/
structure LtpfA.Level {R : Type} (s : LtpfA R) : Prop where
  ok : s.Ok
  hp : s.hp50.Bounded
  x12 : Within 32660 s.x12k8
  x6 : Within 32660 s.x6k4

theorem LtpfA.init_level {R : Type} (A : Arith R) : (LtpfA.init A).Level := by
  refine ⟨⟨List.length_replicate, List.length_replicate, ?_, ?_, Nat.zero_le _⟩, Hp50.bounded_zero, ?_, ?_⟩ <;>
  · intro x hx; rw [List.eq_of_mem_replicate hx]; exact ⟨by decide, by decide⟩

section
variable {R : Type} (A : Arith R) (sqrtf : R → R)

theorem ltpfAnalyse_level (dt : Dt) (sr : Srate) (s : LtpfA R) (hs : s.Level) (buf : List Int) (base : Nat)
    (hb : ∀ x ∈ buf, |x| ≤ 15600) (h1 : nt sr ≤ base) (h2 : base + ns dt sr ≤ buf.length) :
    (∃ s', ltpfResample dt sr s buf base = some s' ∧ s'.Level) ∧
    ∃ o s', ltpfAnalyse A sqrtf dt sr s buf base = some (o, s') ∧ s'.Level := by
  obtain ⟨us, u1, u2, u3, u4⟩ := resample_eq dt sr buf base (all16_of_level hb) h1 h2 ((1 + dt.idx) * 32) 0 s.hp50 (by omega)
  have hu : ∀ u ∈ us, |u| ≤ hpM := by
    intro u hu
    obtain ⟨i, hi, rfl⟩ := List.mem_iff_getElem.mp hu
    have := u3 i (by omega)
    rw [List.getElem?_eq_getElem hi] at this
    exact resampleAcc_level sr buf base _ hb _ this
  obtain ⟨y, hp', f1, f2, f3⟩ := hpRun_bounded us s.hp50 hs.hp hu
  obtain ⟨us', -, -, v4, -, v5⟩ := ltpfAnalyse_resample A sqrtf dt sr s hs.ok buf base (all16_of_level hb) h1 h2
  rw [u4, f1] at v4
  obtain ⟨o, s', g1, g2, g3, g4, -⟩ := v5 y hp' v4.symm
  have w12 : Within 32660 (s.x12k8.drop ((1 + dt.idx) * 32) ++ y) := (hs.x12.drop _).append f3
  cases er : ltpfResample dt sr s buf base with
  | none =>
    unfold ltpfAnalyse at g1
    rw [er] at g1
    cases g1
  | some r =>
    have hr12 : r.x12k8 = s.x12k8.drop ((1 + dt.idx) * 32) ++ y ∧ r.hp50 = hp' := by
      have er := er
      unfold ltpfResample at er
      dsimp only at er
      rw [u4, f1] at er
      simp only [Option.bind_eq_bind, Option.bind_some, Option.bind_eq_some_iff] at er
      obtain ⟨y6, -, er⟩ := er
      cases er
      exact ⟨rfl, rfl⟩
    have w6 := ltpfResample_within dt sr s buf base hs.x6 r er (by rw [hr12.1]; exact w12)
    obtain ⟨rok, -⟩ := ltpfResample_ok dt sr s hs.ok buf base (all16_of_level hb) h1 h2 r er
    refine ⟨⟨r, rfl, ⟨rok, by rw [hr12.2]; exact f2, by rw [hr12.1]; exact w12, w6⟩⟩, o, s', g1, ?_⟩
    refine ⟨g2, by rw [g3]; exact f2, by rw [g4]; exact w12, ?_⟩
    unfold ltpfAnalyse at g1
    rw [er] at g1
    simp only [Option.bind_eq_bind, Option.bind_some, Option.bind_eq_some_iff] at g1
    obtain ⟨q, -, g1⟩ := g1
    cases g1
    exact w6

/-- Successive calls of the analysis by the encoder, src/lc3.c:305-308: `f` is the analysis of a frame, given the `n` samples that
precede it, followed by the frame; the last `n` samples are kept. -/
def ltpfFrames {R : Type} (f : LtpfA R → List Int → Option (LtpfOut × LtpfA R)) (n : Nat) : LtpfA R → List Int → List (List Int) →
    Option (List LtpfOut × LtpfA R)
  | s, _, [] => some ([], s)
  | s, h, x :: xs => do
    let r ← f s (h ++ x)
    let l ← ltpfFrames f n r.2 ((h ++ x).drop ((h ++ x).length - n)) xs
    return (r.1 :: l.1, l.2)

/-- Equal analyses of frames give equal analyses of streams. -/
theorem ltpfFrames_congr (f g : LtpfA R → List Int → Option (LtpfOut × LtpfA R)) (n m : Nat) (I : LtpfA R → Prop) (V : Int → Prop)
    (hf : ∀ s buf, I s → (∀ x ∈ buf, V x) → buf.length = n + m → g s buf = f s buf ∧ ∀ o s', f s buf = some (o, s') → I s') :
    ∀ (xs : List (List Int)) (s : LtpfA R) (h : List Int), I s → (∀ x ∈ h, V x) → h.length = n →
      (∀ x ∈ xs, x.length = m ∧ ∀ v ∈ x, V v) → ltpfFrames g n s h xs = ltpfFrames f n s h xs
  | [], _, _, _, _, _, _ => rfl
  | x :: xs, s, h, hs, hv, hl, hx => by
    have hx0 := hx x (by simp)
    have hbuf : ∀ v ∈ h ++ x, V v := by
      intro v hv'
      rcases List.mem_append.mp hv' with c | c
      · exact hv v c
      · exact hx0.2 v c
    have hlen : (h ++ x).length = n + m := by rw [List.length_append, hl, hx0.1]
    obtain ⟨e1, e2⟩ := hf s (h ++ x) hs hbuf hlen
    unfold ltpfFrames
    rw [e1]
    cases e : f s (h ++ x) with
    | none => rfl
    | some r =>
      simp only [Option.bind_eq_bind, Option.bind_some]
      rw [ltpfFrames_congr f g n m I V hf xs r.2 _ (e2 r.1 r.2 e) (fun v hv => hbuf v (List.mem_of_mem_drop hv))
        (by rw [List.length_drop, hlen]; omega) (fun y hy => hx y (by simp [hy]))]

theorem ltpfFrames_level (dt : Dt) (sr : Srate) : ∀ (xs : List (List Int)) (s : LtpfA R) (h : List Int), s.Level → (∀ x ∈ h, |x| ≤ 15600) →
    h.length = nt sr → (∀ x ∈ xs, x.length = ns dt sr ∧ ∀ v ∈ x, |v| ≤ 15600) →
    ∃ os s', ltpfFrames (fun s buf => ltpfAnalyse A sqrtf dt sr s buf (nt sr)) (nt sr) s h xs = some (os, s') ∧ os.length = xs.length ∧ s'.Level
  | [], s, _, hs, _, _, _ => ⟨[], s, rfl, rfl, hs⟩
  | x :: xs, s, h, hs, hv, hl, hx => by
    have hx0 := hx x (by simp)
    have hbuf : ∀ v ∈ h ++ x, |v| ≤ 15600 := by
      intro v hv'
      rcases List.mem_append.mp hv' with c | c
      · exact hv v c
      · exact hx0.2 v c
    have hlen : (h ++ x).length = nt sr + ns dt sr := by rw [List.length_append, hl, hx0.1]
    obtain ⟨-, o, s1, e1, l1⟩ := ltpfAnalyse_level A sqrtf dt sr s hs (h ++ x) (nt sr) hbuf (Nat.le_refl _) (by omega)
    obtain ⟨os, s2, e2, e3, l2⟩ := ltpfFrames_level dt sr xs s1 ((h ++ x).drop ((h ++ x).length - nt sr)) l1
      (fun v hv => hbuf v (List.mem_of_mem_drop hv)) (by rw [List.length_drop, hlen]; omega) (fun y hy => hx y (by simp [hy]))
    refine ⟨o :: os, s2, ?_, by simp [e3], l2⟩
    unfold ltpfFrames
    rw [e1]
    simp only [Option.bind_eq_bind, Option.bind_some]
    rw [e2]
    rfl

end

end LC3
