import Verif.Lemmas.LtpfFilter

/-! The position of the frames in the history of the decoder has no effect on the post-filter. -/

namespace LC3

variable {R : Type}

/-- Two histories of `N` samples are the same one, seen from the positions `s` and `s'`. -/
structure Rot (N s s' : Nat) (r r' : List R) : Prop where
  len : r.length = N
  len' : r'.length = N
  at' : ∀ i, i < N → r'[(s' + i) % N]? = r[(s + i) % N]?

theorem Rot.get {N s s' : Nat} {r r' : List R} (h : Rot N s s' r r') (hN : 0 < N) (i : Nat) : r'[(s' + i) % N]? = r[(s + i) % N]? := by
  have := h.at' (i % N) (Nat.mod_lt _ hN)
  rwa [Nat.add_mod_mod, Nat.add_mod_mod] at this

theorem Rot.near {N s s' : Nat} {r r' : List R} (h : Rot N s s' r r') {i : Nat} (h1 : s + i < N) (h2 : s' + i < N) : r'[s' + i]? = r[s + i]? := by
  have := h.at' i (by omega)
  rwa [Nat.mod_eq_of_lt h1, Nat.mod_eq_of_lt h2] at this

theorem mod_pos {N s i p : Nat} (hi : i < N) (hp : s + p < N) : (s + i) % N = s + p ↔ i = p := by
  constructor
  · intro h
    by_cases hs : s + i < N
    · rw [Nat.mod_eq_of_lt hs] at h; omega
    · rw [Nat.mod_eq_sub_mod (by omega), Nat.mod_eq_of_lt (by omega)] at h; omega
  · rintro rfl; exact Nat.mod_eq_of_lt hp

theorem Rot.set {N s s' : Nat} {r r' : List R} (h : Rot N s s' r r') {p : Nat} (h1 : s + p < N) (h2 : s' + p < N) (v : R) :
    Rot N s s' (r.set (s + p) v) (r'.set (s' + p) v) := by
  refine ⟨by rw [List.length_set, h.len], by rw [List.length_set, h.len'], fun i hi => ?_⟩
  rw [List.getElem?_set, List.getElem?_set, h.len, h.len', if_pos h1, if_pos h2]
  by_cases hp : i = p
  · rw [if_pos ((mod_pos hi h2).2 hp).symm, if_pos ((mod_pos hi h1).2 hp).symm]
  · rw [if_neg fun e => hp ((mod_pos hi h2).1 e.symm), if_neg fun e => hp ((mod_pos hi h1).1 e.symm)]
    exact h.at' i hi

theorem ring_next {N : Nat} (hN : 0 < N) (s a : Nat) : (if (s + a) % N < N - 1 then (s + a) % N + 1 else 0) = (s + (a + 1)) % N := by
  have h1 : (s + (a + 1)) % N = ((s + a) % N + 1) % N := by rw [← Nat.add_assoc, Nat.mod_add_mod]
  have h2 := Nat.mod_lt (s + a) hN
  rw [h1]
  generalize (s + a) % N = z at h2
  split
  · rw [Nat.mod_eq_of_lt (by omega)]
  · rw [show z + 1 = N by omega, Nat.mod_self]

/-- The samples just before a position of the frame. -/
theorem Rot.slice {N s s' : Nat} {r r' : List R} (h : Rot N s s' r r') {q m : Nat} (hm : m ≤ q) (h1 : s + q ≤ N) (h2 : s' + q ≤ N) :
    slice? r' (s' + q) m m = slice? r (s + q) m m := by
  rw [(slice?_eq r' (s' + q) m m (by omega) (by rw [h.len']; omega)).1, (slice?_eq r (s + q) m m (by omega) (by rw [h.len]; omega)).1]
  congr 1
  apply List.ext_getElem?
  intro j
  rw [List.getElem?_take, List.getElem?_take]
  split
  · rw [List.getElem?_drop, List.getElem?_drop, show s' + q - m + j = s' + (q - m + j) by omega, show s + q - m + j = s + (q - m + j) by omega]
    exact h.near (by omega) (by omega)
  · rfl

/-- The samples just before the frame. -/
theorem Rot.back {N s s' : Nat} {r r' : List R} (h : Rot N s s' r r') {m : Nat} (hm : m ≤ N) (h0 : s = 0 ∨ m ≤ s) (h0' : s' = 0 ∨ m ≤ s')
    (h1 : s ≤ N) (h2 : s' ≤ N) (hN : 0 < N) :
    slice? r' (if s' ≤ 0 then s' + N else s') m m = slice? r (if s ≤ 0 then s + N else s) m m := by
  have key : ∀ (r : List R) (s : Nat), r.length = N → (s = 0 ∨ m ≤ s) → s ≤ N → ∃ l, slice? r (if s ≤ 0 then s + N else s) m m = some l ∧
      ∀ j, l[j]? = if j < m then r[(s + (N - m + j)) % N]? else none := by
    intro r s hl hs hsN
    refine ⟨_, (slice?_eq r _ m m (by split <;> omega) (by rw [hl]; split <;> omega)).1, fun j => ?_⟩
    rw [List.getElem?_take]
    split
    · rename_i hj
      rw [List.getElem?_drop]
      congr 1
      split
      · rw [Nat.mod_eq_of_lt (by omega)]; omega
      · rw [Nat.mod_eq_sub_mod (by omega), Nat.mod_eq_of_lt (by omega)]; omega
    · rfl
  obtain ⟨l, e1, e2⟩ := key r s h.len h0 h1
  obtain ⟨l', e1', e2'⟩ := key r' s' h.len' h0' h2
  rw [e1, e1']
  congr 1
  apply List.ext_getElem?
  intro j
  rw [e2, e2']
  split
  · exact h.get hN _
  · rfl

section
variable (A : Arith R)

theorem ltpfLoad_rot {N s s' : Nat} {r r' : List R} (h : Rot N s s' r r') (hN : 0 < N) (c : List R) (w : Nat) : ∀ (x0 : List R) (j a : Nat) (u v : List R) (y : Nat),
    ltpfLoad A r N c w j x0 ((s + a) % N) u = some (y, v) →
    y = (s + (a + x0.length)) % N ∧ ltpfLoad A r' N c w j x0 ((s' + a) % N) u = some ((s' + (a + x0.length)) % N, v) := by
  intro x0
  induction x0 with
  | nil =>
    intro j a u v y e
    unfold ltpfLoad at e ⊢
    have e := Option.some.inj e
    rw [Prod.mk.injEq] at e
    exact ⟨e.1.symm, by rw [e.2]; rfl⟩
  | cons xi x0 ih =>
    intro j a u v y e
    unfold ltpfLoad at e ⊢
    simp only [Option.bind_eq_bind, Option.bind_eq_some_iff] at e
    obtain ⟨yi, e1, u', e2, e3⟩ := e
    rw [ring_next hN] at e3
    obtain ⟨g1, g2⟩ := ih (j + 1) (a + 1) u' v y e3
    rw [List.length_cons, show a + (x0.length + 1) = a + 1 + x0.length by omega]
    refine ⟨g1, ?_⟩
    simp only [Option.bind_eq_bind, h.get hN a, e1, Option.bind_some, e2, ring_next hN]
    exact g2

theorem ltpfRun_rot {N s s' : Nat} (hN : 0 < N) (c : List R) (w : Nat) (gi : R) : ∀ (k t p a : Nat) (r r' u : List R) (g : R) (o : List R), Rot N s s' r r' →
    s + p + k ≤ N → s' + p + k ≤ N →
    ltpfRun A N c w gi k t (s + p) r ((s + a) % N) u g = some o →
    ∃ o', ltpfRun A N c w gi k t (s' + p) r' ((s' + a) % N) u g = some o' ∧ Rot N s s' o o' := by
  intro k
  induction k with
  | zero =>
    intro t p a r r' u g o h _ _ e
    unfold ltpfRun at e ⊢
    cases e
    exact ⟨r', rfl, h⟩
  | succ k ih =>
    intro t p a r r' u g o h h1 h2 e
    unfold ltpfRun at e ⊢
    simp only [Option.bind_eq_bind, Option.bind_eq_some_iff] at e
    obtain ⟨yi, e1, xi, e2, u', e3, uj, e4, e5⟩ := e
    rw [ring_next hN] at e5
    obtain ⟨o', g1, g2⟩ := ih (t + 1) (p + 1) (a + 1) _ _ _ _ o (h.set (p := p) (by omega) (by omega) (A.sub xi (A.mul g uj))) (by omega) (by omega) e5
    refine ⟨o', ?_, g2⟩
    simp only [Option.bind_eq_bind, h.get hN a, e1, h.near (i := p) (by omega) (by omega), e2, Option.bind_some, e3, e4, ring_next hN]
    exact g1

theorem synthTemplate_rot {N s s' : Nat} (hN : 0 < N) {r r' : List R} (h : Rot N s s' r r') (lag : Nat) (x0 : List R) (p n : Nat) (c : List R) (w : Nat) (fade : Int)
    (hl : lag + w / 2 ≤ N) (h1 : s + p + (n + w - 1) / w * w ≤ N) (h2 : s' + p + (n + w - 1) / w * w ≤ N) (h3 : s + p < N) (h4 : s' + p < N) (o : List R)
    (e : synthTemplate A r N lag x0 (s + p) n c w fade = some o) :
    ∃ o', synthTemplate A r' N lag x0 (s' + p) n c w fade = some o' ∧ Rot N s s' o o' := by
  have hy : ∀ s, s + p < N → (if s + p < lag + w / 2 then s + p + (N - (lag + w / 2)) else s + p - (lag + w / 2)) = (s + (p + (N - (lag + w / 2)))) % N := by
    intro s hs
    split
    · rw [Nat.mod_eq_of_lt (by omega)]; omega
    · rw [Nat.mod_eq_sub_mod (by omega), Nat.mod_eq_of_lt (by omega)]; omega
  unfold synthTemplate at e ⊢
  dsimp only at e ⊢
  rw [if_neg (by omega), hy s h3] at e
  rw [if_neg (by omega), hy s' h4]
  by_cases hx : x0.length ≠ w - 1
  · rw [if_pos hx] at e; cases e
  rw [if_neg hx] at e ⊢
  simp only [Option.bind_eq_bind, Option.bind_eq_some_iff] at e
  obtain ⟨⟨y, u⟩, e1, e2⟩ := e
  obtain ⟨g1, g2⟩ := ltpfLoad_rot A h hN c w x0 0 _ _ u y e1
  dsimp only at e2
  rw [g1] at e2
  obtain ⟨o', k1, k2⟩ := ltpfRun_rot A hN c w _ _ 0 p _ r r' u _ o h h1 h2 e2
  refine ⟨o', ?_, k2⟩
  rw [g2]
  exact k1

/-- Two states of the post-filter with the same effect: pitch and coefficients are used when the filter is active. -/
structure LtpfS.Sim (sr : Srate) (a b : LtpfS R) : Prop where
  active : b.active = a.active
  x : b.x = a.x
  tail : b.c.drop (2 * ltpfWidth sr) = a.c.drop (2 * ltpfWidth sr)
  act : a.active = true → b.pitch = a.pitch ∧ b.c = a.c

theorem roundup_eq {n w : Nat} (hw : 0 < w) (h : n % w = 0) : (n + w - 1) / w * w = n := by
  obtain ⟨k, rfl⟩ := Nat.dvd_of_mod_eq_zero h
  rw [show w * k + w - 1 = (w - 1) + w * k by omega, Nat.add_mul_div_left _ _ hw, Nat.div_eq_of_lt (by omega), Nat.zero_add, Nat.mul_comm]

theorem ltpfFilter_rot (dt : Dt) (sr : Srate) (h : sr.hr = false) (a b : LtpfS R) (ha : a.Ok sr) (hab : a.Sim sr b) {s s' : Nat} (hs : FramePos dt sr s)
    (hs' : FramePos dt sr s') {r r' : List R} (hr : Rot (ns dt sr + nh dt sr) s s' r r') (pi : Nat) (hp : pi < 512) (active : Bool) (c x00 x01 : List R)
    (o : List R)
    (e : ltpfFilter A a r (ns dt sr + nh dt sr) s (ns dt sr) (ns dt sr / (1 + dt.idx)) (ltpfWidth sr) (outPitch sr pi) active c x00 x01 = some o) :
    ∃ o', ltpfFilter A b r' (ns dt sr + nh dt sr) s' (ns dt sr) (ns dt sr / (1 + dt.idx)) (ltpfWidth sr) (outPitch sr pi) active c x00 x01 = some o' ∧
      Rot (ns dt sr + nh dt sr) s s' o o' := by
  obtain ⟨d1, d2, d3, d4, d5, d6, d7, -⟩ := dims dt sr h
  have hb := hs.back
  have hb' := hs'.back
  have hf := hs.fits
  have hf' := hs'.fits
  obtain ⟨l1, l2⟩ := lag_range dt sr h pi hp
  have l3 : outPitch sr pi / 4 + ltpfWidth sr / 2 ≤ ns dt sr + nh dt sr := by omega
  have hlag : a.active = true → a.pitch / 4 + ltpfWidth sr / 2 ≤ ns dt sr + nh dt sr := by
    intro hact
    obtain ⟨q, q1, q2⟩ := ha.pitch hact
    obtain ⟨-, l4⟩ := lag_range dt sr h q q1
    rw [q2]; omega
  have u1 := roundup_eq (by omega) d4
  have u2 := roundup_eq (by omega) d6
  generalize ns dt sr / (1 + dt.idx) = nt at *
  generalize ns dt sr + nh dt sr = N at *
  generalize ltpfWidth sr = w at *
  generalize ns dt sr = n at *
  have hN : 0 < N := by omega
  have tmpl : ∀ (r r' : List R) (lag : Nat) (x0 c : List R) (fade : Int) (o : List R), Rot N s s' r r' → lag + w / 2 ≤ N →
      synthTemplate A r N lag x0 s nt c w fade = some o → ∃ o', synthTemplate A r' N lag x0 s' nt c w fade = some o' ∧ Rot N s s' o o' :=
    fun r r' lag x0 c fade o h hl e => synthTemplate_rot A hN h lag x0 0 nt c w fade hl (by omega) (by omega) (by omega) (by omega) o e
  unfold ltpfFilter at e ⊢
  obtain ⟨m, e1, e2⟩ := Option.bind_eq_some_iff.1 e
  obtain ⟨m', k1, k2⟩ : ∃ m', ltpfTransition A b r' N s' nt w (outPitch sr pi) active c x00 = some m' ∧ Rot N s s' m m' := by
    unfold ltpfTransition at e1 ⊢
    rw [hab.active]
    by_cases c1 : (!a.active && active) = true
    · rw [if_pos c1] at e1 ⊢
      exact tmpl _ _ _ _ _ _ _ hr (by omega) e1
    rw [if_neg c1] at e1 ⊢
    by_cases c2 : (a.active && !active) = true
    · rw [if_pos c2] at e1 ⊢
      rw [Bool.and_eq_true] at c2
      obtain ⟨q1, q2⟩ := hab.act c2.1
      rw [q1, q2]
      exact tmpl _ _ _ _ _ _ _ hr (hlag c2.1) e1
    rw [if_neg c2] at e1 ⊢
    by_cases c4 : (a.active && active) = true
    · have c5 := c4
      rw [Bool.and_eq_true] at c5
      obtain ⟨q1, q2⟩ := hab.act c5.1
      rw [q1, q2]
      by_cases c3 : (a.active && active && decide (a.pitch = outPitch sr pi)) = true
      · rw [if_pos c3] at e1 ⊢
        exact tmpl _ _ _ _ _ _ _ hr (by omega) e1
      rw [if_neg c3, if_pos c4] at e1 ⊢
      obtain ⟨m1, f1, e1⟩ := Option.bind_eq_some_iff.1 e1
      obtain ⟨xp, f2, e1⟩ := Option.bind_eq_some_iff.1 e1
      obtain ⟨m1', f3, f4⟩ := tmpl _ _ _ _ _ _ _ hr (hlag c5.1) f1
      rw [f3, Option.bind_some, f4.back (m := w - 1) (by omega) (by omega) (by omega) (by omega) (by omega) hN, f2, Option.bind_some]
      exact tmpl _ _ _ _ _ _ _ f4 (by omega) e1
    · have c3 : ¬ (a.active && active && decide (a.pitch = outPitch sr pi)) = true := by
        intro c3; rw [Bool.and_eq_true] at c3; exact c4 c3.1
      have c3' : ¬ (a.active && active && decide (b.pitch = outPitch sr pi)) = true := by
        intro c3; rw [Bool.and_eq_true] at c3; exact c4 c3.1
      rw [if_neg c3, if_neg c4] at e1
      rw [if_neg c3', if_neg c4]
      cases e1
      exact ⟨_, rfl, hr⟩
  rw [k1, Option.bind_some]
  by_cases c1 : active = true ∧ n > nt
  · rw [if_pos c1] at e2 ⊢
    exact synthTemplate_rot A hN k2 _ _ nt (n - nt) c w 0 (by omega) (by omega) (by omega) (by omega) (by omega) o e2
  · rw [if_neg c1] at e2 ⊢
    cases e2
    exact ⟨_, rfl, k2⟩

/-- The post-filter of a frame, for the same history at two positions. -/
theorem ltpfSynthesize_rot (dt : Dt) (sr : Srate) (h : sr.hr = false) (a b : LtpfS R) (ha : a.Ok sr) (hab : a.Sim sr b) {s s' : Nat} (hs : FramePos dt sr s)
    (hs' : FramePos dt sr s') {r r' : List R} (hr : Rot (ns dt sr + nh dt sr) s s' r r') (nbytes : Int) (data : Option LtpfData)
    (hd : ∀ d, data = some d → d.pitchIndex < 512) (a1 : LtpfS R) (o : List R) (e : ltpfSynthesize A dt sr nbytes a data r s = some (a1, o)) :
    ∃ b1 o', ltpfSynthesize A dt sr nbytes b data r' s' = some (b1, o') ∧ a1.Sim sr b1 ∧ Rot (ns dt sr + nh dt sr) s s' o o' := by
  obtain ⟨d1, d2, d3, d4, d5, d6, d7, -⟩ := dims dt sr h
  have hf := hs.fits
  have hf' := hs'.fits
  have hp : dataIndex data < 512 := by
    cases data with
    | none => exact Nat.zero_lt_succ _
    | some d => exact hd d rfl
  unfold ltpfSynthesize at e ⊢
  dsimp only at e ⊢
  obtain ⟨g, e1, e⟩ := Option.bind_eq_some_iff.1 e
  obtain ⟨c, e2, e⟩ := Option.bind_eq_some_iff.1 e
  obtain ⟨x00, e3, e⟩ := Option.bind_eq_some_iff.1 e
  obtain ⟨xe, e4, e⟩ := Option.bind_eq_some_iff.1 e
  obtain ⟨x01, e5, e⟩ := Option.bind_eq_some_iff.1 e
  obtain ⟨m, e6, e⟩ := Option.bind_eq_some_iff.1 e
  have hc : c.length = 2 * ltpfWidth sr := by
    unfold ltpfCoeffs at e2
    simp only [Option.bind_eq_bind, Option.bind_eq_some_iff] at e2
    obtain ⟨den, -, num, -, e2⟩ := e2
    split at e2
    · cases e2
    · cases e2; simp; omega
  obtain ⟨m', k1, k2⟩ := ltpfFilter_rot A dt sr h a b ha hab hs hs' hr (dataIndex data) hp _ c x00 x01 m e6
  have e5' : (if dataActive g data then slice? r' (s' + ns dt sr / (1 + dt.idx)) (ltpfWidth sr - 1) (ltpfWidth sr - 1) else some []) = some x01 := by
    rw [hr.slice (by omega) (by omega) (by omega)]; exact e5
  rw [e1, Option.bind_some, e2, Option.bind_some, hab.x, e3, Option.bind_some, hr.slice (by omega) (by omega) (by omega), e4, Option.bind_some, e5',
    Option.bind_some, k1, Option.bind_some]
  cases e
  refine ⟨_, _, rfl, ⟨rfl, ?_, ?_, fun _ => ⟨rfl, ?_⟩⟩, k2⟩
  · dsimp only
  · dsimp only
    rw [← hc, List.drop_left, List.drop_left, hc, hab.tail]
  · dsimp only
    rw [hab.tail]

end

end LC3
