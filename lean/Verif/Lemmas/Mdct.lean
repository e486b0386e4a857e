import Verif.Lemmas.Fft

/-! Outcome of the windowing and of the rotations of the transforms, with any arithmetic. -/

namespace LC3

variable {R : Type}

/-! ### Windowing of the forward transform -/

/-- The windowed and folded samples. -/
def winOut (z : R) (A : Arith R) (ns nd : Nat) (win x d : List R) (k : Nat) : R :=
  if k < ns / 2 then
    let j := ns / 2 - 1 - k
    A.sub (A.mul (d.getD j z) (win.getD j z))
      (A.mul (if j < ns - nd then x.getD (ns - nd - j - 1) z else d.getD (ns - 1 - j) z) (win.getD (ns - 1 - j) z))
  else
    let j := k - ns / 2
    if j < ns - nd then A.mul (x.getD (ns - nd + j) z) (win.getD (ns + j) z)
    else A.add (A.mul (x.getD (ns - nd + j) z) (win.getD (ns + j) z))
      (A.mul (x.getD (2 * ns - nd - j - 1) z) (win.getD (2 * ns - 1 - j) z))

theorem mdctWindow_spec (z : R) (A : Arith R) (ns nd : Nat) (win x d y : List R) (h4 : ns % 4 = 0) (hd : nd ≤ ns) (hn : ns ≤ 2 * nd)
    (he : (ns - nd) % 2 = 0) (hw : ns + nd ≤ win.length) (hx : ns ≤ x.length) (hdl : nd ≤ d.length) (hy : ns ≤ y.length) :
    ∃ y' d', mdctWindow A ns nd win x d y = some (y', d') ∧ y'.length = y.length ∧ d'.length = d.length ∧
      (∀ k, k < ns → y'.getD k z = winOut z A ns nd win x d k) ∧
      (∀ k, k < nd → d'.getD k z = x.getD (ns - nd + k) z) := by
  unfold mdctWindow
  have e1 : 2 * ((ns - nd + 1) / 2) = ns - nd := by omega
  obtain ⟨s1, a1, a2⟩ := pairs_inv (winStepA A ns nd win x)
    (fun j s => s.1.length = y.length ∧ s.2.length = d.length ∧
      (∀ k, ns / 2 - j ≤ k → k < ns / 2 + j → s.1.getD k z = winOut z A ns nd win x d k) ∧
      (∀ k, s.2.getD k z = if k < j then x.getD (ns - nd + k) z else d.getD k z))
    ((ns - nd + 1) / 2) 0 (y, d) ⟨rfl, rfl, fun k _ _ => by omega, fun k => by rw [if_neg (by omega)]⟩ (by
      rw [e1, Nat.zero_add]
      intro j ⟨y1, d1⟩ _ hj ⟨i1, i2, i3, i4⟩
      dsimp only at i1 i2 i3 i4
      unfold winStepA
      dsimp only
      rw [rd_at z d1 _ j rfl (by omega), rd_at z win _ j rfl (by omega),
        rd_at z x _ (ns - nd - j - 1) (by omega) (by omega), rd_at z win _ (ns - 1 - j) (by omega) (by omega)]
      dsimp only [bind, Option.bind]
      rw [wr_at _ _ (ns / 2 - 1 - j) _ (by omega) (by omega)]
      dsimp only
      rw [rd_at z x _ (ns - nd + j) (by omega) (by omega)]
      dsimp only
      rw [wr_at _ _ j _ rfl (by omega)]
      dsimp only
      rw [rd_at z win _ (ns + j) (by push_cast; rfl) (by omega)]
      dsimp only
      rw [wr_at _ _ (ns / 2 + j) _ (by push_cast; rfl) (by rw [List.length_set]; omega)]
      refine ⟨_, rfl, by simp only [List.length_set]; exact i1, by simp only [List.length_set]; exact i2, ?_, ?_⟩
      · intro k hk1 hk2
        dsimp only
        rw [getD_set_at z _ _ _ (by rw [List.length_set]; omega), getD_set_at z _ _ _ (by omega)]
        by_cases c1 : k = ns / 2 + j
        · rw [if_pos c1]; unfold winOut
          rw [if_neg (by omega)]; dsimp only
          rw [show k - ns / 2 = j by omega, if_pos hj]
        · rw [if_neg c1]
          by_cases c2 : k = ns / 2 - 1 - j
          · rw [if_pos c2]; unfold winOut
            rw [if_pos (by omega)]; dsimp only
            rw [show ns / 2 - 1 - k = j by omega, if_pos hj, i4 j, if_neg (by omega)]
          · rw [if_neg c2]; exact i3 k (by omega) (by omega)
      · intro k
        dsimp only
        rw [getD_set_at z _ _ _ (by omega), i4 k]
        by_cases c1 : k = j
        · rw [if_pos c1, if_pos (by omega), c1]
        · rw [if_neg c1]
          by_cases c2 : k < j
          · rw [if_pos c2, if_pos (by omega)]
          · rw [if_neg c2, if_neg (by omega)])
  rw [Nat.zero_add, e1] at a2
  obtain ⟨b1, b2, b3, b4⟩ := a2
  have e2 : ns - nd + 2 * ((ns - 2 * (ns - nd) + 3) / 4) = ns / 2 := by omega
  obtain ⟨s2, c1, c2⟩ := pairs_inv (winStepB A ns nd (ns - nd) win x)
    (fun j s => s.1.length = y.length ∧ s.2.length = d.length ∧
      (∀ k, ns / 2 - j ≤ k → k < ns / 2 + j → s.1.getD k z = winOut z A ns nd win x d k) ∧
      (∀ k, k < nd → s.2.getD k z = if k < j ∨ ns - j ≤ k then x.getD (ns - nd + k) z else d.getD k z))
    ((ns - 2 * (ns - nd) + 3) / 4) (ns - nd) s1 ⟨b1, b2, b3, fun k hk => by
      rw [b4 k]
      by_cases c : k < ns - nd
      · rw [if_pos c, if_pos (by omega)]
      · rw [if_neg c, if_neg (by omega)]⟩ (by
      rw [e2]
      intro j ⟨y1, d1⟩ hj0 hj ⟨i1, i2, i3, i4⟩
      dsimp only at i1 i2 i3 i4
      unfold winStepB
      dsimp only
      rw [rd_at z d1 _ j rfl (by omega), rd_at z win _ j rfl (by omega),
        rd_at z d1 _ (ns - 1 - j) (by omega) (by omega), rd_at z win _ (ns - 1 - j) (by omega) (by omega)]
      dsimp only [bind, Option.bind]
      rw [wr_at _ _ (ns / 2 - 1 - j) _ (by omega) (by omega)]
      dsimp only
      rw [rd_at z x _ (ns - nd + j) (by omega) (by omega)]
      dsimp only
      rw [wr_at _ _ j _ rfl (by omega)]
      dsimp only
      rw [rd_at z win _ (ns + j) (by push_cast; rfl) (by omega), rd_at z x _ (2 * ns - nd - j - 1) (by omega) (by omega)]
      dsimp only
      rw [wr_at _ _ (ns - 1 - j) _ (by omega) (by rw [List.length_set]; omega)]
      dsimp only
      rw [rd_at z win _ (2 * ns - 1 - j) (by omega) (by omega)]
      dsimp only
      rw [wr_at _ _ (ns / 2 + j) _ (by push_cast; rfl) (by rw [List.length_set]; omega)]
      refine ⟨_, rfl, by simp only [List.length_set]; exact i1, by simp only [List.length_set]; exact i2, ?_, ?_⟩
      · intro k hk1 hk2
        dsimp only
        rw [getD_set_at z _ _ _ (by rw [List.length_set]; omega), getD_set_at z _ _ _ (by omega)]
        by_cases c1 : k = ns / 2 + j
        · rw [if_pos c1]; unfold winOut
          rw [if_neg (by omega)]; dsimp only
          rw [show k - ns / 2 = j by omega, if_neg (by omega)]
        · rw [if_neg c1]
          by_cases c2 : k = ns / 2 - 1 - j
          · rw [if_pos c2]; unfold winOut
            rw [if_pos (by omega)]; dsimp only
            rw [show ns / 2 - 1 - k = j by omega, if_neg (by omega), i4 j (by omega), if_neg (by omega), i4 (ns - 1 - j) (by omega),
              if_neg (by omega)]
          · rw [if_neg c2]; exact i3 k (by omega) (by omega)
      · intro k hk
        dsimp only
        rw [getD_set_at z _ _ _ (by rw [List.length_set]; omega), getD_set_at z _ _ _ (by omega), i4 k hk]
        by_cases c1 : k = ns - 1 - j
        · rw [if_pos c1, if_pos (by omega), c1]; congr 1; omega
        · rw [if_neg c1]
          by_cases c2 : k = j
          · rw [if_pos c2, if_pos (by omega), c2]
          · rw [if_neg c2]
            by_cases c3 : k < j ∨ ns - j ≤ k
            · rw [if_pos c3, if_pos (by omega)]
            · rw [if_neg c3, if_neg (by omega)])
  rw [e2] at c2
  obtain ⟨d1, d2, d3, d4⟩ := c2
  refine ⟨s2.1, s2.2, ?_, d1, d2, fun k hk => d3 k (by omega) (by omega), fun k hk => ?_⟩
  · dsimp only [bind, Option.bind]
    rw [a1]
    dsimp only
    rw [e1, c1]
  · rw [d4 k hk, if_pos (by omega)]

/-! ### Rotations -/

theorem getD_set4 (z : R) (l : List R) (a b c e : Nat) (u v w x : R) (ha : a < l.length) (hb : b < l.length) (hc : c < l.length)
    (hd : e < l.length) (k : Nat) :
    ((((l.set a u).set b v).set c w).set e x).getD k z =
      if k = e then x else if k = c then w else if k = b then v else if k = a then u else l.getD k z := by
  rw [getD_set_at z _ _ _ (by simp only [List.length_set]; exact hd), getD_set_at z _ _ _ (by simp only [List.length_set]; exact hc),
    getD_set_at z _ _ _ (by simp only [List.length_set]; exact hb), getD_set_at z _ _ _ ha]

/-- The outcome `p` of `mdct_pre_fft`. -/
def preOut (z : R) (A : Arith R) (n4 : Nat) (w y : List R) (p : Nat) : R × R :=
  let x0 := y.getD (2 * p) z
  let x1 := y.getD (2 * n4 - 1 - 2 * p) z
  let u := cAt z w p
  if p < n4 / 2 then (A.add (A.mul (A.neg x1) u.1) (A.mul x0 u.2), A.add (A.mul x0 u.1) (A.mul x1 u.2))
  else (A.add (A.mul (A.neg x0) u.2) (A.mul x1 u.1), A.sub (A.mul (A.neg x1) u.2) (A.mul x0 u.1))

theorem mdctPre_spec (z : R) (A : Arith R) (n4 : Nat) (w y : List R) (he : n4 % 2 = 0) (hw : 2 * n4 ≤ w.length) (hy : 2 * n4 ≤ y.length) :
    ∃ y', mdctPre A (n4, w) y = some y' ∧ y'.length = y.length ∧ ∀ p, p < n4 → cAt z y' p = preOut z A n4 w y p := by
  unfold mdctPre
  have e1 : (n4 + 1) / 2 = n4 / 2 := by omega
  dsimp only
  rw [e1]
  obtain ⟨y', h1, h2, h3, h4⟩ := iter_inv (preBody A n4 w)
    (fun i y' => y'.length = y.length ∧ (∀ k, 2 * i ≤ k → k < 2 * n4 - 2 * i → y'.getD k z = y.getD k z) ∧
      ∀ p, p < i ∨ n4 - i ≤ p ∧ p < n4 → cAt z y' p = preOut z A n4 w y p)
    (n4 / 2) 0 y ⟨rfl, fun _ _ _ => rfl, fun p hp => by omega⟩ (by
      intro i y1 _ hi ⟨i1, i2, i3⟩
      rw [Nat.zero_add] at hi
      unfold preBody
      rw [rdc_at z w _ i rfl (by omega), rd_at z y1 _ (2 * n4 - 2 * i - 1) (by omega) (by omega), rd_at z y1 _ (2 * i) (by omega) (by omega),
        rdc_at z w _ (n4 - i - 1) (by omega) (by omega), rd_at z y1 _ (2 * n4 - 2 * i - 2) (by omega) (by omega),
        rd_at z y1 _ (2 * i + 1) (by omega) (by omega)]
      dsimp only [bind, Option.bind]
      rw [wr_at _ _ (2 * i) _ (by omega) (by omega)]; dsimp only
      rw [wr_at _ _ (2 * i + 1) _ (by omega) (by simp only [List.length_set]; omega)]; dsimp only
      rw [wr_at _ _ (2 * (n4 - i - 1)) _ (by omega) (by simp only [List.length_set]; omega)]; dsimp only
      rw [wr_at _ _ (2 * (n4 - i - 1) + 1) _ (by omega) (by simp only [List.length_set]; omega)]
      refine ⟨_, rfl, by simp only [List.length_set]; exact i1, ?_, ?_⟩
      · intro k hk1 hk2
        rw [getD_set4 z _ _ _ _ _ _ _ _ _ (by omega) (by omega) (by omega) (by omega), if_neg (by omega), if_neg (by omega),
          if_neg (by omega), if_neg (by omega)]
        exact i2 k (by omega) (by omega)
      · intro p hp
        rw [cAt_set2 z _ _ _ _ _ (by simp only [List.length_set]; omega), cAt_set2 z _ _ _ _ _ (by omega)]
        rw [i2 (2 * n4 - 2 * i - 1) (by omega) (by omega), i2 (2 * i) (by omega) (by omega), i2 (2 * n4 - 2 * i - 2) (by omega) (by omega),
          i2 (2 * i + 1) (by omega) (by omega)]
        by_cases c1 : p = n4 - i - 1
        · rw [if_pos c1]; unfold preOut; dsimp only
          rw [if_neg (by omega), c1, show 2 * n4 - 1 - 2 * (n4 - i - 1) = 2 * i + 1 by omega,
            show 2 * n4 - 2 * i - 2 = 2 * (n4 - i - 1) by omega]; rfl
        · rw [if_neg c1]
          by_cases c2 : p = i
          · rw [if_pos c2]; unfold preOut; dsimp only
            rw [if_pos (by omega), c2, show 2 * n4 - 1 - 2 * i = 2 * n4 - 2 * i - 1 by omega]; rfl
          · rw [if_neg c2]; exact i3 p (by omega))
  exact ⟨y', h1, h2, fun p hp => h4 p (by omega)⟩

/-- The outcomes of `mdct_post_fft`: the values at `2 p` and at `2 n4 - 1 - 2 p`. -/
def postOut (z : R) (A : Arith R) (w x : List R) (p : Nat) : R × R :=
  let u := cAt z w p
  let v := cAt z x p
  (A.add (A.mul v.2 u.2) (A.mul v.1 u.1), A.sub (A.mul v.1 u.2) (A.mul v.2 u.1))

theorem mdctPost_spec (z : R) (A : Arith R) (n4 : Nat) (w : List R) (x : Option (List R)) (y : List R) (he : n4 % 2 = 0)
    (hw : 2 * n4 ≤ w.length) (hy : 2 * n4 ≤ y.length) (hx : ∀ l, x = some l → 2 * n4 ≤ l.length) :
    ∃ y', mdctPost A (n4, w) x y = some y' ∧ y'.length = y.length ∧ (∀ k, 2 * n4 ≤ k → y'.getD k z = y.getD k z) ∧
      ∀ p, p < n4 → y'.getD (2 * p) z = (postOut z A w (x.getD y) p).1 ∧
        y'.getD (2 * n4 - 1 - 2 * p) z = (postOut z A w (x.getD y) p).2 := by
  unfold mdctPost
  have e1 : (n4 + 1) / 2 = n4 / 2 := by omega
  dsimp only
  rw [e1]
  have hX : 2 * n4 ≤ (x.getD y).length := by
    cases x with
    | none => exact hy
    | some l => exact hx l rfl
  obtain ⟨y', h1, h2, h3, h4⟩ := iter_inv (postBody A n4 w x)
    (fun i y' => y'.length = y.length ∧ (∀ k, k < n4 - 2 * i ∨ n4 + 2 * i ≤ k → y'.getD k z = y.getD k z) ∧
      ∀ p, p < n4 → n4 / 2 - i ≤ p → p < n4 / 2 + i → y'.getD (2 * p) z = (postOut z A w (x.getD y) p).1 ∧
        y'.getD (2 * n4 - 1 - 2 * p) z = (postOut z A w (x.getD y) p).2)
    (n4 / 2) 0 y ⟨rfl, fun _ _ => rfl, fun p _ _ _ => by omega⟩ (by
      intro i y1 _ hi ⟨i1, i2, i3⟩
      rw [Nat.zero_add] at hi
      have hY : 2 * n4 ≤ (x.getD y1).length := by
        cases x with
        | none => show 2 * n4 ≤ y1.length; omega
        | some l => exact hx l rfl
      have hcat : ∀ p, p < n4 / 2 - i ∨ n4 / 2 + i ≤ p → cAt z (x.getD y1) p = cAt z (x.getD y) p := by
        intro p hp
        cases x with
        | none => show cAt z y1 p = cAt z y p; unfold cAt; rw [i2 _ (by omega), i2 _ (by omega)]
        | some l => rfl
      unfold postBody
      dsimp only
      rw [rdc_at z (x.getD y1) _ (n4 / 2 + i) (by omega) (by omega), rdc_at z (x.getD y1) _ (n4 / 2 - 1 - i) (by omega) (by omega),
        rdc_at z w _ (n4 / 2 + i) (by omega) (by omega), rdc_at z w _ (n4 / 2 - 1 - i) (by omega) (by omega)]
      dsimp only [bind, Option.bind]
      rw [wr_at _ _ (n4 + 2 * i) _ (by omega) (by omega)]; dsimp only
      rw [wr_at _ _ (n4 + 2 * i + 1) _ (by omega) (by simp only [List.length_set]; omega)]; dsimp only
      rw [wr_at _ _ (n4 - 2 * i - 1) _ (by omega) (by simp only [List.length_set]; omega)]; dsimp only
      rw [wr_at _ _ (n4 - 2 * i - 2) _ (by omega) (by simp only [List.length_set]; omega)]
      refine ⟨_, rfl, by simp only [List.length_set]; exact i1, ?_, ?_⟩
      · intro k hk
        rw [getD_set4 z _ _ _ _ _ _ _ _ _ (by omega) (by omega) (by omega) (by omega), if_neg (by omega), if_neg (by omega),
          if_neg (by omega), if_neg (by omega)]
        exact i2 k (by omega)
      · intro p hp hp1 hp2
        rw [getD_set4 z _ _ _ _ _ _ _ _ _ (by omega) (by omega) (by omega) (by omega),
          getD_set4 z _ _ _ _ _ _ _ _ _ (by omega) (by omega) (by omega) (by omega)]
        by_cases c1 : p = n4 / 2 + i
        · rw [if_neg (by omega), if_neg (by omega), if_neg (by omega), if_pos (by omega), if_neg (by omega), if_pos (by omega)]
          have := hcat p (by omega)
          unfold postOut
          dsimp only
          rw [← this, c1]
          exact ⟨rfl, rfl⟩
        · by_cases c2 : p = n4 / 2 - 1 - i
          · rw [if_pos (by omega), if_neg (by omega), if_neg (by omega), if_pos (by omega)]
            have := hcat p (by omega)
            unfold postOut
            dsimp only
            rw [← this, c2]
            exact ⟨rfl, rfl⟩
          · rw [if_neg (by omega), if_neg (by omega), if_neg (by omega), if_neg (by omega), if_neg (by omega), if_neg (by omega),
              if_neg (by omega), if_neg (by omega)]
            exact i3 p hp (by omega) (by omega))
  exact ⟨y', h1, h2, fun k hk => h3 k (by omega), fun p hp => h4 p hp (by omega) (by omega)⟩

/-- The outcome `p` of `imdct_pre_fft`. -/
def ipreOut (z : R) (A : Arith R) (n4 : Nat) (w x : List R) (p : Nat) : R × R :=
  let u0 := x.getD (2 * p) z
  let u1 := x.getD (2 * n4 - 1 - 2 * p) z
  let u := cAt z w p
  (A.sub (A.mul (A.neg u0) u.1) (A.mul u1 u.2), A.add (A.mul (A.neg u1) u.1) (A.mul u0 u.2))

theorem imdctPre_spec (z : R) (A : Arith R) (n4 : Nat) (w : List R) (x : Option (List R)) (y : List R) (he : n4 % 2 = 0)
    (hw : 2 * n4 ≤ w.length) (hy : 2 * n4 ≤ y.length) (hx : ∀ l, x = some l → 2 * n4 ≤ l.length) :
    ∃ y', imdctPre A (n4, w) x y = some y' ∧ y'.length = y.length ∧ ∀ p, p < n4 → cAt z y' p = ipreOut z A n4 w (x.getD y) p := by
  unfold imdctPre
  have e1 : (n4 + 1) / 2 = n4 / 2 := by omega
  dsimp only
  rw [e1]
  obtain ⟨y', h1, h2, h3, h4⟩ := iter_inv (ipreBody A n4 w x)
    (fun i y' => y'.length = y.length ∧ (∀ k, 2 * i ≤ k → k < 2 * n4 - 2 * i → y'.getD k z = y.getD k z) ∧
      ∀ p, p < i ∨ n4 - i ≤ p ∧ p < n4 → cAt z y' p = ipreOut z A n4 w (x.getD y) p)
    (n4 / 2) 0 y ⟨rfl, fun _ _ _ => rfl, fun p hp => by omega⟩ (by
      intro i y1 _ hi ⟨i1, i2, i3⟩
      rw [Nat.zero_add] at hi
      have hY : 2 * n4 ≤ (x.getD y1).length := by
        cases x with
        | none => show 2 * n4 ≤ y1.length; omega
        | some l => exact hx l rfl
      have hcat : ∀ k, 2 * i ≤ k → k < 2 * n4 - 2 * i → (x.getD y1).getD k z = (x.getD y).getD k z := by
        intro k hk1 hk2
        cases x with
        | none => exact i2 k hk1 hk2
        | some l => rfl
      unfold ipreBody
      dsimp only
      rw [rd_at z (x.getD y1) _ (2 * i) (by omega) (by omega), rd_at z (x.getD y1) _ (2 * n4 - 2 * i - 1) (by omega) (by omega),
        rd_at z (x.getD y1) _ (2 * i + 1) (by omega) (by omega), rd_at z (x.getD y1) _ (2 * n4 - 2 * i - 2) (by omega) (by omega),
        rdc_at z w _ i rfl (by omega), rdc_at z w _ (n4 - i - 1) (by omega) (by omega)]
      rw [hcat (2 * i) (by omega) (by omega), hcat (2 * n4 - 2 * i - 1) (by omega) (by omega),
        hcat (2 * i + 1) (by omega) (by omega), hcat (2 * n4 - 2 * i - 2) (by omega) (by omega)]
      dsimp only [bind, Option.bind]
      rw [wr_at _ _ (2 * i) _ (by omega) (by omega)]; dsimp only
      rw [wr_at _ _ (2 * i + 1) _ (by omega) (by simp only [List.length_set]; omega)]; dsimp only
      rw [wr_at _ _ (2 * (n4 - i - 1)) _ (by omega) (by simp only [List.length_set]; omega)]; dsimp only
      rw [wr_at _ _ (2 * (n4 - i - 1) + 1) _ (by omega) (by simp only [List.length_set]; omega)]
      refine ⟨_, rfl, by simp only [List.length_set]; exact i1, ?_, ?_⟩
      · intro k hk1 hk2
        rw [getD_set4 z _ _ _ _ _ _ _ _ _ (by omega) (by omega) (by omega) (by omega), if_neg (by omega), if_neg (by omega),
          if_neg (by omega), if_neg (by omega)]
        exact i2 k (by omega) (by omega)
      · intro p hp
        rw [cAt_set2 z _ _ _ _ _ (by simp only [List.length_set]; omega), cAt_set2 z _ _ _ _ _ (by omega)]
        by_cases c1 : p = n4 - i - 1
        · rw [if_pos c1]; unfold ipreOut; dsimp only
          rw [c1, show 2 * n4 - 1 - 2 * (n4 - i - 1) = 2 * i + 1 by omega,
            show 2 * n4 - 2 * i - 2 = 2 * (n4 - i - 1) by omega]; rfl
        · rw [if_neg c1]
          by_cases c2 : p = i
          · rw [if_pos c2]; unfold ipreOut; dsimp only
            rw [c2, show 2 * n4 - 1 - 2 * i = 2 * n4 - 2 * i - 1 by omega]; rfl
          · rw [if_neg c2]; exact i3 p (by omega))
  exact ⟨y', h1, h2, fun p hp => h4 p (by omega)⟩

/-- The outcomes of `imdct_post_fft`: the values at `2 p` and at `2 n4 - 1 - 2 p`. -/
def ipostOut (z : R) (A : Arith R) (w x : List R) (p : Nat) : R × R :=
  let u := cAt z w p
  let v := cAt z x p
  (A.sub (A.mul v.1 u.2) (A.mul v.2 u.1), A.add (A.mul v.1 u.1) (A.mul v.2 u.2))

theorem imdctPost_spec (z : R) (A : Arith R) (n4 : Nat) (w : List R) (x : Option (List R)) (y : List R) (he : n4 % 2 = 0)
    (hw : 2 * n4 ≤ w.length) (hy : 2 * n4 ≤ y.length) (hx : ∀ l, x = some l → 2 * n4 ≤ l.length) :
    ∃ y', imdctPost A (n4, w) x y = some y' ∧ y'.length = y.length ∧
      ∀ p, p < n4 → y'.getD (2 * p) z = (ipostOut z A w (x.getD y) p).1 ∧
        y'.getD (2 * n4 - 1 - 2 * p) z = (ipostOut z A w (x.getD y) p).2 := by
  unfold imdctPost
  have e1 : (n4 + 1) / 2 = n4 / 2 := by omega
  dsimp only
  rw [e1]
  obtain ⟨y', h1, h2, h3, h4⟩ := iter_inv (ipostBody A n4 w x)
    (fun i y' => y'.length = y.length ∧ (∀ k, 2 * i ≤ k → k < 2 * n4 - 2 * i → y'.getD k z = y.getD k z) ∧
      ∀ p, p < i ∨ n4 - i ≤ p ∧ p < n4 → y'.getD (2 * p) z = (ipostOut z A w (x.getD y) p).1 ∧
        y'.getD (2 * n4 - 1 - 2 * p) z = (ipostOut z A w (x.getD y) p).2)
    (n4 / 2) 0 y ⟨rfl, fun _ _ _ => rfl, fun p hp => by omega⟩ (by
      intro i y1 _ hi ⟨i1, i2, i3⟩
      rw [Nat.zero_add] at hi
      have hY : 2 * n4 ≤ (x.getD y1).length := by
        cases x with
        | none => show 2 * n4 ≤ y1.length; omega
        | some l => exact hx l rfl
      have hcat : ∀ p, i ≤ p → p < n4 - i → cAt z (x.getD y1) p = cAt z (x.getD y) p := by
        intro p hp1 hp2
        cases x with
        | none => show cAt z y1 p = cAt z y p; unfold cAt; rw [i2 _ (by omega) (by omega), i2 _ (by omega) (by omega)]
        | some l => rfl
      unfold ipostBody
      dsimp only
      rw [rdc_at z (x.getD y1) _ i rfl (by omega), rdc_at z (x.getD y1) _ (n4 - i - 1) (by omega) (by omega),
        rdc_at z w _ i rfl (by omega), rdc_at z w _ (n4 - i - 1) (by omega) (by omega)]
      dsimp only [bind, Option.bind]
      rw [wr_at _ _ (2 * i) _ (by omega) (by omega)]; dsimp only
      rw [wr_at _ _ (2 * n4 - 2 * i - 1) _ (by omega) (by simp only [List.length_set]; omega)]; dsimp only
      rw [wr_at _ _ (2 * n4 - 2 * i - 2) _ (by omega) (by simp only [List.length_set]; omega)]; dsimp only
      rw [wr_at _ _ (2 * i + 1) _ (by omega) (by simp only [List.length_set]; omega)]
      refine ⟨_, rfl, by simp only [List.length_set]; exact i1, ?_, ?_⟩
      · intro k hk1 hk2
        rw [getD_set4 z _ _ _ _ _ _ _ _ _ (by omega) (by omega) (by omega) (by omega), if_neg (by omega), if_neg (by omega),
          if_neg (by omega), if_neg (by omega)]
        exact i2 k (by omega) (by omega)
      · intro p hp
        rw [getD_set4 z _ _ _ _ _ _ _ _ _ (by omega) (by omega) (by omega) (by omega),
          getD_set4 z _ _ _ _ _ _ _ _ _ (by omega) (by omega) (by omega) (by omega)]
        by_cases c1 : p = i
        · rw [if_neg (by omega), if_neg (by omega), if_neg (by omega), if_pos (by omega), if_neg (by omega), if_neg (by omega),
            if_pos (by omega)]
          have := hcat p (by omega) (by omega)
          unfold ipostOut
          dsimp only
          rw [← this, c1]
          exact ⟨rfl, rfl⟩
        · by_cases c2 : p = n4 - i - 1
          · rw [if_neg (by omega), if_pos (by omega), if_pos (by omega)]
            have := hcat p (by omega) (by omega)
            unfold ipostOut
            dsimp only
            rw [← this, c2]
            exact ⟨rfl, rfl⟩
          · rw [if_neg (by omega), if_neg (by omega), if_neg (by omega), if_neg (by omega), if_neg (by omega), if_neg (by omega),
              if_neg (by omega), if_neg (by omega)]
            exact i3 p (by omega))
  exact ⟨y', h1, h2, fun p hp => h4 p (by omega)⟩

/-! ### Windowing of the inverse transform -/

/-- The value `k` of the windowed output, of `ns + nd` samples. -/
def iwinTerm (z : R) (A : Arith R) (ns nd : Nat) (win u : List R) (k : Nat) : R :=
  if k < ns then A.mul (u.getD (k + ns / 2 - nd) z) (win.getD (ns + nd - 1 - k) z)
  else A.mul (u.getD (if k - ns < nd - ns / 2 then 3 * (ns / 2) - nd + (k - ns) else ns / 2 + nd - 1 - (k - ns)) z)
    (win.getD (nd - 1 - (k - ns)) z)

/-- The output sample `k`. -/
def iwinOut (z : R) (A : Arith R) (ns nd : Nat) (win u d : List R) (k : Nat) : R :=
  if k < nd - ns / 2 then
    A.sub (d.getD k z) (A.mul (u.getD (nd - ns / 2 - 1 - k) z) (win.getD (ns + nd - 1 - k) z))
  else if k < nd then A.add (d.getD k z) (iwinTerm z A ns nd win u k)
  else iwinTerm z A ns nd win u k

set_option maxHeartbeats 1000000 in
theorem imdctWindow_spec (z : R) (A : Arith R) (ns nd : Nat) (win u d y : List R) (h4 : ns % 4 = 0) (hd : nd ≤ ns) (hn : ns ≤ 2 * nd)
    (he : (ns - nd) % 2 = 0) (hw : ns + nd ≤ win.length) (hu : ns ≤ u.length) (hdl : nd ≤ d.length) (hy : ns ≤ y.length) :
    ∃ y' d', imdctWindow A ns nd win u d y = some (y', d') ∧ y'.length = y.length ∧ d'.length = d.length ∧
      (∀ k, k < ns → y'.getD k z = iwinOut z A ns nd win u d k) ∧
      (∀ k, ns ≤ k → y'.getD k z = y.getD k z) ∧
      (∀ k, k < nd → d'.getD k z = iwinTerm z A ns nd win u (ns + k)) := by
  obtain ⟨n4, rfl⟩ : ∃ n4, ns = 2 * n4 := ⟨ns / 2, by omega⟩
  have en4 : 2 * n4 / 2 = n4 := by omega
  unfold imdctWindow
  rw [en4]
  dsimp only
  have e1 : 2 * ((nd - n4 + 1) / 2) = nd - n4 := by omega
  rw [e1]
  obtain ⟨s1, a1, a2⟩ := pairs_inv (iwinStep1 A n4 nd win u)
    (fun j s => s.1.length = y.length ∧ s.2 = d ∧
      (∀ k, nd - n4 - j ≤ k → k < nd - n4 + j → s.1.getD k z = iwinOut z A (2 * n4) nd win u d k) ∧
      (∀ k, 2 * n4 ≤ k → s.1.getD k z = y.getD k z))
    ((nd - n4 + 1) / 2) 0 (y, d) ⟨rfl, rfl, fun k _ _ => by omega, fun _ _ => rfl⟩ (by
      rw [e1, Nat.zero_add]
      intro j ⟨y1, d1⟩ _ hj ⟨i1, i2, i3, i4⟩
      dsimp only at i1 i2 i3 i4
      subst i2
      unfold iwinStep1
      dsimp only
      rw [rd_at z d1 _ (nd - n4 - j - 1) (by omega) (by omega), rd_at z u _ j rfl (by omega), rd_at z win _ (3 * n4 + j) (by omega) (by omega)]
      dsimp only [bind, Option.bind]
      rw [wr_at _ _ (nd - n4 - j - 1) _ (by omega) (by omega)]
      dsimp only
      rw [rd_at z d1 _ (nd - n4 + j) (by omega) (by omega), rd_at z win _ (3 * n4 - j - 1) (by omega) (by omega)]
      dsimp only
      rw [wr_at _ _ (nd - n4 + j) _ (by omega) (by rw [List.length_set]; omega)]
      refine ⟨_, rfl, by simp only [List.length_set]; exact i1, rfl, ?_, ?_⟩
      · intro k hk1 hk2
        dsimp only
        rw [getD_set_at z _ _ _ (by rw [List.length_set]; omega), getD_set_at z _ _ _ (by omega)]
        by_cases c1 : k = nd - n4 + j
        · rw [if_pos c1]; unfold iwinOut iwinTerm
          rw [en4, if_neg (by omega), if_pos (by omega), if_pos (by omega), show k + n4 - nd = j by omega,
            show 2 * n4 + nd - 1 - k = 3 * n4 - j - 1 by omega, c1]
        · rw [if_neg c1]
          by_cases c2 : k = nd - n4 - j - 1
          · rw [if_pos c2]; unfold iwinOut
            rw [en4, if_pos (by omega), show nd - n4 - 1 - k = j by omega, show 2 * n4 + nd - 1 - k = 3 * n4 + j by omega, c2]
          · rw [if_neg c2]; exact i3 k (by omega) (by omega)
      · intro k hk
        dsimp only
        rw [getD_set_at z _ _ _ (by rw [List.length_set]; omega), getD_set_at z _ _ _ (by omega), if_neg (by omega), if_neg (by omega)]
        exact i4 k hk)
  rw [Nat.zero_add, e1] at a2
  obtain ⟨b1, b2, b3, b4⟩ := a2
  have e2 : nd - n4 + 2 * ((n4 - (nd - n4) + 1) / 2) = n4 := by omega
  obtain ⟨s2, c1, c2⟩ := pairs_inv (iwinStep2 A n4 nd win u)
    (fun j s => s.1.length = y.length ∧ s.2 = d ∧
      (∀ k, k < nd - n4 + j → s.1.getD k z = iwinOut z A (2 * n4) nd win u d k) ∧
      (∀ k, 2 * n4 ≤ k → s.1.getD k z = y.getD k z))
    ((n4 - (nd - n4) + 1) / 2) (nd - n4) s1 ⟨b1, b2, fun k hk => b3 k (by omega) hk, b4⟩ (by
      rw [e2]
      intro j ⟨y1, d1⟩ hj0 hj ⟨i1, i2, i3, i4⟩
      dsimp only at i1 i2 i3 i4
      subst i2
      unfold iwinStep2
      dsimp only
      rw [rd_at z d1 _ (nd - n4 + j) (by omega) (by omega), rd_at z u _ j rfl (by omega), rd_at z win _ (3 * n4 - j - 1) (by omega) (by omega)]
      dsimp only [bind, Option.bind]
      rw [wr_at _ _ (nd - n4 + j) _ (by omega) (by omega)]
      refine ⟨_, rfl, by simp only [List.length_set]; exact i1, rfl, ?_, ?_⟩
      · intro k hk1
        dsimp only
        rw [getD_set_at z _ _ _ (by omega)]
        by_cases c1 : k = nd - n4 + j
        · rw [if_pos c1]; unfold iwinOut iwinTerm
          rw [en4, if_neg (by omega), if_pos (by omega), if_pos (by omega), show k + n4 - nd = j by omega,
            show 2 * n4 + nd - 1 - k = 3 * n4 - j - 1 by omega, c1]
        · rw [if_neg c1]; exact i3 k (by omega)
      · intro k hk
        dsimp only
        rw [getD_set_at z _ _ _ (by omega), if_neg (by omega)]
        exact i4 k hk)
  rw [e2] at c2
  obtain ⟨d1, d2, d3, d4⟩ := c2
  have e3 : n4 + 2 * ((3 * n4 - nd - n4 + 1) / 2) = 3 * n4 - nd := by omega
  obtain ⟨s3, f1, f2⟩ := pairs_inv (iwinStep3 A n4 nd n4 win u)
    (fun j s => s.1.length = y.length ∧ s.2.length = d.length ∧
      (∀ k, k < nd - n4 + j → s.1.getD k z = iwinOut z A (2 * n4) nd win u d k) ∧
      (∀ k, 2 * n4 ≤ k → s.1.getD k z = y.getD k z) ∧
      (∀ k, k < nd → nd - (j - n4) ≤ k → s.2.getD k z = iwinTerm z A (2 * n4) nd win u (2 * n4 + k)))
    ((3 * n4 - nd - n4 + 1) / 2) n4 s2 ⟨d1, by rw [d2], d3, d4, fun k _ _ => by omega⟩ (by
      rw [e3]
      intro j ⟨y1, d1⟩ hj0 hj ⟨i1, i2, i3, i4, i5⟩
      dsimp only at i1 i2 i3 i4 i5
      unfold iwinStep3
      dsimp only
      rw [rd_at z u _ j rfl (by omega), rd_at z win _ (3 * n4 - j - 1) (by omega) (by omega)]
      dsimp only [bind, Option.bind]
      rw [wr_at _ _ (nd - n4 + j) _ (by omega) (by omega)]
      dsimp only
      rw [rd_at z win _ (j - n4) (by omega) (by omega)]
      dsimp only
      rw [wr_at _ _ (nd - (j - n4) - 1) _ (by omega) (by omega)]
      refine ⟨_, rfl, by simp only [List.length_set]; exact i1, by simp only [List.length_set]; exact i2, ?_, ?_, ?_⟩
      · intro k hk1
        dsimp only
        rw [getD_set_at z _ _ _ (by omega)]
        by_cases c1 : k = nd - n4 + j
        · rw [if_pos c1]; unfold iwinOut iwinTerm
          rw [en4, if_neg (by omega), if_neg (by omega), if_pos (by omega), show k + n4 - nd = j by omega,
            show 2 * n4 + nd - 1 - k = 3 * n4 - j - 1 by omega]
        · rw [if_neg c1]; exact i3 k (by omega)
      · intro k hk
        dsimp only
        rw [getD_set_at z _ _ _ (by omega), if_neg (by omega)]
        exact i4 k hk
      · intro k hk1 hk2
        dsimp only
        rw [getD_set_at z _ _ _ (by omega)]
        by_cases c1 : k = nd - (j - n4) - 1
        · rw [if_pos c1]; unfold iwinTerm
          rw [en4, if_neg (by omega), if_neg (by omega), show n4 + nd - 1 - (2 * n4 + k - 2 * n4) = j by omega,
            show nd - 1 - (2 * n4 + k - 2 * n4) = j - n4 by omega]
        · rw [if_neg c1]; exact i5 k hk1 (by omega))
  rw [e3] at f2
  obtain ⟨g1, g2, g3, g4, g5⟩ := f2
  have e4 : 3 * n4 - nd + 2 * ((nd + n4 + (3 * n4 - nd) - 2 * (3 * n4 - nd) + 3) / 4) = 2 * n4 := by omega
  obtain ⟨s4, k1, k2⟩ := pairs_inv (iwinStep4 A n4 nd n4 (3 * n4 - nd) win u)
    (fun j s => s.1 = s3.1 ∧ s.2.length = d.length ∧
      (∀ k, k < nd → nd - (j - n4) ≤ k ∨ k < j - (3 * n4 - nd) → s.2.getD k z = iwinTerm z A (2 * n4) nd win u (2 * n4 + k)))
    ((nd + n4 + (3 * n4 - nd) - 2 * (3 * n4 - nd) + 3) / 4) (3 * n4 - nd) s3 ⟨rfl, g2, fun k h1 h2 => g5 k h1 (by omega)⟩ (by
      rw [e4]
      intro j ⟨y1, d1⟩ hj0 hj ⟨i1, i2, i3⟩
      dsimp only at i1 i2 i3
      unfold iwinStep4
      dsimp only
      rw [rd_at z u _ j rfl (by omega), rd_at z win _ (3 * n4 - j - 1) (by omega) (by omega)]
      dsimp only [bind, Option.bind]
      rw [wr_at _ _ (j - (3 * n4 - nd)) _ (by omega) (by omega)]
      dsimp only
      rw [rd_at z win _ (j - n4) (by omega) (by omega)]
      dsimp only
      rw [wr_at _ _ (nd - (j - n4) - 1) _ (by omega) (by rw [List.length_set]; omega)]
      refine ⟨_, rfl, i1, by simp only [List.length_set]; exact i2, ?_⟩
      intro k hk1 hk2
      dsimp only
      rw [getD_set_at z _ _ _ (by rw [List.length_set]; omega), getD_set_at z _ _ _ (by omega)]
      by_cases c1 : k = nd - (j - n4) - 1
      · rw [if_pos c1]; unfold iwinTerm
        rw [en4, if_neg (by omega), if_neg (by omega), show n4 + nd - 1 - (2 * n4 + k - 2 * n4) = j by omega,
          show nd - 1 - (2 * n4 + k - 2 * n4) = j - n4 by omega]
      · rw [if_neg c1]
        by_cases c2 : k = j - (3 * n4 - nd)
        · rw [if_pos c2]; unfold iwinTerm
          rw [en4, if_neg (by omega), if_pos (by omega), show 3 * n4 - nd + (2 * n4 + k - 2 * n4) = j by omega,
            show nd - 1 - (2 * n4 + k - 2 * n4) = 3 * n4 - j - 1 by omega]
        · rw [if_neg c2]; exact i3 k hk1 (by omega))
  rw [e4] at k2
  obtain ⟨l1, l2, l3⟩ := k2
  refine ⟨s4.1, s4.2, ?_, by rw [l1]; exact g1, l2, fun k hk => by rw [l1]; exact g3 k (by omega), fun k hk => by rw [l1]; exact g4 k hk,
    fun k hk => l3 k hk (by omega)⟩
  dsimp only [bind, Option.bind]
  rw [a1]
  dsimp only
  rw [c1]
  dsimp only
  rw [e2, f1]
  dsimp only
  rw [e3, k1]

end LC3
