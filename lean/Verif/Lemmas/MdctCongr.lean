import Verif.Props.Mdct

/-! The transforms depend only on the values of their inputs, not on the content of the buffers used for the calculation. -/

namespace LC3

variable {R : Type}

/-- The first `n` complex numbers of two buffers are equal. -/
def SameC (z : R) (n : Nat) (x y : List R) : Prop := ∀ k, k < n → cAt z x k = cAt z y k

theorem bf3_congr (z : R) (A : Arith R) (n3 : Nat) (w : List R) (n : Nat) (x y x' y' : List R) (hw : 12 * n3 ≤ w.length)
    (hx : 6 * (n * n3) ≤ x.length) (hy : 6 * (n * n3) ≤ y.length) (hx' : 6 * (n * n3) ≤ x'.length) (hy' : 6 * (n * n3) ≤ y'.length)
    (hs : SameC z (3 * (n * n3)) x x') :
    ∃ u u', fftBf3 A (n3, w) n x y = some u ∧ fftBf3 A (n3, w) n x' y' = some u' ∧ u.length = y.length ∧ u'.length = y'.length ∧
      SameC z (3 * (n * n3)) u u' := by
  obtain ⟨u, a1, a2, a3⟩ := fftBf3_spec z A n3 w n x y hw hx hy
  obtain ⟨u', b1, b2, b3⟩ := fftBf3_spec z A n3 w n x' y' hw hx' hy'
  refine ⟨u, u', a1, b1, a2, b2, ?_⟩
  intro k hk
  have h0 : 0 < n3 := by
    rcases Nat.eq_zero_or_pos n3 with h | h
    · rw [h] at hk; omega
    · exact h
  obtain ⟨q, hq⟩ : ∃ q, q = k / n3 := ⟨_, rfl⟩
  obtain ⟨j, hj⟩ : ∃ j, j = k % n3 := ⟨_, rfl⟩
  have hkq : k = n3 * q + j := by rw [hq, hj]; exact (Nat.div_add_mod k n3).symm
  have hjn : j < n3 := by rw [hj]; exact Nat.mod_lt _ h0
  have hq3 : q < 3 * n := by
    rw [hq]
    apply (Nat.div_lt_iff_lt_mul h0).2
    rw [show 3 * n * n3 = 3 * (n * n3) by ring]; exact hk
  have hi : q / 3 < n := by omega
  have e : q = 3 * (q / 3) + q % 3 := by omega
  have hin : q / 3 * n3 + j < n * n3 := mul_lt_of hi hjn
  rw [hkq, e, a3 _ _ _ hi hjn (by omega), b3 _ _ _ hi hjn (by omega), hs _ (by omega), hs _ (by omega), hs _ (by omega)]

theorem bf2_congr (z : R) (A : Arith R) (n2 : Nat) (w : List R) (n : Nat) (x y x' y' : List R) (hw : 2 * n2 ≤ w.length)
    (hx : 4 * (n * n2) ≤ x.length) (hy : 4 * (n * n2) ≤ y.length) (hx' : 4 * (n * n2) ≤ x'.length) (hy' : 4 * (n * n2) ≤ y'.length)
    (hs : SameC z (2 * (n * n2)) x x') :
    ∃ u u', fftBf2 A (n2, w) n x y = some u ∧ fftBf2 A (n2, w) n x' y' = some u' ∧ u.length = y.length ∧ u'.length = y'.length ∧
      SameC z (2 * (n * n2)) u u' := by
  obtain ⟨u, a1, a2, a3⟩ := fftBf2_spec z A n2 w n x y hw hx hy
  obtain ⟨u', b1, b2, b3⟩ := fftBf2_spec z A n2 w n x' y' hw hx' hy'
  refine ⟨u, u', a1, b1, a2, b2, ?_⟩
  intro k hk
  have h0 : 0 < n2 := by
    rcases Nat.eq_zero_or_pos n2 with h | h
    · rw [h] at hk; omega
    · exact h
  obtain ⟨q, hq⟩ : ∃ q, q = k / n2 := ⟨_, rfl⟩
  obtain ⟨j, hj⟩ : ∃ j, j = k % n2 := ⟨_, rfl⟩
  have hkq : k = n2 * q + j := by rw [hq, hj]; exact (Nat.div_add_mod k n2).symm
  have hjn : j < n2 := by rw [hj]; exact Nat.mod_lt _ h0
  have hq3 : q < 2 * n := by
    rw [hq]
    apply (Nat.div_lt_iff_lt_mul h0).2
    rw [show 2 * n * n2 = 2 * (n * n2) by ring]; exact hk
  have hi : q / 2 < n := by omega
  have e : q = 2 * (q / 2) + q % 2 := by omega
  have hin : q / 2 * n2 + j < n * n2 := mul_lt_of hi hjn
  rw [hkq, e, a3 _ _ _ hi hjn (by omega), b3 _ _ _ hi hjn (by omega), hs _ (by omega), hs _ (by omega)]

theorem loop3_congr (z : R) (A : Arith R) (T : MdctTables R) (b N : Nat) : ∀ (a i3 fuel B : Nat) (swap : Bool) (src dst src' dst' : List R),
    a < fuel → 0 < B → (∀ i, i < a → HasBf3 (B * 3 ^ i) (T.bf3 (i3 + i))) → N = B * (3 ^ a * 2 ^ b) → 2 * N ≤ src.length →
    2 * N ≤ dst.length → 2 * N ≤ src'.length → 2 * N ≤ dst'.length → SameC z N src src' →
    ∃ sw s d s' d', fftLoop3 A T fuel (3 ^ a * 2 ^ b) i3 swap src dst = some (2 ^ b, i3 + a, sw, s, d) ∧
      fftLoop3 A T fuel (3 ^ a * 2 ^ b) i3 swap src' dst' = some (2 ^ b, i3 + a, sw, s', d') ∧
      2 * N ≤ s.length ∧ 2 * N ≤ d.length ∧ 2 * N ≤ s'.length ∧ 2 * N ≤ d'.length ∧ SameC z N s s' := by
  intro a
  induction a with
  | zero =>
    intro i3 fuel B swap src dst src' dst' hf _ _ _ h1 h2 h3 h4 hs
    obtain ⟨f, rfl⟩ : ∃ f, fuel = f + 1 := ⟨fuel - 1, by omega⟩
    rw [Nat.pow_zero, Nat.one_mul]
    refine ⟨swap, src, dst, src', dst', ?_, ?_, h1, h2, h3, h4, hs⟩
    · rw [fftLoop3, if_pos (and_pred_pow2 b)]; rfl
    · rw [fftLoop3, if_pos (and_pred_pow2 b)]; rfl
  | succ a ih =>
    intro i3 fuel B swap src dst src' dst' hf hB hT hN h1 h2 h3 h4 hs
    obtain ⟨f, rfl⟩ : ∃ f, fuel = f + 1 := ⟨fuel - 1, by omega⟩
    have ht := hT 0 (by omega)
    rw [Nat.pow_zero, Nat.mul_one, Nat.add_zero] at ht
    obtain ⟨w, hw1, hw2⟩ := ht
    have e3 : 6 * (3 ^ a * 2 ^ b * B) = 2 * N := by rw [hN]; ring
    have e4 : 3 * (3 ^ a * 2 ^ b * B) = N := by omega
    obtain ⟨u, u', g1, g2, g3, g4, g5⟩ := bf3_congr z A B w (3 ^ a * 2 ^ b) src dst src' dst' hw2 (by omega) (by omega) (by omega) (by omega)
      (by rw [e4]; exact hs)
    rw [e4] at g5
    obtain ⟨sw, s, d, s', d', k1, k2, k3, k4, k5, k6, k7⟩ := ih (i3 + 1) f (3 * B) (!swap) u src u' src' (by omega) (by omega) (fun i hi => by
      have := hT (i + 1) (by omega)
      rw [show 3 * B * 3 ^ i = B * 3 ^ (i + 1) by ring, show i3 + 1 + i = i3 + (i + 1) by omega]
      exact this) (by rw [hN]; ring) (by omega) h1 (by omega) h3 g5
    have e : 3 ^ (a + 1) * 2 ^ b / 3 = 3 ^ a * 2 ^ b := by
      rw [show 3 ^ (a + 1) * 2 ^ b = 3 * (3 ^ a * 2 ^ b) by ring]; omega
    refine ⟨sw, s, d, s', d', ?_, ?_, k3, k4, k5, k6, k7⟩
    · rw [fftLoop3, if_neg (and_pred_ne a b), hw1, Option.bind_some, e, g1, Option.bind_some, k1, show i3 + 1 + a = i3 + (a + 1) by omega]
    · rw [fftLoop3, if_neg (and_pred_ne a b), hw1, Option.bind_some, e, g2, Option.bind_some, k2, show i3 + 1 + a = i3 + (a + 1) by omega]

theorem loop2_congr (z : R) (A : Arith R) (T : MdctTables R) (i3 N : Nat) : ∀ (b i2 fuel B : Nat) (swap : Bool) (src dst src' dst' : List R),
    b < fuel → 0 < B → (∀ i, i < b → HasBf2 (B * 2 ^ i) (T.bf2 (i2 + i) i3)) → N = B * 2 ^ b → 2 * N ≤ src.length →
    2 * N ≤ dst.length → 2 * N ≤ src'.length → 2 * N ≤ dst'.length → SameC z N src src' →
    ∃ sw s d s' d', fftLoop2 A T i3 fuel (2 ^ b) i2 swap src dst = some (sw, s, d) ∧
      fftLoop2 A T i3 fuel (2 ^ b) i2 swap src' dst' = some (sw, s', d') ∧
      2 * N ≤ s.length ∧ 2 * N ≤ d.length ∧ 2 * N ≤ s'.length ∧ 2 * N ≤ d'.length ∧ SameC z N s s' := by
  intro b
  induction b with
  | zero =>
    intro i2 fuel B swap src dst src' dst' hf _ _ _ h1 h2 h3 h4 hs
    obtain ⟨f, rfl⟩ : ∃ f, fuel = f + 1 := ⟨fuel - 1, by omega⟩
    refine ⟨swap, src, dst, src', dst', ?_, ?_, h1, h2, h3, h4, hs⟩
    · rw [fftLoop2, if_pos (by decide)]
    · rw [fftLoop2, if_pos (by decide)]
  | succ b ih =>
    intro i2 fuel B swap src dst src' dst' hf hB hT hN h1 h2 h3 h4 hs
    obtain ⟨f, rfl⟩ : ∃ f, fuel = f + 1 := ⟨fuel - 1, by omega⟩
    have ht := hT 0 (by omega)
    rw [Nat.pow_zero, Nat.mul_one, Nat.add_zero] at ht
    obtain ⟨w, hw1, hw2⟩ := ht
    have e3 : 4 * (2 ^ b * B) = 2 * N := by rw [hN]; ring
    have e4 : 2 * (2 ^ b * B) = N := by omega
    obtain ⟨u, u', g1, g2, g3, g4, g5⟩ := bf2_congr z A B w (2 ^ b) src dst src' dst' hw2 (by omega) (by omega) (by omega) (by omega)
      (by rw [e4]; exact hs)
    rw [e4] at g5
    obtain ⟨sw, s, d, s', d', k1, k2, k3, k4, k5, k6, k7⟩ := ih (i2 + 1) f (2 * B) (!swap) u src u' src' (by omega) (by omega) (fun i hi => by
      have := hT (i + 1) (by omega)
      rw [show 2 * B * 2 ^ i = B * 2 ^ (i + 1) by ring, show i2 + 1 + i = i2 + (i + 1) by omega]
      exact this) (by rw [hN]; ring) (by omega) h1 (by omega) h3 g5
    have hpos := Nat.pow_pos (n := b) (show 0 < 2 by decide)
    have e : 2 ^ (b + 1) = 2 * 2 ^ b := by ring
    refine ⟨sw, s, d, s', d', ?_, ?_, k3, k4, k5, k6, k7⟩
    · rw [fftLoop2, if_neg (by omega), hw1, Option.bind_some, show 2 ^ (b + 1) / 2 = 2 ^ b by omega, g1, Option.bind_some, k1]
    · rw [fftLoop2, if_neg (by omega), hw1, Option.bind_some, show 2 ^ (b + 1) / 2 = 2 ^ b by omega, g2, Option.bind_some, k2]

theorem fft_congr (z : R) (A : Arith R) (T : MdctTables R) (a b N : Nat) (hN : N = 5 * 3 ^ a * 2 ^ b) (hT : HasFft T a b)
    (y0 y1 y0' y1' : List R) (h0 : 2 * N ≤ y0.length) (h1 : 2 * N ≤ y1.length) (h0' : 2 * N ≤ y0'.length) (h1' : 2 * N ≤ y1'.length)
    (hs : SameC z N y0 y0') :
    ∃ in0 z0 z1 z0' z1', fft A T N y0 y1 = some (in0, z0, z1) ∧ fft A T N y0' y1' = some (in0, z0', z1') ∧
      SameC z N (if in0 then z0 else z1) (if in0 then z0' else z1') := by
  have hpa := Nat.pow_pos (n := a) (show 0 < 3 by decide)
  have hN5 : N = 5 * (3 ^ a * 2 ^ b) := by rw [hN]; ring
  have ha : a < 3 ^ a * 2 ^ b + 1 := by
    have h2 : 3 ^ a ≤ 3 ^ a * 2 ^ b := Nat.le_mul_of_pos_right _ (Nat.pow_pos (by decide))
    have h3 : a < 3 ^ a := Nat.lt_pow_self (by decide)
    omega
  have hb : b < 2 ^ b + 1 := by have : b < 2 ^ b := Nat.lt_pow_self (by decide)
                                omega
  obtain ⟨u, f1, f2, f3⟩ := fft5_spec z A T (3 ^ a * 2 ^ b) y0 y1 (by omega) (by omega)
  obtain ⟨u', f1', f2', f3'⟩ := fft5_spec z A T (3 ^ a * 2 ^ b) y0' y1' (by omega) (by omega)
  have hu : SameC z N u u' := by
    intro k hk
    obtain ⟨m, hm⟩ : ∃ m, m = 3 ^ a * 2 ^ b := ⟨_, rfl⟩
    rw [← hm] at *
    have := f3 (k / 5) (k % 5) (by omega) (by omega)
    have h' := f3' (k / 5) (k % 5) (by omega) (by omega)
    rw [show 5 * (k / 5) + k % 5 = k by omega] at this h'
    rw [this, h', hs _ (by omega), hs _ (by omega), hs _ (by omega), hs _ (by omega), hs _ (by omega)]
  obtain ⟨sw, s, d, s', d', k1, k2, k3, k4, k5, k6, k7⟩ := loop3_congr z A T b N a 0 (3 ^ a * 2 ^ b + 1) 5 false u y0 u' y0' ha (by decide)
    (fun i hi => by rw [Nat.zero_add]; exact hT.1 i hi) hN5 (by omega) (by omega) (by omega) (by omega) hu
  obtain ⟨sx, t, e, t', e', l1, l2, l3, l4, l5, l6, l7⟩ := loop2_congr z A T a N b 0 (2 ^ b + 1) (5 * 3 ^ a) sw s d s' d' hb (by omega)
    (fun i hi => by rw [Nat.zero_add]; exact hT.2 i hi) hN k3 k4 k5 k6 k7
  refine ⟨sx, if sx then t else e, if sx then e else t, if sx then t' else e', if sx then e' else t', ?_, ?_, ?_⟩
  · unfold fft
    rw [show N / 5 = 3 ^ a * 2 ^ b by omega, f1]
    dsimp only [bind, Option.bind]
    rw [k1]
    dsimp only
    rw [Nat.zero_add, l1]
    cases sx <;> rfl
  · unfold fft
    rw [show N / 5 = 3 ^ a * 2 ^ b by omega, f1']
    dsimp only [bind, Option.bind]
    rw [k2]
    dsimp only
    rw [Nat.zero_add, l2]
    cases sx <;> rfl
  · cases sx
    · exact l7
    · exact l7

/-- The first `n` values of two buffers are equal. -/
def SameR (z : R) (n : Nat) (x y : List R) : Prop := ∀ k, k < n → x.getD k z = y.getD k z

theorem rescale_congr (z : R) (A : Arith R) (n : Nat) (f : R) (h4 : n % 4 = 0) (x x' : List R) (hx : n ≤ x.length) (hx' : n ≤ x'.length)
    (hs : SameR z n x x') :
    ∃ y y', rescale A n f x = some y ∧ rescale A n f x' = some y' ∧ y.length = x.length ∧ y'.length = x'.length ∧ SameR z n y y' := by
  have e : n / 4 * 4 = n := by omega
  unfold rescale
  rw [e, if_neg (by omega), if_neg (by omega)]
  refine ⟨_, _, rfl, rfl, by simp; omega, by simp; omega, ?_⟩
  intro k hk
  have key : ∀ l : List R, n ≤ l.length → ((l.take n).map (fun v => A.mul v f) ++ l.drop n).getD k z = A.mul (l.getD k z) f := by
    intro l hl
    have hl' : k < l.length := by omega
    rw [List.getD_append _ _ _ _ (by simp; omega), List.getD_eq_getElem _ _ (by simp; omega), List.getD_eq_getElem _ _ hl']
    simp
  rw [key x hx, key x' hx', hs k hk]

set_option maxHeartbeats 1000000 in
/-- The delayed samples depend only on the spectrum, and the output on the spectrum and the delayed samples. -/
theorem mdctInverse_congr (A : Arith R) (sqrt : R → R) (dt : Dt) (sr srSrc : Srate) (h : ¬ (dt = .m7_5 ∧ sr.hr = true))
    (buf buf' : List R) (x x' : Option (List R)) (d d' y y' : List R) (hb : ns dt sr ≤ buf.length) (hb' : ns dt sr ≤ buf'.length)
    (hx : ∀ l, x = some l → ns dt sr ≤ l.length) (hx' : ∀ l, x' = some l → ns dt sr ≤ l.length)
    (hd : d.length = nd dt sr) (hd' : d'.length = nd dt sr) (hy : y.length = ns dt sr) (hy' : y'.length = ns dt sr)
    (hs : SameR (A.ofRat 0) (ns dt sr) (x.getD y) (x'.getD y')) :
    ∃ t t' e, mdctInverse A sqrt (mdctTables A) dt sr srSrc buf x d y = some (t, e) ∧
      mdctInverse A sqrt (mdctTables A) dt sr srSrc buf' x' d' y' = some (t', e) ∧ e.length = nd dt sr ∧
      t.length = ns dt sr ∧ t'.length = ns dt sr ∧ (d = d' → t = t') := by
  obtain ⟨h4, hpos, hnd, hn2, he⟩ := mdct_shape dt sr
  obtain ⟨a, b, rot, win, hab, hF, hrot, hrl, hwin, hwl⟩ := C37_tables A dt sr h
  have e2 : 2 * (ns dt sr / 2) = ns dt sr := by omega
  obtain ⟨v, p1, p2, p3⟩ := imdctPre_spec (A.ofRat 0) A (ns dt sr / 2) rot x y (by omega) (by omega) (by omega) (by rw [e2]; exact hx)
  obtain ⟨v', p1', p2', p3'⟩ := imdctPre_spec (A.ofRat 0) A (ns dt sr / 2) rot x' y' (by omega) (by omega) (by omega) (by rw [e2]; exact hx')
  have hv : SameC (A.ofRat 0) (ns dt sr / 2) v v' := by
    intro p hp
    rw [p3 p hp, p3' p hp]
    unfold ipreOut
    rw [hs _ (by omega), hs _ (by omega)]
  obtain ⟨in0, z0, z1, z0', z1', f1, f1', f4⟩ := fft_congr (A.ofRat 0) A (mdctTables A) a b (ns dt sr / 2) hab hF v buf v' buf'
    (by omega) (by omega) (by omega) (by omega) hv
  obtain ⟨f2, f3⟩ : z0.length = v.length ∧ z1.length = buf.length := by
    obtain ⟨i, w0, w1, g1, g2, g3⟩ := fft_total (A.ofRat 0) A (mdctTables A) a b hF v buf (by omega) (by omega)
    rw [← hab, f1] at g1
    injection g1 with g1; injection g1 with g0 g1; injection g1 with g1 g4
    rw [g1, g4]; exact ⟨g2, g3⟩
  obtain ⟨f2', f3'⟩ : z0'.length = v'.length ∧ z1'.length = buf'.length := by
    obtain ⟨i, w0, w1, g1, g2, g3⟩ := fft_total (A.ofRat 0) A (mdctTables A) a b hF v' buf' (by omega) (by omega)
    rw [← hab, f1'] at g1
    injection g1 with g1; injection g1 with g0 g1; injection g1 with g1 g4
    rw [g1, g4]; exact ⟨g2, g3⟩
  obtain ⟨u, q1, q2, q3⟩ := imdctPost_spec (A.ofRat 0) A (ns dt sr / 2) rot (if in0 then some z0 else none) z1 (by omega) (by omega)
    (by omega) (fun l hl => by
      cases in0 with
      | false => cases hl
      | true => injection hl with hl; rw [← hl]; omega)
  obtain ⟨u', q1', q2', q3'⟩ := imdctPost_spec (A.ofRat 0) A (ns dt sr / 2) rot (if in0 then some z0' else none) z1' (by omega) (by omega)
    (by omega) (fun l hl => by
      cases in0 with
      | false => cases hl
      | true => injection hl with hl; rw [← hl]; omega)
  have hsel : SameC (A.ofRat 0) (ns dt sr / 2) ((if in0 then some z0 else none).getD z1) ((if in0 then some z0' else none).getD z1') := by
    cases in0 with
    | false => exact f4
    | true => exact f4
  have hu : SameR (A.ofRat 0) (ns dt sr) u u' := by
    intro k hk
    by_cases hp : k % 2 = 0
    · have a1 := (q3 (k / 2) (by omega)).1
      have a2 := (q3' (k / 2) (by omega)).1
      rw [show 2 * (k / 2) = k by omega] at a1 a2
      rw [a1, a2]; unfold ipostOut; rw [hsel _ (by omega)]
    · have a1 := (q3 ((ns dt sr - 1 - k) / 2) (by omega)).2
      have a2 := (q3' ((ns dt sr - 1 - k) / 2) (by omega)).2
      rw [show 2 * (ns dt sr / 2) - 1 - 2 * ((ns dt sr - 1 - k) / 2) = k by omega] at a1 a2
      rw [a1, a2]; unfold ipostOut; rw [hsel _ (by omega)]
  obtain ⟨s, s', hs1, hs1', hs2, hs2', hs3⟩ : ∃ s s', (if ns dt sr ≠ ns dt srSrc then
      rescale A (ns dt sr) (sqrt (A.div (A.ofInt (ns dt sr)) (A.ofInt (ns dt srSrc)))) u else some u) = some s ∧
      (if ns dt sr ≠ ns dt srSrc then
      rescale A (ns dt sr) (sqrt (A.div (A.ofInt (ns dt sr)) (A.ofInt (ns dt srSrc)))) u' else some u') = some s' ∧
      s.length = u.length ∧ s'.length = u'.length ∧ SameR (A.ofRat 0) (ns dt sr) s s' := by
    by_cases hs : ns dt sr = ns dt srSrc
    · rw [if_neg (by omega), if_neg (by omega)]; exact ⟨_, _, rfl, rfl, rfl, rfl, hu⟩
    · rw [if_pos hs, if_pos hs]; exact rescale_congr _ A _ _ h4 u u' (by omega) (by omega) hu
  obtain ⟨t, e, w1, w2, w3, w4, -, w5⟩ := imdctWindow_spec (A.ofRat 0) A (ns dt sr) (nd dt sr) win s d z0 h4 hnd hn2 he (by omega) (by omega)
    (by omega) (by omega)
  obtain ⟨t', e', w1', w2', w3', w4', -, w5'⟩ := imdctWindow_spec (A.ofRat 0) A (ns dt sr) (nd dt sr) win s' d' z0' h4 hnd hn2 he (by omega)
    (by omega) (by omega) (by omega)
  have hterm : ∀ k, k < ns dt sr + nd dt sr → ns dt sr / 2 ≤ k + (ns dt sr - nd dt sr) → nd dt sr - ns dt sr / 2 ≤ k →
      iwinTerm (A.ofRat 0) A (ns dt sr) (nd dt sr) win s k = iwinTerm (A.ofRat 0) A (ns dt sr) (nd dt sr) win s' k := by
    intro k hk _ hk2
    unfold iwinTerm
    by_cases c : k < ns dt sr
    · rw [if_pos c, if_pos c, hs3 _ (by omega)]
    · rw [if_neg c, if_neg c, hs3]
      split <;> omega
  have hee : e = e' := by
    apply List.ext_getElem (by omega)
    intro k k1 k2
    have a1 := w5 k (by omega)
    have a2 := w5' k (by omega)
    rw [List.getD_eq_getElem _ _ k1] at a1
    rw [List.getD_eq_getElem _ _ k2] at a2
    rw [a1, a2]
    exact hterm _ (by omega) (by omega) (by omega)
  have run : ∀ (buf : List R) (x : Option (List R)) (d y v : List R) (in0 : Bool) (z0 z1 u s t e : List R),
      imdctPre A (ns dt sr / 2, rot) x y = some v → fft A (mdctTables A) (ns dt sr / 2) v buf = some (in0, z0, z1) →
      imdctPost A (ns dt sr / 2, rot) (if in0 then some z0 else none) z1 = some u →
      (if ns dt sr ≠ ns dt srSrc then
        rescale A (ns dt sr) (sqrt (A.div (A.ofInt (ns dt sr)) (A.ofInt (ns dt srSrc)))) u else some u) = some s →
      imdctWindow A (ns dt sr) (nd dt sr) win s d z0 = some (t, e) →
      mdctInverse A sqrt (mdctTables A) dt sr srSrc buf x d y = some (t, e) := by
    intro buf x d y v in0 z0 z1 u s t e p1 f1 q1 hs1 w1
    unfold mdctInverse
    simp only [Option.bind_eq_bind]
    rw [hrot, Option.bind_some, hwin, Option.bind_some, p1, Option.bind_some, f1, Option.bind_some]
    dsimp only
    rw [q1, Option.bind_some, hs1, Option.bind_some, w1]
  refine ⟨t, t', e, run _ _ _ _ _ _ _ _ _ _ _ _ p1 f1 q1 hs1 w1, ?_, by omega, by omega, by omega, ?_⟩
  · rw [hee]; exact run _ _ _ _ _ _ _ _ _ _ _ _ p1' f1' q1' hs1' w1'
  · intro hdd
    subst hdd
    apply List.ext_getElem (by omega)
    intro k k1 k2
    have a1 := w4 k (by omega)
    have a2 := w4' k (by omega)
    rw [List.getD_eq_getElem _ _ k1] at a1
    rw [List.getD_eq_getElem _ _ k2] at a2
    rw [a1, a2]
    unfold iwinOut
    by_cases c1 : k < nd dt sr - ns dt sr / 2
    · rw [if_pos c1, if_pos c1, hs3 _ (by omega)]
    · rw [if_neg c1, if_neg c1, hterm k (by omega) (by omega) (by omega)]

end LC3
