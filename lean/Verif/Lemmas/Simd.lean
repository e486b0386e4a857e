import Verif.Model.Simd
import Verif.Lemmas.LtpfAnalysis

/-! Results of the functions for the ARM processors. -/

namespace LC3

/-- The sum of the products. -/
def dotSum (a b : List Int) : Int := (List.zipWith (· * ·) a b).sum

theorem dotSum_append (a a' b b' : List Int) (h : a.length = b.length) :
    dotSum (a ++ a') (b ++ b') = dotSum a b + dotSum a' b' := by
  unfold dotSum
  rw [List.zipWith_append h, List.sum_append]

theorem toI32_congr (a b k : Int) (h : a = b + 4294967296 * k) : toI32 a = toI32 b := by
  unfold toI32
  rw [h, show b + 4294967296 * k + 2147483648 = b + 2147483648 + 4294967296 * k by omega, Int.add_mul_emod_self_left]

theorem toI32_rep (a : Int) : ∃ k, toI32 a = a + 4294967296 * k := by
  refine ⟨-((a + 2147483648) / 4294967296), ?_⟩
  unfold toI32
  have := Int.emod_add_mul_ediv (a + 2147483648) 4294967296
  omega

theorem toI32_id (a : Int) (h : -2147483648 ≤ a) (h' : a ≤ 2147483647) : toI32 a = a := by
  unfold toI32; omega

theorem toI32_toI32 (a : Int) : toI32 (toI32 a) = toI32 a := by
  unfold toI32; omega

theorem accumulate_val : ∀ (xs hs : List Int) (un v : Int), accumulate un xs hs = some v → v = un + dotSum xs hs
  | [], _, un, v, h => by
    rw [accumulate.eq_2 _ _ _ (by intro x xs h' hs h1; cases h1)] at h
    cases h; simp [dotSum]
  | _ :: _, [], un, v, h => by
    rw [accumulate.eq_2 _ _ _ (by intro x xs h' hs h1 h2; cases h2)] at h
    cases h; simp [dotSum]
  | x :: xs, h :: hs, un, v, e => by
    unfold accumulate at e
    simp only [Option.bind_eq_bind, Option.bind_eq_some_iff] at e
    obtain ⟨p, hp, u, hu, e⟩ := e
    have := accumulate_val xs hs u v e
    have e1 : p = x * h := by unfold i32 at hp; split at hp <;> simp_all
    have e2 : u = un + p := by unfold i32 at hu; split at hu <;> simp_all
    subst e1 e2
    rw [this]
    simp only [dotSum, List.zipWith_cons_cons, List.sum_cons]
    omega

/-! ### Neon -/

theorem vld_eq (l : List Int) (i : Nat) (h : i + 4 ≤ l.length) : vld l i = some ((l.drop i).take 4) := by
  unfold vld
  exact (slice?_eq l i 0 4 (Nat.zero_le _) (by omega)).1

theorem vmlal_sum : ∀ (u a b : List Int), u.length = a.length → a.length = b.length →
    (vmlal u a b).length = u.length ∧ ∃ k, (vmlal u a b).sum = u.sum + dotSum a b + 4294967296 * k
  | [], [], [], _, _ => ⟨rfl, 0, rfl⟩
  | x :: u, y :: a, z :: b, h1, h2 => by
    simp only [List.length_cons, Nat.add_right_cancel_iff] at h1 h2
    obtain ⟨l, k, e⟩ := vmlal_sum u a b h1 h2
    unfold vmlal vmull at *
    obtain ⟨k', e'⟩ := toI32_rep (x + y * z)
    refine ⟨by simp only [List.zipWith_cons_cons, List.length_cons, l], k + k', ?_⟩
    simp only [List.zipWith_cons_cons, List.sum_cons, dotSum, e, e'] at *
    omega

theorem take_drop_add {α : Type} (l : List α) (i m n : Nat) :
    (l.drop i).take (m + n) = (l.drop i).take m ++ (l.drop (i + m)).take n := by
  rw [List.take_add, List.drop_drop]

theorem neonMac_sum (buf h : List Int) : ∀ (k x i : Nat) (u : List Int), u.length = 4 → x + 4 * k ≤ buf.length → i + 4 * k ≤ h.length →
    ∃ v, neonMac buf h k x i u = some v ∧ v.length = 4 ∧
      ∃ q, v.sum = u.sum + dotSum ((buf.drop x).take (4 * k)) ((h.drop i).take (4 * k)) + 4294967296 * q
  | 0, x, i, u, hu, _, _ => ⟨u, rfl, hu, 0, by simp [dotSum]⟩
  | k + 1, x, i, u, hu, hx, hi => by
    unfold neonMac
    rw [vld_eq buf x (by omega), vld_eq h i (by omega)]
    simp only [Option.bind_eq_bind, Option.bind_some]
    have l1 : ((buf.drop x).take 4).length = 4 := by rw [List.length_take, List.length_drop]; omega
    have l2 : ((h.drop i).take 4).length = 4 := by rw [List.length_take, List.length_drop]; omega
    obtain ⟨l, q, e⟩ := vmlal_sum u _ _ (hu.trans l1.symm) (l1.trans l2.symm)
    obtain ⟨v, e1, e2, q', e3⟩ := neonMac_sum buf h k (x + 4) (i + 4) _ (l.trans hu) (by omega) (by omega)
    refine ⟨v, e1, e2, q + q', ?_⟩
    rw [e3, e, show 4 * (k + 1) = 4 + 4 * k by omega, take_drop_add, take_drop_add, dotSum_append _ _ _ _ (l1.trans l2.symm)]
    omega

/-- The rows of the tables of `src/ltpf_neon.h` are those of `src/ltpf.c`. -/
theorem neon_rows (sr : Srate) (s row : Nat) (h : List Int)
    (hs : (sr, s, row, h) ∈ [(Srate.k16, 2, 20, neonH16k), (.k32, 1, 40, neonH32k), (.k48, 2, 64, neonH48k), (.k48hr, 2, 64, neonH48k)]) :
    (resampler sr).p = 2 ^ s ∧ (resampler sr).w ≤ row ∧ (resampler sr).w % 4 = 0 ∧ 4 ≤ (resampler sr).w ∧ h.length = 2 ^ s * row ∧
    ∀ k < 2 ^ s, (h.drop (k * row)).take (resampler sr).w = ((resampler sr).h.drop (k * (resampler sr).w)).take (resampler sr).w := by
  simp only [List.mem_cons, Prod.mk.injEq, List.not_mem_nil, or_false] at hs
  rcases hs with ⟨rfl, rfl, rfl, rfl⟩ | ⟨rfl, rfl, rfl, rfl⟩ | ⟨rfl, rfl, rfl, rfl⟩ | ⟨rfl, rfl, rfl, rfl⟩ <;> decide +kernel

theorem neonAcc_eq (dt : Dt) (sr : Srate) (s row : Nat) (h : List Int)
    (hs : (sr, s, row, h) ∈ [(Srate.k16, 2, 20, neonH16k), (.k32, 1, 40, neonH32k), (.k48, 2, 64, neonH48k), (.k48hr, 2, 64, neonH48k)])
    (buf : List Int) (base n : Nat) (hb : All16 buf)
    (h1 : nt sr ≤ base) (h2 : base + ns dt sr ≤ buf.length) (hn : n < (1 + dt.idx) * 32) :
    neonAcc (resampler sr).inc s (resampler sr).w row h buf base n = resampleAcc (resampler sr) buf base n := by
  obtain ⟨p1, p2, p3, p4, p5, p6⟩ := neon_rows sr s row h hs
  obtain ⟨v, ev, hv⟩ := resampleAcc_some dt sr buf base n hb h1 h2 hn
  obtain ⟨r1, r2, r3, r4, -⟩ := rows sr
  have hp := pos_lt dt sr n hn
  rw [ev]
  unfold resampleAcc at ev
  unfold neonAcc
  dsimp only at ev ⊢
  rw [Nat.and_two_pow_sub_one_eq_mod, Nat.shiftRight_eq_div_pow, ← p1]
  generalize (resampler sr).inc * n / (resampler sr).p = j at *
  have hk : (resampler sr).inc * n % (resampler sr).p < (resampler sr).p := Nat.mod_lt _ r1
  generalize (resampler sr).inc * n % (resampler sr).p = k at *
  generalize (resampler sr).w = w at *
  have hkw : k * w + w ≤ (resampler sr).h.length := by
    rw [r2, ← Nat.succ_mul]; exact Nat.mul_le_mul_right _ hk
  have hkr : k * row + row ≤ h.length := by
    rw [p5, ← p1, ← Nat.succ_mul]; exact Nat.mul_le_mul_right _ hk
  obtain ⟨s1, -⟩ := slice?_eq (resampler sr).h (k * w) 0 w (Nat.zero_le _) (by omega)
  obtain ⟨s2, -⟩ := slice?_eq buf (base + j) (w - 1) w (by omega) (by omega)
  obtain ⟨s3, l3⟩ := slice?_eq h (k * row) 0 row (Nat.zero_le _) (by omega)
  rw [s1, s2] at ev
  simp only [Option.bind_eq_bind, Option.bind_some] at ev
  have ev := accumulate_val _ _ _ _ ev
  rw [s3]
  simp only [Option.bind_eq_bind, Option.bind_some]
  rw [if_neg (by omega)]
  generalize hx : base + j - (w - 1) = x at *
  rw [Nat.sub_zero] at *
  rw [vld_eq buf x (by omega), vld_eq _ 0 (by omega)]
  simp only [Option.bind_some]
  have l1 : ((buf.drop x).take 4).length = 4 := by rw [List.length_take, List.length_drop]; omega
  have l2 : ((((h.drop (k * row)).take row).drop 0).take 4).length = 4 := by rw [List.length_take, List.length_drop, l3]; omega
  obtain ⟨u, e1, e2, q, e3⟩ := neonMac_sum buf ((h.drop (k * row)).take row) (w / 4 - 1) (x + 4) 4
    (vmull ((buf.drop x).take 4) ((((h.drop (k * row)).take row).drop 0).take 4))
    (by unfold vmull; rw [List.length_zipWith, l1, l2]; rfl) (by omega) (by omega)
  rw [e1]
  simp only [Option.bind_some, pure]
  congr 1
  unfold vaddv
  rw [toI32_congr _ v q, toI32_id v (by omega) (by omega)]
  rw [e3, ev, show (vmull ((buf.drop x).take 4) ((((h.drop (k * row)).take row).drop 0).take 4)).sum =
    dotSum ((buf.drop x).take 4) ((((h.drop (k * row)).take row).drop 0).take 4) from rfl, ← dotSum_append _ _ _ _ (l1.trans l2.symm),
    ← take_drop_add buf x 4, ← take_drop_add _ 0 4 _, List.drop_zero, List.take_take, show 4 + 4 * (w / 4 - 1) = w by omega,
    Nat.min_eq_left p2, p6 k (by omega)]
  omega

/-! Sums of products of `neon_dot` -/

/-- The sum of the lanes after 8 products. -/
def neonBlock (a b : List Int) : Int := (vmlal (vmull (a.take 4) (b.take 4)) ((a.drop 4).take 4) ((b.drop 4).take 4)).sum

/-- The sum of `k` blocks. -/
def neonSum : Nat → List Int → List Int → Int
  | 0, _, _ => 0
  | k + 1, a, b => neonBlock a b + neonSum k (a.drop 8) (b.drop 8)

theorem vpadal_sum (v : Int × Int) (u : List Int) (h : u.length = 4) : (vpadal v u).1 + (vpadal v u).2 = v.1 + v.2 + u.sum := by
  obtain ⟨a, b, c, d, rfl⟩ := four u h
  simp only [vpadal, List.sum_cons, List.sum_nil]
  omega

theorem neonDot8_sum (a b : List Int) (v : Int × Int) (ha : 8 ≤ a.length) (hb : 8 ≤ b.length) :
    ∃ v', neonDot8 a b v = some v' ∧ v'.1 + v'.2 = v.1 + v.2 + neonBlock a b := by
  unfold neonDot8
  rw [vld_eq a 0 (by omega), vld_eq b 0 (by omega), vld_eq a 4 (by omega), vld_eq b 4 (by omega)]
  refine ⟨_, rfl, ?_⟩
  rw [List.drop_zero, List.drop_zero]
  apply vpadal_sum
  unfold vmlal vmull
  simp only [List.length_zipWith, List.length_take, List.length_drop]
  omega

theorem neonDotLoop_sum : ∀ (k : Nat) (a b : List Int) (v : Int × Int), 8 * k ≤ a.length → 8 * k ≤ b.length →
    ∃ v', neonDotLoop k a b v = some v' ∧ v'.1 + v'.2 = v.1 + v.2 + neonSum k a b
  | 0, a, b, v, _, _ => ⟨v, rfl, by simp [neonSum]⟩
  | k + 1, a, b, v, ha, hb => by
    obtain ⟨v1, e1, s1⟩ := neonDot8_sum a b v (by omega) (by omega)
    obtain ⟨v2, e2, s2⟩ := neonDotLoop_sum k (a.drop 8) (b.drop 8) v1 (by rw [List.length_drop]; omega) (by rw [List.length_drop]; omega)
    refine ⟨v2, ?_, ?_⟩
    · unfold neonDotLoop
      rw [e1]
      exact e2
    · rw [s2, s1, neonSum]; omega

/-- In no lane, the two products accumulated on 32 bits are both `(-32768)^2`. -/
def NoWrap (a b : List Int) : Prop := ∀ i, i % 8 < 4 →
  ¬ (a[i]? = some (-32768) ∧ b[i]? = some (-32768) ∧ a[i + 4]? = some (-32768) ∧ b[i + 4]? = some (-32768))

theorem NoWrap.drop {a b : List Int} (h : NoWrap a b) : NoWrap (a.drop 8) (b.drop 8) := by
  intro i hi
  have := h (8 + i) (by omega)
  simpa only [List.getElem?_drop, Nat.add_assoc] using this

theorem mul_i16 (x y : Int) (hx : I16 x) (hy : I16 y) :
    -1073741824 ≤ x * y ∧ x * y ≤ 1073741824 ∧ (1073709056 < x * y → x = -32768 ∧ y = -32768) := by
  obtain ⟨h1, h2⟩ := hx
  obtain ⟨h3, h4⟩ := hy
  have hm : (x * y).natAbs = x.natAbs * y.natAbs := Int.natAbs_mul x y
  have hab : x.natAbs * y.natAbs ≤ 32768 * 32768 := Nat.mul_le_mul (by omega) (by omega)
  refine ⟨by omega, by omega, ?_⟩
  intro h
  by_cases hx : x = -32768
  · by_cases hy : y = -32768
    · exact ⟨hx, hy⟩
    · have : x.natAbs * y.natAbs ≤ 32768 * 32767 := Nat.mul_le_mul (by omega) (by omega)
      omega
  · have : x.natAbs * y.natAbs ≤ 32767 * 32768 := Nat.mul_le_mul (by omega) (by omega)
    omega

/-- A lane of 32 bits after two products. -/
theorem lane_eq (x y x' y' : Int) (hx : I16 x) (hy : I16 y) (hx' : I16 x') (hy' : I16 y')
    (h : ¬ (x = -32768 ∧ y = -32768 ∧ x' = -32768 ∧ y' = -32768)) : toI32 (x * y + x' * y') = x * y + x' * y' := by
  have m := mul_i16 x y hx hy
  have m' := mul_i16 x' y' hx' hy'
  apply toI32_id
  · omega
  · by_cases c : x = -32768 ∧ y = -32768
    · have : ¬ (1073709056 < x' * y') := fun h' => h ⟨c.1, c.2, m'.2.2 h'⟩
      omega
    · have : ¬ (1073709056 < x * y) := fun h' => c (m.2.2 h')
      omega

theorem eight {α : Type} (l : List α) (h : 8 ≤ l.length) : ∃ a b c d e f g i r, l = a :: b :: c :: d :: e :: f :: g :: i :: r := by
  match l, h with
  | a :: b :: c :: d :: e :: f :: g :: i :: r, _ => exact ⟨a, b, c, d, e, f, g, i, r, rfl⟩

theorem neonBlock_eq (a b : List Int) (ha : 8 ≤ a.length) (hb : 8 ≤ b.length) (va : All16 a) (vb : All16 b) (hw : NoWrap a b) :
    neonBlock a b = dotSum (a.take 8) (b.take 8) := by
  obtain ⟨a0, a1, a2, a3, a4, a5, a6, a7, ar, rfl⟩ := eight a ha
  obtain ⟨b0, b1, b2, b3, b4, b5, b6, b7, br, rfl⟩ := eight b hb
  have w0 := hw 0 (by decide)
  have w1 := hw 1 (by decide)
  have w2 := hw 2 (by decide)
  have w3 := hw 3 (by decide)
  simp only [List.getElem?_cons_zero, List.getElem?_cons_succ, Nat.zero_add, Nat.reduceAdd, Option.some.injEq] at w0 w1 w2 w3
  have e0 := lane_eq a0 b0 a4 b4 (va _ (by simp)) (vb _ (by simp)) (va _ (by simp)) (vb _ (by simp)) w0
  have e1 := lane_eq a1 b1 a5 b5 (va _ (by simp)) (vb _ (by simp)) (va _ (by simp)) (vb _ (by simp)) w1
  have e2 := lane_eq a2 b2 a6 b6 (va _ (by simp)) (vb _ (by simp)) (va _ (by simp)) (vb _ (by simp)) w2
  have e3 := lane_eq a3 b3 a7 b7 (va _ (by simp)) (vb _ (by simp)) (va _ (by simp)) (vb _ (by simp)) w3
  simp only [neonBlock, dotSum, vmlal, vmull, List.take_succ_cons, List.take_zero, List.drop_succ_cons, List.drop_zero, List.zipWith_cons_cons,
    List.zipWith_nil_left, List.sum_cons, List.sum_nil, e0, e1, e2, e3]
  omega

theorem neonSum_eq : ∀ (k : Nat) (a b : List Int), 8 * k ≤ a.length → 8 * k ≤ b.length → All16 a → All16 b → NoWrap a b →
    neonSum k a b = dotSum (a.take (8 * k)) (b.take (8 * k))
  | 0, a, b, _, _, _, _, _ => by simp [neonSum, dotSum]
  | k + 1, a, b, ha, hb, va, vb, hw => by
    have ih := neonSum_eq k (a.drop 8) (b.drop 8) (by rw [List.length_drop]; omega) (by rw [List.length_drop]; omega) (va.drop 8) (vb.drop 8)
      hw.drop
    rw [neonSum, neonBlock_eq a b (by omega) (by omega) va vb hw, ih, ← dotSum_append, ← List.take_add, ← List.take_add]
    · rw [show 8 + 8 * k = 8 * (k + 1) by omega]
    · rw [List.length_take, List.length_take]; omega

theorem neonSum_take : ∀ (k n : Nat) (a b : List Int), 8 * k ≤ n → neonSum k (a.take n) (b.take n) = neonSum k a b
  | 0, _, _, _, _ => rfl
  | k + 1, n, a, b, h => by
    rw [neonSum, neonSum, ← neonSum_take k (n - 8) (a.drop 8) (b.drop 8) (by omega), List.drop_take, List.drop_take]
    congr 1
    unfold neonBlock
    simp only [List.drop_take, List.take_take]
    rw [Nat.min_eq_left (show 4 ≤ n by omega), Nat.min_eq_left (show 4 ≤ n - 4 by omega)]

section
variable {R : Type} (A : Arith R)

theorem neonDot_sum (a b : List Int) (hl : b.length = a.length) (h16 : a.length % 16 = 0) :
    neonDot A a b = some (dotOut A (neonSum (a.length / 8) a b)) := by
  unfold neonDot
  rw [show 2 * (a.length / 16) = a.length / 8 by omega]
  obtain ⟨v, e, s⟩ := neonDotLoop_sum (a.length / 8) a b (0, 0) (by omega) (by omega)
  rw [e]
  simp only [Option.bind_eq_bind, Option.bind_some, pure, s]
  simp

theorem neonDot_eq (a b : List Int) (hl : b.length = a.length) (h16 : a.length % 16 = 0) (va : All16 a) (vb : All16 b)
    (hw : NoWrap a b) : neonDot A a b = some (dotI A a b) := by
  rw [neonDot_sum A a b hl h16, neonSum_eq _ a b (by omega) (by omega) va vb hw, show 8 * (a.length / 8) = a.length by omega,
    List.take_length, ← hl, List.take_length]
  rfl

theorem vext_eq (l : List Int) (p j : Nat) (hj : j ≤ 4) (hp : 4 ≤ p) (hl : p + 4 ≤ l.length) :
    vext ((l.drop (p - 4)).take 4) ((l.drop p).take 4) (4 - j) = (l.drop (p - j)).take 4 := by
  unfold vext
  rw [List.drop_take, List.drop_drop, List.take_take, show p - 4 + (4 - j) = p - j by omega, show 4 - (4 - j) = j by omega,
    Nat.min_eq_left (by omega)]
  have := take_drop_add l (p - j) j (4 - j)
  rw [show j + (4 - j) = 4 by omega, show p - j + j = p by omega] at this
  exact this.symm

/-- An iteration of `neon_correlate` is an iteration of `neon_dot` for each lag. -/
theorem neonCorr8_sum (buf : List Int) (a b : Nat) (c : NeonCorr) (hb : 4 ≤ b) (ha' : a + 8 ≤ buf.length) (hb' : b + 8 ≤ buf.length)
    (hc : c.b0 = (buf.drop (b - 4)).take 4) :
    ∃ c', neonCorr8 buf a b c = some c' ∧ c'.b0 = (buf.drop (b + 4)).take 4 ∧
      c'.v0.1 + c'.v0.2 = c.v0.1 + c.v0.2 + neonBlock (buf.drop a) (buf.drop b) ∧
      c'.v1.1 + c'.v1.2 = c.v1.1 + c.v1.2 + neonBlock (buf.drop a) (buf.drop (b - 1)) ∧
      c'.v2.1 + c'.v2.2 = c.v2.1 + c.v2.2 + neonBlock (buf.drop a) (buf.drop (b - 2)) ∧
      c'.v3.1 + c'.v3.2 = c.v3.1 + c.v3.2 + neonBlock (buf.drop a) (buf.drop (b - 3)) := by
  unfold neonCorr8
  rw [vld_eq buf b (by omega), vld_eq buf a (by omega), vld_eq buf (b + 4) (by omega), vld_eq buf (a + 4) (by omega), hc]
  have f := fun j hj => vext_eq buf b j hj hb (by omega)
  have g := fun j hj => vext_eq buf (b + 4) j hj (by omega) (by omega)
  rw [Nat.add_sub_cancel] at g
  have f1 := f 1 (by omega); have f2 := f 2 (by omega); have f3 := f 3 (by omega)
  have g1 := g 1 (by omega); have g2 := g 2 (by omega); have g3 := g 3 (by omega)
  simp only [Nat.reduceSub] at f1 f2 f3 g1 g2 g3
  simp only [Option.bind_eq_bind, Option.bind_some, f1, f2, f3, g1, g2, g3]
  have hlen : ∀ j, j ≤ 3 → (vmlal (vmull ((buf.drop a).take 4) ((buf.drop (b - j)).take 4)) ((buf.drop (a + 4)).take 4)
      ((buf.drop (b + 4 - j)).take 4)).length = 4 := by
    intro j hj
    unfold vmlal vmull
    simp only [List.length_zipWith, List.length_take, List.length_drop]
    omega
  have hblk : ∀ j, j ≤ 3 → neonBlock (buf.drop a) (buf.drop (b - j)) = (vmlal (vmull ((buf.drop a).take 4) ((buf.drop (b - j)).take 4))
      ((buf.drop (a + 4)).take 4) ((buf.drop (b + 4 - j)).take 4)).sum := by
    intro j hj
    unfold neonBlock
    rw [List.drop_drop, List.drop_drop, show b - j + 4 = b + 4 - j by omega]
  refine ⟨_, rfl, rfl, ?_, ?_, ?_, ?_⟩
  · have := hblk 0 (by omega); rw [Nat.sub_zero, Nat.sub_zero] at this; rw [this]
    have := hlen 0 (by omega); rw [Nat.sub_zero, Nat.sub_zero] at this
    exact vpadal_sum _ _ this
  · rw [hblk 1 (by omega)]; exact vpadal_sum _ _ (hlen 1 (by omega))
  · rw [hblk 2 (by omega)]; exact vpadal_sum _ _ (hlen 2 (by omega))
  · rw [hblk 3 (by omega)]; exact vpadal_sum _ _ (hlen 3 (by omega))

theorem neonCorrLoop_sum (buf : List Int) : ∀ (k a b : Nat) (c : NeonCorr), 4 ≤ b → a + 8 * k ≤ buf.length → b + 8 * k ≤ buf.length →
    c.b0 = (buf.drop (b - 4)).take 4 →
    ∃ c', neonCorrLoop buf k a b c = some c' ∧
      c'.v0.1 + c'.v0.2 = c.v0.1 + c.v0.2 + neonSum k (buf.drop a) (buf.drop b) ∧
      c'.v1.1 + c'.v1.2 = c.v1.1 + c.v1.2 + neonSum k (buf.drop a) (buf.drop (b - 1)) ∧
      c'.v2.1 + c'.v2.2 = c.v2.1 + c.v2.2 + neonSum k (buf.drop a) (buf.drop (b - 2)) ∧
      c'.v3.1 + c'.v3.2 = c.v3.1 + c.v3.2 + neonSum k (buf.drop a) (buf.drop (b - 3))
  | 0, a, b, c, _, _, _, _ => ⟨c, rfl, by simp [neonSum]⟩
  | k + 1, a, b, c, hb, ha', hb', hc => by
    obtain ⟨c1, e1, h0, v0, v1, v2, v3⟩ := neonCorr8_sum buf a b c hb (by omega) (by omega) hc
    obtain ⟨c2, e2, w0, w1, w2, w3⟩ := neonCorrLoop_sum buf k (a + 8) (b + 8) c1 (by omega) (by omega) (by omega)
      (by rw [h0]; rfl)
    refine ⟨c2, ?_, ?_⟩
    · unfold neonCorrLoop; rw [e1]; exact e2
    · simp only [neonSum, List.drop_drop]
      rw [show b - 1 + 8 = b + 8 - 1 by omega, show b - 2 + 8 = b + 8 - 2 by omega, show b - 3 + 8 = b + 8 - 3 by omega]
      omega

/-- The correlation as computed by `neon_dot`. -/
def neonLag (buf : List Int) (base n lag : Nat) : R := dotOut A (neonSum (n / 8) (buf.drop base) (buf.drop (base - lag)))

theorem neonCorr4_eq (buf : List Int) (base n lag : Nat) (h1 : lag + 4 ≤ base) (h2 : base + n ≤ buf.length) (hn : 0 < n)
    (h16 : n % 16 = 0) :
    neonCorr4 A buf base (base - lag) n = some [neonLag A buf base n lag, neonLag A buf base n (lag + 1), neonLag A buf base n (lag + 2),
      neonLag A buf base n (lag + 3)] := by
  unfold neonCorr4
  rw [if_neg (by omega), show 2 * (n / 16) = n / 8 by omega]
  rw [vld_eq buf (base - lag - 4) (by omega)]
  simp only [Option.bind_eq_bind, Option.bind_some]
  obtain ⟨c, e, w0, w1, w2, w3⟩ := neonCorrLoop_sum buf (n / 8) base (base - lag) ⟨(buf.drop (base - lag - 4)).take 4, (0, 0), (0, 0), (0, 0), (0, 0)⟩
    (by omega) (by omega) (by omega) rfl
  rw [e]
  simp only [Option.bind_some, pure, w0, w1, w2, w3, neonLag]
  simp only [Int.add_zero, Int.zero_add, Nat.sub_sub]

/-- The correlations as computed by `neon_dot`. -/
def neonLags (buf : List Int) (base n : Nat) : Nat → Nat → List R
  | _, 0 => []
  | lag, nc + 1 => neonLag A buf base n lag :: neonLags buf base n (lag + 1) nc

theorem neonDot_slice (buf : List Int) (base n lag : Nat) (h1 : lag ≤ base) (h2 : base + n ≤ buf.length) (h16 : n % 16 = 0) :
    neonDot A ((buf.drop base).take n) ((buf.drop (base - lag)).take n) = some (neonLag A buf base n lag) := by
  have l1 : ((buf.drop base).take n).length = n := by rw [List.length_take, List.length_drop]; omega
  have l2 : ((buf.drop (base - lag)).take n).length = n := by rw [List.length_take, List.length_drop]; omega
  rw [neonDot_sum A _ _ (l2.trans l1.symm) (by rw [l1]; exact h16), l1, neonSum_take _ _ _ _ (by omega)]
  rfl

theorem neonCorr1_eq (buf : List Int) (base n : Nat) (h2 : base + n ≤ buf.length) (h16 : n % 16 = 0) : ∀ (nc lag : Nat),
    lag + nc ≤ base + 1 → neonCorr1 A buf base n lag nc = some (neonLags A buf base n lag nc)
  | 0, lag, _ => by simp [neonCorr1, neonLags]
  | nc + 1, lag, h => by
    obtain ⟨s1, -⟩ := slice?_eq buf base 0 n (Nat.zero_le _) (by omega)
    obtain ⟨s2, -⟩ := slice?_eq buf base lag n (by omega) (by omega)
    unfold neonCorr1
    rw [s1, s2, neonCorr1_eq buf base n h2 h16 nc (lag + 1) (by omega)]
    simp only [Option.bind_eq_bind, Option.bind_some, Nat.sub_zero]
    rw [neonDot_slice A buf base n lag (by omega) h2 h16]
    rfl

theorem neonCorrFrom_eq (buf : List Int) (base n : Nat) (h2 : base + n ≤ buf.length) (hn : 0 < n) (h16 : n % 16 = 0) :
    ∀ (fuel lag nc : Nat), lag + nc ≤ base + 1 → lag + nc / 4 * 4 ≤ base →
      neonCorrFrom A buf base n fuel lag nc = some (neonLags A buf base n lag nc)
  | 0, lag, nc, h, _ => by unfold neonCorrFrom; exact neonCorr1_eq A buf base n h2 h16 nc lag h
  | fuel + 1, lag, nc, h, h' => by
    unfold neonCorrFrom
    by_cases c : nc < 4
    · rw [if_pos c]; exact neonCorr1_eq A buf base n h2 h16 nc lag h
    · rw [if_neg c, if_neg (by omega), neonCorr4_eq A buf base n lag (by omega) h2 hn h16,
        neonCorrFrom_eq buf base n h2 hn h16 fuel (lag + 4) (nc - 4) (by omega) (by omega)]
      obtain ⟨m, rfl⟩ : ∃ m, nc = m + 4 := ⟨nc - 4, by omega⟩
      rfl

theorem neonCorrelate_lags (buf : List Int) (base n lag nc : Nat) (h2 : base + n ≤ buf.length) (hn : 0 < n) (h16 : n % 16 = 0)
    (h : lag + nc ≤ base + 1) (h' : lag + nc / 4 * 4 ≤ base) :
    neonCorrelate A buf base n lag nc = some (neonLags A buf base n lag nc) :=
  neonCorrFrom_eq A buf base n h2 hn h16 nc lag nc h h'

/-- No value is `-32768`. -/
def Above (l : List Int) : Prop := ∀ x ∈ l, -32768 < x ∧ x ≤ 32767

theorem Above.all16 {l : List Int} (h : Above l) : All16 l := fun x hx => ⟨by have := h x hx; omega, by have := h x hx; omega⟩

theorem Above.noWrap {a : List Int} (h : Above a) (b : List Int) : NoWrap a b := by
  intro i _ ⟨h1, _⟩
  have := h _ (List.mem_of_getElem? h1)
  omega

theorem neonLag_eq (buf : List Int) (base n lag : Nat) (h1 : lag ≤ base) (h2 : base + n ≤ buf.length) (h16 : n % 16 = 0)
    (hb : Above buf) : neonLag A buf base n lag = dotI A ((buf.drop base).take n) ((buf.drop (base - lag)).take n) := by
  have l1 : ((buf.drop base).take n).length = n := by rw [List.length_take, List.length_drop]; omega
  have l2 : ((buf.drop (base - lag)).take n).length = n := by rw [List.length_take, List.length_drop]; omega
  have e := neonDot_slice A buf base n lag h1 h2 h16
  have hs : ∀ i, Above ((buf.drop i).take n) := fun i x hx => hb x (List.mem_of_mem_drop (List.mem_of_mem_take hx))
  rw [neonDot_eq A _ _ (l2.trans l1.symm) (by rw [l1]; exact h16) (hs _).all16 (hs _).all16 ((hs _).noWrap _)] at e
  exact (Option.some.inj e).symm

theorem neonLags_eq (buf : List Int) (base n : Nat) (h2 : base + n ≤ buf.length) (h16 : n % 16 = 0) (hb : Above buf) :
    ∀ (nc lag : Nat), lag + nc ≤ base + 1 → some (neonLags A buf base n lag nc) = correlate A buf base n lag nc
  | 0, _, _ => rfl
  | nc + 1, lag, h => by
    obtain ⟨s1, -⟩ := slice?_eq buf base 0 n (Nat.zero_le _) (by omega)
    obtain ⟨s2, -⟩ := slice?_eq buf base lag n (by omega) (by omega)
    unfold correlate
    rw [s1, s2, ← neonLags_eq buf base n h2 h16 hb nc (lag + 1) (by omega)]
    simp only [Option.bind_eq_bind, Option.bind_some, pure, neonLags, Nat.sub_zero]
    rw [neonLag_eq A buf base n lag (by omega) h2 h16 hb]

theorem neonCorrelate_eq (buf : List Int) (base n lag nc : Nat) (h2 : base + n ≤ buf.length) (hn : 0 < n) (h16 : n % 16 = 0)
    (h : lag + nc ≤ base + 1) (h' : lag + nc / 4 * 4 ≤ base) (hb : Above buf) :
    neonCorrelate A buf base n lag nc = correlate A buf base n lag nc := by
  rw [neonCorrelate_lags A buf base n lag nc h2 hn h16 h h', neonLags_eq A buf base n h2 h16 hb nc lag h]

end

/-! ### SIMD32 -/

theorem smlad_sum : ∀ (k : Nat) (xs hs : List Int) (un : Int), xs.length = 2 * k → hs.length = 2 * k →
    toI32 (smlad un xs hs) = toI32 (un + dotSum xs hs) ∧ (toI32 un = un → toI32 (smlad un xs hs) = smlad un xs hs)
  | 0, xs, hs, un, h1, h2 => by
    have := List.eq_nil_of_length_eq_zero h1
    subst this
    simp [smlad, dotSum]
  | k + 1, [], _, _, h1, _ => by simp at h1
  | k + 1, [_], _, _, h1, _ => by simp only [List.length_cons, List.length_nil] at h1; omega
  | k + 1, _ :: _ :: _, [], _, _, h2 => by simp at h2
  | k + 1, _ :: _ :: _, [_], _, _, h2 => by simp only [List.length_cons, List.length_nil] at h2; omega
  | k + 1, x0 :: x1 :: xs, g0 :: g1 :: hs, un, h1, h2 => by
    simp only [List.length_cons] at h1 h2
    obtain ⟨e, f⟩ := smlad_sum k xs hs (toI32 (un + (x0 * g0 + x1 * g1))) (by omega) (by omega)
    rw [smlad]
    refine ⟨?_, fun _ => f (toI32_toI32 _)⟩
    rw [e]
    obtain ⟨q, hq⟩ := toI32_rep (un + (x0 * g0 + x1 * g1))
    apply toI32_congr _ _ q
    rw [hq]
    simp only [dotSum, List.zipWith_cons_cons, List.sum_cons]
    omega

/-- The rows of the tables of `src/ltpf_arm.h` are those of `src/ltpf.c`, after one or two zeroes. -/
theorem arm_rows (sr : Srate) (row : Nat) (h : List Int)
    (hs : (sr, row, h) ∈ [(Srate.k8, 6, armH8k), (.k16, 12, armH16k), (.k24, 16, armH24k), (.k32, 24, armH32k), (.k48, 32, armH48k),
      (.k48hr, 32, armH48k)]) :
    (resampler sr).w % 2 = 0 ∧ (resampler sr).w ≤ nt sr ∧ h.length = 2 * (2 * (resampler sr).p * row) ∧ (resampler sr).w + 2 ≤ 2 * row ∧
    (∀ k < (resampler sr).p, (h.drop (2 * (k * row))).take ((resampler sr).w + 2) =
      0 :: (((resampler sr).h.drop (k * (resampler sr).w)).take (resampler sr).w ++ [0])) ∧
    (∀ k < (resampler sr).p, (h.drop (2 * (((resampler sr).p + k) * row))).take ((resampler sr).w + 2) =
      0 :: 0 :: ((resampler sr).h.drop (k * (resampler sr).w)).take (resampler sr).w) := by
  simp only [List.mem_cons, Prod.mk.injEq, List.not_mem_nil, or_false] at hs
  rcases hs with ⟨rfl, rfl, rfl⟩ | ⟨rfl, rfl, rfl⟩ | ⟨rfl, rfl, rfl⟩ | ⟨rfl, rfl, rfl⟩ | ⟨rfl, rfl, rfl⟩ | ⟨rfl, rfl, rfl⟩ <;> decide +kernel

theorem ns_even (dt : Dt) (sr : Srate) : ns dt sr % 2 = 0 := by cases dt <;> cases sr <;> decide

theorem dotSum_zero (l : List Int) : dotSum l [0] = 0 := by
  cases l <;> simp [dotSum]

theorem dotSum_zero2 (l : List Int) : dotSum l [0, 0] = 0 := by
  cases l with
  | nil => rfl
  | cons x l => cases l <;> simp [dotSum]

theorem div_mod_two (i p : Nat) (hp : 0 < p) :
    (i % (2 * p) < p ∧ i / p = 2 * (i / (2 * p)) ∧ i % p = i % (2 * p)) ∨
    (p ≤ i % (2 * p) ∧ i / p = 2 * (i / (2 * p)) + 1 ∧ i % (2 * p) = p + i % p) := by
  have h := Nat.div_add_mod i (2 * p)
  have hl := Nat.mod_lt i (show 0 < 2 * p by omega)
  generalize i / (2 * p) = q at *
  generalize i % (2 * p) = r at *
  rw [show 2 * p * q = p * (2 * q) by rw [Nat.mul_comm 2 p, Nat.mul_assoc]] at h
  by_cases c : r < p
  · refine Or.inl ⟨c, ?_, ?_⟩
    · rw [← h, Nat.mul_add_div hp, Nat.div_eq_of_lt c, Nat.add_zero]
    · rw [← h, Nat.mul_add_mod, Nat.mod_eq_of_lt c]
  · refine Or.inr ⟨by omega, ?_, ?_⟩
    · rw [← h, Nat.mul_add_div hp, show r = r - p + p by omega, Nat.add_div_right _ hp, Nat.div_eq_of_lt (by omega)]
    · rw [← h, Nat.mul_add_mod]
      conv => rhs; rw [show r = p + (r - p) by omega, Nat.add_mod_left, Nat.mod_eq_of_lt (by omega)]
      omega

theorem armAcc_eq (dt : Dt) (sr : Srate) (row : Nat) (h : List Int)
    (hs : (sr, row, h) ∈ [(Srate.k8, 6, armH8k), (.k16, 12, armH16k), (.k24, 16, armH24k), (.k32, 24, armH32k), (.k48, 32, armH48k),
      (.k48hr, 32, armH48k)]) (buf : List Int) (base n : Nat) (hb : All16 buf) (he : base % 2 = 0)
    (h1 : nt sr ≤ base) (h2 : base + ns dt sr ≤ buf.length) (hn : n < (1 + dt.idx) * 32) :
    armAcc (resampler sr).inc (resampler sr).p ((resampler sr).w / 2) row h buf base n = resampleAcc (resampler sr) buf base n := by
  obtain ⟨p1, p2, p3, p4, p5, p6⟩ := arm_rows sr row h hs
  obtain ⟨v, ev, hv⟩ := resampleAcc_some dt sr buf base n hb h1 h2 hn
  obtain ⟨r1, r2, r3, r4, -⟩ := rows sr
  have hp := pos_lt dt sr n hn
  have hev := ns_even dt sr
  rw [ev]
  unfold resampleAcc at ev
  unfold armAcc
  dsimp only at ev ⊢
  rw [if_neg (by omega)]
  have hdm := div_mod_two ((resampler sr).inc * n) (resampler sr).p r1
  have hrl := Nat.mod_lt ((resampler sr).inc * n) (show 0 < 2 * (resampler sr).p by omega)
  have hk : (resampler sr).inc * n % (resampler sr).p < (resampler sr).p := Nat.mod_lt _ r1
  generalize (resampler sr).inc * n / (resampler sr).p = j at *
  generalize (resampler sr).inc * n % (resampler sr).p = k at *
  generalize (resampler sr).inc * n / (2 * (resampler sr).p) = j2 at *
  generalize (resampler sr).inc * n % (2 * (resampler sr).p) = k2 at *
  generalize (resampler sr).w = w at *
  have hkw : k * w + w ≤ (resampler sr).h.length := by
    rw [r2, ← Nat.succ_mul]; exact Nat.mul_le_mul_right _ hk
  have hkr : 2 * (k2 * row) + 2 * row ≤ h.length := by
    rw [p3, ← Nat.mul_add, ← Nat.succ_mul]
    exact Nat.mul_le_mul_left _ (Nat.mul_le_mul_right _ hrl)
  generalize (resampler sr).p = p at *
  obtain ⟨s1, -⟩ := slice?_eq (resampler sr).h (k * w) 0 w (Nat.zero_le _) (by omega)
  obtain ⟨s2, l2⟩ := slice?_eq buf (base + j) (w - 1) w (by omega) (by omega)
  rw [show 2 * (1 + w / 2) = w + 2 by omega, show 2 * (w / 2) = w by omega]
  obtain ⟨s3, l3⟩ := slice?_eq h (2 * (k2 * row)) 0 (w + 2) (Nat.zero_le _) (by omega)
  obtain ⟨s4, l4⟩ := slice?_eq buf (base + 2 * j2) w (w + 2) (by omega) (by omega)
  rw [s1, s2] at ev
  simp only [Option.bind_eq_bind, Option.bind_some] at ev
  have ev := accumulate_val _ _ _ _ ev
  rw [s3, s4]
  simp only [Option.bind_eq_bind, Option.bind_some, pure, Nat.sub_zero] at *
  congr 1
  obtain ⟨e1, e2⟩ := smlad_sum (w / 2 + 1) _ _ 0 (l4.trans (by omega)) (l3.trans (by omega))
  rw [← e2 rfl, e1]
  have hl : ((List.drop (k * w) (resampler sr).h).take w).length = w := by rw [List.length_take, List.length_drop]; omega
  suffices hd : dotSum ((buf.drop (base + 2 * j2 - w)).take (w + 2)) ((h.drop (2 * (k2 * row))).take (w + 2)) = v by
    rw [hd, Int.zero_add, toI32_id v (by omega) (by omega)]
  rcases hdm with ⟨d1, d2, d3⟩ | ⟨d1, d2, d3⟩
  · rw [← d3, p5 k hk, show w + 2 = 1 + (w + 1) by omega, take_drop_add, take_drop_add, ← List.singleton_append,
      dotSum_append _ _ _ _ (by rw [List.length_take, List.length_drop]; simp only [List.length_cons, List.length_nil]; omega), dotSum_zero, dotSum_append _ _ _ _ (by rw [hl, List.length_take, List.length_drop]; omega), dotSum_zero,
      show base + 2 * j2 - w + 1 = base + j - (w - 1) by omega, ev]
    omega
  · rw [d3, p6 k hk, show w + 2 = 2 + w by omega, take_drop_add, show ∀ l : List Int, 0 :: 0 :: l = [0, 0] ++ l from fun _ => rfl,
      dotSum_append _ _ _ _ (by rw [List.length_take, List.length_drop]; simp only [List.length_cons, List.length_nil]; omega), dotSum_zero2,
      show base + 2 * j2 - w + 2 = base + j - (w - 1) by omega, ev]

/-! Correlations by pairs -/

theorem rdPair_eq (l : List Int) (i : Nat) (he : i % 2 = 0) (h : i + 2 ≤ l.length) :
    ∃ x y, rdPair l i = some (x, y) ∧ l.drop i = x :: y :: l.drop (i + 2) := by
  refine ⟨l[i]'(by omega), l[i + 1]'(by omega), ?_, ?_⟩
  · unfold rdPair
    rw [if_neg (by omega), List.getElem?_eq_getElem (by omega), List.getElem?_eq_getElem (by omega)]
    rfl
  · rw [List.drop_eq_getElem_cons (by omega), List.drop_eq_getElem_cons (by omega)]

theorem armCorrLoop_sum (buf : List Int) : ∀ (k a b : Nat) (b1 : Int × Int) (v0 v1 : Int), a % 2 = 0 → b % 2 = 0 → 0 < b →
    a + 4 * k ≤ buf.length → b + 4 * k ≤ buf.length → buf[b - 1]? = some b1.2 →
    armCorrLoop buf k a b b1 v0 v1 = some (v0 + dotSum ((buf.drop a).take (4 * k)) ((buf.drop b).take (4 * k)),
      v1 + dotSum ((buf.drop a).take (4 * k)) ((buf.drop (b - 1)).take (4 * k)))
  | 0, a, b, b1, v0, v1, _, _, _, _, _, _ => by simp [armCorrLoop, dotSum]
  | k + 1, a, b, b1, v0, v1, ha, hb, h0, hal, hbl, h1 => by
    obtain ⟨a0, a1, ea, da⟩ := rdPair_eq buf a ha (by omega)
    obtain ⟨a2, a3, ea', da'⟩ := rdPair_eq buf (a + 2) (by omega) (by omega)
    obtain ⟨c0, c1, eb, db⟩ := rdPair_eq buf b hb (by omega)
    obtain ⟨c2, c3, eb', db'⟩ := rdPair_eq buf (b + 2) (by omega) (by omega)
    have hl : buf[b + 4 - 1]? = some c3 := by
      have : (buf.drop (b + 2))[1]? = some c3 := by rw [db']; rfl
      rw [List.getElem?_drop] at this
      exact this
    have d0 : buf.drop (b - 1) = b1.2 :: buf.drop b := by
      have hlt : b - 1 < buf.length := by omega
      rw [List.drop_eq_getElem_cons hlt, show b - 1 + 1 = b by omega]
      rw [List.getElem?_eq_getElem hlt] at h1
      rw [Option.some.inj h1]
    have d4 : buf.drop (b + 4 - 1) = c3 :: buf.drop (b + 4) := by
      have : (buf.drop (b + 2)).drop 1 = c3 :: buf.drop (b + 4) := by rw [db']; rfl
      rw [List.drop_drop] at this
      exact this
    unfold armCorrLoop
    rw [ea, eb, ea', eb']
    simp only [Option.bind_eq_bind, Option.bind_some]
    rw [armCorrLoop_sum buf k (a + 4) (b + 4) (c2, c3) _ _ (by omega) (by omega) (by omega) (by omega) (by omega) hl]
    have e4 : 4 * (k + 1) = 4 * k + 1 + 1 + 1 + 1 := by omega
    rw [d0, da, da', db, db', d4, e4]
    simp only [List.take_succ_cons, dotSum, List.zipWith_cons_cons, List.sum_cons, smlald, smlaldx, pkhbt, Option.some.injEq, Prod.mk.injEq]
    simp only [Nat.add_assoc, Nat.reduceAdd]
    constructor <;> omega

section
variable {R : Type} (A : Arith R)

theorem armCorrFrom_eq (buf : List Int) (base n : Nat) (h2 : base + n ≤ buf.length) (h16 : n % 16 = 0) (he : base % 2 = 0) :
    ∀ (fuel lag nc : Nat), lag % 2 = 0 → lag + nc ≤ base + 1 →
      armCorrFrom A buf base n fuel lag nc = correlate A buf base n lag nc
  | 0, lag, nc, _, _ => rfl
  | fuel + 1, lag, nc, hl, h => by
    unfold armCorrFrom
    by_cases c : nc < 2
    · rw [if_pos c]
    · obtain ⟨m, rfl⟩ : ∃ m, nc = m + 2 := ⟨nc - 2, by omega⟩
      have hlt : base - (lag + 1) < buf.length := by omega
      rw [if_neg c, if_neg (by omega), List.getElem?_eq_getElem hlt, Nat.add_sub_cancel,
        armCorrFrom_eq buf base n h2 h16 he fuel (lag + 2) m (by omega) (by omega)]
      simp only [Option.bind_eq_bind, Option.bind_some]
      rw [armCorrLoop_sum buf (4 * (n / 16)) base (base - lag) _ 0 0 he (by omega) (by omega) (by omega) (by omega)
        (by rw [show base - lag - 1 = base - (lag + 1) by omega, List.getElem?_eq_getElem hlt])]
      obtain ⟨s0, -⟩ := slice?_eq buf base 0 n (Nat.zero_le _) (by omega)
      obtain ⟨s1, -⟩ := slice?_eq buf base lag n (by omega) (by omega)
      obtain ⟨s2, -⟩ := slice?_eq buf base (lag + 1) n (by omega) (by omega)
      rw [correlate, correlate, s0, s1, s2, show 4 * (4 * (n / 16)) = n by omega]
      simp only [Option.bind_eq_bind, Option.bind_some, Int.zero_add, Nat.sub_zero, show base - lag - 1 = base - (lag + 1) by omega]
      cases correlate A buf base n (lag + 1 + 1) m <;> rfl

theorem armCorrelate_eq (buf : List Int) (base n lag nc : Nat) (h2 : base + n ≤ buf.length) (h16 : n % 16 = 0) (he : base % 2 = 0)
    (hnc : 0 < nc) (h : lag + nc ≤ base + 1) : armCorrelate A buf base n lag nc = correlate A buf base n lag nc := by
  unfold armCorrelate
  rw [if_neg (by omega)]
  by_cases c : (base - lag) % 2 = 1
  · obtain ⟨m, rfl⟩ : ∃ m, nc = m + 1 := ⟨nc - 1, by omega⟩
    rw [if_pos c, Nat.add_sub_cancel, armCorrFrom_eq A buf base n h2 h16 he m (lag + 1) m (by omega) (by omega)]
    rfl
  · rw [if_neg c, armCorrFrom_eq A buf base n h2 h16 he nc lag nc (by omega) h]

end

end LC3
