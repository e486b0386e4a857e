import Verif.Lemmas.SpecExact
import Verif.Props.Syntax

/-!
Properties of the coding of the spectrum: C23 (quantised values), C24 (residual), C43 (noise seed).

As for the side information, each group of fields is placed at an arbitrary point of a frame that does
not overflow.
-/

namespace LC3

/-! ### C23: quantised spectrum -/

/-- The value the decoder derives from the noise seed of the spectrum `l`, described independently of the
order of the computations. -/
def noiseSeed (l : List Int) : Nat :=
  ((List.range l.length).map fun i => i * ((l.getD i 0).natAbs % 2 ^ 15)).sum % 2 ^ 16

theorem seedSum_range (l : List Int) (k : Nat) :
    seedSum k l = ((List.range l.length).map fun i => (k + i) * ((l.getD i 0).natAbs % 2 ^ 15)).sum := by
  induction l generalizing k with
  | nil => rfl
  | cons x l ih =>
    rw [seedSum, ih, List.length_cons, List.range_succ_eq_map]
    simp only [List.map_cons, List.map_map, List.sum_cons, List.getD_cons_zero]
    rw [Nat.mul_comm]
    congr 2
    apply List.map_congr_left
    intro i _
    simp only [Function.comp_apply, List.getD_cons_succ]
    rw [show k + 1 + i = k + (i + 1) by omega]

theorem seedSum_noise (l : List Int) : seedSum 0 l % 65536 = noiseSeed l := by
  rw [seedSum_range]; simp only [Nat.zero_add]; rfl

/-- **C23.** The modes of the arithmetic coding depend on the size of the frame alone: the high rate contexts are used over 20 bytes (160 bits)
for each step of 8 kHz of the sample rate, up to 100 bytes at 48 kHz, the LSB mode is allowed from 40 bytes more; never at 96 kHz. -/
theorem C23_modes (sr : Srate) (nbytes : Nat) :
    let limit : Option Nat := if sr = .k96hr then none else some (if sr = .k48 ∨ sr = .k48hr then 100 else 20 * (1 + sr.idx))
    (highRate sr nbytes = true ↔ ∃ n, limit = some n ∧ n < nbytes) ∧
    (lsbAllowed sr nbytes = true ↔ ∃ n, limit = some n ∧ n + 40 ≤ nbytes) := by
  cases sr <;> simp [highRate, lsbAllowed, Srate.hr, Srate.idx] <;> omega

example : highRate .k48 100 = false ∧ highRate .k48 101 = true ∧ lsbAllowed .k48hr 140 = true ∧ lsbAllowed .k48hr 139 = false ∧
    highRate .k96hr 625 = false := by decide

/-- **C23**, normal mode: whatever the rate class, the number of coefficients and the spectrum (magnitudes below
`2^16`, or `2^24` in high-resolution), the integer spectrum is read back exactly, together with its noise seed. -/
theorem C23_normal_round_trip (data : List Nat) (hd : Bytes data) (h4 : 4 ≤ data.length) (sh32 : Nat → Nat)
    (pre post : List Op) (hpre : ∀ o ∈ pre, o.Valid) (hpost : ∀ o ∈ post, o.Valid)
    (hrate hr : Bool) (ne : Nat) (l : List Coef) (heven : l.length % 2 = 0)
    (hmag : ∀ p ∈ l, p.1 < if hr then 2 ^ 24 else 2 ^ 16) :
    let write := fun b => putOps (putQuantized hrate false ne 0 0 l (putOps b pre)) post
    0 ≤ bitsLeftRaw (write (setupWrite data)) →
    let r := readerAt sh32 (frameOf data write) (pre.map Op.shape)
    ∃ r', getQuantized hrate false hr ne (l.length / 2) 0 0 0 r =
        (some (l.map Coef.val, noiseSeed (l.map Coef.val)), r') ∧
      (readAll r' (post.map Op.shape)).1 = post.map Op.val := by
  intro write hl r
  have hc : CoefOk hr l := by
    intro p hp
    have := hmag p hp
    cases hr <;> exact this
  have hv := opsQuantized_valid hrate false hr ne 0 0 l (by decide) hc
  simp only [write, putQuantized_ops] at hl
  have hR := ready_in_frame data pre _ post sh32 hd h4 hpre hv hpost hl
  simp only [← putQuantized_ops] at hR
  obtain ⟨r', e, h⟩ := getQuantized_ready hrate false hr ne (l.length / 2) 0 0 0 l (by omega) hc _ _ hR
  have hlen : (l.map Coef.val).length % 2 = 0 := by rw [List.length_map]; exact heven
  rw [received_false l heven, seedAll_eq _ _ _ hlen (by decide), Nat.zero_add, seedSum_noise] at e
  exact ⟨r', e, h.post⟩

/-- Value `y` in place of the coefficient `p`: the coefficient, possibly without its lowest bit. -/
def OrWithoutLsb (p : Coef) (y : Int) : Prop :=
  y = p.val ∨ y = if p.2 then -((2 * (p.1 / 2) : Nat) : Int) else ((2 * (p.1 / 2) : Nat) : Int)

/-- The bits needed for the lowest bits of a spectrum: one for each value of the pairs with a value
greater than 3, and the sign of the values 1. -/
def withheldBits : List Coef → Nat
  | p :: q :: l =>
    (if 4 ≤ max p.1 q.1 then (if p.1 = 1 then 2 else 1) + (if q.1 = 1 then 2 else 1) else 0) + withheldBits l
  | _ => 0

theorem withheldBits_cost (l : List Coef) : (withheldBits l : Int) = lsbCost l := by
  match l with
  | [] => rfl
  | [_] => rfl
  | p :: q :: l =>
    rw [withheldBits, lsbCost]
    have := withheldBits_cost l
    unfold lsbCost1
    by_cases h : 4 ≤ max p.1 q.1
    · rw [if_pos h, if_pos h]; split <;> split <;> omega
    · rw [if_neg h, if_neg h]; omega

theorem forall₂_mono {α β : Type} {R S : α → β → Prop} (h : ∀ a b, R a b → S a b) {l : List α} {m : List β}
    (hl : List.Forall₂ R l m) : List.Forall₂ S l m := by
  induction hl with
  | nil => exact .nil
  | cons h1 _ ih => exact .cons (h _ _ h1) ih

/-- **C23**, LSB mode: the spectrum is received with possibly the lowest bits of large pairs withheld; after
the LSB stage, played with the same number of bits `n` on both sides, any coefficients that the bits cover, from the beginning
of the spectrum, are exact, all others are exact or lack their lowest bit. With enough bits the spectrum is
exact. The noise seed is always the one of the final spectrum. -/
theorem C23_lsb_round_trip (data : List Nat) (hd : Bytes data) (h4 : 4 ≤ data.length) (sh32 : Nat → Nat)
    (pre post : List Op) (hpre : ∀ o ∈ pre, o.Valid) (hpost : ∀ o ∈ post, o.Valid)
    (hrate hr : Bool) (ne : Nat) (l : List Coef) (heven : l.length % 2 = 0)
    (hmag : ∀ p ∈ l, p.1 < if hr then 2 ^ 24 else 2 ^ 16) (n : Int) :
    let write := fun b => putOps (putLsb n l (putQuantized hrate true ne 0 0 l (putOps b pre))) post
    0 ≤ bitsLeftRaw (write (setupWrite data)) →
    let r := readerAt sh32 (frameOf data write) (pre.map Op.shape)
    ∃ xs seed r' ys r'', getQuantized hrate true hr ne (l.length / 2) 0 0 0 r = (some (xs, seed), r') ∧
      List.Forall₂ OrWithoutLsb l xs ∧ seed = noiseSeed xs ∧
      getLsb 0 n xs seed r' = (ys, noiseSeed ys, r'') ∧ List.Forall₂ OrWithoutLsb l ys ∧
      (∀ k, k % 2 = 0 → (withheldBits (l.take k) : Int) ≤ n → ys.take k = (l.take k).map Coef.val) ∧
      ((withheldBits l : Int) ≤ n → ys = l.map Coef.val) ∧
      (readAll r'' (post.map Op.shape)).1 = post.map Op.val := by
  intro write hl r
  have hc : CoefOk hr l := by
    intro p hp
    have := hmag p hp
    cases hr <;> exact this
  have hv := opsQuantized_valid hrate true hr ne 0 0 l (by decide) hc
  have hv2 := opsLsb_valid n l
  have e0 : ∀ b, putLsb n l (putQuantized hrate true ne 0 0 l b) =
      putOps b (opsQuantized hrate true ne 0 0 l ++ opsLsb n l) := by
    intro b; rw [putLsb_ops, putQuantized_ops, putOps_append]
  simp only [write, e0] at hl
  have hR := ready_in_frame data pre _ post sh32 hd h4 hpre (by
    intro o ho
    rw [List.mem_append] at ho
    exact ho.elim (hv o) (hv2 o)) hpost hl
  simp only [← e0] at hR
  rw [List.append_assoc] at hR
  obtain ⟨r', e, h⟩ := getQuantized_ready hrate true hr ne (l.length / 2) 0 0 0 l (by omega) hc _ _ hR
  obtain ⟨r'', e', h'⟩ := getLsb_ready l 0 (seedAll 0 0 (received true l)) n n (Or.inl rfl) _ _ h
  have hlen : (received true l).length % 2 = 0 := by rw [received_length true l heven]; exact heven
  have hs := seedAll_eq (received true l) 0 0 hlen (by decide)
  rw [Nat.zero_add] at hs
  obtain ⟨s1, s2⟩ := seedLsb_eq _ _ (seedAll 0 0 (received true l)) 0 (restored_step l n heven) hlen (by
    rw [hs]; exact Nat.mod_lt _ (by decide))
  have hs' : seedLsb (seedAll 0 0 (received true l)) 0 (received true l) (restored n l) = noiseSeed (restored n l) := by
    rw [← seedSum_noise]
    rw [hs] at s1 s2 ⊢
    generalize seedSum 0 (received true l) = A at *
    generalize seedSum 0 (restored n l) = B at *
    generalize seedLsb (A % 65536) 0 (received true l) (restored n l) = C at *
    omega
  rw [hs'] at e'
  refine ⟨received true l, _, r', restored n l, r'', e, forall₂_mono (fun _ _ h => h) (received_lsbOf l heven), ?_, e',
    forall₂_mono (fun _ _ h => h) (restored_lsbOf l n heven), ?_, ?_, h'.post⟩
  · rw [hs, seedSum_noise]
  · intro k hk hw
    rw [withheldBits_cost] at hw
    by_cases hkl : k ≤ l.length
    · have ht := restored_exact (l.take k) (l.drop k) n (by rw [List.length_take]; omega) hw
      rw [List.take_append_drop] at ht
      rw [ht, List.take_append_of_le_length (by rw [List.length_map, List.length_take]; omega),
        List.take_of_length_le (by rw [List.length_map, List.length_take]; omega)]
    · rw [List.take_of_length_le (show l.length ≤ k by omega)] at hw ⊢
      have ht := restored_exact l [] n heven hw
      rw [List.append_nil] at ht
      have h0 : restored (n - lsbCost l) [] = [] := rfl
      rw [ht, h0, List.append_nil, List.take_of_length_le (by rw [List.length_map]; omega)]
  · intro hw
    rw [withheldBits_cost] at hw
    have ht := restored_exact l [] n heven hw
    have h0 : restored (n - lsbCost l) [] = [] := rfl
    rw [List.append_nil, h0, List.append_nil] at ht
    exact ht

/-- The magnitudes met by the encoder are in the range of the theorems: the limit on the gain keeps
them below `2^15`, or `2^23` in high-resolution. Here, a spectrum with escapes, zero values, values 1
in a large pair, and the longest escape sequence, in a frame that fits. -/
example :
    let l : List Coef := [(0, false), (3, true), (1, true), (5, false), (65535, true), (32768, false), (0, false), (2, true)]
    l.length % 2 = 0 ∧ (∀ p ∈ l, p.1 < if false then 2 ^ 24 else 2 ^ 16) ∧ withheldBits l = 5 ∧
    0 ≤ bitsLeftRaw (putOps (putQuantized true false 400 0 0 l
      (putOps (setupWrite (List.replicate 100 0x5a)) exOps)) exOps) ∧
    0 ≤ bitsLeftRaw (putOps (putLsb 3 l (putQuantized true true 400 0 0 l
      (putOps (setupWrite (List.replicate 100 0x5a)) exOps))) exOps) :=
  ⟨by decide, by decide, by decide, by decide +kernel, by decide +kernel⟩

/-! ### C24: residual -/

/-- The coefficients that have residual bits. -/
def codedCount (hr : Bool) (l : List Rat) : Nat := l.countP fun x => decide ((if hr then 1/2 else 10/16) ≤ |x|)

theorem codedCount_nz (hr : Bool) (l : List Rat) : codedCount hr l = nzCount hr l := rfl

/-- **C24.** In exact arithmetic, for any spectrum and any number of bits: the refinement bits consumed are exactly
those written (what follows is read back). A coefficient quantised to zero remains
zero. Any other one, `x`, decoded to `z`, gets `j` refinements, and

* without refinement it is the quantised value,
* the error is at most `5/16` once refined in normal mode, and at most `3/16` when the quantised
  value exceeds the coefficient,
* the error is at most `1/2^(j+1)` in high-resolution mode, and `z` remains the closest to the quantised value,
* `j` is the number of complete rounds over the coded coefficients that the number of bits allows until this coefficient,
  limited to 1 (normal) or 20 (high-resolution). -/
theorem C24_residual (data : List Nat) (hd : Bytes data) (h4 : 4 ≤ data.length) (sh32 : Nat → Nat)
    (pre post : List Op) (hpre : ∀ o ∈ pre, o.Valid) (hpost : ∀ o ∈ post, o.Valid)
    (hr : Bool) (xs : List Rat) (n : Nat) :
    let lim : Rat := if hr then 1/2 else 10/16
    let quant := fun x => (quantCoef Arith.exact hr x).val
    let write := fun b => putOps (putResidual Arith.exact hr n xs (putOps b pre)) post
    0 ≤ bitsLeftRaw (write (setupWrite data)) →
    let r := readerAt sh32 (frameOf data write) (pre.map Op.shape)
    ∃ (zs : List Rat) (r' : Bits), getResidual Arith.exact hr n (xs.map fun x => (quant x : Rat)) r = (zs, r') ∧
      zs.length = xs.length ∧ (readAll r' (post.map Op.shape)).1 = post.map Op.val ∧
      ∀ i (h1 : i < xs.length) (h2 : i < zs.length), ∃ j,
        (|xs[i]| < lim → zs[i] = 0) ∧
        (j = 0 → zs[i] = quant xs[i]) ∧
        (hr = false → 0 < j → lim ≤ |xs[i]| →
          |xs[i] - zs[i]| ≤ 5/16 ∧ (|xs[i]| < (quant xs[i]).natAbs → |xs[i] - zs[i]| ≤ 3/16)) ∧
        (hr = true → lim ≤ |xs[i]| → |xs[i] - zs[i]| ≤ 1 / 2 ^ (j + 1) ∧ |zs[i] - quant xs[i]| < 1/2) ∧
        j ≤ (if hr then 20 else 1) ∧
        (∀ m, 1 ≤ m → m ≤ (if hr then 20 else 1) →
          (m - 1) * codedCount hr xs + codedCount hr (xs.take i) < n → m ≤ j) ∧
        (∀ m, n ≤ m * codedCount hr xs + codedCount hr (xs.take i) → j ≤ m) := by
  intro lim quant write hl r
  have hv : ∀ o ∈ opsResidual Arith.exact hr n xs, o.Valid := encIter_valid _ _ _ _ _ _
  simp only [write, putResidual_ops] at hl
  have hR := ready_in_frame data pre _ post sh32 hd h4 hpre hv hpost hl
  simp only [← putResidual_ops] at hR
  obtain ⟨r', zs, e, e2, h, hall⟩ := getResidual_ready hr n xs _ _ hR
  refine ⟨zs, r', e, e2, h.post, ?_⟩
  intro i h1 h2
  obtain ⟨j, ⟨j1, j2, j3⟩, j4, j5, j6⟩ := hall i h1 h2
  simp only [codedCount_nz]
  have hn : ∀ c : Coef, c.val.natAbs = c.1 := by
    intro c; unfold Coef.val; split <;> omega
  refine ⟨j, j1, j2, ?_, ?_, j4, j5, j6⟩
  · intro hh hj hx
    subst hh
    have := j3 hx
    rw [if_neg (by decide)] at this
    simp only [quant, hn]
    exact this hj
  · intro hh hx
    subst hh
    have := j3 hx
    rw [if_pos rfl] at this
    rw [one_div, ← inv_pow, ← one_div]
    exact this

/-- Non-vacuity: bits for one round and a half over coefficients in high-resolution mode, quantised to 3, 0, -1. -/
example :
    let xs : List Rat := [29/10, -(49/100), -(8/10)]
    (xs.map fun x => (quantCoef Arith.exact true x).val) = [3, 0, -1] ∧ codedCount true xs = 2 ∧
    0 ≤ bitsLeftRaw (putOps (putResidual Arith.exact true 3 xs
      (putOps (setupWrite (List.replicate 40 0x5a)) exOps)) exOps) :=
  ⟨by decide +kernel, by decide +kernel, by decide +kernel⟩

/-- The rounding of `float` on the coefficients that matter here. -/
example : rne24 (1/3) = 11184811 / 33554432 ∧ rne24 (-(16777217)) = -16777216 ∧ rne24 (10/16) = 10/16 := by
  decide +kernel

/-- **C24**, the limit of the exact arithmetic, in high-resolution mode: with the rounding of `float`, the coefficient
just below `0.5` (a `float`) is quantised to 1, as `0.5 + x` is rounded to 1, whereas the encoder
considers it as null in the residual. The encoder writes no bit, the decoder reads one: all following
residual bits are then shifted by one. -/
theorem C24_float_desync :
    let A := Arith.rounded rne24
    let x : Rat := 16777215 / 33554432
    rne24 x = x ∧ (quantCoef A true x).val = 1 ∧
    (∀ b n, putResidual A true n [x] b = b) ∧
    (∀ r, ∃ z, getResidual A true 1 [1] r = ([z], (getBit r).2)) := by
  have h1 : rne24 (16777215 / 33554432) = 16777215 / 33554432 := by decide +kernel
  have h2 : (quantCoef (Arith.rounded rne24) true (16777215 / 33554432)).val = 1 := by decide +kernel
  have h3 : ∀ off, residualBit (Arith.rounded rne24) ((Arith.rounded rne24).ofRat (1/2)) off (16777215 / 33554432) = none := by
    intro off
    unfold residualBit
    have : (Arith.rounded rne24).lt ((Arith.rounded rne24).abs (16777215 / 33554432)) ((Arith.rounded rne24).ofRat (1/2)) = true := by
      decide +kernel
    dsimp only
    rw [if_pos this]
  have h4 : (Arith.rounded rne24).isZero 1 = false := by decide +kernel
  refine ⟨h1, h2, ?_, ?_⟩
  · intro b n
    unfold putResidual
    rw [if_pos rfl, if_pos rfl]
    dsimp only
    generalize (Arith.rounded rne24).div ((Arith.rounded rne24).ofRat (1/2)) ((Arith.rounded rne24).ofRat 2) = off
    generalize 20 = f
    induction f generalizing off with
    | zero => rfl
    | succ f ih =>
      rw [putResidualIter]
      by_cases hn : n = 0
      · rw [if_pos hn]
      · rw [if_neg hn]
        obtain ⟨m, rfl⟩ : ∃ m, n = m + 1 := ⟨n - 1, by omega⟩
        have e : putResidualPass (Arith.rounded rne24) ((Arith.rounded rne24).ofRat (1/2)) off (m + 1)
            [16777215 / 33554432] b = (m + 1, [16777215 / 33554432], b) := by
          rw [putResidualPass, h3]
          rfl
        rw [e]
        exact ih _
  · intro r
    refine ⟨residualMove (Arith.rounded rne24) ((Arith.rounded rne24).ofRat (1/4)) ((Arith.rounded rne24).ofRat (1/4)) 1
      (getBit r).1, ?_⟩
    unfold getResidual
    rw [if_pos rfl, if_pos rfl, if_pos rfl, getResidualIter, if_neg (by decide)]
    rw [getResidualPass, if_neg (by rw [h4]; decide)]
    rw [show (19 : Nat) = 18 + 1 from rfl, getResidualIter]
    rfl

/-- **C24**, with rounding, in normal mode: for any rounding of the operations that is monotone and
exact on the constants of the code and on `1 - 2^-24`, any spectrum of values such that those in `[1/2, 1)` are multiples of
`2^-24` (as any `float` is), and any number of bits, the bits consumed are exactly those written. -/
theorem C24_float_sync (data : List Nat) (hd : Bytes data) (h4 : 4 ≤ data.length) (sh32 : Nat → Nat)
    (pre post : List Op) (hpre : ∀ o ∈ pre, o.Valid) (hpost : ∀ o ∈ post, o.Valid)
    (rnd : Rat → Rat) (hmono : ∀ x y, x ≤ y → rnd x ≤ rnd y)
    (hfix : ∀ x ∈ [(0 : Rat), 1/2, 6/16, 10/16, 5/16, 3/16, 1 - 1/2^24, 1, 2], rnd x = x)
    (xs : List Rat) (hxs : ∀ x ∈ xs, 1/2 ≤ |x| → |x| < 1 → ∃ k : Int, |x| = k / 2 ^ 24) (n : Nat) :
    let A := Arith.rounded rnd
    let quant := fun x => (quantCoef A false x).val
    let write := fun b => putOps (putResidual A false n xs (putOps b pre)) post
    0 ≤ bitsLeftRaw (write (setupWrite data)) →
    let r := readerAt sh32 (frameOf data write) (pre.map Op.shape)
    ∃ (zs : List Rat) (r' : Bits), getResidual A false n (xs.map fun x => (quant x : Rat)) r = (zs, r') ∧
      zs.length = xs.length ∧ (readAll r' (post.map Op.shape)).1 = post.map Op.val ∧
      ∀ i (h1 : i < xs.length) (h2 : i < zs.length), |xs[i]| < 10/16 → zs[i] = 0 := by
  intro A quant write hl r
  have hv : ∀ o ∈ opsResidual A false n xs, o.Valid := encIter_valid _ _ _ _ _ _
  simp only [write, putResidual_ops] at hl
  have hR := ready_in_frame data pre _ post sh32 hd h4 hpre hv hpost hl
  simp only [← putResidual_ops] at hR
  have f0 : rnd 0 = 0 := hfix _ (by simp)
  have f6 : rnd (6/16) = 6/16 := hfix _ (by simp)
  have f10 : rnd (10/16) = 10/16 := hfix _ (by simp)
  have f1 : rnd 1 = 1 := hfix _ (by simp)
  have fm : rnd (1 - 1/2^24) = 1 - 1/2^24 := hfix _ (by simp)
  have habs : ∀ x : Rat, A.abs x = |x| := exact_abs
  -- the quantised value is null exactly below the limit
  have hq : ∀ x ∈ xs, ((quant x = 0) ↔ |x| < 10/16) := by
    intro x hx
    have e1 : quant x = 0 ↔ (A.trunc (A.add (A.abs x) (A.ofRat (6/16)))).toNat = 0 := by
      simp only [quant]
      unfold quantCoef Coef.val
      dsimp only
      have : (if false = true then (1 : Rat)/2 else 6/16) = 6/16 := rfl
      rw [this]
      split <;> omega
    rw [e1]
    have e2 : A.add (A.abs x) (A.ofRat (6/16)) = rnd (|x| + 6/16) := by
      rw [habs]; show rnd (|x| + rnd (6/16)) = _; rw [f6]
    rw [e2]
    have hpos : 0 ≤ rnd (|x| + 6/16) := by
      rw [← f0]; apply hmono; have := abs_nonneg x; linarith
    have e3 : A.trunc (rnd (|x| + 6/16)) = ⌊rnd (|x| + 6/16)⌋ := by
      show (if rnd (|x| + 6/16) < 0 then _ else _) = _
      rw [if_neg (not_lt.mpr hpos)]; rfl
    rw [e3]
    constructor
    · intro h
      by_contra hge
      have hge := not_lt.mp hge
      have : 1 ≤ rnd (|x| + 6/16) := by rw [← f1]; apply hmono; linarith
      have : (1 : Int) ≤ ⌊rnd (|x| + 6/16)⌋ := by rw [Int.le_floor]; exact_mod_cast this
      omega
    · intro h
      have hlt : |x| + 6/16 ≤ 1 - 1/2^24 := by
        by_cases hh : 1/2 ≤ |x|
        · obtain ⟨k, hk⟩ := hxs x hx hh (by linarith)
          rw [hk] at h ⊢
          have h5 : (k : Rat) < 10485760 := by linarith
          have h6 : k ≤ 10485759 := by
            have : k < 10485760 := by exact_mod_cast h5
            omega
          have h7 : (k : Rat) ≤ 10485759 := by exact_mod_cast h6
          linarith
        · have := not_le.mp hh; linarith
      have : rnd (|x| + 6/16) ≤ 1 - 1/2^24 := by rw [← fm]; exact hmono _ _ hlt
      have : ⌊rnd (|x| + 6/16)⌋ < 1 := by
        rw [Int.floor_lt]; push_cast; linarith
      omega
  have hlim : ∀ x : Rat, A.lt (A.abs x) (A.ofRat (10/16)) = decide (|x| < 10/16) := by
    intro x; rw [habs]; show decide (|x| < rnd (10/16)) = _; rw [f10]
  have hz : ∀ x : Rat, A.isZero x = decide (x = 0) := by
    intro x
    unfold Arith.isZero
    show (decide (x ≤ rnd 0) && decide (rnd 0 ≤ x)) = _
    rw [f0, ← Bool.decide_and]
    congr 1
    exact propext ⟨fun h => le_antisymm h.1 h.2, fun h => ⟨le_of_eq h, le_of_eq h.symm⟩⟩
  let T : List (Trip Rat) := xs.map fun x => (x, x, (quant x : Rat))
  let P : Nat → Trip Rat → Prop := fun k t =>
    (t.1 ∈ xs ∧ (k = 0 → t.2.1 = t.1 ∧ t.2.2 = quant t.1) ∧ (|t.1| < 10/16 → t.2.2 = 0))
  have hm1 : T.map (fun t => t.1) = xs := by
    simp only [T]; rw [List.map_map]; exact List.map_id xs
  have hm2 : T.map (fun t => t.2.1) = xs := by
    simp only [T]; rw [List.map_map]; exact List.map_id xs
  have hm3 : T.map (fun t => t.2.2) = xs.map fun x => (quant x : Rat) := by
    simp only [T]; rw [List.map_map]; rfl
  have hst : ∀ off off1 off2, StepOk A (A.ofRat (10/16)) off off1 off2 (P 0) (P 1) := by
    intro off off1 off2 t ht
    obtain ⟨h1, h2, h3⟩ := ht
    obtain ⟨g1, g2⟩ := h2 rfl
    have hqt := hq t.1 h1
    by_cases hx : |t.1| < 10/16
    · left
      have hl : A.lt (A.abs t.1) (A.ofRat (10/16)) = true := by rw [hlim]; simp [hx]
      refine ⟨hl, ?_, ?_, ⟨h1, fun h => absurd h (by decide), fun _ => h3 hx⟩⟩
      · rw [g1]; unfold residualBit; dsimp only; rw [if_pos hl]
      · rw [hz, h3 hx]; rfl
    · right
      have hl : A.lt (A.abs t.1) (A.ofRat (10/16)) = false := by rw [hlim]; simp [hx]
      refine ⟨hl, ?_, ?_⟩
      · rw [hz, g2]
        have : quant t.1 ≠ 0 := fun h => hx (hqt.mp h)
        simpa using this
      · rw [g1]
        unfold residualBit
        dsimp only
        rw [if_neg (by rw [hl]; decide)]
        exact ⟨_, _, rfl, h1, fun h => absurd h (by decide), fun h => absurd h hx⟩
  have hi : ∀ t ∈ T, P 0 t := by
    intro t ht
    obtain ⟨x, hx, rfl⟩ := List.mem_map.mp ht
    exact ⟨hx, fun _ => ⟨rfl, rfl⟩, fun h => by
      have := (hq x hx).mpr h
      show ((quant x : Int) : Rat) = 0
      rw [this]; rfl⟩
  have hopt : opsResidual A false n xs = encIter A (A.ofRat (10/16)) 1
      (A.div (A.ofRat (10/16)) (A.ofRat 2)) n (T.map fun t => t.2.1) := by
    rw [hm2]; rfl
  rw [hopt] at hR
  obtain ⟨r', T', e1, e2, e3, e4⟩ := getResidualIter_ready A (A.ofRat (10/16))
    (fun k => k.rec (A.div (A.ofRat (10/16)) (A.ofRat 2)) fun _ v => A.mul v (A.ofRat (10/16)))
    (fun k => k.rec (A.ofRat (5/16)) fun _ v => A.mul v (A.ofRat (1/2)))
    (fun k => k.rec (A.ofRat (3/16)) fun _ v => A.mul v (A.ofRat (1/2))) P
    (fun _ => rfl) (fun _ => rfl) (fun _ => rfl) 1 0 n
    (fun j _ hj => by
      obtain rfl : j = 0 := by omega
      exact hst _ _ _) T hi _ _ hR
  rw [hm3] at e1
  rw [hm1] at e2
  have hlen : T'.length = xs.length := by rw [← e2, List.length_map]
  refine ⟨_, r', e1, by rw [List.length_map]; exact hlen, e3.post, ?_⟩
  intro i h1 h2 hx
  obtain ⟨j, -, -, ⟨-, -, p3⟩, -, -⟩ := e4 i (by omega)
  rw [List.getElem_map]
  apply p3
  have : T'[i].1 = xs[i] := by
    simp only [← e2, List.getElem_map]
  rw [this]
  exact hx

/-- Non-vacuity of the hypotheses on the rounding: a truncation to multiples of `2^-30`. -/
example : ∃ rnd : Rat → Rat, (∀ x y, x ≤ y → rnd x ≤ rnd y) ∧
    (∀ x ∈ [(0 : Rat), 1/2, 6/16, 10/16, 5/16, 3/16, 1 - 1/2^24, 1, 2], rnd x = x) ∧ rnd (1/3) ≠ 1/3 := by
  refine ⟨fun x => (Rat.floor (x * 2 ^ 30) : Rat) / 2 ^ 30, ?_, by decide +kernel, by decide +kernel⟩
  intro x y h
  have h1 : Rat.floor (x * 2 ^ 30) ≤ Rat.floor (y * 2 ^ 30) := by
    have : ⌊x * 2 ^ 30⌋ ≤ ⌊y * 2 ^ 30⌋ := Int.floor_le_floor (by linarith)
    exact this
  have h2 : (Rat.floor (x * 2 ^ 30) : Rat) ≤ Rat.floor (y * 2 ^ 30) := by exact_mod_cast h1
  show (Rat.floor (x * 2 ^ 30) : Rat) / 2 ^ 30 ≤ (Rat.floor (y * 2 ^ 30) : Rat) / 2 ^ 30
  gcongr

end LC3
