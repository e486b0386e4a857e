import Verif.Lemmas.Float
import Verif.Props.Spec
import Verif.Props.Plc

/-!
The theorems on an arbitrary rounding, instantiated on the rounding of binary32.
-/

namespace LC3

/-- A `float` in `[1/2, 1)` is a multiple of `2^-24`. -/
theorem float_multiple (x : Rat) (hx : rne24 x = x) (h1 : 1/2 ≤ |x|) (h2 : |x| < 1) : ∃ k : Int, |x| = k / 2 ^ 24 := by
  have habs : rne24 |x| = |x| := by
    rcases abs_choice x with h | h
    · rw [h, hx]
    · rw [h, rne24_neg, hx]
  have hpos : 0 < |x| := by linarith
  have he : rneExp |x| = -1 := by
    apply rneExp_unique _ hpos
    · rw [pow2_eq]; norm_num; linarith
    · rw [show (-1 : Int) + 1 = 0 by ring, pow2_zero]; exact h2
  rw [rne24_pos _ hpos] at habs
  unfold rnePos at habs
  rw [he] at habs
  refine ⟨rneInt (|x| * pow2 (23 - -1)), ?_⟩
  have : pow2 (-1 - 23) = 1 / 2 ^ 24 := by rw [pow2_eq]; norm_num
  rw [this] at habs
  rw [← mul_one_div]
  exact habs.symm

/-- **C24** in `float` arithmetic, in normal mode: whatever the spectrum of `float` values and the number of bits, the decoder consumes
exactly the residual bits written, and the coefficients quantised to zero stay null. -/
theorem C24_float (data : List Nat) (hd : Bytes data) (h4 : 4 ≤ data.length) (sh32 : Nat → Nat)
    (pre post : List Op) (hpre : ∀ o ∈ pre, o.Valid) (hpost : ∀ o ∈ post, o.Valid)
    (xs : List Rat) (hxs : ∀ x ∈ xs, rne24 x = x) (n : Nat) :
    let A := Arith.rounded rne24
    let quant := fun x => (quantCoef A false x).val
    let write := fun b => putOps (putResidual A false n xs (putOps b pre)) post
    0 ≤ bitsLeftRaw (write (setupWrite data)) →
    let r := readerAt sh32 (frameOf data write) (pre.map Op.shape)
    ∃ (zs : List Rat) (r' : Bits), getResidual A false n (xs.map fun x => (quant x : Rat)) r = (zs, r') ∧
      zs.length = xs.length ∧ (readAll r' (post.map Op.shape)).1 = post.map Op.val ∧
      ∀ i (h1 : i < xs.length) (h2 : i < zs.length), |xs[i]| < 10/16 → zs[i] = 0 :=
  C24_float_sync data hd h4 sh32 pre post hpre hpost rne24 rne24_mono (by decide +kernel) xs
    (fun x hx h1 h2 => float_multiple x (hxs x hx) h1 h2) n

/-- **C31** in `float` arithmetic: the attenuation is between 0 and 1 and never increases during a burst. -/
theorem C31_float (n : Nat) :
    0 ≤ burstAlpha (Arith.rounded rne24) n ∧ burstAlpha (Arith.rounded rne24) n ≤ 1 ∧
    burstAlpha (Arith.rounded rne24) (n + 1) ≤ burstAlpha (Arith.rounded rne24) n :=
  C31_rounded rne24 rne24_mono rne24_idem rne24_zero (by decide +kernel) n

example : rne24 (16777215 / 33554432) = 16777215 / 33554432 ∧ rne24 (3/4) = 3/4 ∧
    burstAlpha (Arith.rounded rne24) 5 = 13589544 / 16777216 := by decide +kernel

end LC3
