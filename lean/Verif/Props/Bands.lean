import Verif.Lemmas.Bands
import Mathlib.Tactic.Linarith
import Mathlib.Tactic.Positivity

/-! Properties of the energy of the bands and of the bandwidth detection. -/

namespace LC3

open Finset

variable {R : Type}

/-! ### C51: energy of the bands -/

/-- **C51**, safety: for all the configurations, any arithmetic, and any spectrum of at least the encoded coefficients, all the accesses are in
the buffers, and the energy of each band is set. -/
theorem C51_safe (A : Arith R) (dt : Dt) (sr : Srate) (hc : Config dt sr) (x : List R) (hx : ne dt sr ≤ x.length) :
    ∃ e nn, energyCompute A dt sr x = some (e, nn) ∧ e.length = numBands dt sr := by
  obtain ⟨h1, h2, h3, h4, h5⟩ := bandLim_cases dt sr hc
  unfold energyCompute numBands
  cases hb : bandLim dt sr with
  | nil => rw [hb] at h4; simp at h4
  | cons l0 lim =>
    rw [hb] at h1 h2 h3
    simp only [List.head?_cons, Option.some.injEq] at h1
    subst h1
    obtain ⟨r, a1, a2⟩ := energyLoop_some A x (((0 :: lim).length - 1 : Nat) - nyquistBands dt) lim 0 0 (ne dt sr)
      (A.ofInt 0, A.ofInt 0) h2 h3 hx
    dsimp only
    rw [a1, Option.bind_some]
    exact ⟨_, _, rfl, by simpa using a2⟩

/-- **C51.** In exact arithmetic, the energy of each band is the mean of the squares of its coefficients. The bands are consecutive, none is empty, and together they are
the encoded coefficients. The flag is set when the energy of the last bands is more than 30 times the energy of the
others: of a silent spectrum, the flag is not set. -/
theorem C51_energy (dt : Dt) (sr : Srate) (hc : Config dt sr) (x : List Rat) (hx : ne dt sr ≤ x.length) :
    ∃ (e : List Rat) (nn : Bool) (lim : Nat → Nat), energyCompute Arith.exact dt sr x = some (e, nn) ∧
      e.length = numBands dt sr ∧
      lim 0 = 0 ∧ lim (numBands dt sr) = ne dt sr ∧ (∀ b, b < numBands dt sr → lim b < lim (b + 1)) ∧
      (∀ b, b < numBands dt sr →
        e.getD b 0 = (∑ j ∈ Ico (lim b) (lim (b + 1)), x.getD j 0 ^ 2) / ((lim (b + 1) : Rat) - lim b)) ∧
      (nn = true ↔ 30 * (∑ b ∈ range (numBands dt sr), if (b : Int) < numBands dt sr - nyquistBands dt then e.getD b 0 else 0) <
        ∑ b ∈ range (numBands dt sr), if (numBands dt sr : Int) - nyquistBands dt ≤ b then e.getD b 0 else 0) := by
  obtain ⟨h1, h2, h3, h4, h5⟩ := bandLim_cases dt sr hc
  unfold energyCompute numBands
  cases hb : bandLim dt sr with
  | nil => rw [hb] at h4; simp at h4
  | cons l0 lim =>
    rw [hb] at h1 h2 h3
    simp only [List.head?_cons, Option.some.injEq] at h1
    subst h1
    have h2' : Limits 0 lim := h2
    have hlim : ∀ (l : List Nat) (i b : Nat), Limits i l → b < l.length → (i :: l).getD b 0 < (i :: l).getD (b + 1) 0 := by
      intro l
      induction l with
      | nil => intro i b _ hb; simp at hb
      | cons ie l ih =>
        intro i b hl hb
        cases b with
        | zero => simpa using hl.1
        | succ b => simpa using ih ie b hl.2 (by simpa using hb)
    dsimp only
    rw [energyLoop_exact x _ lim 0 0 (ne dt sr) _ h2' h3 hx, Option.bind_some]
    refine ⟨_, _, fun b => (0 :: lim).getD b 0, rfl, ?_, rfl, ?_, ?_, ?_, ?_⟩
    · rw [bandMeans_length]; simp
    · rw [List.getLast?_eq_getElem?] at h3
      simp only [List.length_cons, Nat.add_sub_cancel] at h3 ⊢
      rw [List.getD_eq_getElem?_getD, h3]; rfl
    · intro b hb; exact hlim lim 0 b h2' (by simpa using hb)
    · intro b hb
      rw [bandMeans_getD x lim 0 b (by simpa using hb)]
      rfl
    · simp only [Arith.exact, Arith.ofInt, id, decide_eq_true_eq, Nat.zero_add, List.length_cons, Nat.add_sub_cancel]
      norm_num

/-- **C51**, complement: the flag is never set for a silent spectrum. -/
theorem C51_silent (dt : Dt) (sr : Srate) (hc : Config dt sr) (x : List Rat) (hx : ne dt sr ≤ x.length) (h0 : ∀ v ∈ x, v = 0) :
    ∃ e, energyCompute Arith.exact dt sr x = some (e, false) ∧ ∀ v ∈ e, v = 0 := by
  obtain ⟨e, nn, lim, h1, h2, -, -, -, h6, h7⟩ := C51_energy dt sr hc x hx
  have hz : ∀ j, x.getD j 0 = 0 := by
    intro j
    by_cases hj : j < x.length
    · rw [List.getD_eq_getElem x 0 hj]; exact h0 _ (List.getElem_mem hj)
    · rw [List.getD_eq_default x 0 (by omega)]
  have he : ∀ b, e.getD b 0 = 0 := by
    intro b
    by_cases hb : b < numBands dt sr
    · rw [h6 b hb]; simp only [hz]; simp
    · rw [List.getD_eq_default e 0 (by omega)]
  refine ⟨e, ?_, ?_⟩
  · rw [h1]
    cases nn with
    | false => rfl
    | true =>
      have := h7.1 rfl
      simp only [he] at this
      simp at this
  · intro v hv
    obtain ⟨k, hk, rfl⟩ := List.getElem_of_mem hv
    rw [← List.getD_eq_getElem e 0 hk]
    exact he k

/-- A spectrum with energy in the last bands: the flag is set. -/
example : (energyCompute Arith.exact .m10 .k8 (List.replicate 79 0 ++ [100])).map Prod.snd = some true := by decide +kernel
/-- And with the same energy elsewhere: it is not. -/
example : (energyCompute Arith.exact .m10 .k8 (100 :: List.replicate 79 0)).map Prod.snd = some false := by decide +kernel
example : Config .m10 .k8 ∧ ne .m10 .k8 = 80 ∧ numBands .m10 .k8 = 64 := by decide

/-! ### C52: bandwidth -/

theorem regions_in (dt : Dt) (sr : Srate) (h : sr.hr = false) (h0 : 0 < sr.idx) :
    (bwRegions dt (sr.idx - 1)).length = sr.idx ∧ sr.idx ≤ 4 ∧ RegionsIn (numBands dt sr) (bwRegions dt (sr.idx - 1)) ∧
    ∀ k, k < sr.idx → ∃ l, bwL dt k = some l ∧ 2 * l ≤ ((bwRegions dt (sr.idx - 1)).getD k (0, 0)).1 + 1 ∧
      ((bwRegions dt (sr.idx - 1)).getD k (0, 0)).1 + 1 < numBands dt sr := by
  revert h h0
  cases dt <;> cases sr <;> decide

theorem bwTc_some (A : Arith R) (bw : Nat) (h : bw < 4) : ∃ tc, bwTc A bw = some tc := by
  unfold bwTc
  exact ⟨_, List.getElem?_eq_getElem (by simpa using h)⟩

/-- **C52**, safety: for any energy of the bands and any arithmetic, all the accesses are in the bands, and the bandwidth is one of those the bitstream can
code at this samplerate. -/
theorem C52_safe (A : Arith R) (dt : Dt) (sr : Srate) (e : List R) (he : e.length = numBands dt sr) :
    ∃ bw, bwdetRun A dt sr e = some bw ∧ bw ≤ sr.idx := by
  unfold bwdetRun
  dsimp only
  by_cases h : sr.idx ≤ 0 ∨ sr.hr = true
  · rw [if_pos h]; exact ⟨_, rfl, Nat.le_refl _⟩
  · rw [if_neg h]
    obtain ⟨h0, h1⟩ := not_or.1 h
    obtain ⟨a1, a2, a3, a4⟩ := regions_in dt sr (by simpa using h1) (by omega)
    rw [if_neg (by omega), List.take_of_length_le (by omega)]
    obtain ⟨bw0, b1, b2⟩ := bwStage1_some A e (bwRegions dt (sr.idx - 1)) 0 0 (by rw [he]; exact a3) (Nat.le_refl _)
    rw [b1, Option.bind_some]
    by_cases c : bw0 ≥ sr.idx
    · rw [if_pos c]; exact ⟨bw0, rfl, by omega⟩
    · rw [if_neg c, List.getElem?_eq_getElem (show bw0 < (bwRegions dt (sr.idx - 1)).length by omega), Option.bind_some]
      obtain ⟨l, c1, c2, c3⟩ := a4 bw0 (by omega)
      obtain ⟨tc, d1⟩ := bwTc_some A bw0 (by omega)
      rw [List.getD_eq_getElem _ (0, 0) (show bw0 < (bwRegions dt (sr.idx - 1)).length by omega)] at c2 c3
      rw [c1, Option.bind_some, d1, Option.bind_some]
      obtain ⟨r, f1⟩ := bwStage2_some A e tc l (l + 1) (((bwRegions dt (sr.idx - 1))[bw0]'(by omega)).1 - l + 1 : Int) (by omega) (by omega)
      rw [f1, Option.bind_some]
      cases r
      · exact ⟨sr.idx, rfl, Nat.le_refl _⟩
      · exact ⟨bw0, rfl, by omega⟩

/-- A drop of the energy over the cut-off: between `is - l + 1` and `is + 1`, a band whose energy is below the one of the band `l` before, by the factor
`tc`. -/
def Drop (e : List Rat) (is l : Nat) (tc : Rat) : Prop := ∃ i, is + 1 ≤ i + l ∧ l ≤ i ∧ i ≤ is + 1 ∧ tc * e.getD i 0 < e.getD (i - l) 0

/-- **C52.** In exact arithmetic, the bandwidth `bw` is the full bandwidth, or is below it with: no region of bands above `bw` has energy, the
region just below has some, and there is a drop of the energy over the cut-off. Conversely, with such a drop, the bandwidth is not full.
The signal in a region with energy is never discarded. -/
theorem C52_bandwidth (dt : Dt) (sr : Srate) (hr : sr.hr = false) (h0 : 0 < sr.idx) (e : List Rat) (he : e.length = numBands dt sr) :
    ∃ (c : Nat) (l : Nat) (tc : Rat), c ≤ sr.idx ∧
      (∀ k, c ≤ k → k < sr.idx → ¬ Loud e ((bwRegions dt (sr.idx - 1)).getD k (0, 0)) k) ∧
      (0 < c → Loud e ((bwRegions dt (sr.idx - 1)).getD (c - 1) (0, 0)) (c - 1)) ∧
      (c < sr.idx → bwL dt c = some l ∧ bwTc Arith.exact c = some tc) ∧
      ((Drop e ((bwRegions dt (sr.idx - 1)).getD c (0, 0)).1 l tc → bwdetRun Arith.exact dt sr e = some c) ∧
        (¬ Drop e ((bwRegions dt (sr.idx - 1)).getD c (0, 0)).1 l tc → bwdetRun Arith.exact dt sr e = some sr.idx)) := by
  obtain ⟨a1, a2, a3, a4⟩ := regions_in dt sr hr h0
  obtain ⟨c, b1, b2, b3, b4⟩ := bwStage1_exact e (bwRegions dt (sr.idx - 1)) 0 0 (by rw [he]; exact a3) (Nat.le_refl _)
  have q1 : ∀ k, c ≤ k → k < sr.idx → ¬ Loud e ((bwRegions dt (sr.idx - 1)).getD k (0, 0)) k := by
    intro k hk hk2
    simpa using b3 k (by omega) (by omega)
  have q2 : 0 < c → Loud e ((bwRegions dt (sr.idx - 1)).getD (c - 1) (0, 0)) (c - 1) := by
    intro hc
    rcases b4 with rfl | ⟨k, d1, d2, d3⟩
    · omega
    · rw [show c - 1 = k by omega]; simpa using d3
  have hrun : bwdetRun Arith.exact dt sr e = (if c ≥ sr.idx then some c else
      ((bwRegions dt (sr.idx - 1))[c]?).bind fun r => (bwL dt c).bind fun l => (bwTc Arith.exact c).bind fun tc =>
      (bwStage2 Arith.exact e tc l (l + 1) ((r.1 : Int) - l + 1)).bind fun hold => some (if hold then c else sr.idx)) := by
    unfold bwdetRun
    dsimp only
    rw [if_neg (by simp [hr]; omega), if_neg (by omega), List.take_of_length_le (by omega), b1, Option.bind_some]
  by_cases hc : c ≥ sr.idx
  · have : c = sr.idx := by omega
    rw [hrun, if_pos hc]
    exact ⟨c, 0, 0, by omega, q1, q2, by omega, fun _ => rfl, fun _ => by rw [this]⟩
  · obtain ⟨l, c1, c2, c3⟩ := a4 c (by omega)
    obtain ⟨tc, d1⟩ := bwTc_some Arith.exact c (by omega)
    refine ⟨c, l, tc, by omega, q1, q2, fun _ => ⟨c1, d1⟩, ?_⟩
    rw [hrun, if_neg hc, List.getElem?_eq_getElem (show c < (bwRegions dt (sr.idx - 1)).length by omega), Option.bind_some, c1, Option.bind_some,
      d1, Option.bind_some]
    rw [List.getD_eq_getElem _ (0, 0) (show c < (bwRegions dt (sr.idx - 1)).length by omega)] at c2 c3 ⊢
    obtain ⟨is, hi⟩ : ∃ is, ((bwRegions dt (sr.idx - 1))[c]'(by omega)).1 = is := ⟨_, rfl⟩
    rw [hi] at c2 c3 ⊢
    obtain ⟨r, f1, f2⟩ := bwStage2_exact e tc l (l + 1) (is + 1 - l) (by omega) (by omega)
    rw [show ((is : Int) - l + 1) = ((is + 1 - l : Nat) : Int) by omega, f1, Option.bind_some]
    have f3 : r = true ↔ Drop e is l tc := by
      rw [f2]
      unfold Drop
      constructor
      · rintro ⟨j, g1, g2, g3⟩; exact ⟨j, by omega, by omega, by omega, g3⟩
      · rintro ⟨j, g1, g2, g3, g4⟩; exact ⟨j, by omega, by omega, g4⟩
    cases r
    · exact ⟨fun h => absurd (f3.2 h) (by simp), fun _ => rfl⟩
    · exact ⟨fun _ => rfl, fun h => absurd (f3.1 rfl) h⟩

/-- **C52**, consequence: a region with energy is in the bandwidth. -/
theorem C52_keeps_signal (dt : Dt) (sr : Srate) (hr : sr.hr = false) (h0 : 0 < sr.idx) (e : List Rat) (he : e.length = numBands dt sr)
    (k : Nat) (hk : k < sr.idx) (hl : Loud e ((bwRegions dt (sr.idx - 1)).getD k (0, 0)) k) (bw : Nat)
    (hb : bwdetRun Arith.exact dt sr e = some bw) : k < bw := by
  obtain ⟨c, l, tc, h1, h2, h3, h4, h5, h6⟩ := C52_bandwidth dt sr hr h0 e he
  have hc : k < c := by
    rcases Nat.lt_or_ge k c with h | h
    · exact h
    · exact absurd hl (h2 k h hk)
  by_cases hd : Drop e ((bwRegions dt (sr.idx - 1)).getD c (0, 0)).1 l tc
  · rw [h5 hd] at hb; have := Option.some.inj hb; omega
  · rw [h6 hd] at hb; have := Option.some.inj hb; omega

/-- The energy of a narrow band signal at 32 kHz: the detected bandwidth is the narrow band. -/
example : bwdetRun Arith.exact .m10 .k32 (List.replicate 44 1000 ++ List.replicate 20 0) = some 0 := by decide +kernel
/-- With some energy in the third region, the bandwidth is full. -/
example : bwdetRun Arith.exact .m10 .k32 (List.replicate 60 1000 ++ List.replicate 4 15) = some 3 := by decide +kernel
example : Loud (List.replicate 60 1000 ++ List.replicate 4 15) ((bwRegions .m10 2).getD 2 (0, 0)) 2 := by decide +kernel
example : numBands .m10 .k32 = 64 := by decide

end LC3
