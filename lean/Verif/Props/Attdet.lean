import Mathlib.Data.List.GetD
import Mathlib.Tactic.Linarith
import Mathlib.Tactic.Ring
import Mathlib.Algebra.BigOperators.Group.Finset.Basic
import Verif.Model.Attdet

/-!
Properties of the attack detector: C29.
-/

namespace LC3

/-! ### Specification -/

/-- Samples of 16 bits. -/
def Samples16 (x : List Int) : Prop := ∀ v ∈ x, -32768 ≤ v ∧ v ≤ 32767

/-- The signal at 16 kHz, by mean of `m` samples; `m = 2` at 32 kHz and 3 at 48 kHz. -/
def down (x : List Int) (m i : Nat) : Int :=
  if m = 2 then (x.getD i 0 + x.getD (i + 1) 0) / 2
  else (x.getD i 0 + x.getD (i + 1) 0 + x.getD (i + 2) 0) / 4

/-- The high-pass filtered signal, at the sample `i`. -/
def highPass (x : List Int) (m i : Nat) : Int :=
  (3 * down x m i - 4 * down x m (i - m) + down x m (i - 2 * m)) / 8

/-- The energy of the `n` values of the high-passed signal from the sample `i`. -/
def energyFrom (x : List Int) (m : Nat) : Nat → Nat → Int
  | 0, _ => 0
  | n + 1, i => highPass x m i ^ 2 / 32 + energyFrom x m n (i + m)

/-- A maximum of the energy of a block of 40 values. -/
def maxEnergy : Int := 40 * 2 ^ 25

/-! ### Lemmas -/

theorem shr_div (a : Int) (n : Nat) : a >>> n = a / 2 ^ n := by
  rw [Int.shiftRight_eq_div_pow]; rfl

theorem i32_fits (x : Int) (h : -2147483648 ≤ x ∧ x ≤ 2147483647) : i32 x = some x := by
  unfold i32; rw [if_pos h]

theorem i16_fits (x : Int) (h : -32768 ≤ x ∧ x ≤ 32767) : i16 x = some x := by
  unfold i16; rw [if_pos h]

theorem getD_range (x : List Int) (hx : Samples16 x) (i : Nat) : -32768 ≤ x.getD i 0 ∧ x.getD i 0 ≤ 32767 := by
  by_cases h : i < x.length
  · rw [List.getD_eq_getElem _ _ h]; exact hx _ (List.getElem_mem h)
  · rw [List.getD_eq_default _ _ (by omega)]; omega

theorem down_range (x : List Int) (hx : Samples16 x) (m i : Nat) : -32768 ≤ down x m i ∧ down x m i ≤ 32767 := by
  unfold down
  have h1 := getD_range x hx i
  have h2 := getD_range x hx (i + 1)
  have h3 := getD_range x hx (i + 2)
  split <;> omega

theorem highPass_range (x : List Int) (hx : Samples16 x) (m i : Nat) :
    -32768 ≤ highPass x m i ∧ highPass x m i ≤ 32767 := by
  unfold highPass
  have h1 := down_range x hx m i
  have h2 := down_range x hx m (i - m)
  have h3 := down_range x hx m (i - 2 * m)
  omega

theorem attdetDown_eq (x : List Int) (hx : Samples16 x) (m i : Nat) (hm : m = 2 ∨ m = 3) (hi : i + m ≤ x.length) :
    attdetDown x i m = some (down x m i) := by
  have h1 := getD_range x hx i
  have h2 := getD_range x hx (i + 1)
  have e1 : x[i]? = some (x.getD i 0) := by
    rw [List.getD_eq_getElem _ _ (by omega), List.getElem?_eq_getElem]
  have e2 : x[i + 1]? = some (x.getD (i + 1) 0) := by
    rw [List.getD_eq_getElem _ _ (by omega), List.getElem?_eq_getElem]
  unfold attdetDown down
  rw [e1, e2]
  dsimp only [Option.bind_some]
  rw [i32_fits _ (by omega)]
  rcases hm with rfl | rfl
  · rw [if_pos rfl, if_pos rfl]
    dsimp only [Option.bind_some]
    rw [shr_div]
    exact i16_fits _ (by omega)
  · have h3 := getD_range x hx (i + 2)
    have e3 : x[i + 2]? = some (x.getD (i + 2) 0) := by
      rw [List.getD_eq_getElem _ _ (by omega), List.getElem?_eq_getElem]
    rw [if_neg (by decide), if_neg (by decide), e3]
    dsimp only [Option.bind_some]
    rw [i32_fits _ (by omega)]
    dsimp only [Option.bind_some]
    rw [shr_div]
    exact i16_fits _ (by omega)

theorem square_range (v : Int) (h : -32768 ≤ v ∧ v ≤ 32767) : 0 ≤ v ^ 2 / 32 ∧ v ^ 2 / 32 ≤ 2 ^ 25 ∧ v * v ≤ 2 ^ 30 ∧
    0 ≤ v * v := by
  have h1 : v * v ≤ 2 ^ 30 := by nlinarith
  have h2 : 0 ≤ v * v := mul_self_nonneg v
  rw [pow_two]
  omega

theorem energyFrom_range (x : List Int) (hx : Samples16 x) (m n i : Nat) :
    0 ≤ energyFrom x m n i ∧ energyFrom x m n i ≤ n * 2 ^ 25 := by
  induction n generalizing i with
  | zero => exact ⟨Int.le_refl _, Int.le_refl _⟩
  | succ n ih =>
    have h1 := ih (i + m)
    have h2 := square_range _ (highPass_range x hx m i)
    rw [energyFrom]
    push_cast
    omega

theorem attdetEnergy_eq (x : List Int) (hx : Samples16 x) (m : Nat) (hm : m = 2 ∨ m = 3) (n i : Nat) (h0 : 2 * m ≤ i)
    (hi : i + n * m ≤ x.length) (e : Int) (he : 0 ≤ e) (he2 : e + n * 2 ^ 25 ≤ maxEnergy) :
    attdetEnergy x m n i (down x m (i - m)) (down x m (i - 2 * m)) e = some (e + energyFrom x m n i) := by
  induction n generalizing i e with
  | zero => rw [attdetEnergy, energyFrom, Int.add_zero]
  | succ n ih =>
    have hmn : (n + 1) * m = n * m + m := Nat.succ_mul n m
    have h1 := down_range x hx m i
    have h2 := down_range x hx m (i - m)
    have h3 := down_range x hx m (i - 2 * m)
    have h4 := highPass_range x hx m i
    have h5 := square_range _ h4
    unfold maxEnergy at *
    push_cast at he2
    rw [attdetEnergy, attdetDown_eq x hx m i hm (by omega)]
    dsimp only [Option.bind_some]
    rw [i32_fits _ (by omega)]
    dsimp only [Option.bind_some]
    rw [i32_fits _ (by omega)]
    dsimp only [Option.bind_some]
    rw [i32_fits _ (by omega)]
    dsimp only [Option.bind_some]
    rw [Int.one_mul, i32_fits _ (by omega)]
    dsimp only [Option.bind_some]
    rw [shr_div]
    have e8 : (3 * down x m i - 4 * down x m (i - m) + down x m (i - 2 * m)) / 2 ^ 3 = highPass x m i := rfl
    rw [e8, i16_fits _ h4]
    dsimp only [Option.bind_some]
    rw [i32_fits _ (by omega)]
    dsimp only [Option.bind_some]
    rw [shr_div]
    have e5 : highPass x m i * highPass x m i / 2 ^ 5 = highPass x m i ^ 2 / 32 := by rw [pow_two]; rfl
    rw [e5, i32_fits _ (by omega)]
    dsimp only [Option.bind_some]
    have := ih (i + m) (by omega) (by omega) (e + highPass x m i ^ 2 / 32) (by omega) (by omega)
    rw [show i + m - m = i by omega, show i + m - 2 * m = i - m by omega] at this
    rw [this, energyFrom, Int.add_assoc]

theorem attdetBlock_eq (x : List Int) (hx : Samples16 x) (m : Nat) (hm : m = 2 ∨ m = 3) (i : Nat) (h0 : 2 * m ≤ i)
    (hi : i + 40 * m ≤ x.length) : attdetBlock x m i = some (energyFrom x m 40 i) := by
  unfold attdetBlock
  rw [if_neg (by omega), attdetDown_eq x hx m _ hm (by omega)]
  rw [Option.bind_some]
  rw [attdetDown_eq x hx m _ hm (by omega)]
  rw [Option.bind_some]
  have hM : (0 : Int) + (40 : Nat) * 2 ^ 25 ≤ maxEnergy := by decide
  generalize 40 = n at *
  have := attdetEnergy_eq x hx m hm n i h0 hi 0 (Int.le_refl _) hM
  rw [Int.zero_add] at this
  exact this

/-- The energies of `n` blocks from the sample `o`. -/
def blockEnergies (x : List Int) (m n o : Nat) : List Int :=
  (List.range n).map fun k => energyFrom x m 40 (o + k * (40 * m))

theorem attdetBlocks_eq (x : List Int) (hx : Samples16 x) (m : Nat) (hm : m = 2 ∨ m = 3) (n o : Nat) (h0 : 2 * m ≤ o)
    (hi : o + n * (40 * m) ≤ x.length) : attdetBlocks x m n o = some (blockEnergies x m n o) := by
  induction n generalizing o with
  | zero => rfl
  | succ n ih =>
    have hmn : (n + 1) * (40 * m) = n * (40 * m) + 40 * m := Nat.succ_mul _ _
    rw [attdetBlocks, attdetBlock_eq x hx m hm o h0 (by omega)]
    dsimp only [Option.bind_some]
    rw [ih (o + 40 * m) (by omega) (by omega)]
    unfold blockEnergies
    rw [List.range_succ_eq_map, List.map_cons, List.map_map, Option.map_some, Nat.zero_mul, Nat.add_zero]
    congr 2
    apply List.map_congr_left
    intro k _
    have e : o + 40 * m + k * (40 * m) = o + Nat.succ k * (40 * m) := by rw [Nat.succ_mul k]; omega
    rw [e]; rfl

/-- The memory of the detector in its range. -/
structure Attdet.Ok (s : Attdet) : Prop where
  en1 : 0 ≤ s.en1 ∧ s.en1 ≤ maxEnergy
  an1 : 0 ≤ s.an1 ∧ s.an1 ≤ maxEnergy
  pAtt : 0 ≤ s.pAtt ∧ s.pAtt ≤ 4

/-- The memory `an1` and the last energy after the blocks of energies `e`. -/
def follow : List Int → Int × Int → Int × Int
  | [], q => q
  | e :: l, q => follow l (e, max (q.2 / 4) q.1)

/-- The last block where there is an attack, numbered from `i + 1`, or `p`. -/
def lastAttack : List Int → Nat → Int × Int → Int → Int
  | [], _, _, p => p
  | e :: l, i, q, p =>
    let a := max (q.2 / 4) q.1
    lastAttack l (i + 1) (e, a) (if e / 8 > a + a / 16 then i + 1 else p)

theorem attdetDetect_eq (l : List Int) (hl : ∀ e ∈ l, 0 ≤ e ∧ e ≤ maxEnergy) (i : Nat) (en1 an1 p : Int)
    (h1 : 0 ≤ en1 ∧ en1 ≤ maxEnergy) (h2 : 0 ≤ an1 ∧ an1 ≤ maxEnergy) :
    attdetDetect l i en1 an1 p = some ((follow l (en1, an1)).1, (follow l (en1, an1)).2, lastAttack l i (en1, an1) p) ∧
    (0 ≤ (follow l (en1, an1)).1 ∧ (follow l (en1, an1)).1 ≤ maxEnergy) ∧
    (0 ≤ (follow l (en1, an1)).2 ∧ (follow l (en1, an1)).2 ≤ maxEnergy) ∧
    (0 ≤ p → p ≤ i + l.length → 0 ≤ lastAttack l i (en1, an1) p ∧ lastAttack l i (en1, an1) p ≤ i + l.length) := by
  induction l generalizing i en1 an1 p with
  | nil => exact ⟨rfl, h1, h2, fun a b => ⟨a, by rw [lastAttack]; exact b⟩⟩
  | cons e l ih =>
    have he := hl e List.mem_cons_self
    have ha : 0 ≤ max (an1 / 4) en1 ∧ max (an1 / 4) en1 ≤ maxEnergy := by unfold maxEnergy at *; omega
    have e4 : an1 >>> 2 = an1 / 4 := shr_div _ _
    obtain ⟨k1, k2, k3, k4⟩ := ih (fun z hz => hl z (List.mem_cons_of_mem _ hz)) (i + 1) e (max (an1 / 4) en1)
      (if e / 8 > max (an1 / 4) en1 + max (an1 / 4) en1 / 16 then ((i : Nat) : Int) + 1 else p) he ha
    refine ⟨?_, k2, k3, ?_⟩
    · rw [attdetDetect, e4]
      rw [show (max (an1 / 4) en1) >>> 4 = max (an1 / 4) en1 / 16 from shr_div _ _,
        show e >>> 3 = e / 8 from shr_div _ _, i32_fits _ (by unfold maxEnergy at *; omega)]
      exact k1
    · intro a b
      rw [List.length_cons] at b ⊢
      push_cast at b k4 ⊢
      have := k4 (by split <;> omega) (by split <;> omega)
      rw [lastAttack]
      dsimp only
      omega

/-! ### C29 -/

/-- The detector is run for these configurations and sizes. -/
def AttdetRuns (dt : Dt) (sr : Srate) (nbytes : Int) : Prop :=
  (dt = .m7_5 ∧ sr = .k32 ∧ 61 ≤ nbytes ∧ nbytes ≤ 149) ∨ (dt = .m7_5 ∧ sr = .k48 ∧ 75 ≤ nbytes ∧ nbytes ≤ 149) ∨
  (dt = .m10 ∧ sr = .k32 ∧ 81 ≤ nbytes) ∨ (dt = .m10 ∧ sr = .k48 ∧ 100 ≤ nbytes)

/-- **C29**, disabled: in the other configurations or sizes, there is no attack and the memory is unchanged, whatever the
samples (which are not read). -/
theorem C29_disabled (dt : Dt) (sr : Srate) (nbytes : Int) (hb : nbytes ≤ 2147483647) (h : ¬ AttdetRuns dt sr nbytes)
    (s : Attdet) (x : List Int) (o : Nat) : attdetRun dt sr nbytes s x o = some (false, s) := by
  unfold AttdetRuns at h
  unfold attdetRun
  cases hr : attdetRange dt sr with
  | none => rfl
  | some p =>
    obtain ⟨lo, hi⟩ := p
    dsimp only
    rw [if_pos]
    cases dt <;> cases sr <;> simp only [attdetRange, Option.some.injEq, Prod.mk.injEq, reduceCtorEq] at hr <;>
      (obtain ⟨rfl, rfl⟩ := hr; simp only [reduceCtorEq, true_and, false_and, or_false, false_or] at h; omega)

/-- **C29**, enabled: for samples of 16 bits with 6 samples before the frame, and any memory in range, there is no overflow and no
access outside of the samples, and the memory remains in range. The energies are those of the filtered signal, without discontinuity
between blocks; there is an attack when the energy of a block exceeds `8 (1 + 1/16)` times its running maximum before the block,
or when there was one in the second half of the previous frame. -/
theorem C29_detects (dt : Dt) (sr : Srate) (nbytes : Int) (h : AttdetRuns dt sr nbytes) (hb : nbytes ≤ 2147483647)
    (s : Attdet) (hs : s.Ok) (x : List Int) (hx : Samples16 x) (o : Nat) (ho : 6 ≤ o) (hl : o + ns dt sr ≤ x.length) :
    ∃ att s', attdetRun dt sr nbytes s x o = some (att, s') ∧ s'.Ok ∧
      (let n := if dt = .m7_5 then 3 else 4
       let e := blockEnergies x (if sr = .k32 then 2 else 3) n o
       s'.pAtt = lastAttack e 0 (s.en1, s.an1) 0 ∧ (s'.en1, s'.an1) = follow e (s.en1, s.an1) ∧
       (att = true ↔ 1 + (n : Int) / 2 ≤ s.pAtt ∨ 0 < s'.pAtt)) := by
  have key : ∀ (m n : Nat) (hm : m = 2 ∨ m = 3) (hn : n ≤ 4) (hl2 : o + n * (40 * m) ≤ x.length),
      ∃ q, (attdetBlocks x m n o).bind (fun e => attdetDetect e 0 s.en1 s.an1 0) = some q ∧
        (⟨q.1, q.2.1, q.2.2⟩ : Attdet).Ok ∧ q.2.2 = lastAttack (blockEnergies x m n o) 0 (s.en1, s.an1) 0 ∧
        (q.1, q.2.1) = follow (blockEnergies x m n o) (s.en1, s.an1) := by
    intro m n hm hn hl2
    rw [attdetBlocks_eq x hx m hm n o (by omega) hl2]
    dsimp only [Option.bind_some]
    have hle : ∀ e ∈ blockEnergies x m n o, 0 ≤ e ∧ e ≤ maxEnergy := by
      intro e he
      obtain ⟨k, -, rfl⟩ := List.mem_map.mp he
      exact energyFrom_range x hx m 40 _
    obtain ⟨k1, k2, k3, k4⟩ := attdetDetect_eq _ hle 0 s.en1 s.an1 0 hs.en1 hs.an1
    refine ⟨_, k1, ⟨k2, k3, ?_⟩, rfl, rfl⟩
    have := k4 (Int.le_refl _) (by omega)
    unfold blockEnergies at this ⊢
    rw [List.length_map, List.length_range] at this
    dsimp only at *
    omega
  have fin : ∀ (m n : Nat) (hm : m = 2 ∨ m = 3) (hn : n ≤ 4) (hl2 : o + n * (40 * m) ≤ x.length),
      ∃ att s', ((attdetBlocks x m n o).bind fun e => (attdetDetect e 0 s.en1 s.an1 0).map fun q =>
        (decide (s.pAtt ≥ 1 + (n : Int) >>> 1) || decide (q.2.2 > 0), (⟨q.1, q.2.1, q.2.2⟩ : Attdet))) = some (att, s') ∧ s'.Ok ∧
        s'.pAtt = lastAttack (blockEnergies x m n o) 0 (s.en1, s.an1) 0 ∧
        (s'.en1, s'.an1) = follow (blockEnergies x m n o) (s.en1, s.an1) ∧
        (att = true ↔ 1 + (n : Int) / 2 ≤ s.pAtt ∨ 0 < s'.pAtt) := by
    intro m n hm hn hl2
    obtain ⟨q, q1, q2, q3, q4⟩ := key m n hm hn hl2
    obtain ⟨e, e1, e2⟩ := Option.bind_eq_some_iff.mp q1
    rw [e1]
    dsimp only [Option.bind_some]
    rw [e2]
    refine ⟨_, _, rfl, q2, q3, q4, ?_⟩
    rw [show ((n : Int) >>> 1) = (n : Int) / 2 from shr_div _ _]
    simp only [Bool.or_eq_true, decide_eq_true_eq]
    exact Iff.rfl
  unfold attdetRun
  rcases h with ⟨rfl, rfl, h1, h2⟩ | ⟨rfl, rfl, h1, h2⟩ | ⟨rfl, rfl, h1⟩ | ⟨rfl, rfl, h1⟩
  · dsimp only [attdetRange]
    rw [if_neg (by omega)]
    exact fin 2 3 (Or.inl rfl) (by decide) hl
  · dsimp only [attdetRange]
    rw [if_neg (by omega)]
    exact fin 3 3 (Or.inr rfl) (by decide) hl
  · dsimp only [attdetRange]
    rw [if_neg (by omega)]
    exact fin 2 4 (Or.inl rfl) (by decide) hl
  · dsimp only [attdetRange]
    rw [if_neg (by omega)]
    exact fin 3 4 (Or.inr rfl) (by decide) hl

/-- Successive frames: the size and the samples of each, `o` samples of the past being kept before each frame. -/
def attdetHistory (dt : Dt) (sr : Srate) (o : Nat) : List (Int × List Int) → Attdet → Option (Attdet)
  | [], s => some s
  | (nbytes, x) :: l, s => (attdetRun dt sr nbytes s x o).bind fun q => attdetHistory dt sr o l q.2

/-- **C29**, over histories: for any number of frames of any sizes with any samples, nothing overflows and the memory stays in
range, from the initial state. -/
theorem C29_history (dt : Dt) (sr : Srate) (o : Nat) (ho : 6 ≤ o) (frames : List (Int × List Int))
    (hf : ∀ f ∈ frames, f.1 ≤ 2147483647 ∧ Samples16 f.2 ∧ o + ns dt sr ≤ f.2.length) :
    ∃ s, attdetHistory dt sr o frames ⟨0, 0, 0⟩ = some s ∧ s.Ok := by
  have key : ∀ (s : Attdet), s.Ok → ∃ s', attdetHistory dt sr o frames s = some s' ∧ s'.Ok := by
    induction frames with
    | nil => exact fun s hs => ⟨s, rfl, hs⟩
    | cons f l ih =>
      intro s hs
      obtain ⟨nbytes, x⟩ := f
      obtain ⟨f1, f2, f3⟩ := hf _ List.mem_cons_self
      have ih := ih (fun g hg => hf g (List.mem_cons_of_mem _ hg))
      rw [attdetHistory]
      by_cases hr : AttdetRuns dt sr nbytes
      · obtain ⟨att, s', h1, h2, -⟩ := C29_detects dt sr nbytes hr f1 s hs x f2 o ho f3
        rw [h1]
        exact ih s' h2
      · rw [C29_disabled dt sr nbytes f1 hr s x o]
        exact ih s hs
  apply key
  refine ⟨⟨Int.le_refl _, by decide⟩, ⟨Int.le_refl _, by decide⟩, ⟨Int.le_refl _, by decide⟩⟩

theorem lastAttack_zero (l : List Int) (hl : ∀ e ∈ l, e = 0) (i : Nat) (q : Int × Int) (h1 : 0 ≤ q.1) (h2 : 0 ≤ q.2)
    (p : Int) : lastAttack l i q p = p := by
  induction l generalizing i q p with
  | nil => rfl
  | cons e l ih =>
    obtain rfl := hl e List.mem_cons_self
    rw [lastAttack]
    rw [if_neg (by omega)]
    exact ih (fun e he => hl e (List.mem_cons_of_mem _ he)) _ _ (Int.le_refl _) (by dsimp only; omega) p

/-- **C29**, a constant signal (silence, or any continuous component) is never an attack by itself: only an attack of the previous
frame can be reported. -/
theorem C29_constant (dt : Dt) (sr : Srate) (nbytes : Int) (h : AttdetRuns dt sr nbytes) (hb : nbytes ≤ 2147483647)
    (s : Attdet) (hs : s.Ok) (c : Int) (hc : -32768 ≤ c ∧ c ≤ 32767) (o : Nat) (ho : 6 ≤ o) (n : Nat)
    (hl : o + ns dt sr ≤ n) :
    ∃ att s', attdetRun dt sr nbytes s (List.replicate n c) o = some (att, s') ∧ s'.pAtt = 0 ∧
      (s.pAtt = 0 → att = false) := by
  have hx : Samples16 (List.replicate n c) := fun v hv => by rw [List.eq_of_mem_replicate hv]; exact hc
  obtain ⟨att, s', h1, -, h3, -, h5⟩ := C29_detects dt sr nbytes h hb s hs (List.replicate n c) hx o ho
    (by rw [List.length_replicate]; exact hl)
  have hm : ∃ m : Nat, (m = 2 ∨ m = 3) ∧ (if sr = .k32 then 2 else 3) = m := by
    by_cases hh : sr = .k32
    · exact ⟨2, Or.inl rfl, if_pos hh⟩
    · exact ⟨3, Or.inr rfl, if_neg hh⟩
  have hns : ∃ k : Nat, (if dt = .m7_5 then 3 else 4) = k ∧
      k * (40 * (if sr = .k32 then 2 else 3)) ≤ ns dt sr := by
    refine ⟨_, rfl, ?_⟩
    rcases h with ⟨rfl, rfl, -⟩ | ⟨rfl, rfl, -⟩ | ⟨rfl, rfl, -⟩ | ⟨rfl, rfl, -⟩ <;> decide
  obtain ⟨m, hm, em⟩ := hm
  obtain ⟨k, ek, hk⟩ := hns
  rw [em] at h3 hk
  rw [ek] at h3 h5
  have hd : ∀ i, i + m ≤ n → down (List.replicate n c) m i = if m = 2 then (c + c) / 2 else (c + c + c) / 4 := by
    intro i hi
    have hg : ∀ j, j < n → (List.replicate n c).getD j 0 = c := by
      intro j hj
      rw [List.getD_eq_getElem _ _ (by rw [List.length_replicate]; exact hj), List.getElem_replicate]
    unfold down
    rcases hm with rfl | rfl
    · rw [if_pos rfl, if_pos rfl, hg i (by omega), hg (i + 1) (by omega)]
    · rw [if_neg (by decide), if_neg (by decide), hg i (by omega), hg (i + 1) (by omega), hg (i + 2) (by omega)]
  have hh : ∀ i, i + m ≤ n → highPass (List.replicate n c) m i = 0 := by
    intro i hi
    unfold highPass
    rw [hd i hi, hd (i - m) (by omega), hd (i - 2 * m) (by omega)]
    generalize (if m = 2 then (c + c) / 2 else (c + c + c) / 4) = v
    omega
  have he : ∀ (j i : Nat), i + j * m ≤ n → energyFrom (List.replicate n c) m j i = 0 := by
    intro j
    induction j with
    | zero => intro i _; rfl
    | succ j ih =>
      intro i hi
      rw [Nat.succ_mul] at hi
      rw [energyFrom, hh i (by omega), ih (i + m) (by omega)]
      rfl
  have h0 : s'.pAtt = 0 := by
    rw [h3]
    apply lastAttack_zero _ _ _ _ hs.en1.1 hs.an1.1
    intro e hE
    obtain ⟨q, hq, rfl⟩ := List.mem_map.mp hE
    rw [List.mem_range] at hq
    apply he
    have : q * (40 * m) + 40 * m ≤ k * (40 * m) := by
      rw [← Nat.succ_mul]; exact Nat.mul_le_mul_right _ hq
    omega
  refine ⟨att, s', h1, h0, ?_⟩
  intro hp
  cases hatt : att with
  | false => rfl
  | true =>
    rcases h5.mp hatt with hq | hq
    · omega
    · omega

/-- Non-vacuity of C29: an attack in the third block of a frame at 48 kHz, still reported on the next constant frame. -/
example : (attdetRun .m10 .k48 100 ⟨0, 0, 0⟩ (List.replicate 300 1 ++ [32767, 32767, 32767, -32768, -32768] ++ List.replicate 200 1) 6).map
    (fun q => (q.1, q.2.pAtt)) = some (true, 3) ∧
    (attdetRun .m10 .k48 100 ⟨0, 500, 3⟩ (List.replicate 486 1) 6).map (fun q => (q.1, q.2.an1, q.2.pAtt)) =
      some (true, 1, 0) := by
  decide +kernel

end LC3
