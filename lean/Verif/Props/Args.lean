import Verif.Model.Args
import Verif.Lemmas.Float
import Mathlib.Data.Nat.Digits.Defs
import Mathlib.Tactic.Linarith
import Mathlib.Tactic.NormNum

/-!
C71: the command lines of `elc3` and `dlc3`.
-/

namespace LC3

/-! ### Steps of the loop -/

section
variable {P : Type} (takes : Nat → Bool) (set : Nat → List Nat → P → Option (Parsed P))

theorem parseLoop_opt (c : Nat) (s : List Nat) (rest f : List (List Nat)) (p q : P) (h : takes c = true) (hs : set c s p = some (.ok q)) :
    parseLoop takes set ([45, c] :: s :: rest) f p = parseLoop takes set rest f q := by
  rw [parseLoop.eq_def]
  simp [argAt, h, hs]

theorem parseLoop_flag (c : Nat) (rest f : List (List Nat)) (p q : P) (h : takes c = false) (hs : set c [] p = some (.ok q)) :
    parseLoop takes set ([45, c] :: rest) f p = parseLoop takes set rest f q := by
  rw [parseLoop.eq_def]
  simp [argAt, h, hs]

theorem argAt_zero (a : List Nat) : argAt a 0 = some (a.headD 0) := by
  cases a <;> simp [argAt]

theorem parseLoop_file (name : List Nat) (rest f : List (List Nat)) (p : P) (hn : name.head? ≠ some 45) :
    parseLoop takes set (name :: rest) f p = if f.length < 2 then parseLoop takes set rest (f ++ [name]) p else some .error := by
  rw [parseLoop.eq_def]
  have h : name.headD 0 ≠ 45 := by
    cases name with
    | nil => simp
    | cons a l => simpa using hn
  simp only [argAt_zero, Option.bind_some, h, if_false]

/-- The last of the values given, the default without value. -/
def lastOr {α : Type} (d : α) (l : List α) : α := l.getLast?.getD d

theorem lastOr_cons {α : Type} (d a : α) (l : List α) : lastOr d (a :: l) = lastOr a l := by
  unfold lastOr
  cases l with
  | nil => simp
  | cons b l => simp [List.getLast?_cons]

end

/-! ### The command line of `elc3` -/

/-- What a user puts on the command line of `elc3`: an option with the text of its argument and the value of this text, or a name of file. -/
inductive ElcItem where
  | bitrate (s : List Nat) (v : Int)
  | ms (s : List Nat) (v : Rat)
  | rate (s : List Nat) (v : Int)
  | hr
  | file (name : List Nat)

/-- The arguments: `-b s`, `-m s`, `-r s`, `-H`, or the name. -/
def ElcItem.args : ElcItem → List (List Nat)
  | .bitrate s _ => [[45, 98], s]
  | .ms s _ => [[45, 109], s]
  | .rate s _ => [[45, 114], s]
  | .hr => [[45, 72]]
  | .file n => [n]

/-- The texts have the values, and the names do not begin with a dash. -/
def ElcItem.Ok (rd : Rat → Rat) : ElcItem → Prop
  | .bitrate s v => atoi s = some v
  | .ms s v => atofF rd s = some v
  | .rate s v => atoi s = some v
  | .hr => True
  | .file n => n.head? ≠ some 45

def ElcItem.bitrate? : ElcItem → Option Int | .bitrate _ v => some v | _ => none
def ElcItem.ms? : ElcItem → Option Rat | .ms _ v => some v | _ => none
def ElcItem.rate? : ElcItem → Option Int | .rate _ v => some v | _ => none
def ElcItem.file? : ElcItem → Option (List Nat) | .file n => some n | _ => none
def ElcItem.isHr : ElcItem → Bool | .hr => true | _ => false

/-- The parameters asked: the last value of each option, and the high resolution when asked at least once. -/
def elcAsked (items : List ElcItem) (p : ElcArgs) : ElcArgs :=
  ⟨lastOr p.frameMs (items.filterMap ElcItem.ms?), lastOr p.srHz (items.filterMap ElcItem.rate?), p.hr || items.any ElcItem.isHr,
    lastOr p.bitrate (items.filterMap ElcItem.bitrate?)⟩

theorem elc_items (rd : Rat → Rat) (tail : List (List Nat)) (items : List ElcItem) : ∀ (f : List (List Nat)) (p : ElcArgs),
    (∀ i ∈ items, i.Ok rd) → f.length + (items.filterMap ElcItem.file?).length ≤ 2 →
    parseLoop elcTakes (elcSet rd) (items.flatMap ElcItem.args ++ tail) f p =
      parseLoop elcTakes (elcSet rd) tail (f ++ items.filterMap ElcItem.file?) (elcAsked items p) := by
  induction items with
  | nil => intro f p _ _; simp [elcAsked, lastOr]
  | cons i items ih =>
    intro f p hok hf
    have hi := hok i (by simp)
    have hr := fun j hj => hok j (List.mem_cons_of_mem _ hj)
    cases i with
    | bitrate s v =>
      have hi : atoi s = some v := hi
      have e : elcSet rd 98 s p = some (.ok { p with bitrate := v }) := by simp [elcSet, hi]
      rw [List.flatMap_cons, List.append_assoc]
      show parseLoop _ _ ([45, 98] :: s :: (items.flatMap ElcItem.args ++ tail)) f p = _
      rw [parseLoop_opt _ _ _ _ _ _ _ _ (by decide) e, ih _ _ hr (by simpa [List.filterMap_cons, ElcItem.file?] using hf)]
      simp [elcAsked, List.filterMap_cons, ElcItem.file?, ElcItem.ms?, ElcItem.rate?, ElcItem.bitrate?, ElcItem.isHr, lastOr_cons]
    | ms s v =>
      have hi : atofF rd s = some v := hi
      have e : elcSet rd 109 s p = some (.ok { p with frameMs := v }) := by simp [elcSet, hi]
      rw [List.flatMap_cons, List.append_assoc]
      show parseLoop _ _ ([45, 109] :: s :: (items.flatMap ElcItem.args ++ tail)) f p = _
      rw [parseLoop_opt _ _ _ _ _ _ _ _ (by decide) e, ih _ _ hr (by simpa [List.filterMap_cons, ElcItem.file?] using hf)]
      simp [elcAsked, List.filterMap_cons, ElcItem.file?, ElcItem.ms?, ElcItem.rate?, ElcItem.bitrate?, ElcItem.isHr, lastOr_cons]
    | rate s v =>
      have hi : atoi s = some v := hi
      have e : elcSet rd 114 s p = some (.ok { p with srHz := v }) := by simp [elcSet, hi]
      rw [List.flatMap_cons, List.append_assoc]
      show parseLoop _ _ ([45, 114] :: s :: (items.flatMap ElcItem.args ++ tail)) f p = _
      rw [parseLoop_opt _ _ _ _ _ _ _ _ (by decide) e, ih _ _ hr (by simpa [List.filterMap_cons, ElcItem.file?] using hf)]
      simp [elcAsked, List.filterMap_cons, ElcItem.file?, ElcItem.ms?, ElcItem.rate?, ElcItem.bitrate?, ElcItem.isHr, lastOr_cons]
    | hr =>
      have e : elcSet rd 72 [] p = some (.ok { p with hr := true }) := by simp [elcSet]
      rw [List.flatMap_cons, List.append_assoc]
      show parseLoop _ _ ([45, 72] :: (items.flatMap ElcItem.args ++ tail)) f p = _
      rw [parseLoop_flag _ _ _ _ _ _ _ (by decide) e, ih _ _ hr (by simpa [List.filterMap_cons, ElcItem.file?] using hf)]
      simp [elcAsked, List.filterMap_cons, ElcItem.file?, ElcItem.ms?, ElcItem.rate?, ElcItem.bitrate?, ElcItem.isHr]
    | file n =>
      have hl : f.length + ((items.filterMap ElcItem.file?).length + 1) ≤ 2 := by simpa [List.filterMap_cons, ElcItem.file?] using hf
      rw [List.flatMap_cons, List.append_assoc]
      show parseLoop _ _ (n :: (items.flatMap ElcItem.args ++ tail)) f p = _
      rw [parseLoop_file _ _ _ _ _ _ hi, if_pos (by omega), ih _ _ hr (by simp; omega)]
      simp [elcAsked, List.filterMap_cons, ElcItem.file?, ElcItem.ms?, ElcItem.rate?, ElcItem.bitrate?, ElcItem.isHr]

/-- **C71**: `elc3` takes the options and the names of files in any order: the parameters are the last value of each option, and the names are
kept in the order given. -/
theorem C71_elc3 (rd : Rat → Rat) (items : List ElcItem) (h : ∀ i ∈ items, i.Ok rd) (hf : (items.filterMap ElcItem.file?).length ≤ 2) :
    elcParse rd (items.flatMap ElcItem.args) = some (.ok (items.filterMap ElcItem.file?,
      ⟨lastOr 10 (items.filterMap ElcItem.ms?), lastOr 0 (items.filterMap ElcItem.rate?), items.any ElcItem.isHr,
        lastOr 0 (items.filterMap ElcItem.bitrate?)⟩)) := by
  have := elc_items rd [] items [] ⟨10, 0, false, 0⟩ h (by simpa using hf)
  rw [List.append_nil] at this
  unfold elcParse
  rw [this, parseLoop.eq_def]
  simp [elcAsked]

/-- **C71**: a command line is refused at the first fault: an option that does not exist, an option longer than a letter, an option without its
argument, or a third name. The help is displayed at the first `-h`. -/
theorem C71_elc3_refused (rd : Rat → Rat) (items : List ElcItem) (h : ∀ i ∈ items, i.Ok rd) (hf : (items.filterMap ElcItem.file?).length ≤ 2)
    (rest : List (List Nat)) :
    (∀ c, c ∉ [98, 109, 114, 72, 104] → elcParse rd (items.flatMap ElcItem.args ++ [45, c] :: rest) = some .error) ∧
    (∀ a b l, b ≠ 0 → elcParse rd (items.flatMap ElcItem.args ++ (45 :: a :: b :: l) :: rest) = some .error) ∧
    (∀ c, c ∈ [98, 109, 114] → elcParse rd (items.flatMap ElcItem.args ++ [[45, c]]) = some .error) ∧
    ((items.filterMap ElcItem.file?).length = 2 → ∀ n : List Nat, n.head? ≠ some 45 →
      elcParse rd (items.flatMap ElcItem.args ++ n :: rest) = some .error) ∧
    elcParse rd (items.flatMap ElcItem.args ++ [45, 104] :: rest) = some .help := by
  have key := fun tail => elc_items rd tail items [] ⟨10, 0, false, 0⟩ h (by simpa using hf)
  unfold elcParse
  simp only [key, List.nil_append]
  refine ⟨fun c hc => ?_, fun a b l hb => ?_, fun c hc => ?_, fun h2 n hn => ?_, ?_⟩
  · rw [parseLoop.eq_def]
    simp only [List.mem_cons, List.not_mem_nil, or_false, not_or] at hc
    simp [argAt, elcTakes, elcSet, hc]
  · rw [parseLoop.eq_def]
    simp [argAt, hb]
  · rw [parseLoop.eq_def]
    have : elcTakes c = true := by
      simp only [List.mem_cons, List.not_mem_nil, or_false] at hc
      rcases hc with rfl | rfl | rfl <;> rfl
    simp [argAt, this]
  · rw [parseLoop_file _ _ _ _ _ _ hn, if_neg (by omega)]
  · rw [parseLoop.eq_def]
    simp [argAt, elcTakes, elcSet]

/-- The rest of a command line of `elc3` whose first argument is out of the language: a single dash, read beyond its end, or a number that is not
an `int` (or not a decimal number). -/
def ElcBad (rd : Rat → Rat) (tail : List (List Nat)) : Prop :=
  (∃ rest, tail = [45] :: rest) ∨ (∃ c s rest, (c = 98 ∨ c = 114) ∧ tail = [45, c] :: s :: rest ∧ atoi s = none) ∨
  (∃ s rest, tail = [45, 109] :: s :: rest ∧ atofF rd s = none)

theorem elc_none (rd : Rat → Rat) (n : Nat) : ∀ (args f : List (List Nat)) (p : ElcArgs), args.length ≤ n → (∀ a ∈ args, 0 ∉ a) →
    f.length ≤ 2 → parseLoop elcTakes (elcSet rd) args f p = none → ∃ (items : List ElcItem) (tail : List (List Nat)), (∀ i ∈ items, ElcItem.Ok rd i) ∧
      args = items.flatMap ElcItem.args ++ tail ∧ f.length + (items.filterMap ElcItem.file?).length ≤ 2 ∧ ElcBad rd tail := by
  induction n with
  | zero =>
    intro args f p hl _ _ h
    have : args = [] := List.length_eq_zero_iff.mp (by omega)
    subst this
    rw [parseLoop.eq_def] at h
    cases h
  | succ n ih =>
    intro args f p hl h0 hf h
    cases args with
    | nil => rw [parseLoop.eq_def] at h; cases h
    | cons arg rest =>
    simp only [List.length_cons] at hl
    -- one more element before the rest
    have step : ∀ (i : ElcItem) (r f' : List (List Nat)) (q : ElcArgs), i.Ok rd → arg :: rest = i.args ++ r → r.length ≤ n →
        (f'.length ≤ 2 ∧ f'.length = f.length + (i.file?.toList).length) →
        parseLoop elcTakes (elcSet rd) r f' q = none → ∃ (items : List ElcItem) (tail : List (List Nat)), (∀ i ∈ items, ElcItem.Ok rd i) ∧
        arg :: rest = items.flatMap ElcItem.args ++ tail ∧ f.length + (items.filterMap ElcItem.file?).length ≤ 2 ∧ ElcBad rd tail := by
      intro i r f' q hi ha hr hff hp
      obtain ⟨items, tail, h1, h2, h3, h4⟩ := ih r f' q hr (fun a h => h0 a (by rw [ha]; exact List.mem_append_right _ h)) hff.1 hp
      refine ⟨i :: items, tail, ?_, ?_, ?_, h4⟩
      · intro j hj
        rcases List.mem_cons.mp hj with rfl | hj
        · exact hi
        · exact h1 j hj
      · rw [ha, h2, List.flatMap_cons, List.append_assoc]
      · have g2 := hff.2
        rw [List.filterMap_cons]
        cases e : i.file? with
        | none => rw [e] at g2; simp at g2; simpa [g2] using h3
        | some v => rw [e] at g2; simp at g2; simp; omega
    by_cases hd : arg.head? = some 45
    · cases arg with
      | nil => simp at hd
      | cons a0 arg =>
      have : a0 = 45 := by simpa using hd
      subst this
      cases arg with
      | nil => exact ⟨[], [45] :: rest, by simp, by simp, by simpa using hf, Or.inl ⟨rest, rfl⟩⟩
      | cons c arg =>
      cases arg with
      | cons b l =>
        have hb : b ≠ 0 := fun hb => h0 (45 :: c :: b :: l) (by simp) (by simp [hb])
        rw [parseLoop.eq_def] at h
        simp [argAt, hb] at h
      | nil =>
        by_cases hc : c = 98 ∨ c = 109 ∨ c = 114
        · cases rest with
          | nil =>
            rw [parseLoop.eq_def] at h
            rcases hc with rfl | rfl | rfl <;> simp [argAt, elcTakes] at h
          | cons s rest =>
          simp only [List.length_cons] at hl
          rcases hc with rfl | rfl | rfl
          · cases e : atoi s with
            | none => exact ⟨[], _, by simp, by simp, by simpa using hf, Or.inr (Or.inl ⟨98, s, rest, Or.inl rfl, rfl, e⟩)⟩
            | some v =>
              rw [parseLoop_opt _ _ 98 s rest f p { p with bitrate := v } (by decide) (by simp [elcSet, e])] at h
              exact step (.bitrate s v) rest f _ e rfl (by omega) ⟨hf, by simp [ElcItem.file?]⟩ h
          · cases e : atofF rd s with
            | none => exact ⟨[], _, by simp, by simp, by simpa using hf, Or.inr (Or.inr ⟨s, rest, rfl, e⟩)⟩
            | some v =>
              rw [parseLoop_opt _ _ 109 s rest f p { p with frameMs := v } (by decide) (by simp [elcSet, e])] at h
              exact step (.ms s v) rest f _ e rfl (by omega) ⟨hf, by simp [ElcItem.file?]⟩ h
          · cases e : atoi s with
            | none => exact ⟨[], _, by simp, by simp, by simpa using hf, Or.inr (Or.inl ⟨114, s, rest, Or.inr rfl, rfl, e⟩)⟩
            | some v =>
              rw [parseLoop_opt _ _ 114 s rest f p { p with srHz := v } (by decide) (by simp [elcSet, e])] at h
              exact step (.rate s v) rest f _ e rfl (by omega) ⟨hf, by simp [ElcItem.file?]⟩ h
        · simp only [not_or] at hc
          by_cases h72 : c = 72
          · subst h72
            rw [parseLoop_flag _ _ 72 rest f p { p with hr := true } (by decide) (by simp [elcSet])] at h
            exact step .hr rest f _ trivial rfl (by omega) ⟨hf, by simp [ElcItem.file?]⟩ h
          · rw [parseLoop.eq_def] at h
            by_cases h104 : c = 104
            · subst h104; simp [argAt, elcTakes, elcSet] at h
            · simp [argAt, elcTakes, elcSet, hc, h72, h104] at h
    · rw [parseLoop_file _ _ _ _ _ _ hd] at h
      by_cases hf : f.length < 2
      · rw [if_pos hf] at h
        exact step (.file arg) rest _ _ hd rfl (by omega) (by simp [ElcItem.file?]; omega) h
      · rw [if_neg hf] at h; cases h

/-- **C71**, exactly when the command line of `elc3` is undefined: the arguments before are right, and the next is a single dash, or an option
whose argument is a number that is not representable. -/
theorem C71_elc3_undefined_iff (rd : Rat → Rat) (args : List (List Nat)) (h0 : ∀ a ∈ args, 0 ∉ a) :
    elcParse rd args = none ↔ ∃ (items : List ElcItem) (tail : List (List Nat)), (∀ i ∈ items, ElcItem.Ok rd i) ∧ args = items.flatMap ElcItem.args ++ tail ∧
      (items.filterMap ElcItem.file?).length ≤ 2 ∧ ElcBad rd tail := by
  constructor
  · intro h
    obtain ⟨items, tail, h1, h2, h3, h4⟩ := elc_none rd args.length args [] _ (le_refl _) h0 (by simp) h
    exact ⟨items, tail, h1, h2, by simpa using h3, h4⟩
  · rintro ⟨items, tail, h1, rfl, h3, h4⟩
    unfold elcParse
    rw [elc_items rd tail items [] _ h1 (by simpa using h3)]
    rcases h4 with ⟨rest, rfl⟩ | ⟨c, s, rest, hc, rfl, e⟩ | ⟨s, rest, rfl, e⟩
    · rw [parseLoop.eq_def]; simp [argAt]
    · rw [parseLoop.eq_def]
      rcases hc with rfl | rfl <;> simp [argAt, elcTakes, elcSet, e]
    · rw [parseLoop.eq_def]; simp [argAt, elcTakes, elcSet, e]

/-- **C71** is false without a condition: `elc3 -` reads beyond the end of its argument, and a bitrate of 10 digits overflows. -/
theorem C71_elc3_refuted (rd : Rat → Rat) : elcParse rd [[45]] = none ∧ elcParse rd [[45, 98], [57, 57, 57, 57, 57, 57, 57, 57, 57, 57]] = none := by
  constructor <;> rfl

/-! ### The command line of `dlc3` -/

/-- What a user puts on the command line of `dlc3`. -/
inductive DlcItem where
  | bitdepth (s : List Nat) (v : Int)
  | rate (s : List Nat) (v : Int)
  | file (name : List Nat)

/-- The arguments: `-b s`, `-r s`, or the name. -/
def DlcItem.args : DlcItem → List (List Nat)
  | .bitdepth s _ => [[45, 98], s]
  | .rate s _ => [[45, 114], s]
  | .file n => [n]

/-- The texts have the values, and the names do not begin with a dash. -/
def DlcItem.Ok : DlcItem → Prop
  | .bitdepth s v => atoi s = some v
  | .rate s v => atoi s = some v
  | .file n => n.head? ≠ some 45

def DlcItem.bitdepth? : DlcItem → Option Int | .bitdepth _ v => some v | _ => none
def DlcItem.rate? : DlcItem → Option Int | .rate _ v => some v | _ => none
def DlcItem.file? : DlcItem → Option (List Nat) | .file n => some n | _ => none

/-- The parameters asked: the last value of each option. -/
def dlcAsked (items : List DlcItem) (p : DlcParams) : DlcParams :=
  ⟨lastOr p.srHz (items.filterMap DlcItem.rate?), lastOr p.bitdepth (items.filterMap DlcItem.bitdepth?)⟩

theorem dlc_items (tail : List (List Nat)) (items : List DlcItem) : ∀ (f : List (List Nat)) (p : DlcParams),
    (∀ i ∈ items, i.Ok) → f.length + (items.filterMap DlcItem.file?).length ≤ 2 →
    parseLoop dlcTakes dlcSet (items.flatMap DlcItem.args ++ tail) f p =
      parseLoop dlcTakes dlcSet tail (f ++ items.filterMap DlcItem.file?) (dlcAsked items p) := by
  induction items with
  | nil => intro f p _ _; simp [dlcAsked, lastOr]
  | cons i items ih =>
    intro f p hok hf
    have hi := hok i (by simp)
    have hr := fun j hj => hok j (List.mem_cons_of_mem _ hj)
    cases i with
    | bitdepth s v =>
      have hi : atoi s = some v := hi
      have e : dlcSet 98 s p = some (.ok { p with bitdepth := v }) := by simp [dlcSet, hi]
      rw [List.flatMap_cons, List.append_assoc]
      show parseLoop _ _ ([45, 98] :: s :: (items.flatMap DlcItem.args ++ tail)) f p = _
      rw [parseLoop_opt _ _ _ _ _ _ _ _ (by decide) e, ih _ _ hr (by simpa [List.filterMap_cons, DlcItem.file?] using hf)]
      simp [dlcAsked, List.filterMap_cons, DlcItem.file?, DlcItem.rate?, DlcItem.bitdepth?, lastOr_cons]
    | rate s v =>
      have hi : atoi s = some v := hi
      have e : dlcSet 114 s p = some (.ok { p with srHz := v }) := by simp [dlcSet, hi]
      rw [List.flatMap_cons, List.append_assoc]
      show parseLoop _ _ ([45, 114] :: s :: (items.flatMap DlcItem.args ++ tail)) f p = _
      rw [parseLoop_opt _ _ _ _ _ _ _ _ (by decide) e, ih _ _ hr (by simpa [List.filterMap_cons, DlcItem.file?] using hf)]
      simp [dlcAsked, List.filterMap_cons, DlcItem.file?, DlcItem.rate?, DlcItem.bitdepth?, lastOr_cons]
    | file n =>
      have hl : f.length + ((items.filterMap DlcItem.file?).length + 1) ≤ 2 := by simpa [List.filterMap_cons, DlcItem.file?] using hf
      rw [List.flatMap_cons, List.append_assoc]
      show parseLoop _ _ (n :: (items.flatMap DlcItem.args ++ tail)) f p = _
      rw [parseLoop_file _ _ _ _ _ _ hi, if_pos (by omega), ih _ _ hr (by simp; omega)]
      simp [dlcAsked, List.filterMap_cons, DlcItem.file?, DlcItem.rate?, DlcItem.bitdepth?]

/-- **C71**: `dlc3` takes the options and the names of files in any order. -/
theorem C71_dlc3 (items : List DlcItem) (h : ∀ i ∈ items, i.Ok) (hf : (items.filterMap DlcItem.file?).length ≤ 2) :
    dlcParse (items.flatMap DlcItem.args) = some (.ok (items.filterMap DlcItem.file?,
      ⟨lastOr 0 (items.filterMap DlcItem.rate?), lastOr 16 (items.filterMap DlcItem.bitdepth?)⟩)) := by
  have := dlc_items [] items [] ⟨0, 16⟩ h (by simpa using hf)
  rw [List.append_nil] at this
  unfold dlcParse
  rw [this, parseLoop.eq_def]
  simp [dlcAsked]

/-- **C71**: a command line of `dlc3` is refused at the first fault; the help is displayed at the first `-h`. -/
theorem C71_dlc3_refused (items : List DlcItem) (h : ∀ i ∈ items, i.Ok) (hf : (items.filterMap DlcItem.file?).length ≤ 2)
    (rest : List (List Nat)) :
    (∀ c, c ∉ [98, 114, 104] → dlcParse (items.flatMap DlcItem.args ++ [45, c] :: rest) = some .error) ∧
    (∀ a b l, b ≠ 0 → dlcParse (items.flatMap DlcItem.args ++ (45 :: a :: b :: l) :: rest) = some .error) ∧
    (∀ c, c ∈ [98, 114] → dlcParse (items.flatMap DlcItem.args ++ [[45, c]]) = some .error) ∧
    ((items.filterMap DlcItem.file?).length = 2 → ∀ n : List Nat, n.head? ≠ some 45 →
      dlcParse (items.flatMap DlcItem.args ++ n :: rest) = some .error) ∧
    dlcParse (items.flatMap DlcItem.args ++ [45, 104] :: rest) = some .help := by
  have key := fun tail => dlc_items tail items [] ⟨0, 16⟩ h (by simpa using hf)
  unfold dlcParse
  simp only [key, List.nil_append]
  refine ⟨fun c hc => ?_, fun a b l hb => ?_, fun c hc => ?_, fun h2 n hn => ?_, ?_⟩
  · rw [parseLoop.eq_def]
    simp only [List.mem_cons, List.not_mem_nil, or_false, not_or] at hc
    simp [argAt, dlcTakes, dlcSet, hc]
  · rw [parseLoop.eq_def]
    simp [argAt, hb]
  · rw [parseLoop.eq_def]
    have : dlcTakes c = true := by
      simp only [List.mem_cons, List.not_mem_nil, or_false] at hc
      rcases hc with rfl | rfl <;> rfl
    simp [argAt, this]
  · rw [parseLoop_file _ _ _ _ _ _ hn, if_neg (by omega)]
  · rw [parseLoop.eq_def]
    simp [argAt, dlcTakes, dlcSet]

/-! ### Numbers -/

/-- The text of digits. -/
def digitText (ds : List Nat) : List Nat := ds.map (48 + ·)

theorem isDigit_text {ds : List Nat} (h : ∀ d ∈ ds, d < 10) : ∀ c ∈ digitText ds, isDigit c = true := by
  intro c hc
  obtain ⟨d, hd, rfl⟩ := List.mem_map.mp hc
  have := h d hd
  simp [isDigit]; omega

theorem decimal_append (a b : List Nat) : decimal (a ++ b) = b.foldl (fun v c => 10 * v + (c - 48)) (decimal a) := by
  unfold decimal; rw [List.foldl_append]

theorem decimal_text (ds : List Nat) : decimal (digitText ds) = Nat.ofDigits 10 ds.reverse := by
  induction ds using List.reverseRecOn with
  | nil => rfl
  | append_singleton l d ih =>
    rw [digitText, List.map_append, decimal_append]
    rw [digitText] at ih
    simp [ih, Nat.ofDigits_cons]
    omega

theorem takeWhile_text (ds rest : List Nat) (h : ∀ d ∈ ds, d < 10) (hr : ∀ c, rest.head? = some c → isDigit c = false) :
    (digitText ds ++ rest).takeWhile isDigit = digitText ds ∧ (digitText ds ++ rest).dropWhile isDigit = rest := by
  have hd := isDigit_text h
  have e : rest.takeWhile isDigit = [] ∧ rest.dropWhile isDigit = rest := by
    cases rest with
    | nil => simp
    | cons c l => have := hr c rfl; simp [this]
  constructor
  · rw [List.takeWhile_append_of_pos hd, e.1, List.append_nil]
  · rw [List.dropWhile_append_of_pos hd, e.2]

/-- The sign a number may have. -/
def signText : Option Bool → List Nat
  | none => []
  | some false => [43]
  | some true => [45]

theorem signOf_text (sg : Option Bool) (t : List Nat) (ht : ∀ c, t.head? = some c → c ≠ 43 ∧ c ≠ 45) :
    signOf (signText sg ++ t) = (sg == some true, t) := by
  rcases sg with _ | _ | _
  · cases t with
    | nil => rfl
    | cons c l =>
      have := ht c rfl
      simp only [signText, List.nil_append]
      unfold signOf
      split
      · rename_i h; simp at h; exact absurd h.1 this.2
      · rename_i h; simp at h; exact absurd h.1 this.1
      · rfl
  · rfl
  · rfl

theorem dropSpaces (sp t : List Nat) (hs : ∀ c ∈ sp, isSpace c = true) (ht : ∀ c, t.head? = some c → isSpace c = false) :
    (sp ++ t).dropWhile isSpace = t := by
  rw [List.dropWhile_append_of_pos hs]
  cases t with
  | nil => rfl
  | cons c l => simp [ht c rfl]

theorem head_text {ds rest : List Nat} (h : ∀ d ∈ ds, d < 10) (hne : ds ≠ []) (c : Nat) (hc : (digitText ds ++ rest).head? = some c) :
    48 ≤ c ∧ c ≤ 57 := by
  cases ds with
  | nil => exact absurd rfl hne
  | cons d l => have := h d (by simp); simp [digitText] at hc; omega

theorem head_signed {sg : Option Bool} {t : List Nat} (ht : ∀ c, t.head? = some c → 46 ≤ c ∧ c ≤ 57) (c : Nat)
    (hc : (signText sg ++ t).head? = some c) : 43 ≤ c ∧ c ≤ 57 := by
  rcases sg with _ | _ | _
  · have := ht c (by simpa [signText] using hc); omega
  · simp [signText] at hc; omega
  · simp [signText] at hc; omega

/-- **C71**: a number written in decimal, after spaces, with or without sign, and followed by anything but a digit, is the value that the
option takes. -/
theorem C71_atoi (sp ds rest : List Nat) (sg : Option Bool) (hs : ∀ c ∈ sp, isSpace c = true) (hd : ∀ d ∈ ds, d < 10) (hne : ds ≠ [])
    (hr : ∀ c, rest.head? = some c → isDigit c = false) (n : Int)
    (hn : n = if sg = some true then -((Nat.ofDigits 10 ds.reverse : Nat) : Int) else (Nat.ofDigits 10 ds.reverse : Nat)) :
    atoi (sp ++ signText sg ++ digitText ds ++ rest) = if -2147483648 ≤ n ∧ n ≤ 2147483647 then some n else none := by
  have hh := fun c => head_text (rest := rest) hd hne c
  have e1 : (sp ++ signText sg ++ digitText ds ++ rest).dropWhile isSpace = signText sg ++ (digitText ds ++ rest) := by
    rw [List.append_assoc, List.append_assoc]
    refine dropSpaces _ _ hs fun c hc => ?_
    have := head_signed (fun c hc => by have := hh c hc; omega) c hc
    simp [isSpace]; omega
  have e2 := signOf_text sg (digitText ds ++ rest) fun c hc => by have := hh c hc; omega
  have e3 := (takeWhile_text ds rest hd hr).1
  unfold atoi
  simp only [e1, e2, e3, decimal_text, i32]
  have : (if (sg == some true) = true then -((Nat.ofDigits 10 ds.reverse : Nat) : Int) else (Nat.ofDigits 10 ds.reverse : Nat)) = n := by
    rw [hn]; simp
  rw [this]

/-- A duration written in decimal: spaces, sign, digits, and digits after a point or not. -/
structure MsText where
  sp : List Nat
  sg : Option Bool
  a : List Nat
  b : Option (List Nat)

/-- The text. -/
def MsText.text (m : MsText) : List Nat :=
  m.sp ++ (signText m.sg ++ (digitText m.a ++ match m.b with
    | none => []
    | some b => 46 :: digitText b))

/-- The digits of the fraction. -/
def MsText.frac (m : MsText) : List Nat := m.b.getD []

/-- The value: the digits over the power of ten. -/
def MsText.value (m : MsText) : Rat :=
  (if m.sg = some true then -1 else 1) * ((Nat.ofDigits 10 (m.a ++ m.frac).reverse : Nat) : Rat) / 10 ^ m.frac.length

/-- Spaces, digits, and at least one of these before the point. -/
def MsText.Ok (m : MsText) : Prop :=
  (∀ c ∈ m.sp, isSpace c = true) ∧ (∀ d ∈ m.a, d < 10) ∧ (∀ d ∈ m.frac, d < 10) ∧ m.a ≠ []

theorem digitText_append (a b : List Nat) : digitText (a ++ b) = digitText a ++ digitText b := List.map_append

theorem strtodDec_text (m : MsText) (h : m.Ok) : strtodDec m.text = some m.value := by
  obtain ⟨hs, ha, hb, hne⟩ := h
  obtain ⟨sp, sg, a, b⟩ := m
  simp only [MsText.frac] at *
  have hh := fun rest c => head_text (rest := rest) ha hne c
  have hat : digitText a ≠ [] := by simpa [digitText] using hne
  cases b with
  | none =>
    simp only [MsText.text, MsText.value, MsText.frac]
    have e1 : (sp ++ (signText sg ++ (digitText a ++ []))).dropWhile isSpace = signText sg ++ (digitText a ++ []) := by
      refine dropSpaces _ _ hs fun c hc => ?_
      have := head_signed (fun c hc => by have := hh _ c hc; omega) c hc
      simp [isSpace]; omega
    have e2 := signOf_text sg (digitText a ++ []) fun c hc => by have := hh _ c hc; omega
    have e3 := takeWhile_text a [] ha (by simp)
    unfold strtodDec
    simp only [e1, e2, e3.1, e3.2, hat, false_and, if_false]
    simp only [List.head?_nil, Option.getD_none, List.append_nil, List.length_nil, pow_zero, div_one, expOfText]
    simp [decimal_text]
  | some b =>
    simp only [Option.getD_some] at hb
    simp only [MsText.text, MsText.value, MsText.frac]
    have e1 : (sp ++ (signText sg ++ (digitText a ++ 46 :: digitText b))).dropWhile isSpace = signText sg ++ (digitText a ++ 46 :: digitText b) := by
      refine dropSpaces _ _ hs fun c hc => ?_
      have := head_signed (fun c hc => by have := hh _ c hc; omega) c hc
      simp [isSpace]; omega
    have e2 := signOf_text sg (digitText a ++ 46 :: digitText b) fun c hc => by have := hh _ c hc; omega
    have e3 := takeWhile_text a (46 :: digitText b) ha (by simp [isDigit])
    have e4 := takeWhile_text b [] hb (by simp)
    rw [List.append_nil] at e4
    unfold strtodDec
    simp only [e1, e2, e3.1, e3.2, hat, false_and, if_false, e4.1, e4.2]
    simp only [expOfText, ← digitText_append, decimal_text]
    simp [digitText]
    split <;> ring

/-- The rounding of `strtod`: the error is at most a bit in the last place, and the numbers of a few bits are exact. -/
structure Strtod (rd : Rat → Rat) : Prop where
  near : ∀ x, |rd x - x| ≤ |x| / 2 ^ 52
  exact : ∀ k : Int, k.natAbs ≤ 2 ^ 10 → rd (k / 2) = k / 2

/-- **C71**: the durations of 2.5, 5, 7.5 and 10 ms, written in any way in decimal, are understood exactly. -/
theorem C71_duration (rd : Rat → Rat) (hrd : Strtod rd) (m : MsText) (h : m.Ok) (us : Int) (hu : us ∈ [2500, 5000, 7500, 10000])
    (hv : m.value = us / 1000) : ∃ v, atofF rd m.text = some v ∧ ∀ p : ElcArgs, elcParams { p with frameMs := v } = some ⟨us, p.srHz, p.hr, p.bitrate⟩ := by
  have key : ∀ k : Int, k.natAbs ≤ 2 ^ 10 → 0 ≤ k → m.value = k / 2 → us = 500 * k → ∃ v, atofF rd m.text = some v ∧
      ∀ p : ElcArgs, elcParams { p with frameMs := v } = some ⟨us, p.srHz, p.hr, p.bitrate⟩ := by
    intro k hk h0 hm hus
    have e0 : ∀ j : Int, j.natAbs ≤ 2 ^ 24 → rne24 j = j := fun j hj => by
      have := rne24_exact j 0 hj
      simpa [pow2] using this
    have e1 : rne24 ((k : Rat) / 2) = k / 2 := by
      have := rne24_exact k (-1) (le_trans hk (by norm_num))
      have p : pow2 (-1) = 1 / 2 := by decide +kernel
      rw [p, mul_one_div] at this
      exact this
    refine ⟨k / 2, ?_, fun p => ?_⟩
    · unfold atofF
      rw [strtodDec_text m h, Option.map_some, hm, hrd.exact k hk, e1]
    · unfold elcParams
      have e2 : rne24 ((k : Rat) / 2 * 1000) = ((500 * k : Int) : Rat) := by
        have : (k : Rat) / 2 * 1000 = ((500 * k : Int) : Rat) := by push_cast; ring
        rw [this, e0 _ (by have : (2 : Nat) ^ 10 = 1024 := by norm_num
                           have : (2 : Nat) ^ 24 = 16777216 := by norm_num
                           omega)]
      simp only [e2]
      have e3 : ¬ ((500 * k : Int) : Rat) < 0 := by
        rw [not_lt]; exact_mod_cast (by omega : (0 : Int) ≤ 500 * k)
      have e4 : Rat.floor ((500 * k : Int) : Rat) = 500 * k := Rat.floor_intCast _
      have : (2 : Nat) ^ 10 = 1024 := by norm_num
      rw [if_neg e3, e4, ← hus, i32, if_pos (by omega)]
      rfl
  simp only [List.mem_cons, List.not_mem_nil, or_false] at hu
  rcases hu with rfl | rfl | rfl | rfl
  · exact key 5 (by norm_num) (by norm_num) (by rw [hv]; norm_num) (by norm_num)
  · exact key 10 (by norm_num) (by norm_num) (by rw [hv]; norm_num) (by norm_num)
  · exact key 15 (by norm_num) (by norm_num) (by rw [hv]; norm_num) (by norm_num)
  · exact key 20 (by norm_num) (by norm_num) (by rw [hv]; norm_num) (by norm_num)

/-- **C71**: a duration that is accepted is the one written, less the part below a microsecond. -/
theorem C71_duration_accepted (rd : Rat → Rat) (hrd : Strtod rd) (m : MsText) (h : m.Ok) (v : Rat) (hv : atofF rd m.text = some v) (p : ElcArgs)
    (q : ElcParams) (hq : elcParams { p with frameMs := v } = some q) (hc : checkDtUs q.frameUs = true) :
    -(1 / 500 : Rat) < 1000 * m.value - q.frameUs ∧ 1000 * m.value - q.frameUs < 1 + 1 / 500 := by
  unfold atofF at hv
  rw [strtodDec_text m h, Option.map_some] at hv
  have hv := Option.some.inj hv
  unfold elcParams at hq
  obtain ⟨us, h1, h2⟩ := Option.map_eq_some_iff.mp hq
  have hus : q.frameUs = us := by rw [← h2]
  rw [hus] at hc ⊢
  have hu : 2500 ≤ us ∧ us ≤ 10000 := by
    unfold checkDtUs at hc
    simp at hc
    omega
  -- the product, rounded
  dsimp only at h1
  generalize hw : rne24 (v * 1000) = w at h1
  generalize hz : (if w < 0 then -(Rat.floor (-w)) else Rat.floor w) = z at h1
  have h1 : z = us := by
    unfold i32 at h1
    split at h1
    · exact Option.some.inj h1
    · cases h1
  rw [h1] at hz
  have h1 := hz
  have hpos : ¬ w < 0 := by
    intro hn
    rw [if_pos hn] at h1
    have : (0 : Int) ≤ Rat.floor (-w) := Int.floor_nonneg.mpr (le_of_lt (neg_pos.mpr hn))
    omega
  rw [if_neg hpos] at h1
  have f1 : (us : Rat) ≤ w := by rw [← h1]; exact Int.floor_le w
  have f2 : w < us + 1 := by rw [← h1]; exact Int.lt_floor_add_one w
  have u1 : (2500 : Rat) ≤ us := by exact_mod_cast hu.1
  have u2 : (us : Rat) ≤ 10000 := by exact_mod_cast hu.2
  have g1 := rne24_error (v * 1000)
  rw [hw] at g1
  have g2 := rne24_error (rd m.value)
  rw [hv] at g2
  have g3 := hrd.near m.value
  generalize rd m.value = r at *
  generalize m.value = x at *
  have t24 : (2 : Rat) ^ 24 = 16777216 := by norm_num
  have t52 : (2 : Rat) ^ 52 = 4503599627370496 := by norm_num
  rw [t24] at g1 g2
  rw [t52] at g3
  obtain ⟨a1, a2⟩ := abs_le.mp g1
  obtain ⟨b1, b2⟩ := abs_le.mp g2
  obtain ⟨c1, c2⟩ := abs_le.mp g3
  have hv0 : 0 < v * 1000 := by
    by_contra hn
    rw [not_lt] at hn
    rw [abs_of_nonpos hn] at a2
    linarith
  rw [abs_of_pos hv0] at a1 a2
  have hr0 : 0 < r := by
    by_contra hn
    rw [not_lt] at hn
    rw [abs_of_nonpos hn] at b2
    linarith
  rw [abs_of_pos hr0] at b1 b2
  have hx0 : 0 < x := by
    by_contra hn
    rw [not_lt] at hn
    rw [abs_of_nonpos hn] at c2
    linarith
  rw [abs_of_pos hx0] at c1 c2
  constructor <;> linarith

/-! ### The programs -/

/-- **C71**: `elc3` with a command line of options in any order and an input file: the coding of the file with these parameters. -/
theorem C71_elc3_main {σ : Type} (rd : Rat → Rat) (fopen : List Nat → Option (List Nat)) (stdin : List Nat)
    (e : σ → List (List Nat) → Nat → Option (σ × Option (List Nat))) (init : Nat → σ) (out : List Nat) (items : List ElcItem)
    (h : ∀ i ∈ items, i.Ok rd) (hf : (items.filterMap ElcItem.file?).length ≤ 2) (us : Int)
    (hus : elcParams ⟨lastOr 10 (items.filterMap ElcItem.ms?), 0, false, 0⟩ = some ⟨us, 0, false, 0⟩) :
    elc3Main rd fopen stdin e init out (items.flatMap ElcItem.args) =
      match (match (items.filterMap ElcItem.file?).head? with | none => some stdin | some f => fopen f) with
      | none => some (false, [])
      | some data => elc3 e init out ⟨us, lastOr 0 (items.filterMap ElcItem.rate?), items.any ElcItem.isHr,
          lastOr 0 (items.filterMap ElcItem.bitrate?)⟩ data := by
  unfold elc3Main
  rw [C71_elc3 rd items h hf, Option.bind_some]
  simp only [toolInput]
  rw [List.head?_eq_getElem?]
  unfold elcParams at hus
  obtain ⟨u, h1, h2⟩ := Option.map_eq_some_iff.mp hus
  have : u = us := congrArg ElcParams.frameUs h2
  rw [this] at h1
  have hp : elcParams ⟨lastOr 10 (items.filterMap ElcItem.ms?), lastOr 0 (items.filterMap ElcItem.rate?), items.any ElcItem.isHr,
      lastOr 0 (items.filterMap ElcItem.bitrate?)⟩ = some ⟨us, lastOr 0 (items.filterMap ElcItem.rate?), items.any ElcItem.isHr,
      lastOr 0 (items.filterMap ElcItem.bitrate?)⟩ := by
    unfold elcParams
    exact Option.map_eq_some_iff.mpr ⟨us, h1, rfl⟩
  simp only [hp, Option.bind_some]
  cases (items.filterMap ElcItem.file?)[0]? with
  | none => rfl
  | some f => dsimp only; cases fopen f <;> rfl

/-- **C71**: `dlc3` with a command line of options in any order. -/
theorem C71_dlc3_main {σ : Type} (fopen : List Nat → Option (List Nat)) (stdin : List Nat)
    (d : σ → List Nat → Option (σ × Option (List (List Nat)))) (init : Nat → σ) (buf : List Nat) (items : List DlcItem)
    (h : ∀ i ∈ items, i.Ok) (hf : (items.filterMap DlcItem.file?).length ≤ 2) :
    dlc3Main fopen stdin d init buf (items.flatMap DlcItem.args) =
      match (match (items.filterMap DlcItem.file?).head? with | none => some stdin | some f => fopen f) with
      | none => some (false, [])
      | some data => dlc3 d init buf ⟨lastOr 0 (items.filterMap DlcItem.rate?), lastOr 16 (items.filterMap DlcItem.bitdepth?)⟩ data := by
  unfold dlc3Main
  rw [C71_dlc3 items h hf, Option.bind_some]
  simp only [toolInput]
  rw [List.head?_eq_getElem?]
  cases (items.filterMap DlcItem.file?)[0]? with
  | none => rfl
  | some f => dsimp only; cases fopen f <;> rfl

/-! ### Concrete cases -/

/-- `elc3 in -m 7.5 -b 32000 -H out -b 48000`. -/
example : elcParse id [[105, 110], [45, 109], [55, 46, 53], [45, 98], [51, 50, 48, 48, 48], [45, 72], [111, 117, 116], [45, 98], [52, 56, 48, 48, 48]] =
    some (.ok ([[105, 110], [111, 117, 116]], ⟨15 / 2, 0, true, 48000⟩)) := by
  have := C71_elc3 id [.file [105, 110], .ms [55, 46, 53] (15 / 2), .bitrate [51, 50, 48, 48, 48] 32000, .hr, .file [111, 117, 116],
    .bitrate [52, 56, 48, 48, 48] 48000] (by
      intro i hi
      simp only [List.mem_cons, List.not_mem_nil, or_false] at hi
      rcases hi with rfl | rfl | rfl | rfl | rfl | rfl
      · show List.head? _ ≠ _; decide
      · show atofF id [55, 46, 53] = some (15 / 2); decide +kernel
      · show atoi _ = _; decide +kernel
      · trivial
      · show List.head? _ ≠ _; decide
      · show atoi _ = _; decide +kernel) (by decide)
  exact this

/-- The exact rounding is a `strtod`, and `" 07.500"` is a text of 7.5 ms. -/
example : Strtod id ∧ MsText.Ok ⟨[32], none, [0, 7], some [5, 0, 0]⟩ ∧ MsText.value ⟨[32], none, [0, 7], some [5, 0, 0]⟩ = (7500 : Int) / 1000 := by
  refine ⟨⟨fun x => by simp; positivity, fun k _ => rfl⟩, ⟨by decide, by decide, by decide, by decide⟩, ?_⟩
  rw [MsText.value, if_neg (by decide)]
  norm_num [MsText.frac, Nat.ofDigits]

/-- `-12x` is -12. -/
example : atoi [45, 49, 50, 120] = some (-12) := by decide +kernel

end LC3
