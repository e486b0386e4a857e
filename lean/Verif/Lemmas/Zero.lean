import Verif.Lemmas.MdctForward

/-! The transforms of a null signal are null, whatever the arithmetic, as long as it maps zeroes to zero. -/

namespace LC3

variable {R S : Type}

/-- The operations on zeroes are exact. -/
structure ZeroOk (A : Arith R) : Prop where
  add : A.add (A.ofRat 0) (A.ofRat 0) = A.ofRat 0
  sub : A.sub (A.ofRat 0) (A.ofRat 0) = A.ofRat 0
  mul : ∀ a, A.mul (A.ofRat 0) a = A.ofRat 0

theorem zeroOk_rounded {rnd : Rat → Rat} (h : rnd 0 = 0) : ZeroOk (Arith.rounded rnd) where
  add := by show rnd (rnd 0 + rnd 0) = rnd 0; rw [h, add_zero, h]
  sub := by show rnd (rnd 0 - rnd 0) = rnd 0; rw [h, sub_zero, h]
  mul a := by show rnd (rnd 0 * a) = rnd 0; rw [h, zero_mul, h]

/-- A null signal. -/
def AllZ (A : Arith R) (l : List R) : Prop := ∀ v ∈ l, v = A.ofRat 0

/-- A property of the outcome, when it is defined. -/
def Outs (p : S → Prop) (o : Option S) : Prop := ∀ s, o = some s → p s

theorem allZ_replicate (A : Arith R) (n : Nat) : AllZ A (List.replicate n (A.ofRat 0)) := fun _ h => List.eq_of_mem_replicate h

theorem AllZ.eq {A : Arith R} {l : List R} (h : AllZ A l) : l = List.replicate l.length (A.ofRat 0) := List.eq_replicate_iff.2 ⟨rfl, h⟩

theorem AllZ.getD {A : Arith R} {l : List R} (h : AllZ A l) (k : Nat) : l.getD k (A.ofRat 0) = A.ofRat 0 := by
  by_cases hk : k < l.length
  · rw [List.getD_eq_getElem _ _ hk]; exact h _ (List.getElem_mem _)
  · rw [List.getD_eq_default _ _ (by omega)]

theorem AllZ.of_getD {A : Arith R} {l : List R} (h : ∀ k, k < l.length → l.getD k (A.ofRat 0) = A.ofRat 0) : AllZ A l := by
  intro v hv
  obtain ⟨k, hk, rfl⟩ := List.getElem_of_mem hv
  rw [← List.getD_eq_getElem _ (A.ofRat 0) hk]; exact h k hk

theorem AllZ.append {A : Arith R} {l m : List R} (h : AllZ A l) (h' : AllZ A m) : AllZ A (l ++ m) := by
  intro v hv
  rcases List.mem_append.1 hv with hv | hv
  · exact h v hv
  · exact h' v hv

theorem AllZ.take {A : Arith R} {l : List R} (h : AllZ A l) (n : Nat) : AllZ A (l.take n) := fun v hv => h v (List.mem_of_mem_take hv)
theorem AllZ.drop {A : Arith R} {l : List R} (h : AllZ A l) (n : Nat) : AllZ A (l.drop n) := fun v hv => h v (List.mem_of_mem_drop hv)

theorem AllZ.map_mul {A : Arith R} (hA : ZeroOk A) {l : List R} (h : AllZ A l) (g : R) : AllZ A (l.map fun v => A.mul v g) := by
  intro v hv
  obtain ⟨a, ha, rfl⟩ := List.mem_map.1 hv
  rw [h a ha, hA.mul]

theorem outs_any {p : S → Prop} {T : Type} {o : Option T} {f : T → Option S} (h : ∀ t, Outs p (f t)) : Outs p (o >>= f) := by
  intro s hs
  obtain ⟨t, -, ht⟩ := Option.bind_eq_some_iff.1 hs
  exact h t s ht

theorem outs_bind {p : S → Prop} {T : Type} {q : T → Prop} {o : Option T} {f : T → Option S} (ho : Outs q o) (h : ∀ t, q t → Outs p (f t)) :
    Outs p (o >>= f) := by
  intro s hs
  obtain ⟨t, h1, ht⟩ := Option.bind_eq_some_iff.1 hs
  exact h t (ho t h1) s ht

theorem outs_some {p : S → Prop} {s : S} (h : p s) : Outs p (some s) := by
  intro t ht; cases ht; exact h

theorem rd_z {A : Arith R} {l : List R} (h : AllZ A l) (i : Int) : Outs (fun v => v = A.ofRat 0) (rd l i) := by
  intro v hv
  unfold rd at hv
  split at hv
  · exact h v (List.mem_of_getElem? hv)
  · cases hv

theorem wr_z {A : Arith R} {l : List R} (h : AllZ A l) (i : Int) {v : R} (hv : v = A.ofRat 0) : Outs (AllZ A) (wr l i v) := by
  intro m hm
  unfold wr at hm
  split at hm
  · cases hm
    intro w hw
    rcases List.mem_or_eq_of_mem_set hw with hw | hw
    · exact h w hw
    · rw [hw, hv]
  · cases hm

theorem outs_rd {A : Arith R} {p : S → Prop} {l : List R} (h : AllZ A l) (i : Int) {f : R → Option S} (hf : Outs p (f (A.ofRat 0))) :
    Outs p (rd l i >>= f) := outs_bind (rd_z h i) fun t ht => by rw [ht]; exact hf

theorem outs_rdc {A : Arith R} {p : S → Prop} {l : List R} (h : AllZ A l) (i : Int) {f : R × R → Option S} (hf : Outs p (f (A.ofRat 0, A.ofRat 0))) :
    Outs p (rdc l i >>= f) := by
  refine outs_bind (q := fun v => v = (A.ofRat 0, A.ofRat 0)) ?_ fun t ht => by rw [ht]; exact hf
  unfold rdc
  refine outs_rd h _ ?_
  refine outs_rd h _ ?_
  exact outs_some rfl

theorem outs_wr {A : Arith R} {p : S → Prop} {l : List R} (h : AllZ A l) (i : Int) {v : R} (hv : v = A.ofRat 0) {f : List R → Option S}
    (hf : ∀ m, AllZ A m → Outs p (f m)) : Outs p (wr l i v >>= f) := outs_bind (wr_z h i hv) hf

theorem iter_z {p : S → Prop} {body : Nat → S → Option S} (h : ∀ i s, p s → Outs p (body i s)) : ∀ (n i : Nat) (s : S), p s → Outs p (iter body i n s) := by
  intro n
  induction n with
  | zero => intro i s hs; exact outs_some hs
  | succ n ih => intro i s hs; exact outs_bind (h i s hs) fun t ht => ih (i + 1) t ht

theorem pairs_z {p : S → Prop} {step : Nat → S → Option S} (h : ∀ i s, p s → Outs p (step i s)) (j0 n : Nat) (s : S) (hs : p s) :
    Outs p (pairs step j0 n s) := iter_z (fun i s hs => outs_bind (h _ s hs) fun t ht => h _ t ht) n 0 s hs

/-- One step of a proof that the outcome of a loop is null. -/
macro "zstep" hA:term : tactic => `(tactic| first
  | (refine outs_rd (by assumption) _ ?_)
  | (refine outs_rdc (by assumption) _ ?_)
  | (refine outs_wr (by assumption) _ (by simp only [cmac3Re, cmac3Im, Arith.neg, ($hA).add, ($hA).sub, ($hA).mul]) ?_; intro _ _)
  | (refine wr_z (by assumption) _ (by simp only [cmac3Re, cmac3Im, Arith.neg, ($hA).add, ($hA).sub, ($hA).mul]))
  | (refine outs_any ?_; intro _))

variable {A : Arith R}

theorem fft5Body_z (hA : ZeroOk A) (T : MdctTables R) (n : Nat) (x : List R) (hx : AllZ A x) (i : Nat) (y : List R) (hy : AllZ A y) :
    Outs (AllZ A) (fft5Body A T n x i y) := by
  unfold fft5Body
  repeat zstep hA

theorem bf3Body_z (hA : ZeroOk A) (n3 : Nat) (w : List R) (n : Nat) (x : List R) (hx : AllZ A x) (t : Nat) (y : List R) (hy : AllZ A y) :
    Outs (AllZ A) (bf3Body A n3 w n x t y) := by
  unfold bf3Body
  repeat zstep hA

theorem bf2Body_z (hA : ZeroOk A) (n2 : Nat) (w : List R) (n : Nat) (x : List R) (hx : AllZ A x) (t : Nat) (y : List R) (hy : AllZ A y) :
    Outs (AllZ A) (bf2Body A n2 w n x t y) := by
  unfold bf2Body
  repeat zstep hA

theorem loop3_z (hA : ZeroOk A) (T : MdctTables R) : ∀ (fuel n i3 : Nat) (swap : Bool) (src dst : List R), AllZ A src → AllZ A dst →
    Outs (fun q => AllZ A q.2.2.2.1 ∧ AllZ A q.2.2.2.2) (fftLoop3 A T fuel n i3 swap src dst) := by
  intro fuel
  induction fuel with
  | zero => intro n i3 swap src dst _ _ s hs; cases hs
  | succ fuel ih =>
    intro n i3 swap src dst h1 h2
    unfold fftLoop3
    split
    · exact outs_some ⟨h1, h2⟩
    · refine outs_any fun tw => outs_bind (q := AllZ A) ?_ fun d hd => ih _ _ _ _ _ hd h1
      exact iter_z (fun i s hs => bf3Body_z hA _ _ _ _ h1 i s hs) _ _ _ h2

theorem loop2_z (hA : ZeroOk A) (T : MdctTables R) (i3 : Nat) : ∀ (fuel n i2 : Nat) (swap : Bool) (src dst : List R), AllZ A src → AllZ A dst →
    Outs (fun q => AllZ A q.2.1 ∧ AllZ A q.2.2) (fftLoop2 A T i3 fuel n i2 swap src dst) := by
  intro fuel
  induction fuel with
  | zero => intro n i2 swap src dst _ _ s hs; cases hs
  | succ fuel ih =>
    intro n i2 swap src dst h1 h2
    unfold fftLoop2
    split
    · exact outs_some ⟨h1, h2⟩
    · refine outs_any fun tw => outs_bind (q := AllZ A) ?_ fun d hd => ih _ _ _ _ _ hd h1
      exact iter_z (fun i s hs => bf2Body_z hA _ _ _ _ h1 i s hs) _ _ _ h2

theorem fft_z (hA : ZeroOk A) (T : MdctTables R) (n : Nat) (y0 y1 : List R) (h0 : AllZ A y0) (h1 : AllZ A y1) :
    Outs (fun q => AllZ A q.2.1 ∧ AllZ A q.2.2) (fft A T n y0 y1) := by
  unfold fft
  refine outs_bind (q := AllZ A) (iter_z (fun i s hs => fft5Body_z hA T _ _ h0 i s hs) _ _ _ h1) fun y hy => ?_
  refine outs_bind (loop3_z hA T _ _ _ _ _ _ hy h0) fun w hw => ?_
  refine outs_bind (loop2_z hA T _ _ _ _ _ _ _ hw.1 hw.2) fun r hr => ?_
  refine outs_some ?_
  dsimp only
  split
  · exact hr
  · exact ⟨hr.2, hr.1⟩

theorem winStepA_z (hA : ZeroOk A) (n m : Nat) (w x : List R) (hx : AllZ A x) (j : Nat) (s : List R × List R) (hs : AllZ A s.1 ∧ AllZ A s.2) :
    Outs (fun s => AllZ A s.1 ∧ AllZ A s.2) (winStepA A n m w x j s) := by
  obtain ⟨h1, h2⟩ := hs
  unfold winStepA
  repeat zstep hA
  exact outs_some ⟨by assumption, by assumption⟩

theorem winStepB_z (hA : ZeroOk A) (n m j0 : Nat) (w x : List R) (hx : AllZ A x) (j : Nat) (s : List R × List R) (hs : AllZ A s.1 ∧ AllZ A s.2) :
    Outs (fun s => AllZ A s.1 ∧ AllZ A s.2) (winStepB A n m j0 w x j s) := by
  obtain ⟨h1, h2⟩ := hs
  unfold winStepB
  repeat zstep hA
  exact outs_some ⟨by assumption, by assumption⟩

theorem preBody_z (hA : ZeroOk A) (n4 : Nat) (w : List R) (i : Nat) (y : List R) (hy : AllZ A y) : Outs (AllZ A) (preBody A n4 w i y) := by
  unfold preBody
  repeat zstep hA

theorem getD_z {x : Option (List R)} {y : List R} (hx : ∀ l, x = some l → AllZ A l) (hy : AllZ A y) : AllZ A (x.getD y) := by
  cases x with
  | none => exact hy
  | some l => exact hx l rfl

theorem postBody_z (hA : ZeroOk A) (n4 : Nat) (w : List R) (x : Option (List R)) (hx : ∀ l, x = some l → AllZ A l) (i : Nat) (y : List R) (hy : AllZ A y) :
    Outs (AllZ A) (postBody A n4 w x i y) := by
  have h := getD_z hx hy
  unfold postBody
  repeat zstep hA

theorem ipreBody_z (hA : ZeroOk A) (n4 : Nat) (w : List R) (x : Option (List R)) (hx : ∀ l, x = some l → AllZ A l) (i : Nat) (y : List R) (hy : AllZ A y) :
    Outs (AllZ A) (ipreBody A n4 w x i y) := by
  have h := getD_z hx hy
  unfold ipreBody
  repeat zstep hA

theorem ipostBody_z (hA : ZeroOk A) (n4 : Nat) (w : List R) (x : Option (List R)) (hx : ∀ l, x = some l → AllZ A l) (i : Nat) (y : List R) (hy : AllZ A y) :
    Outs (AllZ A) (ipostBody A n4 w x i y) := by
  have h := getD_z hx hy
  unfold ipostBody
  repeat zstep hA

theorem rescale_z (hA : ZeroOk A) (n : Nat) (f : R) (x : List R) (hx : AllZ A x) : Outs (AllZ A) (rescale A n f x) := by
  unfold rescale
  split
  · intro s hs; cases hs
  · exact outs_some (((hx.take _).map_mul hA f).append (hx.drop _))

/-- The transform of a null signal, after a null signal, is null. -/
theorem mdctForward_z (hA : ZeroOk A) (sqrt : R → R) (T : MdctTables R) (dt : Dt) (sr srDst : Srate) (buf x d y : List R) (hb : AllZ A buf)
    (hx : AllZ A x) (hd : AllZ A d) (hy : AllZ A y) : Outs (fun q => AllZ A q.1 ∧ AllZ A q.2) (mdctForward A sqrt T dt sr srDst buf x d y) := by
  unfold mdctForward
  refine outs_any fun rot => outs_any fun win => ?_
  refine outs_bind (q := fun s : List R × List R => AllZ A s.1 ∧ AllZ A s.2) ?_ fun w hw => ?_
  · unfold mdctWindow
    refine outs_bind (pairs_z (fun i s hs => winStepA_z hA _ _ _ _ hx i s hs) _ _ _ ⟨hb, hd⟩) fun s hs => ?_
    exact pairs_z (fun i s hs => winStepB_z hA _ _ _ _ _ hx i s hs) _ _ _ hs
  refine outs_bind (q := AllZ A) (iter_z (fun i s hs => preBody_z hA _ _ i s hs) _ _ _ hw.1) fun u hu => ?_
  refine outs_bind (fft_z hA T _ _ _ hu hy) fun r hr => ?_
  refine outs_bind (q := AllZ A) (iter_z (fun i s hs => postBody_z hA _ _ _ (fun l hl => ?_) i s hs) _ _ _ hr.2) fun v hv => ?_
  · split at hl
    · cases hl; exact hr.1
    · cases hl
  refine outs_bind (q := AllZ A) ?_ fun y hy => outs_some ⟨hy, hw.2⟩
  split
  · exact rescale_z hA _ _ _ hv
  · exact outs_some hv

theorem iwinStep1_z (hA : ZeroOk A) (n m : Nat) (w x : List R) (hx : AllZ A x) (j : Nat) (s : List R × List R) (hs : AllZ A s.1 ∧ AllZ A s.2) :
    Outs (fun s => AllZ A s.1 ∧ AllZ A s.2) (iwinStep1 A n m w x j s) := by
  obtain ⟨h1, h2⟩ := hs
  unfold iwinStep1
  repeat zstep hA
  exact outs_some ⟨by assumption, by assumption⟩

theorem iwinStep2_z (hA : ZeroOk A) (n m : Nat) (w x : List R) (hx : AllZ A x) (j : Nat) (s : List R × List R) (hs : AllZ A s.1 ∧ AllZ A s.2) :
    Outs (fun s => AllZ A s.1 ∧ AllZ A s.2) (iwinStep2 A n m w x j s) := by
  obtain ⟨h1, h2⟩ := hs
  unfold iwinStep2
  repeat zstep hA
  exact outs_some ⟨by assumption, by assumption⟩

theorem iwinStep3_z (hA : ZeroOk A) (n m j2 : Nat) (w x : List R) (hx : AllZ A x) (j : Nat) (s : List R × List R) (hs : AllZ A s.1 ∧ AllZ A s.2) :
    Outs (fun s => AllZ A s.1 ∧ AllZ A s.2) (iwinStep3 A n m j2 w x j s) := by
  obtain ⟨h1, h2⟩ := hs
  unfold iwinStep3
  repeat zstep hA
  exact outs_some ⟨by assumption, by assumption⟩

theorem iwinStep4_z (hA : ZeroOk A) (n m j2 j3 : Nat) (w x : List R) (hx : AllZ A x) (j : Nat) (s : List R × List R) (hs : AllZ A s.1 ∧ AllZ A s.2) :
    Outs (fun s => AllZ A s.1 ∧ AllZ A s.2) (iwinStep4 A n m j2 j3 w x j s) := by
  obtain ⟨h1, h2⟩ := hs
  unfold iwinStep4
  repeat zstep hA
  exact outs_some ⟨by assumption, by assumption⟩

theorem mdctInverse_null (hA : ZeroOk A) (sqrt : R → R) (T : MdctTables R) (dt : Dt) (sr srSrc : Srate) (buf x d y : List R) (hb : AllZ A buf)
    (hx : AllZ A x) (hd : AllZ A d) (hy : AllZ A y) :
    Outs (fun q => AllZ A q.1 ∧ AllZ A q.2) (mdctInverse A sqrt T dt sr srSrc buf (some x) d y) := by
  unfold mdctInverse
  refine outs_any fun rot => outs_any fun win => ?_
  refine outs_bind (q := AllZ A) (iter_z (fun i s hs => ipreBody_z hA _ _ _ (fun l hl => by cases hl; exact hx) i s hs) _ _ _ hy) fun u hu => ?_
  refine outs_bind (fft_z hA T _ _ _ hu hb) fun r hr => ?_
  refine outs_bind (q := AllZ A) (iter_z (fun i s hs => ipostBody_z hA _ _ _ (fun l hl => ?_) i s hs) _ _ _ hr.2) fun v hv => ?_
  · split at hl
    · cases hl; exact hr.1
    · cases hl
  refine outs_bind (q := AllZ A) ?_ fun v hv => ?_
  · split
    · exact rescale_z hA _ _ _ hv
    · exact outs_some hv
  unfold imdctWindow
  refine outs_bind (pairs_z (fun i s hs => iwinStep1_z hA _ _ _ _ hv i s hs) _ _ _ ⟨hr.1, hd⟩) fun s hs => ?_
  refine outs_bind (pairs_z (fun i s hs => iwinStep2_z hA _ _ _ _ hv i s hs) _ _ _ hs) fun s hs => ?_
  refine outs_bind (pairs_z (fun i s hs => iwinStep3_z hA _ _ _ _ _ hv i s hs) _ _ _ hs) fun s hs => ?_
  exact pairs_z (fun i s hs => iwinStep4_z hA _ _ _ _ _ _ hv i s hs) _ _ _ hs

/-- The inverse transform of a null spectrum ends with silence; it is silent when the frame before ended with silence. -/
theorem mdctInverse_z (hA : ZeroOk A) (sqrt : R → R) (dt : Dt) (sr srSrc : Srate) (h : ¬ (dt = .m7_5 ∧ sr.hr = true))
    (buf : List R) (x d y : List R) (hb : ns dt sr ≤ buf.length) (hbz : AllZ A buf)
    (hx : ns dt sr ≤ x.length) (hxz : AllZ A x) (hd : d.length = nd dt sr) (hy : y.length = ns dt sr) (hyz : AllZ A y) (t e : List R)
    (hi : mdctInverse A sqrt (mdctTables A) dt sr srSrc buf (some x) d y = some (t, e)) : AllZ A e ∧ (AllZ A d → AllZ A t) := by
  refine ⟨?_, fun hdz => (mdctInverse_null hA sqrt _ dt sr srSrc buf x d y hbz hxz hdz hyz _ hi).1⟩
  obtain ⟨t1, t2, e1, h1, h2, -⟩ := mdctInverse_congr A sqrt dt sr srSrc h buf buf (some x) (some x) d (List.replicate (nd dt sr) (A.ofRat 0)) y y hb hb
    (fun l hl => by cases hl; exact hx) (fun l hl => by cases hl; exact hx) hd (by simp) hy hy (fun _ _ => rfl)
  rw [hi] at h1
  cases h1
  exact (mdctInverse_null hA sqrt _ dt sr srSrc buf x _ y hbz hxz (allZ_replicate A _) hyz _ h2).2

end LC3
