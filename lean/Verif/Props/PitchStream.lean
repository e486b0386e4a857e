import Verif.Props.Pitch
import Verif.Props.Encoder
import Verif.Props.Simd

/-!
# C77: the signal analysed for the pitch does not depend on the frames

The memories of the analysis of the pitch after any number of frames, as functions of the whole input signal.
-/

namespace LC3

/-- The last `n` values of a signal, that is zero before its beginning. -/
def lastOf (n : Nat) (ys : List Int) : List Int := (List.replicate n 0 ++ ys).drop ys.length

/-- The value of a signal at any time, zero before its beginning. -/
def sigAt (ys : List Int) (i : Int) : Int := if 0 ≤ i then ys.getD i.toNat 0 else 0

/-- The input resampled at 12.8 kHz, before the high-pass filter: the sample `j`, weighted sum of the whole input. -/
def accAt (sr : Srate) (sig : List Int) (j : Nat) : Int :=
  ∑ m ∈ Finset.range sig.length, sig.getD m 0 * protoQ sr ((period192 sr : Int) * m - 15 * j + 120)

/-- The sample `j` of the signal at 6.4 kHz, from the signal `ys` at 12.8 kHz delayed by `d` samples. -/
def halfAt (d : Int) (ys : List Int) (j : Nat) : Int :=
  (18477 * sigAt ys (2 * j - d - 1) + 15424 * (sigAt ys (2 * j - d - 2) + sigAt ys (2 * j - d)) +
    8105 * (sigAt ys (2 * j - d - 3) + sigAt ys (2 * j - d + 1))) / 65536

theorem lastOf_length (n : Nat) (ys : List Int) : (lastOf n ys).length = n := by
  unfold lastOf; rw [List.length_drop, List.length_append, List.length_replicate]; omega

theorem lastOf_append (n : Nat) (ys z : List Int) (h : z.length ≤ n) : (lastOf n ys).drop z.length ++ z = lastOf n (ys ++ z) := by
  unfold lastOf
  rw [List.drop_drop, ← List.append_assoc, List.length_append]
  exact (List.drop_append_of_le_length (l₁ := List.replicate n 0 ++ ys) (by rw [List.length_append, List.length_replicate]; omega)).symm

theorem lastOf_getD (n : Nat) (ys : List Int) (i : Nat) (hi : i < n) : (lastOf n ys).getD i 0 = sigAt ys ((ys.length : Int) + i - n) := by
  unfold lastOf sigAt
  rw [List.getD_eq_getElem?_getD, List.getElem?_drop]
  rcases Nat.lt_or_ge (ys.length + i) n with c | c
  · rw [List.getElem?_append_left (by simpa using c), List.getElem?_replicate, if_pos c, if_neg (by omega)]; rfl
  · rw [List.getElem?_append_right (by simpa using c), List.length_replicate, if_pos (by omega), List.getD_eq_getElem?_getD,
      show ((ys.length : Int) + i - n).toNat = ys.length + i - n by omega]

theorem sigAt_append (ys z : List Int) (i : Int) (h : i < ys.length) : sigAt (ys ++ z) i = sigAt ys i := by
  unfold sigAt
  split
  · rw [List.getD_eq_getElem?_getD, List.getD_eq_getElem?_getD, List.getElem?_append_left (by omega)]
  · rfl

theorem slice?_pre {α : Type} (p l : List α) (b back n : Nat) (h : back ≤ b) : slice? (p ++ l) (p.length + b) back n = slice? l b back n := by
  unfold slice?
  rw [List.length_append, show p.length + b - back = p.length + (b - back) by omega, ← List.drop_drop, List.drop_left]
  by_cases c : b - back + n ≤ l.length
  · rw [if_pos ⟨by omega, by omega⟩, if_pos ⟨h, c⟩]
  · rw [if_neg (by omega), if_neg (by omega)]

theorem resampleAcc_pre (sr : Srate) (p l : List Int) (b n : Nat) (h : nt sr ≤ b) :
    resampleAcc (resampler sr) (p ++ l) (p.length + b) n = resampleAcc (resampler sr) l b n := by
  unfold resampleAcc
  dsimp only
  rw [Nat.add_assoc, slice?_pre _ _ _ _ _ ?_]
  have := Nat.zero_le ((resampler sr).inc * n / (resampler sr).p)
  have hw : (resampler sr).w - 1 ≤ nt sr := by cases sr <;> decide
  omega

theorem period_frame (dt : Dt) (sr : Srate) : (period192 sr : Int) * ns dt sr = 15 * ((1 + dt.idx) * 32 : Nat) := by
  cases dt <;> cases sr <;> decide

/-- The future of the signal has no effect. -/
theorem accAt_append (sr : Srate) (sig x : List Int) (j : Nat) (h : 15 * j < period192 sr * sig.length) : accAt sr (sig ++ x) j = accAt sr sig j := by
  unfold accAt
  rw [List.length_append, Finset.sum_range_add]
  rw [Finset.sum_eq_zero (s := Finset.range x.length), Int.add_zero]
  · refine Finset.sum_congr rfl fun m hm => ?_
    rw [List.getD_eq_getElem?_getD, List.getD_eq_getElem?_getD, List.getElem?_append_left (Finset.mem_range.mp hm)]
  · intro m hm
    have : protoQ sr ((period192 sr : Int) * ((sig.length + m : Nat) : Int) - 15 * j + 120) = 0 := by
      unfold protoQ
      rw [if_neg]
      have h1 : ((period192 sr : Int) * (sig.length + m : Nat)) = (period192 sr * sig.length + period192 sr * m : Nat) := by push_cast; ring
      rw [h1]
      have := Nat.zero_le (period192 sr * m)
      omega
    rw [this, Int.mul_zero]

/-- What the memories hold after `k` frames, of samples `sig`. -/
structure Streamed {R : Type} (dt : Dt) (sr : Srate) (sig : List Int) (k : Nat) (s : LtpfA R) (hist : List Int) : Prop where
  len : sig.length = k * ns dt sr
  v16 : All16 sig
  hist : hist = lastOf (nt sr) sig
  ys : ∃ ys, hpRun ((List.range (k * ((1 + dt.idx) * 32))).map (accAt sr sig)) ⟨0, 0⟩ = some (ys, s.hp50) ∧ s.x12k8 = lastOf 384 ys ∧
    s.x6k4 = lastOf 178 ((List.range (k * ((1 + dt.idx) * 32) / 2)).map (halfAt (if dt = .m7_5 then 44 else 24) ys))

theorem hpRun_append : ∀ (a b : List Int) (hp hp1 hp2 : Hp50) (y z : List Int), hpRun a hp = some (y, hp1) → hpRun b hp1 = some (z, hp2) →
    hpRun (a ++ b) hp = some (y ++ z, hp2)
  | [], b, hp, hp1, hp2, y, z, h1, h2 => by
    unfold hpRun at h1
    cases h1
    exact h2
  | u :: a, b, hp, hp1, hp2, y, z, h1, h2 => by
    unfold hpRun at h1
    obtain ⟨q, e1, h1⟩ := Option.bind_eq_some_iff.mp h1
    obtain ⟨v, e2, h1⟩ := Option.bind_eq_some_iff.mp h1
    obtain ⟨t, e3, h1⟩ := Option.bind_eq_some_iff.mp h1
    cases h1
    have := hpRun_append a b q.2 t.2 hp2 t.1 z e3 h2
    rw [List.cons_append]
    unfold hpRun
    rw [e1, Option.bind_some, e2, Option.bind_some, this, Option.bind_some]
    rfl

theorem streamed_init {R : Type} (A : Arith R) (dt : Dt) (sr : Srate) : Streamed dt sr [] 0 (LtpfA.init A) (List.replicate (nt sr) 0) where
  len := by simp
  v16 := fun _ h => by cases h
  hist := by simp [lastOf]
  ys := ⟨[], by rw [Nat.zero_mul]; rfl, by unfold lastOf; rw [List.append_nil, List.length_nil, List.drop_zero]; rfl,
    by rw [Nat.zero_mul]; unfold lastOf; rw [Nat.zero_div, List.range_zero, List.map_nil, List.append_nil, List.length_nil, List.drop_zero]; rfl⟩

theorem lastOf_all16 (n : Nat) (ys : List Int) (h : All16 ys) : All16 (lastOf n ys) := fun v hv => by
  unfold lastOf at hv
  rcases List.mem_append.mp (List.mem_of_mem_drop hv) with hv | hv
  · rw [List.eq_of_mem_replicate hv]; exact ⟨by decide, by decide⟩
  · exact h v hv

theorem streamed_step {R : Type} (A : Arith R) (sqrtf : R → R) (dt : Dt) (sr : Srate) (sig : List Int) (k : Nat) (s s' : LtpfA R) (hist x : List Int)
    (o : LtpfOut) (h : Streamed dt sr sig k s hist) (hx : x.length = ns dt sr) (hv : All16 x)
    (ha : ltpfAnalyse A sqrtf dt sr s (hist ++ x) (nt sr) = some (o, s')) :
    Streamed dt sr (sig ++ x) (k + 1) s' ((hist ++ x).drop (ns dt sr)) := by
  obtain ⟨h1, h2, h3, ys, h4, h5, h6⟩ := h
  have hd := enc_dims dt sr
  have hN : 32 ≤ (1 + dt.idx) * 32 ∧ (1 + dt.idx) * 32 ≤ 128 ∧ (1 + dt.idx) * 32 % 2 = 0 := by cases dt <;> decide
  have hpf := period_frame dt sr
  have hD : ∃ D : Nat, D = (if dt = .m7_5 then 44 else 24) ∧ 24 ≤ D ∧ D ≤ 44 := ⟨_, rfl, by split <;> omega⟩
  obtain ⟨D, hD, hD1, hD2⟩ := hD
  have hDi : ((if dt = .m7_5 then 44 else 24 : Int)) = D := by rw [hD]; split <;> rfl
  rw [hDi] at h6
  unfold ltpfAnalyse at ha
  obtain ⟨r, er, ha⟩ := Option.bind_eq_some_iff.mp ha
  obtain ⟨⟨present, index, pitch, nc, tc⟩, ep, ha⟩ := Option.bind_eq_some_iff.mp ha
  cases ha
  unfold ltpfResample at er
  obtain ⟨⟨y, hp⟩, e1, er⟩ := Option.bind_eq_some_iff.mp er
  obtain ⟨y6, e2, er⟩ := Option.bind_eq_some_iff.mp er
  cases er
  dsimp only at e1 e2 ⊢
  rw [← hD] at e2
  have hist16 : All16 (hist ++ x) := by
    rw [h3]; exact (lastOf_all16 _ _ h2).append hv
  have hhl : hist.length = nt sr := by rw [h3, lastOf_length]
  obtain ⟨us, u1, -, u3, u4⟩ := resample_eq dt sr (hist ++ x) (nt sr) hist16 (Nat.le_refl _) (by rw [List.length_append, hhl, hx])
    ((1 + dt.idx) * 32) 0 s.hp50 (by omega)
  rw [u4] at e1
  generalize hNd : (1 + dt.idx) * 32 = N at *
  -- the accumulations of the frame
  have hpre : (List.replicate (nt sr) 0 ++ sig).take sig.length ++ hist = List.replicate (nt sr) 0 ++ sig := by
    rw [h3]; exact List.take_append_drop _ _
  have hpl : ((List.replicate (nt sr) 0 ++ sig).take sig.length).length = sig.length := by
    rw [List.length_take, List.length_append]; omega
  have hus : us = (List.range N).map fun n => accAt sr (sig ++ x) (k * N + n) := by
    apply List.ext_getElem?
    intro i
    rcases Nat.lt_or_ge i N with c | c
    · rw [← u3 i c, List.getElem?_map, List.getElem?_range c, Nat.zero_add]
      have hb16 : All16 (List.replicate (nt sr) 0 ++ (sig ++ x)) := by
        intro v hv'
        rcases List.mem_append.mp hv' with hh | hh
        · rw [List.eq_of_mem_replicate hh]; exact ⟨by decide, by decide⟩
        · exact (h2.append hv) v hh
      have e := resampleAcc_pre sr ((List.replicate (nt sr) 0 ++ sig).take sig.length) (hist ++ x) (nt sr) i (Nat.le_refl _)
      rw [← e, ← List.append_assoc, hpre, hpl, List.append_assoc,
        C75_resample dt sr _ (sig.length + nt sr) i hb16 (by omega) (by simp only [List.length_append, List.length_replicate]; omega) (by rw [hNd]; exact c)]
      simp only [Option.map_some]
      congr 1
      unfold accAt
      rw [List.length_append, List.length_replicate, Finset.sum_range_add, Finset.sum_eq_zero (s := Finset.range (nt sr)), Int.zero_add]
      · refine Finset.sum_congr rfl fun m hm => ?_
        rw [List.getD_eq_getElem?_getD, List.getElem?_append_right (by rw [List.length_replicate]; omega), List.length_replicate,
          Nat.add_sub_cancel_left, ← List.getD_eq_getElem?_getD]
        congr 2
        have hL : (period192 sr : Int) * (sig.length : Int) = 15 * (k * N : Nat) := by
          rw [h1]; push_cast
          rw [show (period192 sr : Int) * ((k : Int) * ns dt sr) = k * ((period192 sr : Int) * ns dt sr) by ring, hpf]; ring
        push_cast at hL ⊢
        linear_combination -hL
      · intro m hm
        have hm := Finset.mem_range.mp hm
        rw [List.getD_eq_getElem?_getD, List.getElem?_append_left (by rw [List.length_replicate]; exact hm), List.getElem?_replicate, if_pos hm]
        simp
    · rw [List.getElem?_eq_none (by omega), List.getElem?_eq_none (by simpa using c)]
  have hprev : (List.range (k * N)).map (accAt sr sig) = (List.range (k * N)).map (accAt sr (sig ++ x)) := by
    refine List.map_congr_left fun j hj => ?_
    rw [accAt_append]
    have hj := List.mem_range.mp hj
    have hL : period192 sr * sig.length = 15 * (k * N) := by
      have : ((period192 sr * sig.length : Nat) : Int) = (15 * (k * N) : Nat) := by
        rw [h1]; push_cast
        rw [show (period192 sr : Int) * ((k : Int) * ns dt sr) = k * ((period192 sr : Int) * ns dt sr) by ring, hpf]; ring
      exact_mod_cast this
    omega
  have hy := hpRun_out us s.hp50 y hp e1
  have hylen : y.length = N := by rw [hy.1, u1]
  have hysl : ys.length = k * N := by
    have := (hpRun_out _ _ _ _ h4).1
    simpa using this
  have hys16 := (hpRun_out _ _ _ _ h4).2
  have hkN : (k + 1) * N = k * N + N := by ring
  have h12 : s.x12k8.drop N ++ y = lastOf 384 (ys ++ y) := by
    rw [h5, ← lastOf_append 384 ys y (by omega), hylen]
  refine ⟨by rw [List.length_append, h1, hx]; ring, h2.append hv, ?_, ys ++ y, ?_, h12, ?_⟩
  · rw [h3]
    unfold lastOf
    rw [← List.drop_append_of_le_length (by rw [List.length_append]; omega), List.drop_drop, List.length_append, hx, List.append_assoc]
  · rw [hNd, hkN, List.range_add, List.map_append, ← hprev, List.map_map]
    exact hpRun_append _ _ _ s.hp50 _ _ _ h4 (by rw [← e1, hus]; rfl)
  · rw [hDi, hNd]
    rw [h12] at e2
    obtain ⟨q1, q2, -⟩ := C76_resample_6k4 _ _ _ (lastOf_all16 384 _ (hys16.append hy.2)) y6 e2
    have hk2 : (k + 1) * N / 2 = k * N / 2 + N / 2 := by
      rw [hkN]
      have : k * N % 2 = 0 := by rw [Nat.mul_mod, hN.2.2, Nat.mul_zero]
      omega
    have hkm : k * N % 2 = 0 := by rw [Nat.mul_mod, hN.2.2, Nat.mul_zero]
    have hy6 : y6 = (List.range (N / 2)).map fun i => halfAt D (ys ++ y) (k * N / 2 + i) := by
      apply List.ext_getElem (by simp [q1])
      intro i i1 i2
      have hi : i < N / 2 := by rw [← q1]; exact i1
      have := (q2 i hi).1
      rw [List.getD_eq_getElem?_getD, List.getElem?_eq_getElem i1, Option.getD_some] at this
      rw [this, List.getElem_map, List.getElem_range]
      unfold halfAt
      rw [lastOf_getD _ _ _ (by omega), lastOf_getD _ _ _ (by omega), lastOf_getD _ _ _ (by omega), lastOf_getD _ _ _ (by omega), lastOf_getD _ _ _ (by omega)]
      rw [List.length_append, hysl, hylen]
      have e0 : ((k * N + N : Nat) : Int) + ((384 - N - D + 2 * i - 1 : Nat) : Int) - (384 : Nat) = 2 * ((k * N / 2 + i : Nat) : Int) - D - 1 := by omega
      have e1 : ((k * N + N : Nat) : Int) + ((384 - N - D + 2 * i - 2 : Nat) : Int) - (384 : Nat) = 2 * ((k * N / 2 + i : Nat) : Int) - D - 2 := by omega
      have e2 : ((k * N + N : Nat) : Int) + ((384 - N - D + 2 * i : Nat) : Int) - (384 : Nat) = 2 * ((k * N / 2 + i : Nat) : Int) - D := by omega
      have e3 : ((k * N + N : Nat) : Int) + ((384 - N - D + 2 * i - 3 : Nat) : Int) - (384 : Nat) = 2 * ((k * N / 2 + i : Nat) : Int) - D - 3 := by omega
      have e4 : ((k * N + N : Nat) : Int) + ((384 - N - D + 2 * i + 1 : Nat) : Int) - (384 : Nat) = 2 * ((k * N / 2 + i : Nat) : Int) - D + 1 := by omega
      rw [e0, e1, e2, e3, e4]
    have hold : (List.range (k * N / 2)).map (halfAt D ys) = (List.range (k * N / 2)).map (halfAt D (ys ++ y)) := by
      refine List.map_congr_left fun j hj => ?_
      have hj := List.mem_range.mp hj
      unfold halfAt
      rw [sigAt_append _ _ _ (by omega), sigAt_append _ _ _ (by omega), sigAt_append _ _ _ (by omega), sigAt_append _ _ _ (by omega),
        sigAt_append _ _ _ (by omega)]
    have e : (List.range (k * N / 2 + N / 2)).map (halfAt D (ys ++ y)) = (List.range (k * N / 2)).map (halfAt D ys) ++ y6 := by
      rw [List.range_add, List.map_append, ← hold, List.map_map, hy6]; rfl
    rw [hk2, e, ← lastOf_append 178 _ y6 (by omega), q1, h6]

/-- **C77.** After any number of frames, the memories of the analysis of the pitch are those of the whole input signal `sig`, whatever the boundaries of the
frames: the last samples of the signal resampled at 12.8 kHz by one filter and filtered once from the beginning, and of its half at 6.4 kHz. -/
theorem C77_frames {R : Type} (A : Arith R) (sqrtf : R → R) (dt : Dt) (sr : Srate) (frames : List (List Int)) (hl : ∀ x ∈ frames, x.length = ns dt sr)
    (hv : ∀ x ∈ frames, ∀ v ∈ x, -32768 ≤ v ∧ v ≤ 32767) (os : List LtpfOut) (s : LtpfA R)
    (h : ltpfFrames (fun s buf => ltpfAnalyse A sqrtf dt sr s buf (nt sr)) (nt sr) (LtpfA.init A) (List.replicate (nt sr) 0) frames = some (os, s)) :
    ∃ ys, hpRun ((List.range (frames.length * ((1 + dt.idx) * 32))).map (accAt sr frames.flatten)) ⟨0, 0⟩ = some (ys, s.hp50) ∧
      s.x12k8 = lastOf 384 ys ∧
      s.x6k4 = lastOf 178 ((List.range (frames.length * ((1 + dt.idx) * 32) / 2)).map (halfAt (if dt = .m7_5 then 44 else 24) ys)) := by
  have key : ∀ (frames : List (List Int)) (sig hist : List Int) (k : Nat) (s s' : LtpfA R) (os : List LtpfOut), Streamed dt sr sig k s hist →
      (∀ x ∈ frames, x.length = ns dt sr) → (∀ x ∈ frames, ∀ v ∈ x, -32768 ≤ v ∧ v ≤ 32767) →
      ltpfFrames (fun s buf => ltpfAnalyse A sqrtf dt sr s buf (nt sr)) (nt sr) s hist frames = some (os, s') →
      ∃ hist', Streamed dt sr (sig ++ frames.flatten) (k + frames.length) s' hist' := by
    intro frames
    induction frames with
    | nil =>
      intro sig hist k s s' os h0 _ _ h
      unfold ltpfFrames at h
      cases h
      exact ⟨hist, by simpa using h0⟩
    | cons x xs ih =>
      intro sig hist k s s' os h0 hl hv h
      unfold ltpfFrames at h
      obtain ⟨⟨o, s1⟩, e1, h⟩ := Option.bind_eq_some_iff.mp h
      obtain ⟨⟨l, s2⟩, e2, h⟩ := Option.bind_eq_some_iff.mp h
      cases h
      have hx := hl x List.mem_cons_self
      have st := streamed_step A sqrtf dt sr sig k s s1 hist x o h0 hx (hv x List.mem_cons_self) e1
      have hhl : hist.length = nt sr := by rw [h0.hist, lastOf_length]
      dsimp only at e2
      rw [show (hist ++ x).length - nt sr = ns dt sr by rw [List.length_append]; omega] at e2
      obtain ⟨hist', r⟩ := ih (sig ++ x) _ (k + 1) s1 s2 l st (fun y hy => hl y (List.mem_cons_of_mem _ hy)) (fun y hy => hv y (List.mem_cons_of_mem _ hy)) e2
      refine ⟨hist', ?_⟩
      rw [List.flatten_cons, ← List.append_assoc, List.length_cons, show k + (xs.length + 1) = k + 1 + xs.length by omega]
      exact r
  obtain ⟨hist', r⟩ := key frames [] _ 0 _ s os (streamed_init A dt sr) hl hv h
  rw [List.nil_append, Nat.zero_add] at r
  exact r.ys

/-- **C77.** Two encoders of the same input, with frames of different durations, analyse the same signal at 12.8 kHz, and the same signal at 6.4 kHz unless
one of them only uses frames of 7.5 ms. -/
theorem C77_boundaries {R : Type} (A : Arith R) (sqrtf : R → R) (dt dt' : Dt) (sr : Srate) (frames frames' : List (List Int))
    (hl : ∀ x ∈ frames, x.length = ns dt sr) (hl' : ∀ x ∈ frames', x.length = ns dt' sr) (hv : ∀ x ∈ frames, ∀ v ∈ x, -32768 ≤ v ∧ v ≤ 32767)
    (hsame : frames'.flatten = frames.flatten) (os os' : List LtpfOut) (s s' : LtpfA R)
    (h : ltpfFrames (fun s buf => ltpfAnalyse A sqrtf dt sr s buf (nt sr)) (nt sr) (LtpfA.init A) (List.replicate (nt sr) 0) frames = some (os, s))
    (h' : ltpfFrames (fun s buf => ltpfAnalyse A sqrtf dt' sr s buf (nt sr)) (nt sr) (LtpfA.init A) (List.replicate (nt sr) 0) frames' = some (os', s')) :
    s'.x12k8 = s.x12k8 ∧ s'.hp50 = s.hp50 ∧ ((dt = .m7_5 ↔ dt' = .m7_5) → s'.x6k4 = s.x6k4) := by
  have hv' : ∀ x ∈ frames', ∀ v ∈ x, -32768 ≤ v ∧ v ≤ 32767 := by
    intro x hx v hxv
    have : v ∈ frames.flatten := by rw [← hsame]; exact List.mem_flatten.mpr ⟨x, hx, hxv⟩
    obtain ⟨y, hy, hyv⟩ := List.mem_flatten.mp this
    exact hv y hy v hyv
  obtain ⟨ys, a1, a2, a3⟩ := C77_frames A sqrtf dt sr frames hl hv os s h
  obtain ⟨ys', b1, b2, b3⟩ := C77_frames A sqrtf dt' sr frames' hl' hv' os' s' h'
  have len : ∀ (n : Nat) (l : List (List Int)), (∀ x ∈ l, x.length = n) → l.flatten.length = l.length * n := by
    intro n l hh
    induction l with
    | nil => simp
    | cons x xs ih =>
      rw [List.flatten_cons, List.length_append, hh x List.mem_cons_self, ih fun y hy => hh y (List.mem_cons_of_mem _ hy), List.length_cons]; ring
  have e1 := len _ _ hl
  have e2 := len _ _ hl'
  rw [hsame, e1] at e2
  have e3 : frames'.length * ((1 + dt'.idx) * 32) = frames.length * ((1 + dt.idx) * 32) := by
    have n0 : 0 < ns2m5 sr := by cases sr <;> decide
    unfold ns at e2
    have : ns2m5 sr * (frames.length * (1 + dt.idx)) = ns2m5 sr * (frames'.length * (1 + dt'.idx)) := by
      rw [show ns2m5 sr * (frames.length * (1 + dt.idx)) = frames.length * (ns2m5 sr * (1 + dt.idx)) by ring, e2]; ring
    have := Nat.eq_of_mul_eq_mul_left n0 this
    rw [← Nat.mul_assoc, ← Nat.mul_assoc, this]
  rw [hsame, e3, a1] at b1
  have b1 := Prod.mk.inj (Option.some.inj b1)
  obtain ⟨rfl, b4⟩ := b1
  refine ⟨by rw [a2, b2], b4.symm, fun hh => ?_⟩
  rw [a3, b3, e3]
  by_cases c : dt = .m7_5
  · rw [if_pos c, if_pos (hh.mp c)]
  · rw [if_neg c, if_neg (fun c' => c (hh.mpr c'))]

/-! ### The encoder -/

/-- The samples, of 16 bits, of the calls that are accepted. -/
def encInput {R α : Type} (dt : Dt) (sr srPcm : Srate) : List (EncOp R α) → List Int
  | [] => []
  | .encode c :: l =>
    (if c.nbytes < minFrameBytes dt sr ∨ c.nbytes > maxFrameBytes dt sr then [] else ((c.samples (ns dt srPcm)).getD []).map Prod.fst) ++ encInput dt sr srPcm l
  | .disableLtpf :: l => encInput dt sr srPcm l

theorem encode_streamed {R α : Type} [Inhabited R] (P : EncPlatform R) (e e' : Enc R) (hi : EncInv e) (hbp : e.bypass = false) (c : EncCall R α) (v : List (Int × R))
    (hv : c.samples (ns e.dt e.srPcm) = some v) (hvl : v.length = ns e.dt e.srPcm) (h16 : ∀ p ∈ v, -32768 ≤ p.1 ∧ p.1 ≤ 32767)
    (f : List Nat) (h : encProcess P c e = some (f, e')) (sig : List Int) (k : Nat) (hs : Streamed e.dt e.srPcm sig k e.ltpf (e.xt.take (nt e.srPcm))) :
    Streamed e.dt e.srPcm (sig ++ v.map Prod.fst) (k + 1) e'.ltpf (e'.xt.take (nt e.srPcm)) := by
  unfold encProcess at h
  unfold EncCall.samples at hv
  rw [hv, Option.bind_some] at h
  obtain ⟨a, k1, h⟩ := Option.bind_eq_some_iff.1 h
  have ha : e' = a.2 := by
    split at h
    · cases h
    · obtain ⟨f, -, h⟩ := Option.bind_eq_some_iff.1 h
      cases h; rfl
  subst ha
  unfold encAnalyze at k1
  obtain ⟨att, -, k1⟩ := Option.bind_eq_some_iff.1 k1
  obtain ⟨pitch, kp, k1⟩ := Option.bind_eq_some_iff.1 k1
  obtain ⟨_, -, k1⟩ := Option.bind_eq_some_iff.1 k1
  obtain ⟨_, -, k1⟩ := Option.bind_eq_some_iff.1 k1
  obtain ⟨_, -, k1⟩ := Option.bind_eq_some_iff.1 k1
  obtain ⟨_, -, k1⟩ := Option.bind_eq_some_iff.1 k1
  obtain ⟨_, -, k1⟩ := Option.bind_eq_some_iff.1 k1
  obtain ⟨_, -, k1⟩ := Option.bind_eq_some_iff.1 k1
  cases k1
  unfold encPitch at kp
  rw [if_neg (by show ¬ e.bypass = true; rw [hbp]; decide)] at kp
  obtain ⟨⟨o, s'⟩, kr, kp⟩ := Option.bind_eq_some_iff.1 kp
  cases kp
  have st := streamed_step P.A P.sqrt e.dt e.srPcm sig k e.ltpf s' _ (v.map Prod.fst) o hs (by rw [List.length_map, hvl])
    (fun x hx => by
      obtain ⟨p, hp, rfl⟩ := List.mem_map.mp hx
      exact h16 p hp) kr
  have ex : (encShift (encLoad v e) (encLoad v e).xt).take (nt e.srPcm) = (e.xt.take (nt e.srPcm) ++ v.map Prod.fst).drop (ns e.dt e.srPcm) := by
    have hl : (e.xt.take (nt e.srPcm) ++ v.map Prod.fst).length = nt e.srPcm + ns e.dt e.srPcm := by
      rw [List.length_append, List.length_take, List.length_map, hvl, hi.xt]; omega
    show ((((e.xt.take (nt e.srPcm) ++ v.map Prod.fst).drop (ns e.dt e.srPcm)).take (nt e.srPcm)) ++ _).take (nt e.srPcm) = _
    rw [List.take_of_length_le (l := (e.xt.take (nt e.srPcm) ++ v.map Prod.fst).drop (ns e.dt e.srPcm)) (by rw [List.length_drop]; omega),
      List.take_append_of_le_length (by rw [List.length_drop]; omega), List.take_of_length_le (by rw [List.length_drop]; omega)]
  show Streamed e.dt e.srPcm _ _ s' ((encShift (encLoad v e) (encLoad v e).xt).take (nt e.srPcm))
  rw [ex]
  exact st

/-- **C77.** After any sequence of calls on an encoder just set up, accepted or not, the memories of the analysis of the pitch are those of the signal made of
the samples of the calls accepted. -/
theorem C77_encoder {R α : Type} [Inhabited R] (P : EncPlatform R) (hA : CandidatesOk P.A) (hr : Bool) (dtUs srHz srPcmHz : Int) (ops : List (EncOp R α))
    (rets : List (Option (Int × List Nat))) (e : Enc R) (h : EncPlayed P hr dtUs srHz srPcmHz ops rets e) (hb : EncOp.disableLtpf ∉ ops) :
    let sig := encInput e.dt e.sr e.srPcm ops
    let n := sig.length / ns e.dt e.srPcm * ((1 + e.dt.idx) * 32)
    e.xt.take (nt e.srPcm) = lastOf (nt e.srPcm) sig ∧
    ∃ ys, hpRun ((List.range n).map (accAt e.srPcm sig)) ⟨0, 0⟩ = some (ys, e.ltpf.hp50) ∧ e.ltpf.x12k8 = lastOf 384 ys ∧
      e.ltpf.x6k4 = lastOf 178 ((List.range (n / 2)).map (halfAt (if e.dt = .m7_5 then 44 else 24) ys)) := by
  obtain ⟨hok, e0, h0, h1⟩ := h
  obtain ⟨i0, b0, -, -, -⟩ := encSetup_inv P hr dtUs srHz srPcmHz true e0 h0
  have key : ∀ (ops : List (EncOp R α)) (e0 e : Enc R) (rets : List (Option (Int × List Nat))) (sig : List Int) (k : Nat), EncInv e0 → e0.bypass = false →
      (∀ c, .encode c ∈ ops → c.Ok (ns e0.dt e0.srPcm)) → EncOp.disableLtpf ∉ ops → encRun P ops (some e0) = some (rets, some e) →
      Streamed e0.dt e0.srPcm sig k e0.ltpf (e0.xt.take (nt e0.srPcm)) →
      e.dt = e0.dt ∧ e.sr = e0.sr ∧ e.srPcm = e0.srPcm ∧
        ∃ k', Streamed e.dt e.srPcm (sig ++ encInput e.dt e.sr e.srPcm ops) k' e.ltpf (e.xt.take (nt e.srPcm)) := by
    intro ops
    induction ops with
    | nil =>
      intro e0 e rets sig k _ _ _ _ h st
      unfold encRun at h
      cases h
      exact ⟨rfl, rfl, rfl, k, by simpa [encInput] using st⟩
    | cons o l ih =>
      intro e0 e rets sig k hi hbp hc hb h st
      unfold encRun at h
      obtain ⟨⟨r, e1⟩, g1, g2⟩ := Option.bind_eq_some_iff.1 h
      obtain ⟨⟨rs, e2⟩, g3, g4⟩ := Option.map_eq_some_iff.1 g2
      rw [Prod.mk.injEq] at g4
      obtain ⟨rfl, rfl⟩ := g4
      dsimp only at g3
      cases o with
      | disableLtpf => exact absurd List.mem_cons_self hb
      | encode c =>
        have hb' : EncOp.disableLtpf ∉ l := fun hh => hb (List.mem_cons_of_mem _ hh)
        unfold encStep at g1
        obtain ⟨⟨r', out, e'⟩, g5, g6⟩ := Option.map_eq_some_iff.1 g1
        dsimp only at g6
        rw [Prod.mk.injEq] at g6
        obtain ⟨rfl, rfl⟩ := g6
        by_cases hn : c.nbytes < minFrameBytes e0.dt e0.sr ∨ c.nbytes > maxFrameBytes e0.dt e0.sr
        · rw [(C09_encode_rejected P c).2 e0 hn] at g5
          have g5 := Option.some.inj g5
          rw [Prod.mk.injEq, Prod.mk.injEq] at g5
          obtain ⟨-, -, rfl⟩ := g5
          obtain ⟨a1, a2, a3, k', a4⟩ := ih e0 e rs sig k hi hbp (fun c h => hc c (by simp [h])) hb' g3 st
          refine ⟨a1, a2, a3, k', ?_⟩
          unfold encInput
          rw [if_pos (by rw [a1, a2]; exact hn), List.nil_append]
          exact a4
        · obtain ⟨v, s, v1, -, -, -, -, hs⟩ := encode_step P hA e0 hi c (hc c (by simp)) hn
          obtain ⟨f, e1, rfl, rfl, -, -, -, b1, b2, b3, b4, b5, -⟩ := hs _ _ _ g5
          obtain ⟨v', v1', v2, v3⟩ := samples_some c _ (hc c (by simp))
          rw [v1] at v1'
          cases v1'
          have hp : ∃ w, encProcess P c e0 = some (w, e1) := by
            unfold lc3Encode at g5
            dsimp only at g5
            rw [if_neg hn] at g5
            obtain ⟨w, w1, w2⟩ := Option.map_eq_some_iff.1 g5
            rw [Prod.mk.injEq, Prod.mk.injEq] at w2
            exact ⟨w.1, by rw [w1, ← Option.some.inj w2.2.2]⟩
          obtain ⟨w, hw⟩ := hp
          have st' := encode_streamed P e0 e1 hi hbp c v v1 v2 v3 w hw sig k st
          rw [← b2, ← b4] at st'
          obtain ⟨a1, a2, a3, k', a4⟩ := ih e1 e rs (sig ++ v.map Prod.fst) (k + 1) b1 (by rw [b5, hbp]) (fun c h => by rw [b2, b4]; exact hc c (by simp [h])) hb' g3 st'
          refine ⟨by rw [a1, b2], by rw [a2, b3], by rw [a3, b4], k', ?_⟩
          unfold encInput
          rw [if_neg (by rw [a1, a2, b2, b3]; exact hn), a1, a3, b2, b4, v1, Option.getD_some, ← List.append_assoc, ← b2, ← b4, ← a1, ← a3]
          exact a4
  have hst : Streamed e0.dt e0.srPcm [] 0 e0.ltpf (e0.xt.take (nt e0.srPcm)) := by
    have hl := i0.xt
    unfold encSetup at h0
    obtain ⟨l, -, h0⟩ := Option.map_eq_some_iff.1 h0
    obtain ⟨l, -, h0⟩ := Option.map_eq_some_iff.1 h0
    subst h0
    dsimp only at hl ⊢
    rw [List.length_replicate] at hl
    rw [List.take_replicate, hl, Nat.min_eq_left (by omega)]
    exact streamed_init P.A _ _
  have hinv := EncPlayed.inv hA ⟨hok, e0, h0, h1⟩
  obtain ⟨-, -, c1, -, c3⟩ := encSetup_inv P hr dtUs srHz srPcmHz true e0 h0
  obtain ⟨-, d1, -, d3, -, -⟩ := hinv
  rw [c1] at d1
  rw [c3] at d3
  have d1 := Option.some.inj d1
  have d3 := Option.some.inj d3
  obtain ⟨-, -, -, k', st⟩ := key ops e0 e rets [] 0 i0 b0 (fun c hc => by rw [d1, d3]; exact hok c hc) hb h1 hst
  rw [List.nil_append] at st
  obtain ⟨s1, -, s3, s4⟩ := st
  dsimp only
  have hn0 : 0 < ns e.dt e.srPcm := by cases e.dt <;> cases e.srPcm <;> decide
  rw [s1, Nat.mul_div_cancel _ hn0]
  exact ⟨s3, s4⟩

/-! ### Example -/

/-- 10 ms at 8 kHz as one frame, or as two frames of 5 ms: the memories are the same. -/
example : let x := (List.range 80).map fun i => if i % 20 < 10 then (8000 : Int) else -8000
    ∃ os os' s s', ltpfFrames (fun s buf => ltpfAnalyse Arith.exact id .m10 .k8 s buf (nt .k8)) (nt .k8) (LtpfA.init Arith.exact) (List.replicate (nt .k8) 0) [x] = some (os, s) ∧
      ltpfFrames (fun s buf => ltpfAnalyse Arith.exact id .m5 .k8 s buf (nt .k8)) (nt .k8) (LtpfA.init Arith.exact) (List.replicate (nt .k8) 0) [x.take 40, x.drop 40] = some (os', s') ∧
      s'.x12k8 = s.x12k8 ∧ s'.x6k4 = s.x6k4 := by
  intro x
  have hv : ∀ v ∈ x, -15600 ≤ v ∧ v ≤ 15600 := by decide +kernel
  obtain ⟨os, s, h1, -⟩ := C39_level Arith.exact id .m10 .k8 [x] (by decide +kernel) (fun y hy => by rw [List.mem_singleton.mp hy]; exact hv)
  obtain ⟨os', s', h2, -⟩ := C39_level Arith.exact id .m5 .k8 [x.take 40, x.drop 40] (by decide +kernel) (by decide +kernel)
  obtain ⟨a, -, b⟩ := C77_boundaries Arith.exact id .m10 .m5 .k8 [x] [x.take 40, x.drop 40] (by decide +kernel) (by decide +kernel) (by decide +kernel) (by decide +kernel)
    os os' s s' h1 h2
  exact ⟨os, os', s, s', h1, h2, a, b (by decide)⟩

end LC3
