import Verif.Nonlin.DriverFacts

/-!
# C77: natural parameter continuation
-/

namespace Russell.Nonlin

open Russell Russell.Res

variable {n : Nat} {A : Type}

/-! ## Convergence -/

theorem foldl_max_lt {α : Type} (f : α → ℝ) (t : ℝ) : ∀ (xs : List α) (m : ℝ),
    xs.foldl (fun m x => max m (f x)) m < t ↔ m < t ∧ ∀ x ∈ xs, f x < t
  | [], m => by simp
  | x :: xs, m => by
    rw [List.foldl_cons, foldl_max_lt f t xs]
    simp [max_lt_iff, and_assoc]

/-- the maximum norm is less than a positive number exactly when all components are -/
theorem normMax_lt {u : Vec n} {t : ℝ} (ht : 0 < t) : normMax u < t ↔ ∀ i, |u i| < t := by
  unfold normMax
  rw [foldl_max_lt (fun x => |x|)]
  simp [ht]

/-- The Newton iterations ended at the trial state `(u1, l1)` of a step that started at `u0`: either all residuals are
smaller than the tolerance, or (unless this has been disabled) the correction computed from the Jacobian matrix at the trial
state (not applied any more) is small compared to the tolerances and the size of `u0`. -/
inductive ConvergedAt (c : Config) (sys : System n A) (L : LinSol n) (u0 u1 : Vec n) (l1 : ℝ) : Prop where
  | residual {a a1 gg} : sys.calcG l1 u1 a = ok (gg, a1) → (∀ i, |gg i| < c.tolAbsResidual) → ConvergedAt c sys L u0 u1 l1
  | delta {a a1 a2 gg K ggl f x} : c.disableRelDelta = false → sys.calcG l1 u1 a = ok (gg, a1) → sys.calcJ l1 u1 a1 = ok (K, ggl, a2) →
    L.factorize K = ok f → L.solve f gg = ok x →
    Real.sqrt ((∑ i, (x i / (c.tolAbsDelta + c.tolRelDelta * |u0 i|)) ^ 2) / n) ≤ 1 → ConvergedAt c sys L u0 u1 l1

/-- the iteration loop ends with success only after convergence -/
theorem iterLoop_success {σ : Type} {c : Config} {it : σ → Work n → A → Res (σ × Work n × A × Status)}
    {P Q : σ → Work n → A → Prop}
    (hPs : ∀ s w a x, P s w a → P s { w with stats := x } a) (hPi : ∀ s w a x, P s w a → P s { w with nIter := x } a)
    (hQs : ∀ s w a x, Q s w a → Q s { w with stats := x } a)
    (hit : ∀ s w a s' w' a', P s w a → it s w a = ok (s', w', a', .success) →
      (w'.err.converged = true → Q s' w' a') ∧
      (w'.err.converged = false → P s' w' a' ∧ w'.nIter = w.nIter ∧ w.nIter ≠ c.nIterationMax - 1)) :
    ∀ (k : Nat) (s : σ) (w : Work n) (a : A) (st : Status) {s' w' a'}, P s w a → 0 < k → w.nIter + k = c.nIterationMax →
      iterLoop c it k s w a st = ok (s', w', a', .success) → Q s' w' a'
  | 0, s, w, a, st, s', w', a', hp, hk, hi, h => by omega
  | k + 1, s, w, a, st, s', w', a', hp, hk, hi, h => by
    unfold iterLoop at h
    obtain ⟨⟨s1, w1, a1, st1⟩, h1, h⟩ := bind_eq_ok.1 h
    simp only at h
    split at h
    · next hf =>
      have := ok.inj h
      simp only [Prod.mk.injEq] at this
      rw [this.2.2.2] at hf
      cases hf
    · next hf =>
      rw [success_of_not_failure hf] at h1 h
      obtain ⟨g1, g2⟩ := hit _ _ _ _ _ _ (hPs _ _ _ _ hp) h1
      split at h
      · next hc =>
        cases ok.inj h
        exact hQs _ _ _ _ (g1 hc)
      · next hc =>
        obtain ⟨g3, g4, g5⟩ := g2 (by simpa using hc)
        simp only at g4 g5
        rcases Nat.eq_zero_or_pos k with rfl | hk0
        · omega
        · refine iterLoop_success hPs hPi hQs hit k _ _ _ _
            (hPi s1 { w1 with stats := w1.stats.recAppend c w1.err.residualMax } a1 (w1.nIter + 1) (hPs _ _ _ _ g3)) hk0 ?_ h
          simp only
          omega

/-- an invariant of the iteration loop, whatever the status -/
theorem iterLoop_inv {σ : Type} {c : Config} {it : σ → Work n → A → Res (σ × Work n × A × Status)}
    {P : σ → Work n → A → Prop}
    (hPs : ∀ s w a x, P s w a → P s { w with stats := x } a) (hPi : ∀ s w a x, P s w a → P s { w with nIter := x } a)
    (hit : ∀ s w a s' w' a' st, P s w a → it s w a = ok (s', w', a', st) → P s' w' a') :
    ∀ (k : Nat) (s : σ) (w : Work n) (a : A) (st : Status) {s' w' a' st'}, P s w a →
      iterLoop c it k s w a st = ok (s', w', a', st') → P s' w' a'
  | 0, s, w, a, st, s', w', a', st', hp, h => by
    unfold iterLoop at h
    cases ok.inj h
    exact hp
  | k + 1, s, w, a, st, s', w', a', st', hp, h => by
    unfold iterLoop at h
    obtain ⟨⟨s1, w1, a1, st1⟩, h1, h⟩ := bind_eq_ok.1 h
    have g := hit _ _ _ _ _ _ _ (hPs _ _ _ _ hp) h1
    simp only at h
    split at h
    · cases ok.inj h
      exact g
    split at h
    · cases ok.inj h
      exact hPs _ _ _ _ g
    · exact iterLoop_inv hPs hPi hit k _ _ _ _
        (hPi s1 { w1 with stats := w1.stats.recAppend c w1.err.residualMax } a1 (w1.nIter + 1) (hPs _ _ _ _ g)) h

theorem natJac_spec {c : Config} {sys : System n A} {L : LinSol n} {s s' : Nat' n L.F} {w w' : Work n} {a a' : A}
    (h : natJac c sys L s w a = ok (s', w', a')) : ∃ K f st, sys.calcJ w.l w.u a = ok (K, s'.ggl, a') ∧
      L.factorize K = ok f ∧ s' = { s with ggl := s'.ggl, ls := some f } ∧ w' = { w with stats := st } := by
  unfold natJac at h
  obtain ⟨⟨K, ggl, a1⟩, h1, h⟩ := bind_eq_ok.1 h
  simp only at h
  split at h
  · cases h
  · obtain ⟨f, h2, h⟩ := bind_eq_ok.1 h
    cases ok.inj h
    exact ⟨K, f, _, h1, h2, rfl, rfl⟩

/-- the part of the state that the iterations do not change -/
def NatFix {F : Type} (sg : ℝ) (up : Vec n) (l h : ℝ) (sc : Nat → ℝ) (s : Nat' n F) (w : Work n) : Prop :=
  s.sign0 = sg ∧ s.uPrev = up ∧ w.l = l ∧ w.h = h ∧ w.err.scaling = sc

theorem analyzeResidual_spec {c : Config} {fin : ℝ → Bool} {it : Nat} {gg : Vec n} {nn : ℝ} {e : IterErr} :
    (e.analyzeResidual c fin it gg nn).2.scaling = e.scaling ∧
    (e.analyzeResidual c fin it gg nn).2.deltaConverged = e.deltaConverged ∧
    ((e.analyzeResidual c fin it gg nn).1 = false →
      (e.analyzeResidual c fin it gg nn).2.residualConverged = decide (max (normMax gg) |nn| < c.tolAbsResidual)) := by
  unfold IterErr.analyzeResidual
  simp only
  split
  · exact ⟨rfl, rfl, fun h => by cases h⟩
  · exact ⟨rfl, rfl, fun _ => rfl⟩

theorem analyzeDelta_spec {c : Config} {fin : ℝ → Bool} {it m : Nat} {x : Vec m} {e : IterErr} :
    (e.analyzeDelta c fin it x).2.scaling = e.scaling ∧
    (e.analyzeDelta c fin it x).2.residualConverged = e.residualConverged ∧
    ((e.analyzeDelta c fin it x).1 = false → (e.analyzeDelta c fin it x).2.deltaConverged = true →
      e.deltaConverged = true ∨ c.disableRelDelta = false ∧ rms e.scaling x ≤ 1) := by
  unfold IterErr.analyzeDelta
  simp only
  split
  · exact ⟨rfl, rfl, fun _ h => Or.inl h⟩
  next hdis =>
  split
  · exact ⟨rfl, rfl, fun h => by cases h⟩
  · exact ⟨rfl, rfl, fun _ h => Or.inr ⟨by simpa using hdis, by simpa using h⟩⟩

theorem captureFailures_spec (c : Config) (it : Nat) (e : IterErr) :
    (e.captureFailures c it).2.scaling = e.scaling ∧ (e.captureFailures c it).2.residualConverged = e.residualConverged ∧
    (e.captureFailures c it).2.deltaConverged = e.deltaConverged ∧
    ((e.captureFailures c it).1 = .success → it ≠ c.nIterationMax - 1) := by
  unfold IterErr.captureFailures
  split
  · exact ⟨rfl, rfl, rfl, fun h => by cases h⟩
  split
  · exact ⟨rfl, rfl, rfl, fun h => by cases h⟩
  split
  · exact ⟨rfl, rfl, rfl, fun h => by cases h⟩
  split
  · exact ⟨rfl, rfl, rfl, fun h => by cases h⟩
  · next h => exact ⟨rfl, rfl, rfl, fun _ => h⟩

theorem natIterate_fix {c : Config} {fin : ℝ → Bool} {sys : System n A} {L : LinSol n} {s s' : Nat' n L.F}
    {w w' : Work n} {u : Vec n} {l : ℝ} {a a' : A} {st : Status} {sg l1 hh : ℝ} {up : Vec n} {sc : Nat → ℝ}
    (hf : NatFix sg up l1 hh sc s w) (h : natIterate c fin sys L s w u l a = ok (s', w', a', st)) :
    NatFix sg up l1 hh sc s' w' ∧ w'.nIter = w.nIter := by
  obtain ⟨f1, f2, f3, f4, f5⟩ := hf
  unfold natIterate at h
  obtain ⟨⟨gg, a1⟩, h1, h⟩ := bind_eq_ok.1 h
  simp only at h
  have hr := (analyzeResidual_spec (c := c) (fin := fin) (it := w.nIter) (gg := gg) (nn := 0) (e := w.err)).1
  split at h
  · cases ok.inj h
    exact ⟨⟨f1, f2, f3, f4, hr.trans f5⟩, rfl⟩
  split at h
  · cases ok.inj h
    exact ⟨⟨f1, f2, f3, f4, hr.trans f5⟩, rfl⟩
  unfold natCorrect at h
  obtain ⟨⟨s1, w1, a2⟩, h2, h⟩ := bind_eq_ok.1 h
  obtain ⟨K, f, st1, -, -, e3, e4⟩ := natJac_spec h2
  simp only at h
  obtain ⟨mdu, h3, h⟩ := bind_eq_ok.1 h
  have hs1 : s1.sign0 = sg ∧ s1.uPrev = up := by rw [e3]; exact ⟨f1, f2⟩
  have hw1 : w1.l = l1 ∧ w1.h = hh ∧ w1.err.scaling = sc ∧ w1.nIter = w.nIter := by
    rw [e4]; exact ⟨f3, f4, hr.trans f5, rfl⟩
  have hd := (analyzeDelta_spec (c := c) (fin := fin) (it := w1.nIter) (x := mdu) (e := w1.err)).1
  split at h
  · cases ok.inj h
    exact ⟨⟨hs1.1, hs1.2, hw1.1, hw1.2.1, hd.trans hw1.2.2.1⟩, hw1.2.2.2⟩
  split at h
  · cases ok.inj h
    exact ⟨⟨hs1.1, hs1.2, hw1.1, hw1.2.1, hd.trans hw1.2.2.1⟩, hw1.2.2.2⟩
  have h := ok.inj h
  unfold natUpdate at h
  simp only at h
  have hcf := (captureFailures_spec c w1.nIter (w1.err.analyzeDelta c fin w1.nIter mdu).2).1
  split at h
  · cases h
    exact ⟨⟨hs1.1, hs1.2, hw1.1, hw1.2.1, hcf.trans (hd.trans hw1.2.2.1)⟩, hw1.2.2.2⟩
  · cases h
    exact ⟨⟨hs1.1, hs1.2, hw1.1, hw1.2.1, hcf.trans (hd.trans hw1.2.2.1)⟩, hw1.2.2.2⟩

/-- one iteration that returns success has converged at the present trial state or is followed by another one -/
theorem natIterate_spec {c : Config} {fin : ℝ → Bool} {sys : System n A} {L : LinSol n} {s s' : Nat' n L.F}
    {w w' : Work n} {u : Vec n} {l : ℝ} {a a' : A} (ht : 0 < c.tolAbsResidual) (hd : w.err.deltaConverged = false)
    (hsc : ∀ i : Fin n, w.err.scaling i = c.tolAbsDelta + c.tolRelDelta * |u i|)
    (h : natIterate c fin sys L s w u l a = ok (s', w', a', .success)) :
    (w'.err.converged = true → ConvergedAt c sys L u w'.u w'.l) ∧
    (w'.err.converged = false → w'.err.deltaConverged = false ∧ w.nIter ≠ c.nIterationMax - 1) := by
  unfold natIterate at h
  obtain ⟨⟨gg, a1⟩, h1, h⟩ := bind_eq_ok.1 h
  simp only at h1 h
  have hr := analyzeResidual_spec (c := c) (fin := fin) (it := w.nIter) (gg := gg) (nn := 0) (e := w.err)
  split at h
  · have := ok.inj h
    simp at this
  next hnan =>
  simp only [Bool.not_eq_true] at hnan
  obtain ⟨r1, r2, r3⟩ := hr
  have r3 := r3 hnan
  split at h
  · next hc =>
    cases ok.inj h
    refine ⟨fun _ => ?_, fun h => ?_⟩
    · unfold IterErr.converged at hc
      rw [r2, hd, r3] at hc
      simp only [Bool.or_false, decide_eq_true_eq, max_lt_iff, normMax_lt ht] at hc
      exact .residual h1 hc.1
    · rw [hc] at h; cases h
  next hc =>
  have hc0 : (w.err.analyzeResidual c fin w.nIter gg 0).2.residualConverged = false := by
    simp only [IterErr.converged, Bool.or_eq_true, not_or, Bool.not_eq_true] at hc
    exact hc.1
  unfold natCorrect at h
  obtain ⟨⟨s1, w1, a2⟩, h2, h⟩ := bind_eq_ok.1 h
  obtain ⟨K, f, st1, e1, e2, e3, e4⟩ := natJac_spec h2
  simp only at h e1
  obtain ⟨mdu, h3, h⟩ := bind_eq_ok.1 h
  have herr : w1.err = (w.err.analyzeResidual c fin w.nIter gg 0).2 := by rw [e4]
  have hu : w1.u = w.u ∧ w1.l = w.l ∧ w1.gg = gg ∧ w1.nIter = w.nIter := by rw [e4]; exact ⟨rfl, rfl, rfl, rfl⟩
  obtain ⟨d1, d2, d3⟩ := analyzeDelta_spec (c := c) (fin := fin) (it := w1.nIter) (x := mdu) (e := w1.err)
  rw [herr] at d2 d3
  split at h
  · have := ok.inj h
    simp at this
  next hnan2 =>
  split at h
  · next hc2 =>
    cases ok.inj h
    refine ⟨fun _ => ?_, fun h => ?_⟩
    · simp only [IterErr.converged] at hc2
      rw [herr, d2, hc0, Bool.false_or] at hc2
      have hrms := d3 (by rw [← herr]; simpa using hnan2) hc2
      rw [r2, hd] at hrms
      rw [e3] at h3
      have hls : L.solve f gg = ok mdu := by
        simp only [LinSol.run, hu.2.2.1] at h3
        exact h3
      show ConvergedAt c sys L u w1.u w1.l
      rw [hu.1, hu.2.1]
      rcases hrms with h | ⟨hdis, h⟩
      · cases h
      · refine .delta hdis h1 e1 e2 hls ?_
        unfold rms at h
        rw [r1] at h
        simp only [hsc] at h
        simpa [sq] using h
    · simp only at h
      rw [hc2] at h; cases h
  next hc2 =>
  have h := ok.inj h
  unfold natUpdate at h
  simp only at h
  have hcf := captureFailures_spec c w1.nIter (w1.err.analyzeDelta c fin w1.nIter mdu).2
  have hno : (w1.err.analyzeDelta c fin w1.nIter mdu).2.converged = false := by simpa using hc2
  split at h
  · next hfl =>
    have := congrArg (fun x => x.2.2.2) h
    simp only at this
    rw [this] at hfl
    cases hfl
  · next hfl =>
    have hs := success_of_not_failure hfl
    have hw' : w'.err = ((w1.err.analyzeDelta c fin w1.nIter mdu).2.captureFailures c w1.nIter).2 := by
      rw [← congrArg (fun x => x.2.1.err) h]
    have hconv : w'.err.converged = false := by
      rw [hw']
      unfold IterErr.converged at hno ⊢
      rw [hcf.2.1, hcf.2.2.1]; exact hno
    refine ⟨fun h => ?_, fun _ => ⟨?_, ?_⟩⟩
    · rw [hconv] at h; cases h
    · rw [hw', hcf.2.2.1]
      unfold IterErr.converged at hno
      simp only [Bool.or_eq_false_iff] at hno
      exact hno.2
    · rw [← hu.2.2.2]
      exact hcf.2.2.2 hs

theorem natPredict_spec {c : Config} {sys : System n A} {L : LinSol n} {s s' : Nat' n L.F} {w w' : Work n} {u : Vec n}
    {l : ℝ} {a a' : A} (h : natPredict c sys L s w u l a = ok (s', w', a')) :
    s'.sign0 = s.sign0 ∧ s'.uPrev = s.uPrev ∧ ∃ st x, w' = { w with stats := st, u := x } := by
  unfold natPredict at h
  split at h
  · obtain ⟨⟨s1, w1, a1⟩, h1, h⟩ := bind_eq_ok.1 h
    obtain ⟨mdu, h2, h⟩ := bind_eq_ok.1 h
    cases ok.inj h
    unfold natFirstJac at h1
    split at h1
    · cases ok.inj h1
      exact ⟨rfl, rfl, w.stats, _, rfl⟩
    · obtain ⟨⟨s2, w2, a2⟩, h3, h1⟩ := bind_eq_ok.1 h1
      cases ok.inj h1
      obtain ⟨K, f, st, -, -, e3, e4⟩ := natJac_spec h3
      refine ⟨by rw [e3], by rw [e3], st, fun i => 1 * u i + (-(w1.l - l)) * mdu i, ?_⟩
      rw [e4]
  · cases ok.inj h
    exact ⟨rfl, rfl, w.stats, u, rfl⟩

/-- one step: λ and the stepsize are those of the predictor, and success means convergence -/
theorem natStep_spec {c : Config} {fin : ℝ → Bool} {sys : System n A} {L : LinSol n} {s s' : Nat' n L.F}
    {w w' : Work n} {u : Vec n} {l : ℝ} {stop : Stop} {a a' : A} {st : Status} (ht : 0 < c.tolAbsResidual)
    (hi : 1 ≤ c.nIterationMax) (h : natStep c fin sys L s w u l stop a = ok (s', w', a', st)) :
    s'.sign0 = s.sign0 ∧ s'.uPrev = s.uPrev ∧ w'.h = (natLambda s w l stop).h ∧ w'.l = (natLambda s w l stop).l ∧
    (st = .success → ConvergedAt c sys L u w'.u w'.l) := by
  unfold natStep at h
  simp only at h
  obtain ⟨⟨s1, w1, a1⟩, h1, h⟩ := bind_eq_ok.1 h
  obtain ⟨p1, p2, st1, x, p3⟩ := natPredict_spec h1
  have hl : ∀ w2 : Work n, w2.h = w.h → (natLambda s w2 l stop).h = (natLambda s w l stop).h ∧
      (natLambda s w2 l stop).l = (natLambda s w l stop).l ∧ (natLambda s w2 l stop).err = w2.err := by
    intro w2 hw2
    unfold natLambda
    split
    · simp only [hw2]; exact ⟨trivial, trivial, trivial⟩
    · simp only [hw2]
      split
      · exact ⟨rfl, rfl, rfl⟩
      · simp only [hw2]; exact ⟨trivial, trivial, trivial⟩
  obtain ⟨q1, q2, q3⟩ := hl (stepBegin c sys w u l a).1 rfl
  have hfix : NatFix s.sign0 s.uPrev (natLambda s w l stop).l (natLambda s w l stop).h (w.err.reset c u l).scaling s1 w1 := by
    rw [p3]
    exact ⟨p1, p2, q2, q1, congrArg IterErr.scaling q3⟩
  have hdc : w1.err.deltaConverged = false := by
    rw [p3]
    exact congrArg IterErr.deltaConverged q3
  simp only at h
  split at h
  · next hf =>
    cases ok.inj h
    exact ⟨hfix.1, hfix.2.1, hfix.2.2.2.1, hfix.2.2.1, fun h => absurd h (failure_ne hf)⟩
  · unfold natNewton at h
    obtain ⟨w2, h2, h⟩ := bind_eq_ok.1 h
    obtain ⟨d, rfl⟩ := pushDebug_keeps h2
    obtain ⟨⟨s3, w3, a3, st3⟩, h3, h⟩ := bind_eq_ok.1 h
    cases ok.inj h
    have hinv := iterLoop_inv (P := fun s' w' _ => NatFix s.sign0 s.uPrev (natLambda s w l stop).l (natLambda s w l stop).h
      (w.err.reset c u l).scaling s' w') (fun _ _ _ _ h => h) (fun _ _ _ _ h => h)
      (fun _ _ _ _ _ _ _ hp h => (natIterate_fix hp h).1) _ _ { w1 with debug := d, nIter := 0 } _ _ hfix h3
    refine ⟨hinv.1, hinv.2.1, hinv.2.2.2.1, hinv.2.2.1, ?_⟩
    rintro rfl
    refine iterLoop_success (w' := w3)
      (P := fun _ w' _ => w'.err.scaling = (w.err.reset c u l).scaling ∧ w'.err.deltaConverged = false) (Q := fun _ w' _ => ConvergedAt c sys L u w'.u w'.l) (fun _ _ _ _ h => h) (fun _ _ _ _ h => h) (fun _ _ _ _ h => h)
      ?_ _ _ { w1 with debug := d, nIter := 0 } _ _ ⟨hfix.2.2.2.2, hdc⟩ hi (Nat.zero_add _) h3
    intro s4 w4 a4 s5 w5 a5 hp h5
    have hsc : ∀ i : Fin n, w4.err.scaling i = c.tolAbsDelta + c.tolRelDelta * |u i| := by
      intro i
      rw [hp.1]
      simp [IterErr.reset]
    obtain ⟨g1, g2⟩ := natIterate_spec ht hp.2 hsc h5
    have hfx : NatFix s4.sign0 s4.uPrev w4.l w4.h w4.err.scaling s4 w4 := ⟨rfl, rfl, rfl, rfl, rfl⟩
    obtain ⟨g3, g4⟩ := natIterate_fix hfx h5
    refine ⟨g1, fun hc => ⟨⟨?_, (g2 hc).1⟩, g4, (g2 hc).2⟩⟩
    rw [g3.2.2.2.2]; exact hp.1

/-! ## The values of λ -/

/-- λ has not reached a prescribed value -/
def Before (stop : Stop) (l : ℝ) : Prop :=
  match stop with
  | .minLambda l1 => l1 < l
  | .maxLambda l1 => l < l1
  | _ => True

/-- λ has not passed a prescribed value -/
def NotPast (stop : Stop) (l : ℝ) : Prop :=
  match stop with
  | .minLambda l1 => l1 ≤ l
  | .maxLambda l1 => l ≤ l1
  | _ => True

theorem sign_sq (dir : IniDir) : dir.sign * dir.sign = 1 := by
  cases dir <;> norm_num [IniDir.sign]

theorem sign_cases (dir : IniDir) : dir.sign = 1 ∨ dir.sign = -1 := by
  cases dir <;> simp [IniDir.sign]

theorem natLambda_spec {F : Type} {s : Nat' n F} {w : Work n} {l : ℝ} {stop : Stop} {dir : IniDir} (hs : s.sign0 = dir.sign)
    (hh : 0 < w.h) (hb : Before stop l) :
    0 < (natLambda s w l stop).h ∧ (natLambda s w l stop).h ≤ w.h ∧
    (natLambda s w l stop).l = l + dir.sign * (natLambda s w l stop).h ∧ NotPast stop (natLambda s w l stop).l := by
  cases stop with
  | minCompU | maxCompU | maxNormU | steps =>
    simp only [natLambda, Stop.lambda, hs, NotPast]
    exact ⟨hh, le_refl _, trivial, trivial⟩
  | minLambda l1 =>
    simp only [Before] at hb
    simp only [natLambda, Stop.lambda, hs, NotPast]
    rcases sign_cases dir with h | h <;> rw [h] <;> split
    · next hc => simp at hc; linarith
    · next hc => simp at hc; refine ⟨hh, le_refl _, rfl, ?_⟩; simp only; linarith
    · next hc => simp at hc; refine ⟨?_, ?_, ?_, ?_⟩ <;> simp only <;> linarith
    · next hc => simp at hc; refine ⟨hh, le_refl _, rfl, ?_⟩; simp only; linarith
  | maxLambda l1 =>
    simp only [Before] at hb
    simp only [natLambda, Stop.lambda, hs, NotPast]
    rcases sign_cases dir with h | h <;> rw [h] <;> split
    · next hc => simp at hc; refine ⟨?_, ?_, ?_, ?_⟩ <;> simp only <;> linarith
    · next hc => simp at hc; refine ⟨hh, le_refl _, rfl, ?_⟩; simp only; linarith
    · next hc => simp at hc; linarith
    · next hc => simp at hc; refine ⟨hh, le_refl _, rfl, ?_⟩; simp only; linarith

theorem before_of_now {stop : Stop} {i : Nat} {u : Vec n} {l : ℝ} (h : stop.now i u l = ok false) : Before stop l := by
  have hp := hMin_pos
  cases stop with
  | minCompU | maxCompU | maxNormU | steps => exact True.intro
  | minLambda l1 =>
    have := ok.inj h
    simp only [decide_eq_false_iff_not, not_or, not_lt] at this
    refine lt_of_le_of_ne this.1 ?_
    rintro rfl
    simp at this
    linarith
  | maxLambda l1 =>
    have := ok.inj h
    simp only [gt_iff_lt, decide_eq_false_iff_not, not_or, not_lt] at this
    refine lt_of_le_of_ne this.1 ?_
    rintro rfl
    simp at this
    linarith

theorem before_of_validate {stop : Stop} {u : Vec n} {l : ℝ} (h : stop.validate u l = ok ()) : Before stop l := by
  cases stop with
  | minCompU | maxCompU | maxNormU | steps => exact True.intro
  | minLambda l1 =>
    simp only [Stop.validate] at h
    split at h
    · cases h
    · next hn => exact not_le.1 hn
  | maxLambda l1 =>
    simp only [Stop.validate] at h
    split at h
    · cases h
    · next hn => exact not_le.1 hn

/-! ## Whole runs -/

/-- the relation between consecutive accepted points of the natural method: λ moves in the chosen direction, does not pass
a prescribed value, and the Newton iterations converged at the new point -/
def NatStep (c : Config) (sys : System n A) (L : LinSol n) (dir : IniDir) (stop : Stop) (p q : Vec n × ℝ) : Prop :=
  0 < dir.sign * (q.2 - p.2) ∧ NotPast stop q.2 ∧ ConvergedAt c sys L p.1 q.1 q.2

theorem natural_guide {c : Config} {fin : ℝ → Bool} {sys : System n A} {L : LinSol n} (hv : c.validate = ok ())
    (dir : IniDir) (stop : Stop) :
    Guide c (natural c fin sys L) stop (fun s w _ l => s.sign0 = dir.sign ∧ 0 < w.h ∧ Before stop l)
      (NatStep c sys L dir stop) := by
  obtain ⟨v1, -, -, -, v2, -, -, -, v3, -⟩ := validate_spec hv
  have ht : 0 < c.tolAbsResidual := lt_of_lt_of_le (by unfold tolMin; positivity) v2
  have hm : 0 < c.mFailure := lt_of_lt_of_le (by norm_num) v1
  refine ⟨?_, ?_, ?_⟩
  · intro s w w' u l h1 h2 h3 h
    rw [h1]; exact h
  · intro s w u l a s' w' a' w'' s'' u'' l'' rd hj hs hsame hacc
    obtain ⟨e1, e2, e3, e4, e5⟩ := natStep_spec ht v3 hs
    obtain ⟨n1, n2, n3, n4⟩ := natLambda_spec (dir := dir) hj.1 hj.2.1 hj.2.2
    have h := ok.inj hacc
    unfold natAccept at h
    simp only [Prod.mk.injEq] at h
    obtain ⟨h1, h2, h3, -⟩ := h
    rw [← h2, ← h3, hsame.u, hsame.l]
    refine ⟨⟨?_, ?_, e5 rfl⟩, ?_⟩
    · simp only
      rw [e4, n3, add_sub_cancel_left, ← mul_assoc, sign_sq, one_mul]; exact n1
    · rw [e4]; exact n4
    · intro hn hpos ⟨i, hnow⟩
      refine ⟨?_, ?_, ?_⟩
      · rw [← h1]; simp only; rw [e1]; exact hj.1
      · exact hpos (by rw [e3]; exact n1)
      · exact before_of_now hnow
  · intro s w u l a s' w' a' st w'' s'' w3 a'' hj hs hsame hrej
    obtain ⟨e1, e2, e3, e4, e5⟩ := natStep_spec ht v3 hs
    obtain ⟨n1, n2, n3, n4⟩ := natLambda_spec (dir := dir) hj.1 hj.2.1 hj.2.2
    obtain ⟨⟨w1, a1⟩, h1, h⟩ := bind_eq_ok.1 hrej
    cases ok.inj h
    obtain ⟨d, rfl⟩ := reject_keeps h1
    refine ⟨e1.trans hj.1, ?_, hj.2.2⟩
    simp only
    rw [hsame.h, e3]
    exact mul_pos n1 hm

theorem natural_start {c : Config} {fin : ℝ → Bool} {sys : System n A} {L : LinSol n} {sv : Solver n (Nat' n L.F)} {a a' : A}
    {u : Vec n} {l x : ℝ} {dir : IniDir} {stop : Stop} {ddl : DeltaLambda} {auto : Bool} {s : Nat' n L.F} {w : Work n}
    (h1 : stop.validate u l = ok ()) (h2 : ddl.ini stop l = ok x)
    (h3 : (natural c fin sys L).init sv.st (sv.w.resetStats auto) x u l dir a = ok (s, w, a')) :
    s.sign0 = dir.sign ∧ 0 < w.h ∧ Before stop l := by
  cases ok.inj h3
  exact ⟨rfl, lt_trans hMin_pos (C76_initial_stepsize h2).1, before_of_validate h1⟩

/-- **Natural continuation with variable stepsize.** Everything `C76_auto` says; consecutive accepted points are related by
`NatStep`. -/
theorem C77_auto {c : Config} {fin : ℝ → Bool} {sys : System n A} {L : LinSol n} {sv : Solver n (Nat' n L.F)} {a : A}
    {u : Vec n} {l : ℝ} {dir : IniDir} {stop : Stop} {ddl : DeltaLambda} {out : Option (Output n A)}
    {r : Run n A (Nat' n L.F)} {st : Status} (hv : c.validate = ok ()) (hrho : 0 ≤ c.rhoTiny) (hauto : ddl.auto = true)
    (h : solve c fin (natural c fin sys L) sv a u l dir stop ddl out = ok (r, st)) :
    Final c (NatStep c sys L dir stop) stop out (u, l) r st :=
  C76_auto (natural_keeps c fin sys L) (natural_guide hv dir stop) hv hrho hauto
    (fun h1 h2 h3 => natural_start h1 h2 h3) h

/-- **Natural continuation with constant or listed stepsizes.** -/
theorem C77_fixed {c : Config} {fin : ℝ → Bool} {sys : System n A} {L : LinSol n} {sv : Solver n (Nat' n L.F)} {a : A}
    {u : Vec n} {l : ℝ} {dir : IniDir} {stop : Stop} {ddl : DeltaLambda} {out : Option (Output n A)}
    {r : Run n A (Nat' n L.F)} {st : Status} (hv : c.validate = ok ()) (hauto : ddl.auto = false)
    (h : solve c fin (natural c fin sys L) sv a u l dir stop ddl out = ok (r, st)) :
    FixedFinal (if ddl.list.length > 0 then ddl.list.length else c.nStepMax) (NatStep c sys L dir stop) stop out (u, l) r st :=
  C76_fixed (natural_keeps c fin sys L) (natural_guide hv dir stop) hauto
    (fun h1 h2 h3 => natural_start h1 h2 h3) h

/-- the points of a run, whatever the mode -/
theorem natural_path {c : Config} {fin : ℝ → Bool} {sys : System n A} {L : LinSol n} {sv : Solver n (Nat' n L.F)} {a : A}
    {u : Vec n} {l : ℝ} {dir : IniDir} {stop : Stop} {ddl : DeltaLambda} {out : Option (Output n A)}
    {r : Run n A (Nat' n L.F)} {st : Status} (hv : c.validate = ok ()) (hrho : 0 ≤ c.rhoTiny)
    (h : solve c fin (natural c fin sys L) sv a u l dir stop ddl out = ok (r, st)) :
    ∃ pts, Path (NatStep c sys L dir stop) (u, l) pts (r.u, r.l) ∧ pts.length = r.sv.w.stats.nAccepted + 1 ∧
      OutEnd out pts r.out := by
  cases hauto : ddl.auto with
  | true => exact (C77_auto hv hrho hauto h).path
  | false => exact (C77_fixed hv hauto h).path

theorem path_mono {X : Type} {R : X → X → Prop} {x0 : X} (f : X → ℝ) (hR : ∀ x y, R x y → f x < f y) :
    ∀ {pts x}, Path R x0 pts x → f x0 ≤ f x ∧ (∀ y ∈ pts, f y ≤ f x) ∧ pts.Pairwise (fun x y => f x < f y) := by
  intro pts x h
  induction h with
  | start => simp
  | @next pts x y hp hr ih =>
    obtain ⟨i1, i2, i3⟩ := ih
    have hxy := hR _ _ hr
    refine ⟨by linarith, ?_, ?_⟩
    · intro z hz
      rcases List.mem_append.1 hz with hz | hz
      · exact (i2 z hz).trans hxy.le
      · rw [List.mem_singleton.1 hz]
    · rw [List.pairwise_append]
      refine ⟨i3, List.pairwise_singleton _ _, ?_⟩
      intro z hz y' hy'
      rw [List.mem_singleton.1 hy']
      exact lt_of_le_of_lt (i2 z hz) hxy

/-- **λ moves strictly in the chosen direction** from one accepted point to the next, in every run that returns, whatever its
status. -/
theorem C77_monotone {c : Config} {fin : ℝ → Bool} {sys : System n A} {L : LinSol n} {sv : Solver n (Nat' n L.F)} {a : A}
    {u : Vec n} {l : ℝ} {dir : IniDir} {stop : Stop} {ddl : DeltaLambda} {out : Option (Output n A)}
    {r : Run n A (Nat' n L.F)} {st : Status} (hv : c.validate = ok ()) (hrho : 0 ≤ c.rhoTiny)
    (h : solve c fin (natural c fin sys L) sv a u l dir stop ddl out = ok (r, st)) :
    ∃ pts : List (Vec n × ℝ), pts.head? = some (u, l) ∧ pts.getLast? = some (r.u, r.l) ∧
      pts.length = r.sv.w.stats.nAccepted + 1 ∧ OutEnd out pts r.out ∧
      pts.Pairwise (fun p q => dir.sign * p.2 < dir.sign * q.2) ∧ ∀ p ∈ pts, NotPast stop p.2 := by
  obtain ⟨h0, -⟩ := solve_start h
  obtain ⟨pts, hp, hlen, ho⟩ := natural_path hv hrho h
  have hm := path_mono (fun p : Vec n × ℝ => dir.sign * p.2) (fun p q hr => by
    have := hr.1
    rw [mul_sub] at this
    linarith) hp
  have hends : ∀ {pts x}, Path (NatStep c sys L dir stop) (u, l) pts x → pts.head? = some (u, l) ∧ pts.getLast? = some x ∧
      ∀ p ∈ pts, NotPast stop p.2 := by
    intro pts x hp
    induction hp with
    | start =>
      refine ⟨rfl, rfl, ?_⟩
      intro p hp
      rw [List.mem_singleton.1 hp]
      have := before_of_validate h0
      cases stop with
      | minCompU | maxCompU | maxNormU | steps => exact True.intro
      | minLambda => exact le_of_lt this
      | maxLambda => exact le_of_lt this
    | @next pts x y hp hr ih =>
      refine ⟨?_, by simp, ?_⟩
      · rw [List.head?_append, ih.1]; rfl
      · intro p hp
        rcases List.mem_append.1 hp with hp | hp
        · exact ih.2.2 p hp
        · rw [List.mem_singleton.1 hp]; exact hr.2.1
  exact ⟨pts, (hends hp).1, (hends hp).2.1, hlen, ho, hm.2.2, (hends hp).2.2⟩

/-- **λ ends at the prescribed value**: when a run stops because of the criterion, λ is at most `1e-10` short of the
prescribed value and has not passed it. -/
theorem C77_target {c : Config} {fin : ℝ → Bool} {sys : System n A} {L : LinSol n} {sv : Solver n (Nat' n L.F)} {a : A}
    {u : Vec n} {l l1 : ℝ} {dir : IniDir} {ddl : DeltaLambda} {out : Option (Output n A)}
    {r : Run n A (Nat' n L.F)} {st : Status} (hv : c.validate = ok ()) (hrho : 0 ≤ c.rhoTiny)
    (h : solve c fin (natural c fin sys L) sv a u l dir (.maxLambda l1) ddl out = ok (r, st)) {i : Nat}
    (hmet : Stop.now i r.u r.l (.maxLambda l1) = ok true) : l1 - hMin < r.l ∧ r.l ≤ l1 := by
  obtain ⟨pts, -, h1, -, -, -, h2⟩ := C77_monotone hv hrho h
  have hle : r.l ≤ l1 := h2 (r.u, r.l) (List.mem_of_getLast? h1)
  refine ⟨?_, hle⟩
  have := ok.inj hmet
  simp only [gt_iff_lt, decide_eq_true_eq] at this
  rcases this with h | h
  · linarith
  · rw [abs_lt] at h; linarith [h.1]

/-- the same for a prescribed minimum -/
theorem C77_target_min {c : Config} {fin : ℝ → Bool} {sys : System n A} {L : LinSol n} {sv : Solver n (Nat' n L.F)} {a : A}
    {u : Vec n} {l l1 : ℝ} {dir : IniDir} {ddl : DeltaLambda} {out : Option (Output n A)}
    {r : Run n A (Nat' n L.F)} {st : Status} (hv : c.validate = ok ()) (hrho : 0 ≤ c.rhoTiny)
    (h : solve c fin (natural c fin sys L) sv a u l dir (.minLambda l1) ddl out = ok (r, st)) {i : Nat}
    (hmet : Stop.now i r.u r.l (.minLambda l1) = ok true) : l1 ≤ r.l ∧ r.l < l1 + hMin := by
  obtain ⟨pts, -, h1, -, -, -, h2⟩ := C77_monotone hv hrho h
  have hle : l1 ≤ r.l := h2 (r.u, r.l) (List.mem_of_getLast? h1)
  refine ⟨hle, ?_⟩
  have := ok.inj hmet
  simp only [decide_eq_true_eq] at this
  rcases this with h | h
  · linarith
  · rw [abs_lt] at h; linarith [h.1]

/-- **The wrong direction is not noticed**: towards negative λ a prescribed maximum is never reached; a run that reports
success has been stopped by the callback or has used up all its steps, and λ is not larger than initially. -/
theorem C77_wrong_direction {c : Config} {fin : ℝ → Bool} {sys : System n A} {L : LinSol n} {sv : Solver n (Nat' n L.F)}
    {a : A} {u : Vec n} {l l1 : ℝ} {ddl : DeltaLambda} {out : Option (Output n A)} {r : Run n A (Nat' n L.F)}
    (hv : c.validate = ok ()) (hrho : 0 ≤ c.rhoTiny) (hauto : ddl.auto = true)
    (h : solve c fin (natural c fin sys L) sv a u l .neg (.maxLambda l1) ddl out = ok (r, .success)) :
    r.l ≤ l ∧ l < l1 ∧ (Graceful out r ∨ r.sv.w.stats.nSteps = c.nStepMax) := by
  obtain ⟨h0, x, s, w, a', g, r0, hini, -⟩ := solve_start h
  have hlt : l < l1 := before_of_validate h0
  have hx := C76_initial_stepsize hini
  have hgap : hMin < l1 - l := by
    have h1 := hx.2.2 l1 false rfl
    rw [abs_of_pos (by linarith)] at h1
    linarith [hx.1]
  have hf := C77_auto hv hrho hauto h
  obtain ⟨pts, hp, -⟩ := hf.path
  have hm := (path_mono (fun p : Vec n × ℝ => -p.2) (fun p q hr => by
    have := hr.1
    simp only [IniDir.sign] at this
    linarith) hp).1
  simp only at hm
  refine ⟨by linarith, hlt, ?_⟩
  cases hf.outcome with
  | met h1 =>
    exfalso
    have := ok.inj h1
    simp only [gt_iff_lt, decide_eq_true_eq] at this
    rcases this with h | h
    · linarith
    · rw [abs_lt] at h; linarith [h.1]
  | graceful h1 => exact Or.inl h1
  | exhausted h1 => exact Or.inr h1
  | fatal _ h => exact absurd rfl h

/-! ## Relative difference -/

/-- The relative difference is never negative: the assertion of the stepsize control holds. -/
theorem C77_rdiff_nonneg {c : Config} {F : Type} (hv : c.validate = ok ()) (s : Nat' n F) (w : Work n) (u : Vec n) :
    0 ≤ (natAccept c s w u).2.2.2 := by
  obtain ⟨-, -, -, -, -, -, -, -, -, -, -, -, -, ht⟩ := validate_spec hv
  have ht : 0 < c.tgTol := lt_of_lt_of_le (by unfold tolMin; positivity) ht
  have key : ∀ (xs : List (Fin n)) (m : ℝ), 0 ≤ m → 0 ≤ xs.foldl (fun m i =>
      let den := |w.u i - u i|
      if den > hMin then
        let ratio := |w.u i - 2 * u i + s.uPrev i| / den
        if ratio > m then ratio else m
      else m) m := by
    intro xs
    induction xs with
    | nil => intro m hm; exact hm
    | cons x xs ih =>
      intro m hm
      rw [List.foldl_cons]
      apply ih
      simp only
      split
      · split
        · next h => exact hm.trans h.le
        · exact hm
      · exact hm
  unfold natAccept natRerr
  simp only
  split
  · exact div_nonneg (key _ _ (le_refl _)) ht.le
  · exact le_refl _

/-- The difference measures the bend of the path: points with equal differences (a straight path traversed with equal steps)
give zero. -/
theorem C77_rdiff_straight {c : Config} {F : Type} (s : Nat' n F) (w : Work n) (u : Vec n)
    (h : ∀ i, w.u i - u i = u i - s.uPrev i) : (natAccept c s w u).2.2.2 = 0 := by
  have key : ∀ (xs : List (Fin n)), xs.foldl (fun m i =>
      let den := |w.u i - u i|
      if den > hMin then
        let ratio := |w.u i - 2 * u i + s.uPrev i| / den
        if ratio > m then ratio else m
      else m) 0 = 0 := by
    intro xs
    induction xs with
    | nil => rfl
    | cons x xs ih =>
      rw [List.foldl_cons]
      have hz : w.u x - 2 * u x + s.uPrev x = 0 := by have := h x; linarith
      simp only [hz, abs_zero, zero_div, gt_iff_lt, lt_irrefl, ite_self]
      exact ih
  unfold natAccept natRerr natRatio
  simp only
  split
  · rw [key, zero_div]
  · rfl

/-! ## Linear problems -/

/-- the system `K u = λ f + g` -/
def affine (K : Matrix (Fin n) (Fin n) ℝ) (f g : Vec n) : System n A where
  calcG l u a := ok (fun i => K.mulVec u i - l * f i - g i, a)
  calcJ _ _ a := ok (K, fun i => -f i, a)
  backup := none
  restore := none
  prepare := none
  update := none

/-- what the natural method keeps for a linear problem: the factors, once computed, belong to the matrix -/
def AffineJac {L : LinSol n} (K : Matrix (Fin n) (Fin n) ℝ) (f : Vec n) (s : Nat' n L.F) : Prop :=
  s.iterJac = true → (∃ fac, s.ls = some fac ∧ L.factorize K = ok fac) ∧ s.ggl = fun i => -f i

theorem affine_predict {c : Config} {L : LinSol n} {K : Matrix (Fin n) (Fin n) ℝ} {f g : Vec n} {s s' : Nat' n L.F}
    {w w' : Work n} {u : Vec n} {l : ℝ} {a a' : A} (hL : L.Exact) (hc : c.eulerPredictor = true)
    (hs : AffineJac K f s) (hu : ∀ i, K.mulVec u i = l * f i + g i)
    (h : natPredict c (affine K f g) L s w u l a = ok (s', w', a')) :
    AffineJac K f s' ∧ ∀ i, K.mulVec w'.u i = w'.l * f i + g i := by
  unfold natPredict at h
  rw [if_pos hc] at h
  obtain ⟨⟨s1, w1, a1⟩, h1, h⟩ := bind_eq_ok.1 h
  obtain ⟨mdu, h2, h⟩ := bind_eq_ok.1 h
  cases ok.inj h
  have hj : (∃ fac, s1.ls = some fac ∧ L.factorize K = ok fac) ∧ s1.ggl = fun i => -f i := by
    unfold natFirstJac at h1
    split at h1
    · next hi =>
      cases ok.inj h1
      exact hs hi
    · obtain ⟨⟨s2, w2, a2⟩, h3, h1⟩ := bind_eq_ok.1 h1
      cases ok.inj h1
      obtain ⟨K', fac, st, e1, e2, e3, e4⟩ := natJac_spec h3
      have := ok.inj e1
      simp only [Prod.mk.injEq] at this
      rw [← this.1] at e2
      refine ⟨⟨fac, ?_, e2⟩, this.2.1.symm⟩
      rw [e3]
  refine ⟨fun _ => hj, ?_⟩
  obtain ⟨⟨fac, hls, hfac⟩, hggl⟩ := hj
  simp only [hls, LinSol.run] at h2
  have hK := hL K fac hfac _ _ h2
  rw [hggl] at hK
  intro i
  have hlin : K.mulVec (fun j => 1 * u j + -(w1.l - l) * mdu j) i = K.mulVec u i + -(w1.l - l) * K.mulVec mdu i := by
    simp only [Matrix.mulVec, dotProduct, Finset.mul_sum, ← Finset.sum_add_distrib]
    exact Finset.sum_congr rfl (fun j _ => by ring)
  simp only
  rw [hlin, hu i, hK]
  ring

/-- **Linear problems**: with the Euler predictor every step succeeds without any correction, at an exact solution. -/
theorem C77_affine_step {c : Config} {fin : ℝ → Bool} {L : LinSol n} {K : Matrix (Fin n) (Fin n) ℝ} {f g : Vec n}
    {s s' : Nat' n L.F} {w w' : Work n} {u : Vec n} {l : ℝ} {stop : Stop} {a a' : A} {st : Status} (hL : L.Exact)
    (hc : c.eulerPredictor = true) (ht : 0 < c.tolAbsResidual) (hi : 1 ≤ c.nIterationMax) (hfin : fin 0 = true)
    (hs : AffineJac K f s) (hu : ∀ i, K.mulVec u i = l * f i + g i)
    (h : natStep c fin (affine K f g) L s w u l stop a = ok (s', w', a', st)) :
    st = .success ∧ w'.nIter = 0 ∧ (∀ i, K.mulVec w'.u i = w'.l * f i + g i) ∧ AffineJac K f s' := by
  unfold natStep at h
  simp only at h
  obtain ⟨⟨s1, w1, a1⟩, h1, h⟩ := bind_eq_ok.1 h
  obtain ⟨e1, e2⟩ := affine_predict hL hc hs hu h1
  simp only [System.supdate, affine, Status.failure] at h
  simp only [ne_eq, not_true_eq_false, decide_false, Bool.false_eq_true, if_false] at h
  unfold natNewton at h
  obtain ⟨w2, h2, h⟩ := bind_eq_ok.1 h
  obtain ⟨d, rfl⟩ := pushDebug_keeps h2
  obtain ⟨⟨s3, w3, a3, st3⟩, h3, h⟩ := bind_eq_ok.1 h
  cases ok.inj h
  obtain ⟨k, hk⟩ : ∃ k, c.nIterationMax = k + 1 := ⟨c.nIterationMax - 1, by omega⟩
  rw [hk] at h3
  unfold iterLoop at h3
  obtain ⟨⟨s4, w4, a4, st4⟩, h4, h3⟩ := bind_eq_ok.1 h3
  unfold natIterate at h4
  simp only [ok_bind] at h4
  have hz : (fun i => K.mulVec w1.u i - w1.l * f i - g i) = fun _ => 0 := by
    funext i
    rw [e2 i]; ring
  rw [hz] at h4
  have hn : normMax (fun _ : Fin n => (0 : ℝ)) = 0 := by
    unfold normMax
    rw [List.ofFn_const]
    generalize n = m
    induction m with
    | zero => rfl
    | succ m ih => rw [List.replicate_succ, List.foldl_cons]; simpa using ih
  unfold IterErr.analyzeResidual at h4
  simp only [hn, abs_zero, max_self, hfin, Bool.not_true, Bool.false_eq_true, if_false, IterErr.converged, ht, decide_true,
    Bool.true_or, if_true] at h4
  cases ok.inj h4
  simp only [Status.failure, ne_eq, not_true_eq_false, decide_false, Bool.false_eq_true, if_false, IterErr.converged,
    Bool.true_or, if_true] at h3
  cases ok.inj h3
  exact ⟨rfl, rfl, e2, e1⟩

/-- **Runs on linear problems**: with the Euler predictor every accepted point solves the problem exactly. -/
theorem C77_affine {c : Config} {fin : ℝ → Bool} {L : LinSol n} {K : Matrix (Fin n) (Fin n) ℝ} {f g : Vec n}
    {sv : Solver n (Nat' n L.F)} {a : A} {u : Vec n} {l : ℝ} {dir : IniDir} {stop : Stop} {ddl : DeltaLambda}
    {out : Option (Output n A)} {r : Run n A (Nat' n L.F)} {st : Status} (hv : c.validate = ok ()) (hrho : 0 ≤ c.rhoTiny)
    (hL : L.Exact) (hc : c.eulerPredictor = true) (hfin : fin 0 = true) (hu : ∀ i, K.mulVec u i = l * f i + g i)
    (h : solve c fin (natural c fin (affine K f g) L) sv a u l dir stop ddl out = ok (r, st)) :
    ∃ pts, Path (fun _ q => ∀ i, K.mulVec q.1 i = q.2 * f i + g i) (u, l) pts (r.u, r.l) ∧ OutEnd out pts r.out := by
  obtain ⟨v1, -, -, -, v2, -, -, -, v3, -⟩ := validate_spec hv
  have ht : 0 < c.tolAbsResidual := lt_of_lt_of_le (by unfold tolMin; positivity) v2
  have hg : Guide c (natural c fin (affine (A := A) K f g) L) stop
      (fun s _ u l => AffineJac K f s ∧ ∀ i, K.mulVec u i = l * f i + g i)
      (fun _ q => ∀ i, K.mulVec q.1 i = q.2 * f i + g i) := by
    refine ⟨fun _ _ _ h => h, ?_, ?_⟩
    · intro s w u l a s' w' a' w'' s'' u'' l'' rd hj hs hsame hacc
      obtain ⟨-, -, e3, e4⟩ := C77_affine_step hL hc ht v3 hfin hj.1 hj.2 hs
      have h := ok.inj hacc
      unfold natAccept at h
      simp only [Prod.mk.injEq] at h
      obtain ⟨h1, h2, h3, -⟩ := h
      rw [← h2, ← h3, hsame.u, hsame.l, ← h1]
      exact ⟨e3, fun _ _ _ => ⟨e4, e3⟩⟩
    · intro s w u l a s' w' a' st w'' s'' w3 a'' hj hs hsame hrej
      obtain ⟨-, -, e3, e4⟩ := C77_affine_step hL hc ht v3 hfin hj.1 hj.2 hs
      obtain ⟨⟨w1, a1⟩, h1, h⟩ := bind_eq_ok.1 hrej
      cases ok.inj h
      exact ⟨e4, hj.2⟩
  have hini : ∀ {x s w a' auto}, stop.validate u l = ok () → ddl.ini stop l = ok x →
      (natural c fin (affine (A := A) K f g) L).init sv.st (sv.w.resetStats auto) x u l dir a = ok (s, w, a') →
      AffineJac K f s ∧ ∀ i, K.mulVec u i = l * f i + g i := by
    intro x s w a' auto _ _ h3
    cases ok.inj h3
    exact ⟨fun h => (Bool.false_ne_true h).elim, hu⟩
  cases hauto : ddl.auto with
  | true =>
    obtain ⟨pts, h1, -, h3⟩ := (C76_auto (natural_keeps c fin _ L) hg hv hrho hauto hini h).path
    exact ⟨pts, h1, h3⟩
  | false =>
    obtain ⟨pts, h1, -, h3⟩ := (C76_fixed (natural_keeps c fin _ L) hg hauto hini h).path
    exact ⟨pts, h1, h3⟩

/-! ## The option to write the matrix -/

/-- **Files are written at the very first Jacobian** for every positive `nstep`, not after `nstep` accepted steps: the run
ends with the error of that option. With `nstep = 0` nothing is ever written. -/
theorem C77_write_matrix {c : Config} {sys : System n A} {L : LinSol n} {s : Nat' n L.F} {w : Work n} {a : A}
    {k : Nat} (hk : c.writeMatrix = some k) (hw : w.stats.nAccepted < k)
    {x} (h : natJac c sys L s w a = ok x) : False := by
  unfold natJac at h
  obtain ⟨⟨K, ggl, a1⟩, h1, h⟩ := bind_eq_ok.1 h
  simp only [writes, hk] at h
  rw [if_pos (by simpa using hw)] at h
  cases h

/-- a whole run with that option and the Euler predictor: it returns only when the callback stops it before the first step -/
theorem C77_write_matrix_run {c : Config} {fin : ℝ → Bool} {sys : System n A} {L : LinSol n} {sv : Solver n (Nat' n L.F)}
    {a : A} {u : Vec n} {l : ℝ} {dir : IniDir} {stop : Stop} {ddl : DeltaLambda} {out : Option (Output n A)}
    {r : Run n A (Nat' n L.F)} {st : Status} {k : Nat} (hv : c.validate = ok ()) (hc : c.eulerPredictor = true)
    (hk : c.writeMatrix = some k) (hk1 : 1 ≤ k)
    (h : solve c fin (natural c fin sys L) sv a u l dir stop ddl out = ok (r, st)) : Graceful out r := by
  obtain ⟨-, v2, -⟩ := validate_spec hv
  obtain ⟨h0, x, s, w, a', g, r0, h1, h2, h3, h4⟩ := solve_start h
  obtain ⟨q1, q2, q3, -, q4, q5⟩ := doOutput_spec (OutInv.nil out) h3
  cases g with
  | true =>
    obtain ⟨rfl, rfl⟩ := h4
    exact q5 rfl
  | false =>
    exfalso
    have hst : r0.sv.st.iterJac = false ∧ r0.sv.w.stats.nAccepted = 0 := by
      rw [q1]
      cases ok.inj h2
      exact ⟨rfl, rfl⟩
    have key : ∀ {stop : Stop} {r1 st1}, doStep (natural c fin sys L) stop r0 = ok (r1, st1) → False := by
      intro stop r1 st1 h
      obtain ⟨-, -, -, w0, hw0, hs⟩ := doStep_spec h
      change natStep c fin sys L _ _ _ _ _ _ = _ at hs
      unfold natStep at hs
      simp only at hs
      obtain ⟨⟨s1, w1, a1⟩, h5, -⟩ := bind_eq_ok.1 hs
      unfold natPredict at h5
      rw [if_pos hc] at h5
      obtain ⟨⟨s2, w2, a2⟩, h6, -⟩ := bind_eq_ok.1 h5
      unfold natFirstJac at h6
      rw [if_neg (by rw [hst.1]; simp)] at h6
      obtain ⟨⟨s3, w3, a3⟩, h7, -⟩ := bind_eq_ok.1 h6
      refine C77_write_matrix hk ?_ h7
      have e : (natLambda r0.sv.st (stepBegin c sys w0 r0.u r0.l r0.a).1 r0.l stop).ctl = w0.ctl := by
        rw [natLambda_keeps, stepBegin_keeps]
      simp only [Work.ctl, Prod.mk.injEq] at e
      simp only
      rw [e.1.2.1, hw0]
      simp only
      omega
    unfold continuation at h4
    simp only [Bool.false_eq_true, if_false] at h4
    split at h4
    · obtain ⟨m, hm⟩ : ∃ m, c.nStepMax = m + 1 := ⟨c.nStepMax - 1, by omega⟩
      rw [hm] at h4
      unfold loopUntil at h4
      obtain ⟨x, h5, -⟩ := bind_eq_ok.1 h4
      unfold autoBody at h5
      obtain ⟨⟨r1, st1⟩, h6, -⟩ := bind_eq_ok.1 h5
      exact key h6
    · obtain ⟨m, hm⟩ : ∃ m, (if ddl.list.length > 0 then ddl.list.length else c.nStepMax) = m + 1 := by
        split
        · exact ⟨ddl.list.length - 1, by omega⟩
        · exact ⟨c.nStepMax - 1, by omega⟩
      rw [hm] at h4
      unfold loopUntil at h4
      obtain ⟨x, h5, -⟩ := bind_eq_ok.1 h4
      unfold fixedBody at h5
      obtain ⟨⟨r1, st1⟩, h6, -⟩ := bind_eq_ok.1 h5
      exact key h6

/-- with `nstep = 0` the option has no effect -/
theorem C77_write_matrix_zero {c : Config} {sys : System n A} {L : LinSol n} (s : Nat' n L.F) (w : Work n) (a : A)
    (hk : c.writeMatrix = some 0) : natJac c sys L s w a = natJac { c with writeMatrix := none } sys L s w a := by
  simp [natJac, writes, hk]

/-! ## A concrete run -/

/-- the solver of `x = b` -/
noncomputable def unitSolver (n : Nat) : LinSol n where
  F := Unit
  factorize M := by classical exact if M = 1 then ok () else err "not the unit matrix"
  solve _ b := ok b

theorem unitSolver_exact (n : Nat) : (unitSolver n).Exact := by
  intro M f hf b x hx
  unfold unitSolver at hf hx
  simp only at hf hx
  split at hf
  · next h => rw [h, ← ok.inj hx, Matrix.one_mulVec]
  · cases hf

/-- the problem `u = λ` with one unknown, from `(0, 0)` to `λ = 2` in two constant steps; all values are recorded -/
theorem natural_run : ∃ r, solve { Config.new with nStepMax := 7 } (fun _ => true)
    (natural { Config.new with nStepMax := 7 } (fun _ => true) (affine (A := Unit) 1 (fun _ => 1) (fun _ => 0)) (unitSolver 1))
    ⟨Nat'.new 1 _, Work.new 1, 0, 0, 0, 0⟩ () 0 0 .pos (.maxLambda 2) (.mkConstant 1)
    (some ((Output.new 1 Unit).setRecording true [0] [])) = ok (r, .success) ∧ r.l = 2 ∧ r.u = (fun _ => 2) ∧
    r.sv.w.stats.nAccepted = 2 ∧ (r.out.map (fun o => o.l)) = some [0, 1, 2] := by
  have h1 : ¬ (1 : ℝ) ≤ hMin := by unfold hMin; norm_num
  have h2 : ¬ (1 : ℝ) < hMin := by unfold hMin; norm_num
  have h3 : 0 < hMin := hMin_pos
  have h4 : (0 : ℝ) < (10 ^ 10)⁻¹ := by positivity
  have e1 : (2 : ℝ) ≤ 1 ↔ False := by norm_num
  have e2 : (2 : ℝ) ≤ 0 ↔ False := by norm_num
  have e3 : (1 : ℝ) + 1 = 2 := by norm_num
  have e4 : (1 : ℝ) - 2 = -1 := by norm_num
  have e5 : (2 : ℝ) < 1 ↔ False := by norm_num
  have e6 : (2 : ℝ) - 1 = 1 := by norm_num
  simp [solve, Stop.validate, DeltaLambda.ini, DeltaLambda.mkConstant, checkIni, h1, natural, natInit, IniDir.sign, doOutput,
    Output.setRecording, Output.new, insertEmpty, Output.execute, Output.record, Output.pushNorm, pushAll, Vec.at,
    Output.pushTangent, Config.new, continuation, loopUntil, fixedBody, doStep, natStep, stepBegin, natLambda, Stop.lambda,
    natPredict, natFirstJac, natJac, affine, writes, unitSolver, LinSol.run, System.supdate, Status.failure, natNewton,
    Work.pushDebug, iterLoop, natIterate, IterErr.analyzeResidual, normMax, IterErr.converged, h4, h2, h3, e1, e2, e3, e4, e5, e6,
    fixedAccept, doAccept, natAccept, nextListed, Run.setW, allFinite, stepExit, Stop.now, Stats.recStart, Stats.recAppend,
    Stats.recStop, Work.resetStats, Work.new, Nat'.new, callOpt, Stats.new, Stats.reset]

/-- the same problem with variable stepsize, to `λ = 1` in one step -/
theorem natural_run_auto : ∃ r, solve { Config.new with nStepMax := 7 } (fun _ => true)
    (natural { Config.new with nStepMax := 7 } (fun _ => true) (affine (A := Unit) 1 (fun _ => 1) (fun _ => 0)) (unitSolver 1))
    ⟨Nat'.new 1 _, Work.new 1, 0, 0, 0, 0⟩ () 0 0 .pos (.maxLambda 1) (.mkAuto 3) none = ok (r, .success) ∧ r.l = 1 ∧
    r.u = (fun _ => 1) := by
  have h1 : ¬ (1 : ℝ) ≤ hMin := by unfold hMin; norm_num
  have h3 : 0 < hMin := hMin_pos
  have h4 : (0 : ℝ) < (10 ^ 10)⁻¹ := by positivity
  have e1 : min (3 : ℝ) 1 = 1 := by norm_num
  have e2 : (1 : ℝ) ≤ 0 ↔ False := by norm_num
  simp [-inf_le_iff, -min_le_iff, solve, Stop.validate, DeltaLambda.ini, DeltaLambda.mkAuto, checkIni, h1, natural, natInit,
    IniDir.sign, doOutput, Config.new, continuation, loopUntil, autoBody, doStep, natStep, stepBegin, natLambda, Stop.lambda,
    natPredict, natFirstJac, natJac, affine, writes, unitSolver, LinSol.run, System.supdate, Status.failure, natNewton,
    Work.pushDebug, iterLoop, natIterate, IterErr.analyzeResidual, normMax, IterErr.converged, h4, h3, e1, e2,
    autoAccept, autoDecide, autoAdapt, adaptStepsize, preciseStop, countFailure, doAccept, natAccept, natRerr, Run.setW,
    allFinite, stepExit, Stop.now, Stats.recStart, cutTiny, rhoOf, ksi, smooth,
    Stats.recAppend, Stats.recStop, Work.resetStats, Work.new, Nat'.new, callOpt, Stats.new, Stats.reset]

/-- towards negative λ: success is reported at `λ = -1` though `λ = 1` was prescribed -/
theorem C77_wrong_direction_counterexample : ∃ r, solve { Config.new with nStepMax := 1 } (fun _ => true)
    (natural { Config.new with nStepMax := 1 } (fun _ => true) (affine (A := Unit) 1 (fun _ => 1) (fun _ => 0)) (unitSolver 1))
    ⟨Nat'.new 1 _, Work.new 1, 0, 0, 0, 0⟩ () 0 0 .neg (.maxLambda 1) (.mkAuto 3) none = ok (r, .success) ∧ r.l = -1 := by
  have h1 : ¬ (1 : ℝ) ≤ hMin := by unfold hMin; norm_num
  have h2 : ¬ (2 : ℝ) < hMin := by unfold hMin; norm_num
  have h4 : (0 : ℝ) < (10 ^ 10)⁻¹ := by positivity
  have e1 : min (3 : ℝ) 1 = 1 := by norm_num
  have e2 : (1 : ℝ) ≤ 0 ↔ False := by norm_num
  have e3 : (1 : ℝ) ≤ -1 ↔ False := by norm_num
  have e4 : (1 : ℝ) < -1 ↔ False := by norm_num
  have e5 : (-1 : ℝ) - 1 = -2 := by norm_num
  have h5 : ¬ 1 + Real.arctan (6 / 5 - 1) < hMin := by
    have : 0 ≤ Real.arctan (6 / 5 - 1) := by rw [Real.arctan_nonneg]; norm_num
    exact hMin_lt _ (by linarith)
  simp [-inf_le_iff, -min_le_iff, solve, Stop.validate, DeltaLambda.ini, DeltaLambda.mkAuto, checkIni, h1, natural, natInit,
    IniDir.sign, doOutput, Config.new, continuation, loopUntil, autoBody, doStep, natStep, stepBegin, natLambda, Stop.lambda,
    natPredict, natFirstJac, natJac, affine, writes, unitSolver, LinSol.run, System.supdate, Status.failure, natNewton,
    Work.pushDebug, iterLoop, natIterate, IterErr.analyzeResidual, normMax, IterErr.converged, h4, e1, e2, e3, e4, e5, h2, h5,
    autoAccept, autoDecide, autoAdapt, adaptStepsize, preciseStop, countFailure, doAccept, natAccept, natRerr, Run.setW,
    allFinite, stepExit, Stop.now, Stats.recStart, cutTiny, rhoOf, ksi, smooth, checkSmall,
    Stats.recAppend, Stats.recStop, Work.resetStats, Work.new, Nat'.new, callOpt, Stats.new, Stats.reset]

theorem config7_valid (k : Nat) (hk : 1 ≤ k) : { Config.new with nStepMax := k }.validate = ok () := by
  have : ¬ k < 1 := by omega
  unfold Config.validate Config.new tolMin
  simp only [this]
  norm_num

example : ∃ r, solve { Config.new with nStepMax := 7 } (fun _ => true)
    (natural { Config.new with nStepMax := 7 } (fun _ => true) (affine (A := Unit) 1 (fun _ => 1) (fun _ => 0)) (unitSolver 1))
    ⟨Nat'.new 1 _, Work.new 1, 0, 0, 0, 0⟩ () 0 0 .pos (.maxLambda 1) (.mkAuto 3) none = ok (r, .success) ∧
    (1 - hMin < r.l ∧ r.l ≤ 1) ∧ ∃ pts, Path (fun _ q : Vec 1 × ℝ => ∀ i, q.1 i = q.2) (0, 0) pts (r.u, r.l) := by
  obtain ⟨r, h, hl, -⟩ := natural_run_auto
  refine ⟨r, h, C77_target (i := 0) (config7_valid 7 (by norm_num)) (by norm_num [Config.new]) h ?_, ?_⟩
  · rw [hl]
    simp [Stop.now, hMin_pos]
  · obtain ⟨pts, hp, -⟩ := C77_affine (config7_valid 7 (by norm_num)) (by norm_num [Config.new]) (unitSolver_exact 1) rfl rfl
      (by simp) h
    exact ⟨pts, by simpa using hp⟩

end Russell.Nonlin
