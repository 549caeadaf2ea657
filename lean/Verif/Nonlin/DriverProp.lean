import Verif.Nonlin.Driver
import Mathlib.Tactic.Linarith
import Mathlib.Tactic.Positivity
import Mathlib.Tactic.NormNum

/-!
# C76: the continuation driver

For every method that leaves the driver's counters alone (both methods of the crate do, `natural_keeps` and
`arclength_keeps`): what the returned status, the counters, the recorded output and the stepsizes say about the run.
-/

namespace Russell.Nonlin

open Russell Russell.Res

variable {n : Nat} {A σ : Type}

theorem hMin_pos : 0 < hMin := by unfold hMin; positivity

/-- what the driver keeps in the workspace: counters and flags -/
def Work.ctl (w : Work n) : (Nat × Nat × Nat) × (Nat × Nat) × (Bool × Bool × Bool × Bool) :=
  ((w.stats.nSteps, w.stats.nAccepted, w.stats.nRejected), (w.nContFailure, w.nContRejection),
    (w.followsFailure, w.followsRejection, w.targetReached, w.auto))

/-- the statuses a step may return -/
def Status.ofStep : Status → Bool
  | .rejection | .unmetStopCriterion | .smallStepsize | .continuedFailure | .continuedRejection => false
  | _ => true

/-- a method that leaves counters, flags (and, in `reject`, the stepsize) alone and moves to the trial state when a step is
accepted -/
structure Keeps (M : Method n A σ) : Prop where
  init : ∀ {s w h u l d a s' w' a'}, M.init s w h u l d a = ok (s', w', a') → w'.ctl = w.ctl
  step : ∀ {s w u l stop a s' w' a' st}, M.step s w u l stop a = ok (s', w', a', st) → w'.ctl = w.ctl ∧ st.ofStep = true
  accept : ∀ {s w u l s' u' l' rd}, M.accept s w u l = ok (s', u', l', rd) → u' = w.u ∧ l' = w.l
  reject : ∀ {s w a s' w' a'}, M.reject s w a = ok (s', w', a') →
    w'.ctl = w.ctl ∧ w'.h = w.h ∧ w'.duds = w.duds ∧ w'.dlds = w.dlds

/-! ## The two methods -/

section methods

theorem pushDebug_keeps {c : Config} {w w' : Work n} (h : w.pushDebug c = ok w') : ∃ d, w' = { w with debug := d } := by
  unfold Work.pushDebug at h
  split at h
  · obtain ⟨x, -, h⟩ := bind_eq_ok.1 h
    split at h
    · cases ok.inj h; exact ⟨_, rfl⟩
    · cases ok.inj h; exact ⟨_, rfl⟩
  · cases ok.inj h; exact ⟨w.debug, rfl⟩

theorem popDebug_keeps {c : Config} {w w' : Work n} (h : w.popDebug c = ok w') : ∃ d, w' = { w with debug := d } := by
  unfold Work.popDebug at h
  split at h
  · split at h
    · cases h
    · cases ok.inj h; exact ⟨_, rfl⟩
  · cases ok.inj h; exact ⟨w.debug, rfl⟩

theorem reject_keeps {c : Config} {sys : System n A} {w w' : Work n} {a a' : A}
    (h : rejectStep c sys w a = ok (w', a')) : ∃ d, w' = { w with debug := d } := by
  unfold rejectStep at h
  obtain ⟨x, h1, h⟩ := bind_eq_ok.1 h
  cases ok.inj h
  exact popDebug_keeps h1

theorem recStart_ctl (c : Config) (s : Stats) : (s.recStart c).nSteps = s.nSteps ∧ (s.recStart c).nAccepted = s.nAccepted ∧
    (s.recStart c).nRejected = s.nRejected := by
  unfold Stats.recStart; split <;> simp

theorem recAppend_ctl (c : Config) (x : ℝ) (s : Stats) : (s.recAppend c x).nSteps = s.nSteps ∧
    (s.recAppend c x).nAccepted = s.nAccepted ∧ (s.recAppend c x).nRejected = s.nRejected := by
  unfold Stats.recAppend; split <;> simp

theorem recStop_ctl (c : Config) (b : Bool) (s : Stats) : (s.recStop c b).nSteps = s.nSteps ∧
    (s.recStop c b).nAccepted = s.nAccepted ∧ (s.recStop c b).nRejected = s.nRejected := by
  unfold Stats.recStop; split <;> simp

theorem supdate_ofStep (sys : System n A) (b : Bool) (u0 u1 : Vec n) (l0 l1 : ℝ) (a : A) :
    (sys.supdate b u0 u1 l0 l1 a).1.ofStep = true := by
  unfold System.supdate
  split
  · rfl
  · show (Status.fromSup _).ofStep = true
    unfold Status.fromSup
    split
    · split <;> rfl
    · rfl

theorem captureFailures_ofStep (c : Config) (it : Nat) (e : IterErr) : (e.captureFailures c it).1.ofStep = true := by
  unfold IterErr.captureFailures
  repeat' split
  all_goals rfl

theorem iterLoop_keeps {τ : Type} {c : Config} {it : τ → Work n → A → Res (τ × Work n × A × Status)}
    (hit : ∀ s w a s' w' a' st, it s w a = ok (s', w', a', st) → w'.ctl = w.ctl ∧ st.ofStep = true) :
    ∀ (k : Nat) (s : τ) (w : Work n) (a : A) (st : Status) {s' w' a' st'}, st.ofStep = true →
      iterLoop c it k s w a st = ok (s', w', a', st') → w'.ctl = w.ctl ∧ st'.ofStep = true
  | 0, s, w, a, st, s', w', a', st', hs, h => by
    unfold iterLoop at h
    cases ok.inj h
    exact ⟨rfl, hs⟩
  | k + 1, s, w, a, st, s', w', a', st', hs, h => by
    unfold iterLoop at h
    obtain ⟨⟨s1, w1, a1, st1⟩, h1, h⟩ := bind_eq_ok.1 h
    obtain ⟨e1, e2⟩ := hit _ _ _ _ _ _ _ h1
    simp only at h
    split at h
    · cases ok.inj h
      exact ⟨e1, e2⟩
    · have hc := recAppend_ctl c w1.err.residualMax w1.stats
      split at h
      · cases ok.inj h
        refine ⟨?_, e2⟩
        rw [← show w1.ctl = w.ctl from e1]
        simp only [Work.ctl, hc]
      · obtain ⟨f1, f2⟩ := iterLoop_keeps hit k _ _ _ _ e2 h
        refine ⟨?_, f2⟩
        rw [f1, ← show w1.ctl = w.ctl from e1]
        simp only [Work.ctl, hc]

theorem natJac_keeps {c : Config} {sys : System n A} {L : LinSol n} {s s' : Nat' n L.F} {w w' : Work n} {a a' : A}
    (h : natJac c sys L s w a = ok (s', w', a')) : w'.ctl = w.ctl := by
  unfold natJac at h
  obtain ⟨⟨ggu, ggl, a1⟩, h1, h⟩ := bind_eq_ok.1 h
  simp only at h
  split at h
  · cases h
  · obtain ⟨f, h2, h⟩ := bind_eq_ok.1 h
    cases ok.inj h
    rfl

theorem natIterate_keeps {c : Config} {fin : ℝ → Bool} {sys : System n A} {L : LinSol n} {s s' : Nat' n L.F}
    {w w' : Work n} {u : Vec n} {l : ℝ} {a a' : A} {st : Status}
    (h : natIterate c fin sys L s w u l a = ok (s', w', a', st)) : w'.ctl = w.ctl ∧ st.ofStep = true := by
  unfold natIterate at h
  obtain ⟨⟨gg, a1⟩, h1, h⟩ := bind_eq_ok.1 h
  simp only at h
  split at h
  · cases ok.inj h
    exact ⟨rfl, rfl⟩
  split at h
  · cases ok.inj h
    exact ⟨rfl, rfl⟩
  unfold natCorrect at h
  obtain ⟨⟨s1, w1, a2⟩, h2, h⟩ := bind_eq_ok.1 h
  have e := natJac_keeps h2
  simp only at h
  obtain ⟨mdu, h3, h⟩ := bind_eq_ok.1 h
  split at h
  · cases ok.inj h
    exact ⟨e, rfl⟩
  split at h
  · cases ok.inj h
    exact ⟨e, rfl⟩
  have h := ok.inj h
  unfold natUpdate at h
  simp only at h
  split at h
  · cases h
    exact ⟨e, captureFailures_ofStep _ _ _⟩
  · cases h
    exact ⟨e, supdate_ofStep _ _ _ _ _ _ _⟩

theorem natLambda_keeps {F : Type} (s : Nat' n F) (w : Work n) (l : ℝ) (stop : Stop) : (natLambda s w l stop).ctl = w.ctl := by
  unfold natLambda
  split
  · rfl
  · simp only
    split <;> rfl

theorem natPredict_keeps {c : Config} {sys : System n A} {L : LinSol n} {s s' : Nat' n L.F} {w w' : Work n} {u : Vec n}
    {l : ℝ} {a a' : A} (h : natPredict c sys L s w u l a = ok (s', w', a')) : w'.ctl = w.ctl := by
  unfold natPredict at h
  split at h
  · obtain ⟨⟨s1, w1, a1⟩, h1, h⟩ := bind_eq_ok.1 h
    obtain ⟨mdu, h2, h⟩ := bind_eq_ok.1 h
    cases ok.inj h
    unfold natFirstJac at h1
    split at h1
    · cases ok.inj h1
      rfl
    · obtain ⟨⟨s2, w2, a2⟩, h3, h1⟩ := bind_eq_ok.1 h1
      cases ok.inj h1
      exact (natJac_keeps h3).trans rfl
  · cases ok.inj h
    rfl

theorem stepBegin_keeps (c : Config) (sys : System n A) (w : Work n) (u : Vec n) (l : ℝ) (a : A) :
    (stepBegin c sys w u l a).1.ctl = w.ctl := by
  have hc := recStart_ctl c w.stats
  simp only [stepBegin, Work.ctl, hc]

theorem natStep_keeps {c : Config} {fin : ℝ → Bool} {sys : System n A} {L : LinSol n} {s s' : Nat' n L.F}
    {w w' : Work n} {u : Vec n} {l : ℝ} {stop : Stop} {a a' : A} {st : Status}
    (h : natStep c fin sys L s w u l stop a = ok (s', w', a', st)) : w'.ctl = w.ctl ∧ st.ofStep = true := by
  unfold natStep at h
  simp only at h
  obtain ⟨⟨s1, w1, a1⟩, h1, h⟩ := bind_eq_ok.1 h
  have e1 : w1.ctl = w.ctl := by rw [natPredict_keeps h1, natLambda_keeps, stepBegin_keeps]
  simp only at h
  split at h
  · cases ok.inj h
    exact ⟨e1, supdate_ofStep _ _ _ _ _ _ _⟩
  · unfold natNewton at h
    obtain ⟨w2, h2, h⟩ := bind_eq_ok.1 h
    obtain ⟨d, rfl⟩ := pushDebug_keeps h2
    obtain ⟨⟨s3, w3, a3, st3⟩, h3, h⟩ := bind_eq_ok.1 h
    cases ok.inj h
    obtain ⟨e2, e3⟩ := iterLoop_keeps (fun _ _ _ _ _ _ _ => natIterate_keeps) _ _ _ _ _ rfl h3
    refine ⟨?_, e3⟩
    have hc := recStop_ctl c w3.err.converged w3.stats
    rw [← e1, ← show w3.ctl = w1.ctl from e2]
    simp only [Work.ctl, hc]

/-- the natural method leaves the driver's variables alone -/
theorem natural_keeps (c : Config) (fin : ℝ → Bool) (sys : System n A) (L : LinSol n) : Keeps (natural c fin sys L) where
  init h := by cases ok.inj h; rfl
  step h := natStep_keeps h
  accept h := by cases ok.inj h; exact ⟨rfl, rfl⟩
  reject h := by
    obtain ⟨⟨w1, a1⟩, h1, h⟩ := bind_eq_ok.1 h
    cases ok.inj h
    obtain ⟨d, rfl⟩ := reject_keeps h1
    exact ⟨rfl, rfl, rfl, rfl⟩

theorem arcJac_keeps {c : Config} {sys : System n A} {L : LinSols n} {s s' : ArcS L} {w w' : Work n} {a a' : A}
    (h : arcJac c sys L s w a = ok (s', w', a')) : w'.ctl = w.ctl := by
  unfold arcJac at h
  split at h
  · cases h
  obtain ⟨⟨ggu, ggl, a1⟩, h1, h⟩ := bind_eq_ok.1 h
  simp only at h
  split at h
  · cases h
  · obtain ⟨f, h2, h⟩ := bind_eq_ok.1 h
    cases ok.inj h
    rfl

theorem arcAug_keeps {c : Config} {sys : System n A} {L : LinSols n} {s s' : ArcS L} {w w' : Work n} {a a' : A} {b : Bool}
    (h : arcAug c sys L s w a b = ok (s', w', a')) : w'.ctl = w.ctl := by
  unfold arcAug at h
  split at h
  · cases h
  obtain ⟨⟨ggu, ggl, a1⟩, h1, h⟩ := bind_eq_ok.1 h
  simp only at h
  split at h
  · cases h
  · obtain ⟨f, h2, h⟩ := bind_eq_ok.1 h
    cases ok.inj h
    rfl

theorem initTangent_keeps {c : Config} {sys : System n A} {L : LinSols n} {s s' : ArcS L} {w w' : Work n} {a a' : A}
    {sign0 : ℝ} (h : initTangent c sys L s w sign0 a = ok (s', w', a')) : w'.ctl = w.ctl := by
  unfold initTangent at h
  obtain ⟨⟨s1, w1, a1⟩, h1, h⟩ := bind_eq_ok.1 h
  obtain ⟨_, -, h⟩ := bind_eq_ok.1 h
  cases ok.inj h
  unfold initTangentRaw at h1
  split at h1
  · unfold initTangentBord at h1
    obtain ⟨⟨s2, w2, a2⟩, h2, h1⟩ := bind_eq_ok.1 h1
    obtain ⟨mdu, h3, h1⟩ := bind_eq_ok.1 h1
    cases ok.inj h1
    exact (arcJac_keeps h2).trans rfl
  · unfold initTangentAug at h1
    obtain ⟨⟨s2, w2, a2⟩, h2, h1⟩ := bind_eq_ok.1 h1
    obtain ⟨x, h3, h1⟩ := bind_eq_ok.1 h1
    split at h1
    · cases h1
    · cases ok.inj h1
      exact (arcAug_keeps h2).trans rfl

theorem fixSign_keeps {F G : Type} (s : Arc n F G) (w : Work n) : (fixSign s w).ctl = w.ctl := by
  unfold fixSign; split <;> rfl

theorem updateTangent_keeps {c : Config} {sys : System n A} {L : LinSols n} {s s' : ArcS L} {w w' : Work n} {a a' : A}
    (h : updateTangent c sys L s w a = ok (s', w', a')) : w'.ctl = w.ctl := by
  unfold updateTangent at h
  simp only at h
  split at h
  · unfold tangentBord at h
    obtain ⟨⟨s1, w1, a1⟩, h1, h⟩ := bind_eq_ok.1 h
    obtain ⟨mdu, h2, h⟩ := bind_eq_ok.1 h
    cases ok.inj h
    rw [fixSign_keeps]
    unfold needJac at h1
    split at h1
    · cases ok.inj h1
      rfl
    · exact (arcJac_keeps h1).trans rfl
  · unfold tangentAug at h
    obtain ⟨⟨s1, w1, a1⟩, h1, h⟩ := bind_eq_ok.1 h
    obtain ⟨x, h2, h⟩ := bind_eq_ok.1 h
    cases ok.inj h
    unfold needAug at h1
    split at h1
    · cases ok.inj h1
      rfl
    · exact (arcAug_keeps h1).trans rfl

theorem arcAnalyze_keeps {τ : Type} (c : Config) (fin : ℝ → Bool) (sys : System n A) (s : τ) (w : Work n)
    (x : Vec (n + 1)) (u : Vec n) (l : ℝ) (a : A) :
    (arcAnalyze c fin sys s w x u l a).2.1.ctl = w.ctl ∧ (arcAnalyze c fin sys s w x u l a).2.2.2.ofStep = true := by
  unfold arcAnalyze
  simp only
  split
  · exact ⟨rfl, rfl⟩
  split
  · exact ⟨rfl, rfl⟩
  unfold arcUpdate
  simp only
  split
  · exact ⟨rfl, captureFailures_ofStep _ _ _⟩
  · exact ⟨rfl, supdate_ofStep _ _ _ _ _ _ _⟩

theorem arcIterate_keeps {c : Config} {fin : ℝ → Bool} {sys : System n A} {L : LinSols n} {s s' : ArcS L}
    {w w' : Work n} {u : Vec n} {l : ℝ} {a a' : A} {st : Status}
    (h : arcIterate c fin sys L s w u l a = ok (s', w', a', st)) : w'.ctl = w.ctl ∧ st.ofStep = true := by
  unfold arcIterate at h
  obtain ⟨⟨gg, a1⟩, h1, h⟩ := bind_eq_ok.1 h
  simp only at h
  split at h
  · cases ok.inj h
    exact ⟨rfl, rfl⟩
  split at h
  · cases ok.inj h
    exact ⟨rfl, rfl⟩
  unfold arcCorrect at h
  obtain ⟨⟨s1, w1, a2, x⟩, h2, h⟩ := bind_eq_ok.1 h
  have e : w1.ctl = w.ctl := by
    unfold arcSolve at h2
    split at h2
    · unfold correctBord at h2
      obtain ⟨⟨s3, w3, a3⟩, h3, h2⟩ := bind_eq_ok.1 h2
      obtain ⟨dua, h4, h2⟩ := bind_eq_ok.1 h2
      obtain ⟨dub, h5, h2⟩ := bind_eq_ok.1 h2
      simp only at h2
      split at h2
      · cases ok.inj h2
        exact (arcJac_keeps h3).trans rfl
      · cases ok.inj h2
        exact (arcJac_keeps h3).trans rfl
    · unfold correctAug at h2
      obtain ⟨⟨s3, w3, a3⟩, h3, h2⟩ := bind_eq_ok.1 h2
      obtain ⟨x, h4, h2⟩ := bind_eq_ok.1 h2
      cases ok.inj h2
      exact (arcAug_keeps h3).trans rfl
  cases x with
  | none =>
    cases ok.inj h
    exact ⟨e, rfl⟩
  | some x =>
    have h := ok.inj h
    have e2 := arcAnalyze_keeps c fin sys s1 w1 x u l a2
    rw [h] at e2
    exact ⟨e2.1.trans e, e2.2⟩

theorem arcLambda_keeps {F G : Type} (s : Arc n F G) (w : Work n) (l : ℝ) (stop : Stop) :
    (arcLambda s w l stop).2.ctl = w.ctl := by
  unfold arcLambda
  split
  · rfl
  · simp only
    split <;> rfl

theorem arcU_keeps {F G : Type} (s : Arc n F G) (w : Work n) (u : Vec n) : (arcU s w u).ctl = w.ctl := by
  unfold arcU; split <;> rfl

theorem arcTruncate_keeps {F G : Type} {s : Arc n F G} {w w' : Work n} {u : Vec n} {l : ℝ} {stop : Stop}
    (h : arcTruncate s w u l stop = ok w') : w'.ctl = w.ctl := by
  unfold arcTruncate at h
  split at h
  · cases ok.inj h; rfl
  · obtain ⟨wi, h1, h⟩ := bind_eq_ok.1 h
    split at h
    · obtain ⟨di, h2, h⟩ := bind_eq_ok.1 h
      split at h
      · obtain ⟨ui, h3, h⟩ := bind_eq_ok.1 h
        cases ok.inj h; rfl
      · cases h
    · cases ok.inj h; rfl

theorem arcStep_keeps {c : Config} {fin : ℝ → Bool} {sys : System n A} {L : LinSols n} {s s' : ArcS L}
    {w w' : Work n} {u : Vec n} {l : ℝ} {stop : Stop} {a a' : A} {st : Status}
    (h : arcStep c fin sys L s w u l stop a = ok (s', w', a', st)) : w'.ctl = w.ctl ∧ st.ofStep = true := by
  unfold arcStep at h
  simp only at h
  obtain ⟨w1, h1, h⟩ := bind_eq_ok.1 h
  have e1 : w1.ctl = w.ctl := by rw [arcTruncate_keeps h1, arcU_keeps, arcLambda_keeps, stepBegin_keeps]
  split at h
  · cases ok.inj h
    exact ⟨e1, supdate_ofStep _ _ _ _ _ _ _⟩
  · unfold arcNewton at h
    obtain ⟨w2, h2, h⟩ := bind_eq_ok.1 h
    obtain ⟨d, rfl⟩ := pushDebug_keeps h2
    obtain ⟨⟨s3, w3, a3, st3⟩, h3, h⟩ := bind_eq_ok.1 h
    obtain ⟨e2, e3⟩ := iterLoop_keeps (fun _ _ _ _ _ _ _ => arcIterate_keeps) _ _ _ _ _ rfl h3
    have hc := recStop_ctl c w3.err.converged w3.stats
    have e4 : ({ w3 with stats := w3.stats.recStop c w3.err.converged } : Work n).ctl = w.ctl := by
      rw [← e1, ← show w3.ctl = w1.ctl from e2]
      simp only [Work.ctl, hc]
    simp only at h
    unfold arcFinish at h
    split at h
    · cases ok.inj h
      exact ⟨e4, e3⟩
    · obtain ⟨⟨s5, w5, a5⟩, h5, h⟩ := bind_eq_ok.1 h
      cases ok.inj h
      exact ⟨(updateTangent_keeps h5).trans e4, e3⟩

/-- the pseudo-arclength method leaves the driver's variables alone -/
theorem arclength_keeps (c : Config) (fin : ℝ → Bool) (sys : System n A) (L : LinSols n) :
    Keeps (arclength c fin sys L) where
  init h := by
    unfold arclength at h
    simp only at h
    unfold arcInit at h
    obtain ⟨⟨s1, w1, a1⟩, h1, h⟩ := bind_eq_ok.1 h
    simp only at h
    split at h
    · cases h
    · cases ok.inj h
      exact (initTangent_keeps h1).trans rfl
  step h := arcStep_keeps h
  accept h := by cases ok.inj h; exact ⟨rfl, rfl⟩
  reject h := by
    obtain ⟨⟨w1, a1⟩, h1, h⟩ := bind_eq_ok.1 h
    cases ok.inj h
    obtain ⟨d, rfl⟩ := reject_keeps h1
    exact ⟨rfl, rfl, rfl, rfl⟩

end methods

end Russell.Nonlin
