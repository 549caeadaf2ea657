import Verif.Nonlin.DriverMain
import Mathlib.Analysis.SpecialFunctions.Trigonometric.ArctanDeriv

/-!
# C76, continued: what the status, the counters and the stepsizes of a run say
-/

namespace Russell.Nonlin

open Russell Russell.Res

variable {n : Nat} {A σ : Type}

/-! ## Consequences for every run -/

/-- Two of the statuses are never returned, whatever the mode. -/
theorem C76_status_never_returned {c : Config} {fin : ℝ → Bool} {M : Method n A σ} {sv : Solver n σ} {a : A} {u : Vec n}
    {l : ℝ} {dir : IniDir} {stop : Stop} {ddl : DeltaLambda} {out : Option (Output n A)} {r : Run n A σ} {st : Status}
    (hk : Keeps M) (hv : c.validate = ok ()) (hrho : 0 ≤ c.rhoTiny)
    (h : solve c fin M sv a u l dir stop ddl out = ok (r, st)) : st ≠ .rejection ∧ st ≠ .continuedRejection := by
  cases hauto : ddl.auto with
  | true =>
    cases (C76_auto hk (Guide.trivial c M stop) hv hrho hauto (fun _ _ _ => True.intro) h).outcome with
    | met => exact ⟨by simp, by simp⟩
    | graceful => exact ⟨by simp, by simp⟩
    | exhausted _ _ h =>
      rcases h with rfl | ⟨h1, h2⟩
      · exact ⟨by simp, by simp⟩
      · refine ⟨h2, ?_⟩
        rintro rfl
        cases h1
    | small => exact ⟨by simp, by simp⟩
    | gaveUp => exact ⟨by simp, by simp⟩
    | fatal h =>
      refine ⟨?_, ?_⟩ <;> rintro rfl <;> cases h
  | false =>
    cases (C76_fixed hk (Guide.trivial c M stop) hauto (fun _ _ _ => True.intro) h).outcome with
    | met => exact ⟨by simp, by simp⟩
    | graceful => exact ⟨by simp, by simp⟩
    | exhausted => exact ⟨by simp, by simp⟩
    | failed h =>
      refine ⟨?_, ?_⟩ <;> rintro rfl <;> cases h

/-- The statuses that are only set by the driver with variable stepsize do not appear with constant or listed ones. -/
theorem C76_fixed_status {c : Config} {fin : ℝ → Bool} {M : Method n A σ} {sv : Solver n σ} {a : A} {u : Vec n}
    {l : ℝ} {dir : IniDir} {stop : Stop} {ddl : DeltaLambda} {out : Option (Output n A)} {r : Run n A σ} {st : Status}
    (hk : Keeps M) (hauto : ddl.auto = false)
    (h : solve c fin M sv a u l dir stop ddl out = ok (r, st)) :
    st ≠ .unmetStopCriterion ∧ st ≠ .smallStepsize ∧ st ≠ .continuedFailure := by
  cases (C76_fixed hk (Guide.trivial c M stop) hauto (fun _ _ _ => True.intro) h).outcome with
  | met => exact ⟨by simp, by simp, by simp⟩
  | graceful => exact ⟨by simp, by simp, by simp⟩
  | exhausted => exact ⟨by simp, by simp, by simp⟩
  | failed h =>
    refine ⟨?_, ?_, ?_⟩ <;> rintro rfl <;> cases h

/-- What success means with `Stop::Steps(k)` and variable stepsize: the number of *attempts* (accepted and rejected) is `k`
or the run was not stopped by the criterion at all. -/
theorem C76_steps_success {c : Config} {fin : ℝ → Bool} {M : Method n A σ} {sv : Solver n σ} {a : A} {u : Vec n}
    {l : ℝ} {dir : IniDir} {k : Nat} {ddl : DeltaLambda} {out : Option (Output n A)} {r : Run n A σ}
    (hk : Keeps M) (hv : c.validate = ok ()) (hrho : 0 ≤ c.rhoTiny) (hauto : ddl.auto = true)
    (h : solve c fin M sv a u l dir (.steps k) ddl out = ok (r, .success)) :
    r.sv.w.stats.nAccepted + r.sv.w.stats.nRejected = k ∨ Graceful out r ∨
    r.sv.w.stats.nAccepted + r.sv.w.stats.nRejected = c.nStepMax := by
  cases (C76_auto hk (Guide.trivial c M (.steps k)) hv hrho hauto (fun _ _ _ => True.intro) h).outcome with
  | met h1 h2 h3 =>
    have h4 := ok.inj h1
    simp only [decide_eq_true_eq] at h4
    left
    omega
  | graceful h1 => exact Or.inr (Or.inl h1)
  | exhausted h1 h2 => right; right; omega
  | fatal _ h => exact absurd rfl h

/-! ## A small method, to see runs of the driver -/

/-- a method whose first step fails (when it starts in the state 0) and whose other steps move λ by the stepsize -/
def toy : Method 1 Nat Nat where
  init s w ddlIni _ _ _ a := ok (s, { w with h := ddlIni }, a)
  step s w u l _ a := ok (s + 1, { w with u := u, l := l + w.h }, a + 1, if s = 0 then .largeDelta else .success)
  accept s w _ _ := ok (s, w.u, w.l, 0)
  reject s w a := ok (s, w, a)

theorem toy_keeps : Keeps toy := by
  refine ⟨?_, ?_, ?_, ?_⟩
  · intro s w h u l d a s' w' a' hs
    cases ok.inj hs; rfl
  · intro s w u l stop a s' w' a' st hs
    cases ok.inj hs
    refine ⟨rfl, ?_⟩
    split <;> rfl
  · intro s w u l s' u' l' rd hs
    cases ok.inj hs; exact ⟨rfl, rfl⟩
  · intro s w a s' w' a' hs
    cases ok.inj hs; exact ⟨rfl, rfl, rfl, rfl⟩

/-- the default configuration with `k` steps at most and without control of the stepsize -/
noncomputable def toyConfig (k : Nat) : Config := { Config.new with tgEnabled := false, nStepMax := k }

theorem toyConfig_valid (k : Nat) (hk : 1 ≤ k) : (toyConfig k).validate = ok () := by
  have : ¬ k < 1 := by omega
  unfold Config.validate toyConfig Config.new tolMin
  simp only [this]
  norm_num

/-- the solver of the examples -/
def toySolver (s : Nat) : Solver 1 Nat := ⟨s, Work.new 1, 0, 0, 0, 0⟩

theorem hMin_lt (x : ℝ) (hx : 1 / 4 ≤ x) : ¬ x < hMin := by
  unfold hMin
  norm_num
  linarith

/-- **`Stop::Steps(1)` does not stop after one step.** The attempts are counted, and the criterion is only tested after
accepted ones: when the first attempt is rejected, the run goes on until the number of steps is exhausted, and reports
success. -/
theorem C76_steps_counterexample : ∃ r, solve (toyConfig 3) (fun _ => true) toy (toySolver 0) 0 0 0 .pos (.steps 1)
    (.mkAuto 1) none = ok (r, .success) ∧ r.sv.w.stats.nAccepted = 2 ∧ r.sv.w.stats.nRejected = 1 ∧ r.l = 1 := by
  have h1 : ¬ (1 : ℝ) ≤ hMin := by unfold hMin; norm_num
  have h2 := hMin_lt (1 / 2) (by norm_num)
  have h2' : ¬ (2 : ℝ)⁻¹ < hMin := by rw [← one_div]; exact h2
  simp [solve, Stop.validate, DeltaLambda.ini, DeltaLambda.mkAuto, checkIni, h1, toy, toySolver, doOutput, continuation,
    toyConfig, Config.new, loopUntil, autoBody, doStep, preciseStop, Status.failure, Status.tryAgain, countFailure,
    Run.setW, Work.resetStats, Work.new, autoDecide, autoReject, checkSmall, h2', autoAccept, doAccept, allFinite, autoAdapt,
    adaptStepsize, ksi, rhoOf, smooth, stepExit, Stop.now, Stats.reset, Stats.new]
  norm_num

/-- **Success does not mean that the stop criterion is met.** When the number of steps is exhausted, success is reported:
here λ should have reached 10 and is 2. -/
theorem C76_success_counterexample : ∃ r, solve (toyConfig 2) (fun _ => true) toy (toySolver 1) 0 0 0 .pos (.maxLambda 10)
    (.mkAuto 1) none = ok (r, .success) ∧ r.l = 2 ∧ Stop.now 1 r.u r.l (.maxLambda 10) = ok false := by
  have h1 : ¬ (1 : ℝ) ≤ hMin := by unfold hMin; norm_num
  have h2 := hMin_lt 1 (by norm_num)
  have h3 : ¬ (9 : ℝ) < hMin := hMin_lt 9 (by norm_num)
  have h4 : ¬ (8 : ℝ) < hMin := hMin_lt 8 (by norm_num)
  have e0 : (1 : ℝ) - 10 = -9 := by norm_num
  have e1 : (2 : ℝ) - 10 = -8 := by norm_num
  have e2 : (1 : ℝ) + 1 = 2 := by norm_num
  have e3 : ¬ (10 : ℝ) < 1 := by norm_num
  have e4 : ¬ (10 : ℝ) < 2 := by norm_num
  have e5 : ¬ (10 : ℝ) ≤ 0 := by norm_num
  have e6 : (2 : ℝ) ≤ 10 := by norm_num
  simp [solve, Stop.validate, DeltaLambda.ini, DeltaLambda.mkAuto, checkIni, h1, toy, toySolver, doOutput, continuation,
    toyConfig, Config.new, loopUntil, autoBody, doStep, preciseStop, Status.failure, countFailure,
    Run.setW, Work.resetStats, Work.new, autoDecide, checkSmall, h2, autoAccept, doAccept, allFinite, autoAdapt,
    adaptStepsize, ksi, rhoOf, smooth, stepExit, Stop.now, Stats.reset, Stats.new, e0, e1, e2, e3, e4, e5, e6, h3, h4, not_lt.1 h4]

/-- the same with constant stepsizes -/
theorem C76_fixed_success_counterexample : ∃ r, solve (toyConfig 2) (fun _ => true) toy (toySolver 1) 0 0 0 .pos
    (.maxLambda 10) (.mkConstant 1) none = ok (r, .success) ∧ r.l = 2 ∧ Stop.now 1 r.u r.l (.maxLambda 10) = ok false := by
  have h1 : ¬ (1 : ℝ) ≤ hMin := by unfold hMin; norm_num
  have h3 : ¬ (9 : ℝ) < hMin := hMin_lt 9 (by norm_num)
  have h4 : ¬ (8 : ℝ) < hMin := hMin_lt 8 (by norm_num)
  have e0 : (1 : ℝ) - 10 = -9 := by norm_num
  have e1 : (2 : ℝ) - 10 = -8 := by norm_num
  have e2 : (1 : ℝ) + 1 = 2 := by norm_num
  have e3 : ¬ (10 : ℝ) < 1 := by norm_num
  have e4 : ¬ (10 : ℝ) < 2 := by norm_num
  have e5 : ¬ (10 : ℝ) ≤ 0 := by norm_num
  have e6 : (2 : ℝ) ≤ 10 := by norm_num
  simp [solve, Stop.validate, DeltaLambda.ini, DeltaLambda.mkConstant, checkIni, h1, toy, toySolver, doOutput, continuation,
    toyConfig, Config.new, loopUntil, fixedBody, doStep, Status.failure,
    Run.setW, Work.resetStats, Work.new, fixedAccept, nextListed, doAccept, allFinite,
    stepExit, Stop.now, Stats.reset, Stats.new, e0, e1, e2, e3, e4, e5, e6, h3, h4, not_lt.1 h4]

/-! ## The initial stepsize -/

/-- The initial stepsize is larger than the smallest allowed one, at most the requested one, and does not pass a prescribed
value of λ. -/
theorem C76_initial_stepsize {ddl : DeltaLambda} {stop : Stop} {l x : ℝ} (h : ddl.ini stop l = ok x) :
    hMin < x ∧ x ≤ ddl.ddlIni ∧ ∀ l1 isMin, stop.lambda = some (l1, isMin) → x ≤ |l1 - l| := by
  have key : ∀ y, checkIni y = ok x → hMin < x ∧ x = y := by
    intro y hy
    unfold checkIni at hy
    split at hy
    · cases hy
    · next hn => cases ok.inj hy; exact ⟨not_le.1 hn, rfl⟩
  unfold DeltaLambda.ini at h
  split at h
  · obtain ⟨h1, rfl⟩ := key _ h
    refine ⟨h1, min_le_left _ _, ?_⟩
    intro l1 b hb
    cases hb
    refine le_trans (min_le_right _ _) (le_of_eq (abs_sub_comm _ _))
  · obtain ⟨h1, rfl⟩ := key _ h
    refine ⟨h1, min_le_left _ _, ?_⟩
    intro l1 b hb
    cases hb
    exact min_le_right _ _
  · next hn1 hn2 =>
    obtain ⟨h1, rfl⟩ := key _ h
    refine ⟨h1, le_refl _, ?_⟩
    intro l1 b hb
    cases stop with
    | minLambda l => exact absurd rfl (hn1 l)
    | maxLambda l => exact absurd rfl (hn2 l)
    | minCompU | maxCompU | maxNormU | steps => cases hb

example : (DeltaLambda.mkAuto 3).ini (.maxLambda 2) 0 = ok 2 := by
  have h2 : ¬ (2 : ℝ) ≤ hMin := by unfold hMin; norm_num
  have h3 : min (3 : ℝ) 2 = 2 := by norm_num
  unfold DeltaLambda.ini DeltaLambda.mkAuto checkIni
  simp [h2, h3]

/-! ## The stepsize of the next attempt -/

/-- **Stepsize after an accepted attempt**: it is multiplied by a number between `1 - π/4` and `1 + π/2`, and does not grow
when the attempt follows a failed one. -/
theorem C76_stepsize_accepted {c : Config} (hrho : 0 ≤ c.rhoTiny) {r r' : Run n A σ} {rdiff : ℝ}
    (h : autoAdapt c r rdiff = ok r') (hpos : 0 < r.sv.w.h) :
    (1 - Real.pi / 4) * r.sv.w.h ≤ r'.sv.w.h ∧ r'.sv.w.h ≤ (1 + Real.pi / 2) * r.sv.w.h ∧ 0 < r'.sv.w.h ∧
    ((r.sv.w.followsFailure = true ∨ r.sv.w.followsRejection = true) → r'.sv.w.h ≤ r.sv.w.h) ∧
    r'.sv.w.stats.hAccepted = r'.sv.w.h := by
  obtain ⟨-, -, -, -, -, hn, e1, e2, m, e3, e4⟩ := autoAdapt_spec hrho h
  obtain ⟨e5, e6⟩ := e4 hpos
  rw [e1]
  simp only
  refine ⟨?_, ?_, ?_, e2, trivial⟩
  · rw [e3, mul_comm]; exact mul_le_mul_of_nonneg_left e5 hpos.le
  · rw [e3, mul_comm]; exact mul_le_mul_of_nonneg_right e6 hpos.le
  · rw [e3]; exact mul_pos hpos (lt_of_lt_of_le pi_lt_four e5)

/-- **Stepsize after a rejected attempt**: it is multiplied by `m_failure`; the accepted state is unchanged. -/
theorem C76_stepsize_rejected {c : Config} {M : Method n A σ} (hk : Keeps M) {r r' : Run n A σ}
    (h : autoReject c M r = ok r') :
    r'.sv.w.h = r.sv.w.h * c.mFailure ∧ r'.u = r.u ∧ r'.l = r.l ∧ r'.out = r.out ∧
    r'.sv.w.stats.nRejected = r.sv.w.stats.nRejected + 1 ∧ r'.sv.w.stats.nAccepted = r.sv.w.stats.nAccepted := by
  obtain ⟨e1, e2, e3, w1, w2, e4, e5, e6⟩ := autoReject_spec h
  obtain ⟨k1, k2, -⟩ := hk.reject e5
  rw [e4] at k1 k2
  simp only [Work.ctl, Prod.mk.injEq] at k1
  rw [e6]
  exact ⟨by simp only; rw [k2], e1, e2, e3, k1.1.2.2, k1.1.2.1⟩

/-- Validation accepts factors for which "rejected" steps are repeated with the same or a larger stepsize. -/
theorem C76_m_failure_counterexample : { Config.new with mFailure := 2 }.validate = ok () := by
  unfold Config.validate Config.new tolMin
  norm_num

/-- **After a tiny difference the PID controller cuts the stepsize to the minimum**, however small the present difference
is: a difference below `tg_control_rdiff_min` is stored as zero, and the factor `(ρ₋₁/ρ)^k_p` is then zero. -/
theorem C76_pid_after_tiny {c : Config} {sv : Solver n σ} {rdiff : ℝ} (h1 : c.tgEnabled = true) (h2 : c.tgPid = true)
    (h3 : sv.w.stats.nAccepted > 1) (h4 : sv.rerrPrev = 0) (h5 : c.rdiffMin ≤ rdiff) (h6 : 0 < c.rdiffMin) :
    ∃ sv', adaptStepsize c sv rdiff = ok (sv', sv.w.h * (1 - Real.pi / 4)) := by
  have hpos : 0 < rdiff := lt_of_lt_of_le h6 h5
  have hcut : cutTiny c rdiff = rdiff := by unfold cutTiny; rw [if_neg (not_lt.2 h5)]
  have hp : Ext.div 0 rdiff = .num 0 := by
    unfold Ext.div; rw [if_neg hpos.ne']; simp
  have hz : (Ext.num 0).powf (3 / 40) = .num 0 := by
    unfold Ext.powf; norm_num
  have hi : ∃ x, (Ext.div 1 rdiff).powf (7 / 40) = .num x := by
    unfold Ext.div; rw [if_neg hpos.ne']
    unfold Ext.powf
    simp only
    rw [if_pos (by positivity)]
    exact ⟨_, rfl⟩
  obtain ⟨x, hi⟩ := hi
  have hrho : rhoOf c sv rdiff = .num 0 := by
    unfold rhoOf
    rw [if_pos h1, if_neg hpos.ne', if_pos h2]
    unfold rhoPid
    have hd : ∃ y, (if sv.w.stats.nAccepted > 2 ∧ sv.rerrAnc > 0 then Ext.div 0 (rdiff * sv.rerrAnc)
        else .num 1).powf (1 / 100) = .num y := by
      split
      · next hd =>
        have : Ext.div 0 (rdiff * sv.rerrAnc) = .num 0 := by
          unfold Ext.div; rw [if_neg (mul_pos hpos hd.2).ne']; simp
        rw [this]
        exact ⟨0, by unfold Ext.powf; norm_num⟩
      · exact ⟨1, by unfold Ext.powf; norm_num⟩
    obtain ⟨y, hd⟩ := hd
    simp only [h3, if_true, h4, hp, hz, hi, zero_mul]
    rw [hd]
    simp [Ext.mul]
  refine ⟨{ sv with rerrAnc := sv.rerrPrev, rerrPrev := cutTiny c rdiff, hAnc := sv.hPrev, hPrev := sv.w.h }, ?_⟩
  unfold adaptStepsize
  rw [if_neg (by simpa using hpos.le), hcut, hrho]
  have hs : smooth (ksi c sv.w) sv.w.h (.num 0) = ok (sv.w.h * (1 - Real.pi / 4)) := by
    unfold smooth
    simp only [mul_zero, zero_sub, Real.arctan_neg, Real.arctan_one]
    rw [sub_eq_add_neg]
  rw [hs, ok_bind]

example : ∃ sv', adaptStepsize Config.new ({ toySolver 0 with
    w := { Work.new 1 with h := 1, stats := { Stats.new with nAccepted := 2 } } }) (1 / 1000)
      = ok (sv', 1 * (1 - Real.pi / 4)) :=
  C76_pid_after_tiny rfl rfl (by simp) rfl (by norm_num [Config.new]) (by norm_num [Config.new])

/-- **With a negative third exponent the stepsize becomes NaN** (`SoderlindClass::Ho321` and `H321`): after two tiny
differences, `∞·0` is computed. -/
theorem C76_nan_stepsize {c : Config} {sv : Solver n σ} {rdiff : ℝ} (h1 : c.tgEnabled = true) (h2 : c.tgPid = false)
    (h3 : sv.w.stats.nAccepted > 2) (h4 : sv.rerrPrev = 0) (h5 : sv.rerrAnc = 0) (h6 : c.rdiffMin ≤ rdiff)
    (h7 : 0 < c.rdiffMin) (h8 : 0 < c.beta2) (h9 : c.beta3 < 0) (h10 : 0 < sv.w.h) (h11 : 0 < sv.hPrev) :
    adaptStepsize c sv rdiff = err "not modelled: NaN stepsize" := by
  have hpos : 0 < rdiff := lt_of_lt_of_le h7 h6
  have hcut : cutTiny c rdiff = rdiff := by unfold cutTiny; rw [if_neg (not_lt.2 h6)]
  have p1 : ∃ x, 0 < x ∧ (Ext.div 1 rdiff).powf c.beta1 = .num x := by
    unfold Ext.div; rw [if_neg hpos.ne']
    unfold Ext.powf
    simp only
    rw [if_pos (by positivity)]
    exact ⟨_, Real.rpow_pos_of_pos (by positivity) _, rfl⟩
  obtain ⟨x, hx, p1⟩ := p1
  have p2 : Ext.div 1 0 = .inf := by unfold Ext.div; simp
  have p3 : Ext.inf.powf c.beta2 = .inf := by unfold Ext.powf; simp [h8.ne', h8]
  have p4 : ∃ y, 0 < y ∧ (Ext.div sv.w.h sv.hPrev).powf (-c.alpha2) = .num y := by
    unfold Ext.div; rw [if_neg h11.ne']
    unfold Ext.powf
    simp only
    rw [if_pos (by positivity)]
    exact ⟨_, Real.rpow_pos_of_pos (by positivity) _, rfl⟩
  obtain ⟨y, hy, p4⟩ := p4
  have p5 : Ext.inf.powf c.beta3 = .num 0 := by unfold Ext.powf; simp [h9.ne, h9.le]
  have hrho : rhoOf c sv rdiff = .nan := by
    unfold rhoOf
    rw [if_pos h1, if_neg hpos.ne', if_neg (by simp [h2])]
    unfold rhoFilter
    have h3' : sv.w.stats.nAccepted > 1 := by omega
    simp [h3, h3', h4, h5, p1, p2, p3, p4, p5, Ext.mul, hx.ne', hy.ne']
  unfold adaptStepsize
  rw [if_neg (by simpa using hpos.le), hcut, hrho]
  rfl

example : adaptStepsize { Config.new with
      tgPid := false, beta1 := 5 / 4, beta2 := 1 / 2, beta3 := -3 / 4, alpha2 := -1 / 4, alpha3 := -3 / 4 }
    ({ toySolver 0 with hPrev := 1, w := { Work.new 1 with
      h := 1, stats := { Stats.new with nAccepted := 3 } } }) (1 / 1000)
      = err "not modelled: NaN stepsize" :=
  C76_nan_stepsize rfl rfl (by simp) rfl rfl (by norm_num [Config.new]) (by norm_num [Config.new]) (by norm_num)
    (by norm_num) (by simp) (by simp)

/-! ## Statuses of failing attempts -/

/-- **The precise stop hides failures**: an attempt that passes the prescribed component of u is classified as
`UnmetStopCriterion`, whatever the step returned; it is tried again even if the step asked to terminate. -/
theorem C76_precise_stop_hides {c : Config} {fin : ℝ → Bool} {M : Method n A σ} {k : Nat} {u1 : ℝ} {i : Nat}
    {r r1 r' : Run n A σ} {st st' : Status} {leave : Bool} (hk : Keeps M) (hc : c.preciseStop = true) (hkn : k < n)
    (hstep : doStep M (.maxCompU k u1) r = ok (r1, st)) (hpass : u1 + hMin < r1.sv.w.u ⟨k, hkn⟩)
    (h : autoBody c fin M (.maxCompU k u1) i r = ok (r', st', leave)) : st' ≠ st := by
  obtain ⟨-, -, -, w, -, e⟩ := doStep_spec hstep
  have hof := (hk.step e).2
  have hp : preciseStop c (.maxCompU k u1) r1.sv.w st = ok .unmetStopCriterion := by
    unfold preciseStop
    rw [if_pos hc]
    simp only [Stop.uComp, Vec.at, dif_pos hkn, ok_bind]
    rw [if_pos (Or.inr ⟨trivial, hpass⟩)]
  unfold autoBody at h
  rw [hstep, ok_bind] at h
  simp only [hp, ok_bind] at h
  have key : st' = .continuedFailure ∨ st' = .continuedRejection ∨ st' = .smallStepsize ∨ st' = .unmetStopCriterion := by
    simp only [Status.tryAgain, Status.failure] at h
    simp only [ne_eq, reduceCtorEq, not_false_eq_true, decide_true, Bool.not_true, Bool.and_false, Bool.false_eq_true,
      if_false] at h
    split at h
    · cases ok.inj h; simp
    split at h
    · cases ok.inj h; simp
    · unfold autoDecide at h
      rw [if_pos (show Status.unmetStopCriterion.failure = true from rfl)] at h
      obtain ⟨r2, -, h⟩ := bind_eq_ok.1 h
      rcases (checkSmall_spec r2 _ (ok.inj h)).2 with ⟨-, h, -⟩ | ⟨-, h, -⟩ <;> simp [h]
  rintro rfl
  rcases key with h | h | h | h <;> rw [h] at hof <;> cases hof

/-- **The last failure is not undone**: when the driver gives up, `reject` is not called; the arguments of the system (its
secondary state) are those the failing attempt left behind. -/
theorem C76_failure_not_restored {c : Config} {fin : ℝ → Bool} {M : Method n A σ} {stop : Stop} {i : Nat}
    {r r' : Run n A σ} {st' : Status} (h : autoBody c fin M stop i r = ok (r', st', true))
    (hf : st' ≠ .success) (hs : st' ≠ .smallStepsize) :
    ∃ w s w' st, M.step r.sv.st w r.u r.l stop r.a = ok (s, w', r'.a, st) := by
  unfold autoBody at h
  obtain ⟨⟨r1, st1⟩, h1, h⟩ := bind_eq_ok.1 h
  obtain ⟨e1, e2, e3, w0, hw0, e4⟩ := doStep_spec h1
  simp only at h
  obtain ⟨st2, h2, h⟩ := bind_eq_ok.1 h
  split at h
  · cases ok.inj h
    exact ⟨_, _, _, _, e4⟩
  split at h
  · cases ok.inj h
    exact ⟨_, _, _, _, e4⟩
  split at h
  · cases ok.inj h
    exact ⟨_, _, _, _, e4⟩
  exfalso
  unfold autoDecide at h
  split at h
  · obtain ⟨r2, -, h⟩ := bind_eq_ok.1 h
    rcases (checkSmall_spec r2 _ (ok.inj h)).2 with ⟨-, h, -⟩ | ⟨h, -⟩
    · exact hs h
    · cases h
  · next hsf =>
    obtain ⟨⟨r2, lv⟩, -, h⟩ := bind_eq_ok.1 h
    simp only at h
    split at h
    · cases ok.inj h
      exact hf (success_of_not_failure hsf)
    · rcases (checkSmall_spec r2 _ (ok.inj h)).2 with ⟨-, h, -⟩ | ⟨h, -⟩
      · exact hs h
      · cases h

/-- a method whose steps pass the value 1 and ask to terminate -/
def toyPass : Method 1 Nat Nat := { toy with
  step := fun s w _ l _ a => ok (s + 1, { w with u := fun _ => 5, l := l + w.h }, a + 1, .secondaryUpdateTerminate) }

example : ∃ r, solve { toyConfig 1 with preciseStop := true } (fun _ => true) toyPass (toySolver 0) 0 0 0 .pos
    (.maxCompU 0 1) (.mkAuto 1) none = ok (r, .unmetStopCriterion) := by
  have h1 : ¬ (1 : ℝ) ≤ hMin := by unfold hMin; norm_num
  have h2 : ¬ (2 : ℝ)⁻¹ < hMin := hMin_lt _ (by norm_num)
  have h3 : (1 : ℝ) + hMin < 5 := by unfold hMin; norm_num
  have h4 : ¬ (1 : ℝ) ≤ 0 := by norm_num
  simp [solve, Stop.validate, DeltaLambda.ini, DeltaLambda.mkAuto, checkIni, h1, toyPass, toy, toySolver, doOutput,
    continuation, toyConfig, Config.new, loopUntil, autoBody, doStep, preciseStop, Status.failure, Status.tryAgain,
    countFailure, Run.setW, Work.resetStats, Work.new, autoDecide, autoReject, checkSmall, h2, Stop.uComp, Vec.at, h3, h4]

/-- the arguments have been changed by the failing step (`a = 1`) and are not restored -/
example : ∃ r, solve { toyConfig 1 with nContFailureMax := 1 } (fun _ => true) toy (toySolver 0) 0 0 0 .pos
    (.steps 1) (.mkAuto 1) none = ok (r, .continuedFailure) ∧ r.a = 1 := by
  have h1 : ¬ (1 : ℝ) ≤ hMin := by unfold hMin; norm_num
  simp [solve, Stop.validate, DeltaLambda.ini, DeltaLambda.mkAuto, checkIni, h1, toy, toySolver, doOutput,
    continuation, toyConfig, Config.new, loopUntil, autoBody, doStep, preciseStop, Status.failure, Status.tryAgain,
    countFailure, Run.setW, Work.resetStats, Work.new]

/-! ## The hypotheses are met -/

example : Keeps (natural Config.new (fun _ => true) (⟨fun _ u a => ok (u, a), fun _ _ a => ok (1, 0, a), none, none, none,
    none⟩ : System 2 Nat) ⟨Unit, fun _ => ok (), fun _ b => ok b⟩) := natural_keeps _ _ _ _

example : ∃ r, solve (toyConfig 3) (fun _ => true) toy (toySolver 0) 0 0 0 .pos (.steps 1) (.mkAuto 1) none = ok (r, .success) ∧
    Final (toyConfig 3) (fun _ _ => True) (.steps 1) none (0, 0) r .success := by
  obtain ⟨r, h, -⟩ := C76_steps_counterexample
  exact ⟨r, h, C76_auto toy_keeps (Guide.trivial _ _ _) (toyConfig_valid 3 (by norm_num))
    (by norm_num [toyConfig, Config.new]) rfl (fun _ _ _ => True.intro) h⟩

example : ∃ r, solve (toyConfig 2) (fun _ => true) toy (toySolver 1) 0 0 0 .pos (.maxLambda 10) (.mkConstant 1) none
      = ok (r, .success) ∧
    FixedFinal 2 (fun _ _ => True) (.maxLambda 10) none (0, 0) r .success := by
  obtain ⟨r, h, -⟩ := C76_fixed_success_counterexample
  exact ⟨r, h, C76_fixed toy_keeps (Guide.trivial _ _ _) rfl (fun _ _ _ => True.intro) h⟩

end Russell.Nonlin
