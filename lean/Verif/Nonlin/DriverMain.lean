import Verif.Nonlin.DriverTrace

/-!
# C76: theorems about whole runs of the driver
-/

namespace Russell.Nonlin

open Russell Russell.Res

variable {n : Nat} {A σ : Type}

theorem preciseStop_spec {c : Config} {stop : Stop} {w : Work n} {st st' : Status}
    (h : preciseStop c stop w st = ok st') : st' = st ∨ st' = .unmetStopCriterion := by
  unfold preciseStop at h
  split at h
  · split at h
    · exact Or.inl (ok.inj h).symm
    · obtain ⟨x, -, h⟩ := bind_eq_ok.1 h
      split at h
      · exact Or.inr (ok.inj h).symm
      · exact Or.inl (ok.inj h).symm
  · exact Or.inl (ok.inj h).symm

theorem success_of_not_failure {st : Status} (h : ¬ st.failure = true) : st = .success := by
  unfold Status.failure at h
  simpa using h

theorem failure_ne {st : Status} (h : st.failure = true) : st ≠ .success := by
  unfold Status.failure at h
  simpa using h

theorem checkSmall_spec (r : Run n A σ) (st : Status) {r' st' leave} (h : checkSmall r st = (r', st', leave)) :
    r' = r ∧ ((leave = true ∧ st' = .smallStepsize ∧ r.sv.w.h < hMin) ∨ (leave = false ∧ st' = st ∧ hMin ≤ r.sv.w.h)) := by
  unfold checkSmall at h
  split at h
  · next hs => cases h; exact ⟨rfl, Or.inl ⟨rfl, rfl, hs⟩⟩
  · next hs => cases h; exact ⟨rfl, Or.inr ⟨rfl, rfl, not_lt.1 hs⟩⟩

theorem autoAccept_spec {c : Config} {fin : ℝ → Bool} {M : Method n A σ} {stop : Stop} {i : Nat} {r r' : Run n A σ}
    {leave : Bool} {out : Option (Output n A)} {pts : List (Vec n × ℝ)} (hrho : 0 ≤ c.rhoTiny)
    (ht : r.sv.w.targetReached = false) (ho : OutInv out pts r.out) (h : autoAccept c fin M stop i r = ok (r', leave)) :
    ∃ w1 rd hn m, w1 = { r.sv.w with stats := { r.sv.w.stats with nAccepted := r.sv.w.stats.nAccepted + 1 } } ∧
      M.accept r.sv.st w1 r.u r.l = ok (r'.sv.st, r'.u, r'.l, rd) ∧
      r'.sv.w = { w1 with
        h := hn, stats := { w1.stats with hAccepted := hn }, nContFailure := 0, nContRejection := 0,
        followsFailure := false, followsRejection := false } ∧
      hn = r.sv.w.h * m ∧ (0 < r.sv.w.h → 1 - Real.pi / 4 ≤ m ∧ m ≤ 1 + Real.pi / 2) ∧
      ((r.sv.w.followsFailure = true ∨ r.sv.w.followsRejection = true) → hn ≤ r.sv.w.h) ∧
      OutEnd out (pts ++ [(r'.u, r'.l)]) r'.out ∧ (leave = false → OutInv out (pts ++ [(r'.u, r'.l)]) r'.out) ∧
      (leave = true → Graceful out r' ∨ stop.now i r'.u r'.l = ok true) ∧
      (leave = false → stop.now i r'.u r'.l = ok false) := by
  unfold autoAccept at h
  obtain ⟨⟨r1, rd⟩, h1, h⟩ := bind_eq_ok.1 h
  obtain ⟨a1, a2, a3, a4⟩ := doAccept_spec h1
  obtain ⟨_, -, h⟩ := bind_eq_ok.1 h
  rw [a3] at h
  simp only [ht] at h
  obtain ⟨r2, h2, h⟩ := bind_eq_ok.1 h
  obtain ⟨b1, b2, b3, b4, b5, hn, b6, b7, m, b8, b9⟩ := autoAdapt_spec hrho h2
  rw [a3] at a4 b6 b7 b8 b9
  have ho2 : OutInv out pts r2.out := by rw [b4, a1]; exact ho
  obtain ⟨d1, d2, d3, d4, d7, d5, d6⟩ := stepExit_spec ho2 h
  refine ⟨_, rd, hn, m, rfl, ?_, ?_, b8, b9, b7, ?_, ?_, d5, d6⟩
  · rw [d1, b5, d2, b1, d3, b2]; exact a4
  · rw [d1]; exact b6
  · rw [d2, d3]; exact d4
  · rw [d2, d3]; exact d7

theorem autoReject_spec {c : Config} {M : Method n A σ} {r r' : Run n A σ} (h : autoReject c M r = ok r') :
    r'.u = r.u ∧ r'.l = r.l ∧ r'.out = r.out ∧ ∃ w1 w2, w1 = { r.sv.w with
      stats := { r.sv.w.stats with nRejected := r.sv.w.stats.nRejected + 1 }, followsRejection := true } ∧
      M.reject r.sv.st w1 r.a = ok (r'.sv.st, w2, r'.a) ∧ r'.sv.w = { w2 with h := w2.h * c.mFailure } := by
  unfold autoReject at h
  obtain ⟨⟨s1, w1, a1⟩, h1, h⟩ := bind_eq_ok.1 h
  cases ok.inj h
  exact ⟨rfl, rfl, rfl, _, w1, rfl, h1, rfl⟩

/-- one pass of the loop with variable stepsize -/
theorem autoBody_spec {c : Config} {fin : ℝ → Bool} {M : Method n A σ} {stop : Stop} {J : σ → Work n → Vec n → ℝ → Prop}
    {R : Vec n × ℝ → Vec n × ℝ → Prop} {out : Option (Output n A)} {x0 : Vec n × ℝ} {i : Nat} {r r' : Run n A σ}
    {st st' : Status} {leave : Bool} (hk : Keeps M) (hg : Guide c M stop J R) (hrho : 0 ≤ c.rhoTiny)
    (hrm : 1 ≤ c.nContRejectionMax) (hi : i < c.nStepMax)
    (inv : AutoInv c J R out x0 i r st) (h : autoBody c fin M stop i r = ok (r', st', leave)) :
    if leave then Final c R stop out x0 r' st' else AutoInv c J R out x0 (i + 1) r' st' := by
  obtain ⟨cnt, hj, ⟨pts, hp, hlen, hout⟩, -⟩ := inv
  unfold autoBody at h
  obtain ⟨⟨r1, st1⟩, h1, h⟩ := bind_eq_ok.1 h
  obtain ⟨e1, e2, e3, w0, hw0, e4⟩ := doStep_spec h1
  simp only at h
  obtain ⟨st2, h2, h⟩ := bind_eq_ok.1 h
  have hst2 := preciseStop_spec h2
  obtain ⟨hctl, hof⟩ := hk.step e4
  have hj0 : J r.sv.st w0 r.u r.l := by rw [hw0]; exact hg.frame (w := r.sv.w) rfl rfl rfl hj
  have hc : r1.sv.w.stats.nSteps = i + 1 ∧ r1.sv.w.stats.nAccepted = r.sv.w.stats.nAccepted ∧
      r1.sv.w.stats.nRejected = r.sv.w.stats.nRejected ∧ r1.sv.w.nContFailure = r.sv.w.nContFailure ∧
      r1.sv.w.nContRejection = 0 ∧ r1.sv.w.followsFailure = r.sv.w.followsFailure ∧
      r1.sv.w.followsRejection = r.sv.w.followsRejection ∧ r1.sv.w.targetReached = false := by
    rw [hw0] at hctl
    simp only [Work.ctl, Prod.mk.injEq] at hctl
    have := cnt.steps
    have := cnt.contRej
    have := cnt.target
    refine ⟨by omega, hctl.1.2.1, hctl.1.2.2, hctl.2.1.1, by omega, hctl.2.2.1, hctl.2.2.2.1, ?_⟩
    rw [hctl.2.2.2.2.1]; assumption
  obtain ⟨c1, c2, c3, c4, c5, c6, c7, c8⟩ := hc
  have hsum := cnt.sum
  have hb := cnt.bound
  have hmul : (c.nContFailureMax - 1) * (r.sv.w.stats.nAccepted + 1)
      = (c.nContFailureMax - 1) * r.sv.w.stats.nAccepted + (c.nContFailureMax - 1) := by ring
  have hfl := cnt.fail
  split at h
  · -- must stop
    next hf =>
    simp only [Bool.and_eq_true, Bool.not_eq_true'] at hf
    obtain ⟨hf1, hf2⟩ := hf
    cases ok.inj h
    simp only [if_true]
    have hst : st' = st1 := by
      rcases hst2 with h | h
      · exact h
      · rw [h] at hf2; cases hf2
    refine ⟨⟨pts, ?_, ?_, ?_⟩, ?_, ?_, ?_⟩
    · rw [e1, e2]; exact hp
    · rw [c2]; exact hlen
    · rw [e3]; exact .all hout
    · refine .fatal (hst ▸ hof) (failure_ne hf1) hf2 ?_
      rw [c1, c2, c3, hsum]
    · rw [c1]; omega
    · rw [c2, c3]; omega
  · next hf =>
    simp only [Bool.and_eq_true, Bool.not_eq_true', not_and, Bool.not_eq_false] at hf
    have hcf : (r1.setW (countFailure st2 r1.sv.w)).sv.w = countFailure st2 r1.sv.w := rfl
    rw [hcf] at h
    by_cases hfail : st2.failure = true
    · -- a failure that may be tried again
      have hta := hf hfail
      have hw : countFailure st2 r1.sv.w = { r1.sv.w with nContFailure := r1.sv.w.nContFailure + 1, followsFailure := true } := by
        unfold countFailure; rw [if_pos hfail]
      split at h
      · next hmax =>
        cases ok.inj h
        simp only [if_true]
        rw [hw] at hmax
        simp only at hmax
        refine ⟨⟨pts, ?_, ?_, ?_⟩, ?_, ?_, ?_⟩
        · show Path R x0 pts (r1.u, r1.l)
          rw [e1, e2]; exact hp
        · rw [hcf, hw]; simp only; rw [c2]; exact hlen
        · show OutEnd out pts r1.out
          rw [e3]; exact .all hout
        · refine .gaveUp ?_ ?_
          · rw [hcf, hw]; simp only; omega
          · rw [hcf, hw]; simp only; omega
        · rw [hcf, hw]; simp only; omega
        · rw [hcf, hw]; simp only; rw [c2, c3]; omega
      · next hmax =>
        rw [hw] at hmax
        simp only at hmax
        split at h
        · next hmr =>
          rw [hw] at hmr
          simp only at hmr
          omega
        · unfold autoDecide at h
          rw [if_pos hfail] at h
          obtain ⟨r2, h3, h⟩ := bind_eq_ok.1 h
          obtain ⟨f1, f2, f3, w1, w2, f4, f5, f6⟩ := autoReject_spec h3
          rw [hcf, hw] at f4
          obtain ⟨k1, k2, k3, k4⟩ := hk.reject f5
          have hj2 : J r2.sv.st r2.sv.w r2.u r2.l := by
            rw [f6, f1, f2]
            show J r2.sv.st _ r1.u r1.l
            rw [e1, e2]
            refine hg.reject hj0 e4 (w'' := w1) ?_ f5
            rw [f4]
            exact ⟨rfl, rfl, rfl, rfl, rfl⟩
          have hcnt : Counters c r2.sv.w (i + 1) := by
            rw [f4] at k1
            simp only [Work.ctl, Prod.mk.injEq] at k1
            obtain ⟨⟨p1, p2, p3⟩, ⟨p4, p5⟩, p6, p7, p8, p9⟩ := k1
            rw [f6]
            refine ⟨?_, ?_, ?_, ?_, ?_, ?_, ?_, ?_⟩
            · simp only; omega
            · simp only; omega
            · simp only; omega
            · simp only; rw [p8]; exact c8
            · simp only; omega
            · simp only; rw [p6, p4]; simp
            · simp only; rw [p7, p4]; simp
            · simp only; rw [p2, p3, p4, c2, c3, c4]; omega
          have hacc : r2.sv.w.stats.nAccepted = r.sv.w.stats.nAccepted := by
            rw [f4] at k1
            simp only [Work.ctl, Prod.mk.injEq] at k1
            rw [f6]
            simp only
            rw [k1.1.2.1, c2]
          obtain ⟨g1, g2⟩ := checkSmall_spec r2 st2 (ok.inj h)
          subst g1
          have hp2 : ∃ pts, Path R x0 pts (r'.u, r'.l) ∧ pts.length = r'.sv.w.stats.nAccepted + 1 ∧ OutInv out pts r'.out := by
            refine ⟨pts, ?_, by rw [hacc]; exact hlen, ?_⟩
            · rw [f1, f2]
              show Path R x0 pts (r1.u, r1.l)
              rw [e1, e2]; exact hp
            · rw [f3]
              show OutInv out pts r1.out
              rw [e3]; exact hout
          rcases g2 with ⟨rfl, rfl, g3⟩ | ⟨rfl, rfl, g3⟩
          · simp only [if_true]
            have hs := hcnt.sum
            have hst := hcnt.steps
            have hbb := hcnt.bound
            have hff := hcnt.fail
            obtain ⟨pts2, pa, pb, pc⟩ := hp2
            refine ⟨⟨pts2, pa, pb, .all pc⟩, .small g3 (by omega), by omega, ?_⟩
            rw [hacc] at hbb ⊢
            omega
          · simp only [Bool.false_eq_true, if_false]
            refine ⟨hcnt, hj2, hp2, Or.inr ⟨hta, ?_⟩⟩
            rcases hst2 with h | h
            · intro hr
              rw [← h, hr] at hof
              cases hof
            · rw [h]; simp
    · -- accepted
      have hsucc := success_of_not_failure hfail
      have hst1 : st1 = .success := by
        rcases hst2 with h | h
        · rw [← h]; exact hsucc
        · rw [h] at hsucc; cases hsucc
      have hw : countFailure st2 r1.sv.w = r1.sv.w := by
        unfold countFailure; rw [if_neg hfail]
      rw [hw] at h
      have hsame : r1.setW r1.sv.w = r1 := rfl
      rw [hsame] at h
      split at h
      · next hmax => omega
      split at h
      · next hmr => omega
      unfold autoDecide at h
      rw [if_neg hfail] at h
      obtain ⟨⟨r2, lv⟩, h3, h⟩ := bind_eq_ok.1 h
      have ho1 : OutInv out pts r1.out := by rw [e3]; exact hout
      obtain ⟨w1, rd, hn, m, q1, q2, q3, q4, q5, q6, q7, q10, q8, q9⟩ := autoAccept_spec hrho c8 ho1 h3
      rw [hst1] at e4
      have hsm : Same r1.sv.w w1 := by rw [q1]; exact ⟨rfl, rfl, rfl, rfl, rfl⟩
      rw [e1, e2] at q2
      obtain ⟨hR, hJ⟩ := hg.accept hj0 e4 hsm q2
      have hcnt : Counters c r2.sv.w (i + 1) := by
        rw [q3, q1]
        refine ⟨?_, ?_, rfl, ?_, ?_, rfl, rfl, ?_⟩
        · simp only; omega
        · simp only; omega
        · simp only; exact c8
        · simp only; omega
        · simp only; rw [c2, c3]; omega
      have hacc : r2.sv.w.stats.nAccepted = r.sv.w.stats.nAccepted + 1 := by
        rw [q3, q1]; simp only; omega
      have hp2 : ∃ pts, Path R x0 pts (r2.u, r2.l) ∧ pts.length = r2.sv.w.stats.nAccepted + 1 ∧ OutEnd out pts r2.out ∧
          (lv = false → OutInv out pts r2.out) := by
        refine ⟨pts ++ [(r2.u, r2.l)], .next hp hR, ?_, q7, q10⟩
        rw [hacc]; simp [hlen]
      obtain ⟨pts2, pa, pb, pc, pd⟩ := hp2
      have hs := hcnt.sum
      have hst := hcnt.steps
      have hbb := hcnt.bound
      have hff := hcnt.fail
      have hncf : r2.sv.w.nContFailure = 0 := by rw [q3]
      have hbnd : r2.sv.w.stats.nRejected ≤ (c.nContFailureMax - 1) * (r2.sv.w.stats.nAccepted + 1) := by
        rw [hncf] at hbb
        calc _ ≤ _ := hbb
          _ ≤ _ := by rw [Nat.add_zero]; exact Nat.mul_le_mul_left _ (Nat.le_succ _)
      simp only at h
      cases lv with
      | true =>
        cases ok.inj h
        simp only [if_true]
        refine ⟨⟨pts2, pa, pb, pc⟩, ?_, by omega, hbnd⟩
        rw [hsucc]
        rcases q8 rfl with hgr | hnow
        · exact .graceful hgr (by omega)
        · refine .met ?_ (by omega) (by omega)
          rw [hst, Nat.add_sub_cancel]; exact hnow
      | false =>
        obtain ⟨g1, g2⟩ := checkSmall_spec r2 st2 (ok.inj h)
        subst g1
        rcases g2 with ⟨rfl, rfl, g3⟩ | ⟨rfl, rfl, g3⟩
        · simp only [if_true]
          exact ⟨⟨pts2, pa, pb, pc⟩, .small g3 (by omega), by omega, hbnd⟩
        · simp only [Bool.false_eq_true, if_false]
          refine ⟨hcnt, ?_, ⟨pts2, pa, pb, pd rfl⟩, Or.inl hsucc⟩
          have hpos : 0 < r1.sv.w.h → 0 < hn := by
            intro hh
            rw [q4]
            exact mul_pos hh (lt_of_lt_of_le pi_lt_four (q5 hh).1)
          refine hg.frame ?_ ?_ ?_ (hJ hn hpos ⟨i, q9 rfl⟩)
          · rw [q3]
          · rw [q3, q1]
          · rw [q3, q1]

/-- what the driver knows after the initialization and the first output -/
theorem solve_start {c : Config} {fin : ℝ → Bool} {M : Method n A σ} {sv : Solver n σ} {a : A} {u : Vec n} {l : ℝ}
    {dir : IniDir} {stop : Stop} {ddl : DeltaLambda} {out : Option (Output n A)} {r : Run n A σ} {st : Status}
    (h : solve c fin M sv a u l dir stop ddl out = ok (r, st)) :
    stop.validate u l = ok () ∧ ∃ ddlIni s w a' g r0, ddl.ini stop l = ok ddlIni ∧
      M.init sv.st (sv.w.resetStats ddl.auto) ddlIni u l dir a = ok (s, w, a') ∧
      doOutput c ⟨{ sv with st := s, w := w }, u, l, a', out⟩ = ok (g, r0) ∧
      (if g then (r = r0 ∧ st = .success) else continuation c fin M stop ddl r0 = ok (r, st)) := by
  unfold solve at h
  obtain ⟨_, h0, h⟩ := bind_eq_ok.1 h
  obtain ⟨ddlIni, h1, h⟩ := bind_eq_ok.1 h
  obtain ⟨⟨s, w, a'⟩, h2, h⟩ := bind_eq_ok.1 h
  obtain ⟨⟨g, r0⟩, h3, h⟩ := bind_eq_ok.1 h
  refine ⟨h0, ddlIni, s, w, a', g, r0, h1, h2, h3, ?_⟩
  cases g with
  | true =>
    cases ok.inj h
    exact ⟨rfl, rfl⟩
  | false => exact h

theorem OutInv.nil (out : Option (Output n A)) : OutInv out [] out := by
  cases out with
  | none => exact .none
  | some o => exact .some rfl rfl (fun _ _ p hp => by cases hp) (fun _ => ⟨by simp, by simp, by simp⟩)

/-- what validation guarantees -/
theorem validate_spec {c : Config} (h : c.validate = ok ()) :
    1 / 1000 ≤ c.mFailure ∧ 1 ≤ c.nStepMax ∧ 1 ≤ c.nContFailureMax ∧ 1 ≤ c.nContRejectionMax ∧
    tolMin ≤ c.tolAbsResidual ∧ tolMin ≤ c.tolAbsDelta ∧ tolMin ≤ c.tolRelDelta ∧ 0 < c.deltaMaxAllowed ∧
    1 ≤ c.nIterationMax ∧ 1 ≤ c.nContResDivMax ∧ 1 ≤ c.nContDeltaDivMax ∧ 1 ≤ c.nOpt ∧ 0 < c.nrBeta ∧
    tolMin ≤ c.tgTol := by
  unfold Config.validate at h
  have key : ∀ {p : Prop} {_ : Decidable p} {m : String} {x : Res Unit}, (if p then err m else x) = ok () → ¬ p ∧ x = ok () := by
    intro p _ m x h
    by_cases hp : p
    · rw [if_pos hp] at h; cases h
    · rw [if_neg hp] at h; exact ⟨hp, h⟩
  obtain ⟨h1, h⟩ := key h
  obtain ⟨h2, h⟩ := key h
  obtain ⟨h3, h⟩ := key h
  obtain ⟨h4, h⟩ := key h
  obtain ⟨h5, h⟩ := key h
  obtain ⟨h6, h⟩ := key h
  obtain ⟨h7, h⟩ := key h
  obtain ⟨h8, h⟩ := key h
  obtain ⟨h9, h⟩ := key h
  obtain ⟨h10, h⟩ := key h
  obtain ⟨h11, h⟩ := key h
  obtain ⟨h12, h⟩ := key h
  obtain ⟨h13, h⟩ := key h
  obtain ⟨h14, -⟩ := key h
  exact ⟨not_lt.1 h1, not_lt.1 h2, not_lt.1 h3, not_lt.1 h4, not_lt.1 h5, not_lt.1 h6, not_lt.1 h7, not_le.1 h8, not_lt.1 h9,
    not_lt.1 h10, not_lt.1 h11, not_lt.1 h12, not_le.1 h13, not_lt.1 h14⟩

/-- **Runs with variable stepsize.** For every method that leaves the driver's counters alone, every invariant of the method
and every relation between consecutive accepted points: a run of `solve` that returns has gone through
`n_accepted + 1` points (the given one and one per accepted step, consecutive points being related), ends at the last of
them, has recorded exactly these points in order, and ends in one of the ways listed in `Outcome`; the number of steps is at
most `n_step_max`, and at most `n_cont_failure_max - 1` steps are rejected per accepted step. -/
theorem C76_auto {c : Config} {fin : ℝ → Bool} {M : Method n A σ} {sv : Solver n σ} {a : A} {u : Vec n} {l : ℝ}
    {dir : IniDir} {stop : Stop} {ddl : DeltaLambda} {out : Option (Output n A)} {r : Run n A σ} {st : Status}
    {J : σ → Work n → Vec n → ℝ → Prop} {R : Vec n × ℝ → Vec n × ℝ → Prop}
    (hk : Keeps M) (hg : Guide c M stop J R) (hv : c.validate = ok ()) (hrho : 0 ≤ c.rhoTiny) (hauto : ddl.auto = true)
    (hJ : ∀ {x s w a'}, stop.validate u l = ok () → ddl.ini stop l = ok x →
      M.init sv.st (sv.w.resetStats true) x u l dir a = ok (s, w, a') → J s w u l)
    (h : solve c fin M sv a u l dir stop ddl out = ok (r, st)) : Final c R stop out (u, l) r st := by
  obtain ⟨-, -, hcf, hrm, -⟩ := validate_spec hv
  obtain ⟨h0, x, s, w, a', g, r0, h1, h2, h3, h4⟩ := solve_start h
  rw [hauto] at h2
  have hctl := hk.init h2
  simp only [Work.ctl, Work.resetStats, Stats.reset, Stats.new, Prod.mk.injEq] at hctl
  obtain ⟨⟨p1, p2, p3⟩, ⟨p4, p5⟩, p6, p7, p8, p9⟩ := hctl
  obtain ⟨q1, q2, q3, q4, q6, q5⟩ := doOutput_spec (OutInv.nil out) h3
  have hcnt : Counters c r0.sv.w 0 := by
    rw [q1]
    refine ⟨p1, ?_, p5, p8, ?_, ?_, ?_, ?_⟩
    · simp only; omega
    · simp only; omega
    · simp only; rw [p6, p4]; rfl
    · simp only; rw [p7, p4]; rfl
    · simp only; omega
  have hpath : ∃ pts, Path R (u, l) pts (r0.u, r0.l) ∧ pts.length = r0.sv.w.stats.nAccepted + 1 ∧ OutEnd out pts r0.out ∧
      (g = false → OutInv out pts r0.out) := by
    refine ⟨[(u, l)], ?_, ?_, q4, q6⟩
    · rw [q2, q3]; exact .start
    · have := hcnt.sum
      simp; omega
  obtain ⟨pts, pa, pb, pc, pd⟩ := hpath
  have hb := hcnt.bound
  have hs := hcnt.sum
  have hst := hcnt.steps
  cases g with
  | true =>
    obtain ⟨rfl, rfl⟩ := h4
    refine ⟨⟨pts, pa, pb, pc⟩, .graceful (q5 rfl) (by omega), by omega, ?_⟩
    have : r.sv.w.stats.nRejected = 0 := by omega
    omega
  | false =>
    unfold continuation at h4
    rw [hauto] at h4
    have hJ0 : J r0.sv.st r0.sv.w r0.u r0.l := by
      rw [q1, q2, q3]; exact hJ h0 h1 h2
    refine loopUntil_rule (I := fun i r st => AutoInv c J R out (u, l) i r st) (N := c.nStepMax) ?_ ?_ c.nStepMax 0 r0
      .success (by omega) ⟨hcnt, hJ0, ⟨pts, pa, pb, pd rfl⟩, Or.inl rfl⟩ h4
    · intro i r st r' st' leave hi inv hb
      exact autoBody_spec hk hg hrho hrm hi inv hb
    · intro r st inv
      have hc := inv.cnt
      have h1 := hc.steps
      have h2 := hc.sum
      have h3 := hc.fail
      obtain ⟨pts, pa, pb, pc⟩ := inv.path
      refine ⟨⟨pts, pa, pb, .all pc⟩, .exhausted (by omega) (by omega) inv.st, by omega, ?_⟩
      calc _ ≤ _ := hc.bound
        _ ≤ _ := by rw [Nat.mul_add, Nat.mul_one]; omega

/-- how a run with constant or listed stepsizes ends -/
inductive FixedOutcome (N : Nat) (stop : Stop) (out : Option (Output n A)) (r : Run n A σ) : Status → Prop where
  | met : stop.now (r.sv.w.stats.nSteps - 1) r.u r.l = ok true → 0 < r.sv.w.stats.nAccepted → r.sv.w.stats.nSteps = r.sv.w.stats.nAccepted →
    FixedOutcome N stop out r .success
  | graceful : Graceful out r → r.sv.w.stats.nSteps = r.sv.w.stats.nAccepted → FixedOutcome N stop out r .success
  | exhausted : r.sv.w.stats.nSteps = N → r.sv.w.stats.nAccepted = N → FixedOutcome N stop out r .success
  | failed {st} : st.ofStep = true → st ≠ .success → r.sv.w.stats.nSteps = r.sv.w.stats.nAccepted + 1 →
    FixedOutcome N stop out r st

/-- what is known at the end of a run with constant or listed stepsizes -/
structure FixedFinal (N : Nat) (R : Vec n × ℝ → Vec n × ℝ → Prop) (stop : Stop)
    (out : Option (Output n A)) (x0 : Vec n × ℝ) (r : Run n A σ) (st : Status) : Prop where
  path : ∃ pts, Path R x0 pts (r.u, r.l) ∧ pts.length = r.sv.w.stats.nAccepted + 1 ∧ OutEnd out pts r.out
  outcome : FixedOutcome N stop out r st
  steps : r.sv.w.stats.nSteps ≤ N
  rejected : r.sv.w.stats.nRejected = 0

/-- the invariant of the loop with fixed stepsizes -/
structure FixedInv (J : σ → Work n → Vec n → ℝ → Prop) (R : Vec n × ℝ → Vec n × ℝ → Prop)
    (out : Option (Output n A)) (x0 : Vec n × ℝ) (i : Nat) (r : Run n A σ) (st : Status) : Prop where
  steps : r.sv.w.stats.nSteps = i
  acc : r.sv.w.stats.nAccepted = i
  rej : r.sv.w.stats.nRejected = 0
  j : J r.sv.st r.sv.w r.u r.l
  path : ∃ pts, Path R x0 pts (r.u, r.l) ∧ pts.length = r.sv.w.stats.nAccepted + 1 ∧ OutInv out pts r.out
  st : st = .success

theorem nextListed_pos {c : Config} {ddl : DeltaLambda} {i : Nat} {w : Work n} {h : ℝ}
    (hs : nextListed c ddl i w = ok h) : 0 < w.h → 0 < h := by
  intro hw
  unfold nextListed at hs
  split at hs
  · rw [← ok.inj hs]; exact hw
  · split at hs
    · cases hs
    · next hn =>
      have hp := hMin_pos
      have hn' := lt_trans hp (not_le.1 hn)
      split at hs
      · split at hs
        · cases hs
        · next hd =>
          rw [← ok.inj hs]
          exact div_pos hn' (lt_of_lt_of_le hp (not_lt.1 hd))
      · rw [← ok.inj hs]; exact hn'

theorem fixedBody_spec {c : Config} {fin : ℝ → Bool} {M : Method n A σ} {stop : Stop} {ddl : DeltaLambda}
    {J : σ → Work n → Vec n → ℝ → Prop} {R : Vec n × ℝ → Vec n × ℝ → Prop} {out : Option (Output n A)} {x0 : Vec n × ℝ}
    {i N : Nat} {r r' : Run n A σ} {st st' : Status} {leave : Bool} (hk : Keeps M) (hg : Guide c M stop J R) (hi : i < N)
    (inv : FixedInv J R out x0 i r st) (h : fixedBody c fin M stop ddl i r = ok (r', st', leave)) :
    if leave then FixedFinal N R stop out x0 r' st' else FixedInv J R out x0 (i + 1) r' st' := by
  obtain ⟨i1, i2, i3, hj, ⟨pts, hp, hlen, hout⟩, -⟩ := inv
  unfold fixedBody at h
  obtain ⟨⟨r1, st1⟩, h1, h⟩ := bind_eq_ok.1 h
  obtain ⟨e1, e2, e3, w0, hw0, e4⟩ := doStep_spec h1
  obtain ⟨hctl, hof⟩ := hk.step e4
  have hj0 : J r.sv.st w0 r.u r.l := by rw [hw0]; exact hg.frame (w := r.sv.w) rfl rfl rfl hj
  rw [hw0] at hctl
  simp only [Work.ctl, Prod.mk.injEq] at hctl
  obtain ⟨⟨c1, c2, c3⟩, -⟩ := hctl
  simp only at h
  split at h
  · next hf =>
    cases ok.inj h
    simp only [if_true]
    refine ⟨⟨pts, ?_, ?_, ?_⟩, .failed hof (failure_ne hf) (by omega), by omega, by omega⟩
    · rw [e1, e2]; exact hp
    · rw [c2]; exact hlen
    · rw [e3]; exact .all hout
  · next hf =>
    have hs := success_of_not_failure hf
    obtain ⟨⟨r2, lv⟩, h2, h⟩ := bind_eq_ok.1 h
    have hr := ok.inj h
    simp only [Prod.mk.injEq] at hr
    obtain ⟨rfl, rfl, rfl⟩ := hr
    unfold fixedAccept at h2
    obtain ⟨⟨r3, rd⟩, h3, h2⟩ := bind_eq_ok.1 h2
    obtain ⟨a1, a2, a3, a4⟩ := doAccept_spec h3
    obtain ⟨hn, h4, h2⟩ := bind_eq_ok.1 h2
    obtain ⟨_, -, h2⟩ := bind_eq_ok.1 h2
    have ho : OutInv out pts (r3.setW { r3.sv.w with h := hn, stats := { r3.sv.w.stats with hAccepted := hn } }).out := by
      show OutInv out pts r3.out
      rw [a1, e3]; exact hout
    obtain ⟨d1, d2, d3, d4, d7, d5, d6⟩ := stepExit_spec ho h2
    simp only [Run.setW] at d1 d2 d3 d4 d7
    rw [hs] at e4
    rw [e1, e2] at a4
    obtain ⟨hR, hJ⟩ := hg.accept hj0 e4 (w'' := r3.sv.w) (by rw [a3]; exact ⟨rfl, rfl, rfl, rfl, rfl⟩) a4
    generalize r2 = r' at *
    generalize lv = leave at *
    have k1 : r'.sv.w.stats.nSteps = i + 1 := by rw [d1, a3]; simp only; omega
    have k2 : r'.sv.w.stats.nAccepted = i + 1 := by rw [d1, a3]; simp only; omega
    have k3 : r'.sv.w.stats.nRejected = 0 := by rw [d1, a3]; simp only; omega
    have hpath : ∃ pts, Path R x0 pts (r'.u, r'.l) ∧ pts.length = r'.sv.w.stats.nAccepted + 1 ∧ OutEnd out pts r'.out ∧
        (leave = false → OutInv out pts r'.out) := by
      refine ⟨pts ++ [(r'.u, r'.l)], ?_, ?_, ?_, ?_⟩
      · rw [d2, d3]; exact .next hp hR
      · rw [k2]; simp [hlen]; omega
      · rw [d2, d3]; exact d4
      · rw [d2, d3]; exact d7
    obtain ⟨pts', pa, pb, pc, pd⟩ := hpath
    cases leave with
    | true =>
      simp only [if_true]
      refine ⟨⟨pts', pa, pb, pc⟩, ?_, by omega, k3⟩
      rw [hs]
      rcases d5 rfl with hgr | hnow
      · exact .graceful hgr (by omega)
      · refine .met ?_ (by omega) (by omega)
        rw [k1, Nat.add_sub_cancel]; exact hnow
    | false =>
      simp only [Bool.false_eq_true, if_false]
      refine ⟨k1, k2, k3, ?_, ⟨pts', pa, pb, pd rfl⟩, hs⟩
      have hpos : 0 < r1.sv.w.h → 0 < hn := by
        intro hh
        refine nextListed_pos h4 ?_
        rw [a3]; exact hh
      have hnow := d6 rfl
      rw [d2, d3] at hnow
      have := hJ hn hpos ⟨i, hnow⟩
      rw [d1, d2, d3]
      refine hg.frame ?_ ?_ ?_ this
      · rfl
      · show r3.sv.w.duds = _
        rw [a3]
      · show r3.sv.w.dlds = _
        rw [a3]

/-- **Runs with constant or listed stepsizes.** As `C76_auto`; no step is rejected and the first failure ends the run. -/
theorem C76_fixed {c : Config} {fin : ℝ → Bool} {M : Method n A σ} {sv : Solver n σ} {a : A} {u : Vec n} {l : ℝ}
    {dir : IniDir} {stop : Stop} {ddl : DeltaLambda} {out : Option (Output n A)} {r : Run n A σ} {st : Status}
    {J : σ → Work n → Vec n → ℝ → Prop} {R : Vec n × ℝ → Vec n × ℝ → Prop}
    (hk : Keeps M) (hg : Guide c M stop J R) (hauto : ddl.auto = false)
    (hJ : ∀ {x s w a'}, stop.validate u l = ok () → ddl.ini stop l = ok x →
      M.init sv.st (sv.w.resetStats false) x u l dir a = ok (s, w, a') → J s w u l)
    (h : solve c fin M sv a u l dir stop ddl out = ok (r, st)) :
    FixedFinal (if ddl.list.length > 0 then ddl.list.length else c.nStepMax) R stop out (u, l) r st := by
  obtain ⟨h0, x, s, w, a', g, r0, h1, h2, h3, h4⟩ := solve_start h
  rw [hauto] at h2
  have hctl := hk.init h2
  simp only [Work.ctl, Work.resetStats, Stats.reset, Stats.new, Prod.mk.injEq] at hctl
  obtain ⟨⟨p1, p2, p3⟩, -⟩ := hctl
  obtain ⟨q1, q2, q3, q4, q6, q5⟩ := doOutput_spec (OutInv.nil out) h3
  have hpath : ∃ pts, Path R (u, l) pts (r0.u, r0.l) ∧ pts.length = r0.sv.w.stats.nAccepted + 1 ∧ OutEnd out pts r0.out ∧
      (g = false → OutInv out pts r0.out) := by
    refine ⟨[(u, l)], ?_, ?_, q4, q6⟩
    · rw [q2, q3]; exact .start
    · rw [q1]; simp [p2]
  obtain ⟨pts, pa, pb, pc, pd⟩ := hpath
  cases g with
  | true =>
    obtain ⟨rfl, rfl⟩ := h4
    refine ⟨⟨pts, pa, pb, pc⟩, .graceful (q5 rfl) ?_, ?_, ?_⟩
    · rw [q1]; simp only; omega
    · rw [q1]; simp only; omega
    · rw [q1]; exact p3
  | false =>
    unfold continuation at h4
    rw [hauto] at h4
    have hJ0 : J r0.sv.st r0.sv.w r0.u r0.l := by
      rw [q1, q2, q3]; exact hJ h0 h1 h2
    simp only [Bool.false_eq_true, if_false] at h4
    refine loopUntil_rule (I := fun i r st => FixedInv J R out (u, l) i r st)
      (N := if ddl.list.length > 0 then ddl.list.length else c.nStepMax) ?_ ?_ _ 0 r0
      .success (Nat.zero_add _) ⟨by rw [q1]; exact p1, by rw [q1]; exact p2, by rw [q1]; exact p3, hJ0, ⟨pts, pa, pb, pd rfl⟩, rfl⟩ h4
    · intro i r st r' st' leave hi inv hb
      exact fixedBody_spec hk hg hi inv hb
    · intro r st inv
      obtain ⟨i1, i2, i3, -, ⟨pts, pa, pb, pc⟩, hst⟩ := inv
      rw [hst]
      exact ⟨⟨pts, pa, pb, .all pc⟩, .exhausted i1 i2, by omega, i3⟩

end Russell.Nonlin
