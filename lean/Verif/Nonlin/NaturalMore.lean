import Verif.Nonlin.NaturalProp

/-!
# Natural continuation: Newton's iterations, relative difference, listed stepsizes (C77)
-/

namespace Russell.Nonlin

open Russell Russell.Res

variable {n : Nat} {A : Type}

/-! ## Newton's iterations -/

/-- `q` comes from `p` by Newton's iterations at fixed `l`: each one solves the linear system with the Jacobian matrix and the
residual at the current point and subtracts the solution -/
inductive NewtonTo (sys : System n A) (l : ℝ) (p : Vec n) : Vec n → Prop where
  | refl : NewtonTo sys l p p
  | step {q d gg K gl a a1 a2} : NewtonTo sys l p q → sys.calcG l q a = ok (gg, a1) → sys.calcJ l q a1 = ok (K, gl, a2) →
    K.mulVec d = gg → NewtonTo sys l p (q - d)

theorem natIterate_newton {c : Config} {fin : ℝ → Bool} {sys : System n A} {L : LinSol n} {s s' : Nat' n L.F}
    {w w' : Work n} {u p : Vec n} {l : ℝ} {a a' : A} {st : Status} (hL : L.Exact) (hp : NewtonTo sys w.l p w.u)
    (h : natIterate c fin sys L s w u l a = ok (s', w', a', st)) : NewtonTo sys w'.l p w'.u := by
  unfold natIterate at h
  obtain ⟨⟨gg, a1⟩, h1, h⟩ := bind_eq_ok.1 h
  simp only at h h1
  split at h
  · cases ok.inj h
    exact hp
  split at h
  · cases ok.inj h
    exact hp
  unfold natCorrect at h
  obtain ⟨⟨s1, w1, a2⟩, h2, h⟩ := bind_eq_ok.1 h
  obtain ⟨K, f, st1, e1, e2, e3, e4⟩ := natJac_spec h2
  simp only at h e1
  obtain ⟨mdu, h3, h⟩ := bind_eq_ok.1 h
  have hw1 : w1.l = w.l ∧ w1.u = w.u ∧ w1.gg = gg := by rw [e4]; exact ⟨rfl, rfl, rfl⟩
  split at h
  · cases ok.inj h
    simp only [hw1.1, hw1.2.1]; exact hp
  split at h
  · cases ok.inj h
    simp only [hw1.1, hw1.2.1]; exact hp
  have h := ok.inj h
  unfold natUpdate at h
  simp only at h
  split at h
  · cases h
    simp only [hw1.1, hw1.2.1]; exact hp
  · cases h
    have hd : K.mulVec mdu = gg := by
      rw [e3] at h3
      simp only [LinSol.run, hw1.2.2] at h3
      exact hL _ _ e2 _ _ h3
    simp only [hw1.1, hw1.2.1]
    have : (fun i => w.u i + (-1) * mdu i) = w.u - mdu := by
      funext i; simp only [Pi.sub_apply]; ring
    rw [this]
    exact .step hp h1 e1 hd

/-- **The trial state comes from Newton's method.** Every step of the natural method (whatever its status) has moved the trial
state from a starting point by Newton's iterations for `G(u, λ) = 0` with the new λ fixed. The starting point is the last
accepted point without predictor; with the Euler predictor and no Jacobian matrix available yet, it is
`u - (λ_new - λ) G_u⁻¹ G_λ`, where the derivatives are evaluated at the old `u` and (sic) the new λ. -/
theorem C77_newton {c : Config} {fin : ℝ → Bool} {sys : System n A} {L : LinSol n} {s s' : Nat' n L.F}
    {w w' : Work n} {u : Vec n} {l : ℝ} {stop : Stop} {a a' : A} {st : Status} (hL : L.Exact)
    (h : natStep c fin sys L s w u l stop a = ok (s', w', a', st)) :
    ∃ p, NewtonTo sys w'.l p w'.u ∧ (c.eulerPredictor = false → p = u) ∧
      (c.eulerPredictor = true → s.iterJac = false → ∃ K gl d a1 a2, sys.calcJ w'.l u a1 = ok (K, gl, a2) ∧
        K.mulVec d = gl ∧ p = u - (w'.l - l) • d) := by
  unfold natStep at h
  simp only at h
  obtain ⟨⟨s1, w1, a1⟩, h1, h⟩ := bind_eq_ok.1 h
  have key : NewtonTo sys w1.l w1.u w'.u ∧ w'.l = w1.l := by
    simp only at h
    split at h
    · cases ok.inj h
      exact ⟨.refl, rfl⟩
    · unfold natNewton at h
      obtain ⟨w2, h2, h⟩ := bind_eq_ok.1 h
      obtain ⟨d, rfl⟩ := pushDebug_keeps h2
      obtain ⟨⟨s3, w3, a3, st3⟩, h3, h⟩ := bind_eq_ok.1 h
      cases ok.inj h
      have := iterLoop_inv (P := fun s' w' _ => w'.l = w1.l ∧ NewtonTo sys w'.l w1.u w'.u) (fun _ _ _ _ h => h)
        (fun _ _ _ _ h => h) (fun s4 w4 _ s5 w5 _ _ hp h5 => ⟨(natIterate_fix (sg := s4.sign0) (up := s4.uPrev)
          (hh := w4.h) (sc := w4.err.scaling) ⟨rfl, rfl, hp.1, rfl, rfl⟩ h5).1.2.2.1, natIterate_newton hL hp.2 h5⟩) _ _
        { w1 with debug := d, nIter := 0 } _ _ ⟨rfl, .refl⟩ h3
      obtain ⟨g1, g2⟩ := this
      rw [g1] at g2
      exact ⟨g2, g1⟩
  refine ⟨w1.u, by rw [key.2]; exact key.1, ?_, ?_⟩
  · intro he
    unfold natPredict at h1
    rw [he] at h1
    cases ok.inj h1
    rfl
  · intro he hj
    unfold natPredict at h1
    rw [if_pos he] at h1
    obtain ⟨⟨s2, w2, a2⟩, h2, h1⟩ := bind_eq_ok.1 h1
    obtain ⟨mdu, h3, h1⟩ := bind_eq_ok.1 h1
    cases ok.inj h1
    unfold natFirstJac at h2
    rw [hj, if_neg (by decide)] at h2
    obtain ⟨⟨s4, w4, a4⟩, h4, h2⟩ := bind_eq_ok.1 h2
    cases ok.inj h2
    obtain ⟨K, f, st4, e1, e2, e3, e4⟩ := natJac_spec h4
    simp only at e1 h3
    have hl : w2.l = (natLambda s (stepBegin c sys w u l a).1 l stop).l := by rw [e4]
    rw [e3] at h3
    simp only [LinSol.run] at h3
    have hwl : w'.l = w2.l := key.2
    rw [← hl, ← hwl] at e1
    refine ⟨K, s4.ggl, mdu, _, _, e1, hL _ _ e2 _ _ h3, ?_⟩
    · rw [hwl]
      funext i
      simp only [Pi.sub_apply, Pi.smul_apply, smul_eq_mul]
      ring

/-! ## Relative difference -/

theorem natRatio_spec (u2 u1 u0 : Vec n) :
    (∀ i, |u2 i - u1 i| > hMin → |(u2 i - u1 i) - (u1 i - u0 i)| / |u2 i - u1 i| ≤ natRatio u2 u1 u0) ∧
    (natRatio u2 u1 u0 = 0 ∨ ∃ i, |u2 i - u1 i| > hMin ∧
      natRatio u2 u1 u0 = |(u2 i - u1 i) - (u1 i - u0 i)| / |u2 i - u1 i|) := by
  have key : ∀ (xs : List (Fin n)) (m : ℝ),
      m ≤ xs.foldl (fun m i =>
        let den := |u2 i - u1 i|
        if den > hMin then
          let ratio := |u2 i - 2 * u1 i + u0 i| / den
          if ratio > m then ratio else m
        else m) m ∧
      (∀ i ∈ xs, |u2 i - u1 i| > hMin → |(u2 i - u1 i) - (u1 i - u0 i)| / |u2 i - u1 i| ≤ xs.foldl (fun m i =>
        let den := |u2 i - u1 i|
        if den > hMin then
          let ratio := |u2 i - 2 * u1 i + u0 i| / den
          if ratio > m then ratio else m
        else m) m) ∧
      (xs.foldl (fun m i =>
        let den := |u2 i - u1 i|
        if den > hMin then
          let ratio := |u2 i - 2 * u1 i + u0 i| / den
          if ratio > m then ratio else m
        else m) m = m ∨ ∃ i ∈ xs, |u2 i - u1 i| > hMin ∧ xs.foldl (fun m i =>
        let den := |u2 i - u1 i|
        if den > hMin then
          let ratio := |u2 i - 2 * u1 i + u0 i| / den
          if ratio > m then ratio else m
        else m) m = |(u2 i - u1 i) - (u1 i - u0 i)| / |u2 i - u1 i|) := by
    intro xs
    induction xs with
    | nil => intro m; simp
    | cons x xs ih =>
      intro m
      rw [List.foldl_cons]
      simp only
      have e : (u2 x - u1 x) - (u1 x - u0 x) = u2 x - 2 * u1 x + u0 x := by ring
      by_cases h1 : |u2 x - u1 x| > hMin
      · rw [if_pos h1]
        by_cases h2 : |u2 x - 2 * u1 x + u0 x| / |u2 x - u1 x| > m
        · rw [if_pos h2]
          obtain ⟨i1, i2, i3⟩ := ih (|u2 x - 2 * u1 x + u0 x| / |u2 x - u1 x|)
          refine ⟨h2.le.trans i1, ?_, Or.inr ?_⟩
          · intro i hi hi'
            rcases List.mem_cons.1 hi with rfl | hi
            · rw [e]; exact i1
            · exact i2 i hi hi'
          · rcases i3 with i3 | ⟨i, hi, hi', i3⟩
            · exact ⟨x, List.mem_cons_self, h1, by rw [e]; exact i3⟩
            · exact ⟨i, List.mem_cons_of_mem _ hi, hi', i3⟩
        · rw [if_neg h2]
          obtain ⟨i1, i2, i3⟩ := ih m
          refine ⟨i1, ?_, ?_⟩
          · intro i hi hi'
            rcases List.mem_cons.1 hi with rfl | hi
            · rw [e]; exact (not_lt.1 h2).trans i1
            · exact i2 i hi hi'
          · rcases i3 with i3 | ⟨i, hi, hi', i3⟩
            · exact Or.inl i3
            · exact Or.inr ⟨i, List.mem_cons_of_mem _ hi, hi', i3⟩
      · rw [if_neg h1]
        obtain ⟨i1, i2, i3⟩ := ih m
        refine ⟨i1, ?_, ?_⟩
        · intro i hi hi'
          rcases List.mem_cons.1 hi with rfl | hi
          · exact absurd hi' h1
          · exact i2 i hi hi'
        · rcases i3 with i3 | ⟨i, hi, hi', i3⟩
          · exact Or.inl i3
          · exact Or.inr ⟨i, List.mem_cons_of_mem _ hi, hi', i3⟩
  obtain ⟨-, k2, k3⟩ := key (List.finRange n) 0
  refine ⟨fun i hi => k2 i (List.mem_finRange i) hi, ?_⟩
  rcases k3 with k3 | ⟨i, -, hi, k3⟩
  · exact Or.inl k3
  · exact Or.inr ⟨i, hi, k3⟩

/-- **The relative difference compares the last two increments.** A step accepted at `u0` has led to `u1`; the next accepted
step leads to `u2`. From the second accepted step on, the difference reported to the stepsize control, times `tg_tol`, is the
largest value of `|Δu2 - Δu1| / |Δu2|` over the components that changed by more than `1e-10` (zero if there is none). -/
theorem C77_rdiff_three_points {c : Config} {fin : ℝ → Bool} {sys : System n A} {L : LinSol n} {s s1 s2 s3 : Nat' n L.F}
    {w w1 w2 w3 : Work n} {u0 u1 u2 : Vec n} {l1 l2 rd rd2 : ℝ} {stop : Stop} {a a' : A} {st : Status}
    (hv : c.validate = ok ()) (h1 : natAccept c s w u0 = (s1, u1, l1, rd))
    (h2 : natStep c fin sys L s1 w1 u1 l1 stop a = ok (s2, w2, a', st))
    (hu : w3.u = w2.u) (hacc : 1 < w3.stats.nAccepted) (h3 : natAccept c s2 w3 u1 = (s3, u2, l2, rd2)) :
    u2 = w2.u ∧ (∀ i, |u2 i - u1 i| > hMin → |(u2 i - u1 i) - (u1 i - u0 i)| / |u2 i - u1 i| ≤ rd2 * c.tgTol) ∧
    (rd2 = 0 ∨ ∃ i, |u2 i - u1 i| > hMin ∧ rd2 * c.tgTol = |(u2 i - u1 i) - (u1 i - u0 i)| / |u2 i - u1 i|) := by
  obtain ⟨-, -, -, -, v2, -, -, -, v3, -, -, -, -, htg⟩ := validate_spec hv
  have ht : 0 < c.tolAbsResidual := lt_of_lt_of_le (by unfold tolMin; positivity) v2
  have htg : c.tgTol ≠ 0 := ne_of_gt (lt_of_lt_of_le (by unfold tolMin; positivity) htg)
  obtain ⟨-, hprev, -⟩ := natStep_spec ht v3 h2
  unfold natAccept at h1 h3
  simp only [Prod.mk.injEq] at h1 h3
  obtain ⟨hs1, -⟩ := h1
  obtain ⟨-, hu2, -, hrd⟩ := h3
  have hp0 : s2.uPrev = u0 := by rw [hprev, ← hs1]
  unfold natRerr at hrd
  rw [if_pos hacc, hp0, hu2] at hrd
  obtain ⟨k1, k2⟩ := natRatio_spec u2 u1 u0
  have e : rd2 * c.tgTol = natRatio u2 u1 u0 := by rw [← hrd]; field_simp
  refine ⟨by rw [← hu2, hu], by rw [e]; exact k1, ?_⟩
  rcases k2 with k2 | k2
  · left; rw [← hrd, k2, zero_div]
  · right; rw [e]; exact k2

/-! ## Listed stepsizes -/

/-- **Listed stepsizes are used in order.** With the natural method, a list of increments and no prescribed λ, the λ of a run
that returns is the initial one plus, in the chosen direction, the sum of the first `n_accepted` entries of the list. -/
theorem C77_listed {c : Config} {fin : ℝ → Bool} {sys : System n A} {L : LinSol n} {sv : Solver n (Nat' n L.F)} {a : A}
    {u : Vec n} {l : ℝ} {dir : IniDir} {stop : Stop} {ddl : DeltaLambda} {out : Option (Output n A)}
    {r : Run n A (Nat' n L.F)} {st : Status} {x : ℝ} {xs : List ℝ} (hv : c.validate = ok ()) (hm : c.arclength = false)
    (hs : stop.lambda = none) (hd : DeltaLambda.mkList (x :: xs) = ok ddl)
    (h : solve c fin (natural c fin sys L) sv a u l dir stop ddl out = ok (r, st)) :
    r.sv.w.stats.nAccepted ≤ (x :: xs).length ∧
    r.l = l + dir.sign * ((x :: xs).take r.sv.w.stats.nAccepted).sum := by
  obtain ⟨v1, -, -, -, v2, -, -, -, v3, -⟩ := validate_spec hv
  have ht : 0 < c.tolAbsResidual := lt_of_lt_of_le (by unfold tolMin; positivity) v2
  have hk := natural_keeps c fin sys L
  obtain rfl := ok.inj hd
  obtain ⟨h0, hini, s0, w0, a0, g, r0, h1, h2, h3, h4⟩ := solve_start h
  have hctl := hk.init h2
  simp only [Work.ctl, Work.resetStats, Stats.reset, Stats.new, Prod.mk.injEq] at hctl
  obtain ⟨⟨p1, p2, p3⟩, -⟩ := hctl
  obtain ⟨q1, q2, q3, -⟩ := doOutput_spec (OutInv.nil out) h3
  simp only at q1 q2 q3
  have hh : hini = x := by
    unfold DeltaLambda.ini at h1
    have hc : ∀ {y : ℝ}, checkIni y = ok hini → hini = y := by
      intro y hy
      unfold checkIni at hy
      split at hy
      · cases hy
      · exact (ok.inj hy).symm
    split at h1
    · cases hs
    · cases hs
    · exact hc h1
  cases ok.inj h2
  cases g with
  | true =>
    obtain ⟨rfl, rfl⟩ := h4
    rw [q1, q3]
    simp only [p2]
    simp
  | false =>
    unfold continuation at h4
    refine loopUntil_rule (N := (x :: xs).length)
      (I := fun i r _ => r.sv.w.stats.nAccepted = i ∧ r.sv.st.sign0 = dir.sign ∧
        (∀ y, (x :: xs)[i]? = some y → r.sv.w.h = y) ∧ r.l = l + dir.sign * ((x :: xs).take i).sum)
      (Q := fun r _ => r.sv.w.stats.nAccepted ≤ (x :: xs).length ∧
        r.l = l + dir.sign * ((x :: xs).take r.sv.w.stats.nAccepted).sum) ?_ ?_ (x :: xs).length 0 r0 .success (by omega) ?_ h4
    · intro i r st r' st' leave hi ⟨i1, i2, i3, i4⟩ hb
      unfold fixedBody at hb
      obtain ⟨⟨r1, st1⟩, b1, hb⟩ := bind_eq_ok.1 hb
      obtain ⟨e1, e2, e3, w1, hw1, e4⟩ := doStep_spec b1
      obtain ⟨hctl, -⟩ := hk.step e4
      rw [hw1] at hctl
      simp only [Work.ctl, Prod.mk.injEq] at hctl
      obtain ⟨⟨c1, c2, c3⟩, -⟩ := hctl
      obtain ⟨n1, -, -, n4, -⟩ := natStep_spec ht v3 e4
      have hl1 : r1.sv.w.l = r.l + dir.sign * r.sv.w.h := by
        rw [n4]
        unfold natLambda
        rw [hs, i2, hw1]
      simp only at hb
      split at hb
      · cases ok.inj hb
        simp only [if_true]
        rw [c2, i1, e2]
        exact ⟨hi.le, i4⟩
      · obtain ⟨⟨r2, lv⟩, b2, hb⟩ := bind_eq_ok.1 hb
        have hr := ok.inj hb
        simp only [Prod.mk.injEq] at hr
        obtain ⟨rfl, rfl, rfl⟩ := hr
        unfold fixedAccept at b2
        obtain ⟨⟨r3, rd⟩, b3, b2⟩ := bind_eq_ok.1 b2
        obtain ⟨a1, a2, a3, a4⟩ := doAccept_spec b3
        obtain ⟨hn, b4, b2⟩ := bind_eq_ok.1 b2
        obtain ⟨_, -, b2⟩ := bind_eq_ok.1 b2
        obtain ⟨⟨g1, r5⟩, b5, b2⟩ := bind_eq_ok.1 b2
        have hsv : r2.sv = (r3.setW { r3.sv.w with h := hn, stats := { r3.sv.w.stats with hAccepted := hn } }).sv ∧
            r2.l = r3.l := by
          obtain ⟨d1, d2⟩ : r5.sv = (r3.setW { r3.sv.w with h := hn, stats := { r3.sv.w.stats with hAccepted := hn } }).sv ∧
              r5.l = r3.l := by
            unfold doOutput at b5
            split at b5
            · cases ok.inj b5; exact ⟨rfl, rfl⟩
            · obtain ⟨⟨g6, o6, a6⟩, -, b5⟩ := bind_eq_ok.1 b5
              cases ok.inj b5; exact ⟨rfl, rfl⟩
          simp only at b2
          split at b2
          · cases ok.inj b2; exact ⟨d1, d2⟩
          · obtain ⟨now, -, b2⟩ := bind_eq_ok.1 b2
            cases ok.inj b2; exact ⟨d1, d2⟩
        have ha := ok.inj a4
        unfold natAccept at ha
        simp only [Prod.mk.injEq] at ha
        obtain ⟨ha1, -, ha3, -⟩ := ha
        obtain ⟨y, hy⟩ : ∃ y, (x :: xs)[i]? = some y := ⟨_, List.getElem?_eq_getElem hi⟩
        have hl2 : r2.l = l + dir.sign * ((x :: xs).take (i + 1)).sum := by
          rw [hsv.2, ← ha3, a3]
          simp only
          rw [hl1, i4, i3 y hy, List.take_add_one, hy]
          simp only [Option.toList_some, List.sum_append, List.sum_singleton]
          ring
        have hacc : r2.sv.w.stats.nAccepted = i + 1 := by
          rw [hsv.1]
          simp only [Run.setW]
          rw [a3]; simp only; rw [c2, i1]
        have hsg : r2.sv.st.sign0 = dir.sign := by
          rw [hsv.1]
          simp only [Run.setW]
          rw [← ha1]; exact n1.trans i2
        have hnx : ∀ y, (x :: xs)[i + 1]? = some y → r2.sv.w.h = y := by
          intro y hy
          rw [hsv.1]
          simp only [Run.setW]
          unfold nextListed at b4
          rw [hy] at b4
          simp only at b4
          split at b4
          · cases b4
          · rw [hm, if_neg (by decide)] at b4
            exact (ok.inj b4).symm
        generalize lv = lv
        cases lv with
        | true =>
          simp only [if_true]
          rw [hacc]
          exact ⟨hi, hl2⟩
        | false =>
          simp only [Bool.false_eq_true, if_false]
          exact ⟨hacc, hsg, hnx, hl2⟩
    · intro r st ⟨i1, _, _, i4⟩
      rw [i1]
      exact ⟨le_refl _, i4⟩
    · rw [q1, q3]
      refine ⟨p2, rfl, ?_, by simp⟩
      intro y hy
      simp only [List.getElem?_cons_zero, Option.some.injEq] at hy
      rw [← hy]; exact hh

/-- the problem `u = λ` with the list `1, 2` and the criterion of two steps -/
theorem natural_run_list : ∃ r, solve { Config.new with nStepMax := 7 } (fun _ => true)
    (natural { Config.new with nStepMax := 7 } (fun _ => true) (affine (A := Unit) 1 (fun _ => 1) (fun _ => 0)) (unitSolver 1))
    ⟨Nat'.new 1 _, Work.new 1, 0, 0, 0, 0⟩ () 0 0 .pos (.steps 5) ⟨false, 1, [1, 2]⟩ none = ok (r, .success) ∧
    r.sv.w.stats.nAccepted = 2 := by
  have h1 : ¬ (1 : ℝ) ≤ hMin := by unfold hMin; norm_num
  have h2 : ¬ (2 : ℝ) ≤ hMin := by unfold hMin; norm_num
  have h4 : (0 : ℝ) < (10 ^ 10)⁻¹ := by positivity
  simp [solve, Stop.validate, DeltaLambda.ini, checkIni, h1, h2, natural, natInit, IniDir.sign, doOutput,
    Config.new, continuation, loopUntil, fixedBody, doStep, natStep, stepBegin, natLambda, Stop.lambda,
    natPredict, natFirstJac, natJac, affine, writes, unitSolver, LinSol.run, System.supdate, Status.failure, natNewton,
    Work.pushDebug, iterLoop, natIterate, IterErr.analyzeResidual, normMax, IterErr.converged, h4,
    fixedAccept, doAccept, natAccept, nextListed, Run.setW, allFinite, stepExit, Stop.now, Stats.recStart, Stats.recAppend,
    Stats.recStop, Work.resetStats, Work.new, Nat'.new, callOpt, Stats.new, Stats.reset]

example : ∃ r, solve { Config.new with nStepMax := 7 } (fun _ => true)
    (natural { Config.new with nStepMax := 7 } (fun _ => true) (affine (A := Unit) 1 (fun _ => 1) (fun _ => 0)) (unitSolver 1))
    ⟨Nat'.new 1 _, Work.new 1, 0, 0, 0, 0⟩ () 0 0 .pos (.steps 5) ⟨false, 1, [1, 2]⟩ none = ok (r, .success) ∧ r.l = 3 := by
  obtain ⟨r, h, hn⟩ := natural_run_list
  refine ⟨r, h, ?_⟩
  obtain ⟨-, h2⟩ := C77_listed (x := 1) (xs := [2]) (config7_valid 7 (by norm_num)) rfl rfl rfl h
  rw [h2, hn]
  norm_num [IniDir.sign]

/-- one iteration for `2 u = λ` from `u = 0` -/
example : NewtonTo (affine (A := Unit) (2 : Matrix (Fin 1) (Fin 1) ℝ) (fun _ => 1) (fun _ => 0)) 4 0 (0 - fun _ => -2) := by
  refine .step (a := ()) (a1 := ()) (a2 := ()) .refl rfl rfl ?_
  funext i
  fin_cases i
  norm_num [Matrix.mulVec, dotProduct, Matrix.ofNat_apply]

end Russell.Nonlin
