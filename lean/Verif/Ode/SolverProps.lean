import Verif.Ode.OutputProps

/-!
# Properties of `OdeSolver::solve` (C50, C58): stations reported, steps taken

Exact arithmetic in an ordered field with a floor; the numerical method is arbitrary except for `Stepper.Regular`.
-/

namespace Russell.Ode

open Russell Russell.Res Russell.Lab

variable {K σ M : Type}

/-- What a method promises: `J` holds before a step (it may depend on the number of accepted steps and on the flag "follows
a rejected step"), `P` after `step` with the stepsize `h` (and the error estimate), `Φ x y h err m' y'` for an
accepted step from `(x, y)` (`m'`: the state after `accept`), and `U h z` for the stepsizes `z` that may follow an accepted
step of size `h`. -/
structure Contract (K M : Type) where
  J : M → Nat → Bool → K → List K → Prop
  P : M → K → List K → K → K → Bool → Prop
  Φ : K → List K → K → K → Bool → M → List K → Prop
  U : K → K → Prop

/-- The empty contract. -/
def Contract.none : Contract K M :=
  ⟨fun _ _ _ _ _ => True, fun _ _ _ _ _ _ => True, fun _ _ _ _ _ _ _ => True, fun _ _ => True⟩

/-- The method keeps the contract. In any case `accept` advances `x` by `h`, and the operations do not touch the counters of
steps and the flag (they belong to `solve`), and `step` does not touch the new stepsize. All the methods of the crate have
this (euler_forward.rs:49-60, euler_backward.rs:150-161, explicit_runge_kutta.rs:241-333, radau5.rs). -/
structure Stepper.Meets [Add K] [Mul K] [Zero K] [LT K] [LE K] [F64Ops K] (st : Stepper K σ M) (c : Contract K M) : Prop where
  step : ∀ {m w x y h a m' w' a'}, st.step m w x y h a = ok (m', w', a') →
    c.J m w.stats.n_accepted w.follows_reject_step x y →
    (c.P m' x y h w'.rel_error w'.iterations_diverging ∧
      (w.iterations_diverging = false → w'.iterations_diverging = true → ∀ z, c.U z h → c.U z (h * w'.h_multiplier_diverging))) ∧
      w'.stats.n_accepted = w.stats.n_accepted ∧ w'.stats.n_steps = w.stats.n_steps ∧
      w'.stats.n_rejected = w.stats.n_rejected ∧ w'.follows_reject_step = w.follows_reject_step
  accept : ∀ {m w x y h a m' w' x' y' a'}, st.accept m w x y h a = ok (m', w', x', y', a') → 0 < h →
    c.P m x y h w.rel_error w.iterations_diverging →
    (x' = x + h ∧ c.Φ x y h w.rel_error w.iterations_diverging m' y' ∧ (∀ n, 0 < n → c.J m' n false x' y') ∧ c.U h w'.h_new ∧
      w'.iterations_diverging = w.iterations_diverging) ∧
      w'.stats.n_accepted = w.stats.n_accepted ∧ w'.stats.n_steps = w.stats.n_steps ∧
      w'.stats.n_rejected = w.stats.n_rejected ∧ w'.follows_reject_step = w.follows_reject_step
  reject : ∀ {m w x y h}, 0 < h → ¬ w.rel_error < lit 1 → c.P m x y h w.rel_error w.iterations_diverging →
    ((∀ n, c.J (st.reject m w h).1 n true x y) ∧ ∀ z, c.U z h → c.U z (st.reject m w h).2.h_new) ∧
    (st.reject m w h).2.iterations_diverging = w.iterations_diverging ∧
    (st.reject m w h).2.stats.n_accepted = w.stats.n_accepted ∧
    (st.reject m w h).2.stats.n_steps = w.stats.n_steps ∧ (st.reject m w h).2.stats.n_rejected = w.stats.n_rejected ∧
    (st.reject m w h).2.follows_reject_step = w.follows_reject_step
  keep : ∀ {m x y h err div}, c.P m x y h err div → ∀ n, c.J m n true x y
  mono : ∀ {h z z'}, c.U h z → z' ≤ z → c.U h z'

/-- The method keeps the empty contract. -/
abbrev Stepper.Regular [Add K] [Mul K] [Zero K] [LT K] [LE K] [F64Ops K] (st : Stepper K σ M) : Prop := st.Meets Contract.none

/-- An accepted step: the state of the method after `accept`, the stepsize, the error estimate, whether the iterations were
flagged as diverging, the new station and solution. -/
structure Accepted (K M : Type) where
  m : M
  h : K
  err : K
  div : Bool
  x : K
  y : List K

/-- What the step output reports of an accepted step. -/
def Accepted.report (a : Accepted K M) : Report K := (a.h, a.x, a.y)

/-- The accepted steps lead from `(x0, y0)` to `(x, y)`, all with positive stepsizes, each one in the relation `Φ`. -/
inductive Path [Add K] [LT K] [Zero K] (Φ : K → List K → K → K → Bool → M → List K → Prop) (x0 : K) (y0 : List K) :
    List (Accepted K M) → K → List K → Prop
  | nil : Path Φ x0 y0 [] x0 y0
  | snoc {l x y} (a : Accepted K M) : Path Φ x0 y0 l x y → 0 < a.h → a.x = x + a.h → Φ x y a.h a.err a.div a.m a.y →
    Path Φ x0 y0 (l ++ [a]) a.x a.y

/-- The dense reports `rs` done when the solution is at `x`: the first one is the initial state, the stations are the first
ones of `dx`, the next stations (but the final one) are beyond `x`, and every report after the first one is an
interpolation inside an accepted step. -/
structure StationInv [Sub K] [LT K] [LE K] (st : Stepper K σ M) (dx : List K) (first : Report K) (acc : List (Accepted K M))
    (x : K) (rs : List (Report K)) : Prop where
  ne : ∃ tl, rs = first :: tl
  le : rs.length + 1 ≤ dx.length
  map : rs.map (fun r : Report K => r.2.1) = dx.take rs.length
  next : ∀ (j : Nat) (z : K), rs.length ≤ j → j + 1 < dx.length → dx[j]? = some z → x < z
  src : ∀ r ∈ rs.tail, ∃ a ∈ acc, r.1 = a.h ∧ a.x - a.h < r.2.1 ∧ r.2.1 ≤ a.x ∧
    ∃ aux, st.dense_output a.m aux r.2.1 a.x a.y a.h = ok r.2.2

theorem Reported.setIndex {o0 o : Output K σ} {rs : List (Report K)} (h : Reported o0 rs o) (k : Nat) :
    Reported o0 rs { o with dense_index := k } :=
  ⟨h.init, h.dx, h.cb, h.file, h.record, h.calls, h.count, h.written, h.keys, h.series⟩

theorem Reported.setAux {o0 o : Output K σ} {rs : List (Report K)} (h : Reported o0 rs o) (l : List K) :
    Reported o0 rs { o with y_aux := l } :=
  ⟨h.init, h.dx, h.cb, h.file, h.record, h.calls, h.count, h.written, h.keys, h.series⟩

section
variable [Field K] [LinearOrder K] [FloorSemiring K]

/-- The loop over the stations, when no callback stops. -/
theorem stationLoop_spec {o0 : Output K σ} {stats : Stats K} {h x xp : K} {dense : List K → K → Res (List K)}
    (hsort : o0.dense_x.Pairwise (· < ·)) :
    ∀ (k : Nat) (o o' : Output K σ) (args args' : σ) (rs : List (Report K)),
      Output.stationLoop stats h x dense k o args = ok (o', args', false) → Reported o0 rs o → o.dense_index = rs.length →
      rs.length + k + 1 = o0.dense_x.length → rs.map (fun r : Report K => r.2.1) = o0.dense_x.take rs.length →
      (∀ (j : Nat) (z : K), rs.length ≤ j → j + 1 < o0.dense_x.length → o0.dense_x[j]? = some z → xp < z) →
      ∃ new, Reported o0 (rs ++ new) o' ∧ o'.dense_index = (rs ++ new).length ∧ (rs ++ new).length + 1 ≤ o0.dense_x.length ∧
        (rs ++ new).map (fun r : Report K => r.2.1) = o0.dense_x.take (rs ++ new).length ∧
        (∀ (j : Nat) (z : K), (rs ++ new).length ≤ j → j + 1 < o0.dense_x.length → o0.dense_x[j]? = some z → x < z) ∧
        (∀ r ∈ new, r.1 = h ∧ xp < r.2.1 ∧ r.2.1 ≤ x ∧ ∃ aux, dense aux r.2.1 = ok r.2.2) ∧
        o'.stepPart = o.stepPart := by
  intro k
  induction k with
  | zero =>
    intro o o' args args' rs he hR hi hk hm hn
    unfold Output.stationLoop at he
    cases he
    refine ⟨[], by simpa using hR, by simpa using hi, by simp; omega, by simpa using hm, ?_, by simp, rfl⟩
    intro j z hj1 hj2
    simp only [List.append_nil] at hj1
    omega
  | succ k ih =>
    intro o o' args args' rs he hR hi hk hm hn
    unfold Output.stationLoop at he
    rw [bind_eq_ok] at he
    obtain ⟨xo, hxo, he⟩ := he
    rw [hi, hR.dx] at hxo
    have hxo' := vget_eq_ok.1 hxo
    split at he
    · rename_i hlt
      cases he
      refine ⟨[], by simpa using hR, by simpa using hi, by simp; omega, by simpa using hm, ?_, by simp, rfl⟩
      intro j z hj1 hj2 hz
      simp only [List.append_nil] at hj1
      rcases Nat.lt_or_eq_of_le hj1 with hlt2 | rfl
      · obtain ⟨b1, e1⟩ := List.getElem?_eq_some_iff.1 hxo'
        obtain ⟨b2, e2⟩ := List.getElem?_eq_some_iff.1 hz
        have := List.pairwise_iff_getElem.1 hsort _ _ b1 b2 hlt2
        rw [e1, e2] at this
        exact hlt.trans this
      · rw [hxo', Option.some.injEq] at hz
        rw [← hz]; exact hlt
    · rename_i hle
      rw [not_lt] at hle
      rw [bind_eq_ok] at he
      obtain ⟨yo, hyo, he⟩ := he
      dsimp only at he
      rw [bind_eq_ok] at he
      obtain ⟨⟨o1, a1, stop⟩, h1, he⟩ := he
      dsimp only at he
      split at he
      · cases he
      · rename_i hstop
        have hs : stop = false := by simpa using hstop
        subst hs
        obtain ⟨hR0, hi0⟩ := hR.congr (o' := { o with y_aux := yo }) rfl
        obtain ⟨hR1, hi1, hp1⟩ := report_spec hR0 (hi0.trans hi) h1
        obtain ⟨new, g1, g2, g3, g4, g5, g6, g7⟩ := ih { o1 with dense_index := o1.dense_index + 1 } o' a1 args'
          (rs ++ [(h, xo, yo)]) he
          (hR1.setIndex _)
          (by simp [hi1, hi]) (by simp; omega)
          (by
            obtain ⟨b1, e1⟩ := List.getElem?_eq_some_iff.1 hxo'
            rw [List.map_append, hm]
            simp [List.take_add_one, hxo'])
          (by
            intro j z hj1 hj2 hz
            exact hn j z (by simp at hj1; omega) hj2 hz)
        refine ⟨(h, xo, yo) :: new, by simpa using g1, by simpa using g2, by simpa using g3, by simpa using g4, ?_, ?_, ?_⟩
        · intro j z hj1 hj2 hz
          exact g5 j z (by simpa using hj1) hj2 hz
        · intro r hr
          rcases List.mem_cons.1 hr with rfl | hr
          · exact ⟨rfl, hn rs.length xo le_rfl (by omega) hxo', hle, _, hyo⟩
          · exact g6 r hr
        · rw [g7]
          exact hp1

theorem Path.mono [IsStrictOrderedRing K] {Φ : K → List K → K → K → Bool → M → List K → Prop} {x0 x : K} {y0 y : List K}
    {l : List (Accepted K M)} (h : Path Φ x0 y0 l x y) : x0 ≤ x := by
  induction h with
  | nil => exact le_rfl
  | snoc a _ h1 h2 _ ih => rw [h2]; linarith

/-- The first `execute` of a solution. -/
theorem execute_first [IsStrictOrderedRing K] {st : Stepper K σ M} {o0 o' : Output K σ} {work : Workspace K} {h x0 x1 : K}
    {y : List K} {dense : List K → K → Res (List K)} {args args' : σ} (hn : work.stats.n_accepted = 0)
    (hser : o0.dense_recording = true → ∀ p ∈ o0.dense_y, p.2.length = o0.dense_x.length)
    (hgood : o0.withDenseOutput = true → GoodStations x0 x1 o0.dense_x)
    (he : o0.execute work h x0 y dense args = ok (o', args', false)) :
    Stepped o0 [(h, x0, y)] o' ∧ o'.withDenseOutput = o0.withDenseOutput ∧
      (o0.withDenseOutput = true → ∃ rs, Reported o0 rs o' ∧ o'.dense_index = rs.length ∧
        StationInv st o0.dense_x (h, x0, y) [] x0 rs) := by
  unfold Output.execute at he
  split at he
  · cases he
  · rw [bind_eq_ok] at he
    obtain ⟨⟨o1, a1, stop⟩, h1, he⟩ := he
    dsimp only at he
    split at he
    · cases he
    · rename_i hstop
      have hs : stop = false := by simpa using hstop
      subst hs
      obtain ⟨hS, hdp⟩ := executeStep_spec (Stepped.refl o0) h1
      have hwd := withDense_of_densePart hdp
      rw [bind_eq_ok] at he
      obtain ⟨⟨o2, a2, stop⟩, h2, he⟩ := he
      dsimp only at he
      split at he
      · cases he
      · rename_i hstop
        have hs : stop = false := by simpa using hstop
        subst hs
        cases he
        obtain ⟨p1, p2⟩ := executeStiff_parts o2 work
        unfold Output.maybeDense at h2
        rw [hwd] at h2
        cases hw : o0.withDenseOutput
        · rw [hw, if_neg (by simp)] at h2
          cases h2
          refine ⟨hS.congr p2, ?_, fun h => by cases h⟩
          rw [withDense_of_densePart p1, hwd, hw]
        · rw [hw, if_pos rfl] at h2
          unfold Output.executeDense at h2
          rw [if_pos hn] at h2
          dsimp only at h2
          rw [bind_eq_ok] at h2
          obtain ⟨⟨o3, a3, stop⟩, h3, h2⟩ := h2
          dsimp only at h2
          split at h2
          · cases h2
          · rename_i hstop
            have hs : stop = false := by simpa using hstop
            subst hs
            cases h2
            have hR0 : Reported o0 [] o0 := ⟨rfl, rfl, rfl, rfl, rfl, by simp, by simp, by simp, rfl,
              fun hr p hp => ⟨hser hr p hp, by simp⟩⟩
            obtain ⟨hR1, -⟩ := hR0.congr hdp
            obtain ⟨hR3, hi3, hp3⟩ := report_spec (hR1.setIndex 0) rfl h3
            obtain ⟨hR4, hi4⟩ := (hR3.setIndex (o3.dense_index + 1)).congr p1
            have hg := hgood hw
            refine ⟨hS.congr (p2.trans hp3), ?_, fun _ => ⟨_, hR4, ?_, ?_⟩⟩
            · rw [withDense_eq hR4.cb hR4.file hR4.record, hw]
            · rw [hi4]
              simp [hi3]
            · refine ⟨⟨[], rfl⟩, by have := hg.len; simpa using this, ?_, ?_, by simp⟩
              · have := hg.first
                rw [List.head?_eq_getElem?] at this
                simp [List.take_add_one, this]
              · intro j z hj1 hj2 hz
                have hf := hg.first
                rw [List.head?_eq_getElem?] at hf
                obtain ⟨b1, e1⟩ := List.getElem?_eq_some_iff.1 hf
                obtain ⟨b2, e2⟩ := List.getElem?_eq_some_iff.1 hz
                have := List.pairwise_iff_getElem.1 hg.sorted _ _ b1 b2 (by simp at hj1; omega)
                rwa [e1, e2] at this

/-- A later `execute`, after the accepted step `a`. -/
theorem execute_next [IsStrictOrderedRing K] {st : Stepper K σ M} {o0 o o' : Output K σ} {work : Workspace K} {xp : K}
    {first : Report K} {acc : List (Accepted K M)} {ss : List (Report K)} {a : Accepted K M} {args args' : σ}
    (hn : work.stats.n_accepted ≠ 0) (hax : a.x = xp + a.h)
    (hsort : o0.withDenseOutput = true → o0.dense_x.Pairwise (· < ·))
    (hS : Stepped o0 ss o) (hwd : o.withDenseOutput = o0.withDenseOutput)
    (hD : o0.withDenseOutput = true → ∃ rs, Reported o0 rs o ∧ o.dense_index = rs.length ∧
        StationInv st o0.dense_x first acc xp rs)
    (he : o.execute work a.h a.x a.y (fun y_out x_out => st.dense_output a.m y_out x_out a.x a.y a.h) args =
      ok (o', args', false)) :
    Stepped o0 (ss ++ [a.report]) o' ∧ o'.withDenseOutput = o0.withDenseOutput ∧
      (o0.withDenseOutput = true → ∃ rs, Reported o0 rs o' ∧ o'.dense_index = rs.length ∧
        StationInv st o0.dense_x first (acc ++ [a]) a.x rs) := by
  unfold Output.execute at he
  split at he
  · cases he
  · rw [bind_eq_ok] at he
    obtain ⟨⟨o1, a1, stop⟩, h1, he⟩ := he
    dsimp only at he
    split at he
    · cases he
    · rename_i hstop
      have hs : stop = false := by simpa using hstop
      subst hs
      obtain ⟨hS1, hdp⟩ := executeStep_spec hS h1
      have hwd1 := (withDense_of_densePart hdp).trans hwd
      rw [bind_eq_ok] at he
      obtain ⟨⟨o2, a2, stop⟩, h2, he⟩ := he
      dsimp only at he
      split at he
      · cases he
      · rename_i hstop
        have hs : stop = false := by simpa using hstop
        subst hs
        cases he
        obtain ⟨p1, p2⟩ := executeStiff_parts o2 work
        unfold Output.maybeDense at h2
        rw [hwd1] at h2
        cases hw : o0.withDenseOutput
        · rw [hw, if_neg (by simp)] at h2
          cases h2
          refine ⟨hS1.congr p2, ?_, fun h => by cases h⟩
          rw [withDense_of_densePart p1, hwd1, hw]
        · rw [hw, if_pos rfl] at h2
          unfold Output.executeDense at h2
          rw [if_neg hn] at h2
          dsimp only at h2
          rw [bind_eq_ok] at h2
          obtain ⟨n_out, hno, h2⟩ := h2
          obtain ⟨rs, hR, hi, hI⟩ := hD hw
          obtain ⟨hR1, hi1⟩ := hR.congr hdp
          rw [hi] at hi1
          have hno' : n_out + 1 = o0.dense_x.length := by
            rw [hR1.dx] at hno
            unfold subUsize at hno
            split at hno
            · cases hno; omega
            · cases hno
          obtain ⟨new, g1, g2, g3, g4, g5, g6, g7⟩ := stationLoop_spec (xp := xp) (hsort hw)
            (n_out - o1.dense_index) _ _ _ _ rs h2 (hR1.setAux _) hi1 (by have := hI.le; rw [hi1]; omega) hI.map hI.next
          obtain ⟨hR4, hi4⟩ := g1.congr p1
          refine ⟨(hS1.congr (o' := o2) g7).congr p2, ?_, fun _ => ⟨_, hR4, by rw [hi4, g2], ?_⟩⟩
          · rw [withDense_eq hR4.cb hR4.file hR4.record, hw]
          · obtain ⟨tl, htl⟩ := hI.ne
            refine ⟨⟨tl ++ new, by rw [htl]; rfl⟩, g3, g4, g5, ?_⟩
            intro r hr
            rw [htl] at hr
            simp only [List.cons_append, List.tail_cons, List.mem_append] at hr
            rcases hr with hr | hr
            · obtain ⟨b, hb, hrest⟩ := hI.src r (by rw [htl]; exact hr)
              exact ⟨b, by simp [hb], hrest⟩
            · obtain ⟨q1, q2, q3, q4⟩ := g6 r hr
              refine ⟨a, by simp, q1, ?_, q3, q4⟩
              rw [hax]
              simpa using q2

/-- The output during a solution (`o0`: the output after `initialize`). -/
def OutInv (st : Stepper K σ M) (o0 : Option (Output K σ)) (x1 : K) (first : Report K) (acc : List (Accepted K M)) (x : K)
    (out : Option (Output K σ)) : Prop :=
  (o0 = none ∧ out = none) ∨
    ∃ q o, o0 = some q ∧ out = some o ∧ (q.withDenseOutput = true → GoodStations first.2.1 x1 q.dense_x) ∧
      Stepped q (first :: acc.map Accepted.report) o ∧ o.withDenseOutput = q.withDenseOutput ∧
      (q.withDenseOutput = true → ∃ rs, Reported q rs o ∧ o.dense_index = rs.length ∧ StationInv st q.dense_x first acc x rs)

/-- The state during a solution. -/
structure Inv (c : Contract K M) (st : Stepper K σ M) (o0 : Option (Output K σ)) (x1 : K) (first : Report K) (acc : List (Accepted K M))
    (s : State K σ M) : Prop where
  path : Path c.Φ first.2.1 first.2.2 acc s.x s.y
  meth : c.J s.m s.work.stats.n_accepted s.work.follows_reject_step s.x s.y
  nacc : s.work.stats.n_accepted = acc.length
  nrej : s.work.stats.n_accepted + s.work.stats.n_rejected ≤ s.work.stats.n_steps
  out : OutInv st o0 x1 first acc s.x s.out

variable [IsStrictOrderedRing K] {st : Stepper K σ M} {p : SolveParams K} {fin : List K → Res Unit}
  {o0 : Option (Output K σ)} {x1 : K} {first : Report K} {c : Contract K M}

/-- The output after an accepted step. -/
theorem runOutput_spec {acc : List (Accepted K M)} {xp : K} (err : K) (div : Bool) {s s' : State K σ M}
    (he : runOutput st s = ok (s', false)) (hn : s.work.stats.n_accepted ≠ 0) (hx : s.x = xp + s.h)
    (hO : OutInv st o0 x1 first acc xp s.out) :
    (s'.m = s.m ∧ s'.work = s.work ∧ s'.x = s.x ∧ s'.y = s.y ∧ s'.h = s.h ∧ s'.last_step = s.last_step) ∧
      OutInv st o0 x1 first (acc ++ [⟨s.m, s.h, err, div, s.x, s.y⟩]) s.x s'.out := by
  unfold runOutput at he
  rcases hO with ⟨h1, h2⟩ | ⟨q, o, h1, h2, h3, h4, h5, h6⟩
  · rw [h2] at he
    dsimp only at he
    cases he
    exact ⟨⟨rfl, rfl, rfl, rfl, rfl, rfl⟩, Or.inl ⟨h1, h2⟩⟩
  · rw [h2] at he
    dsimp only at he
    rw [bind_eq_ok] at he
    obtain ⟨⟨o1, a1, stop⟩, g1, g2⟩ := he
    cases g2
    refine ⟨⟨rfl, rfl, rfl, rfl, rfl, rfl⟩, Or.inr ⟨q, o1, h1, rfl, h3, ?_⟩⟩
    obtain ⟨k1, k2, k3⟩ := execute_next (st := st) (a := ⟨s.m, s.h, err, div, s.x, s.y⟩) hn hx (fun hw => (h3 hw).sorted) h4 h5 h6 g1
    refine ⟨by simpa using k1, k2, k3⟩

/-- One turn of the loop with equal steps. -/
theorem equalTurn_spec (hreg : st.Meets c) {acc : List (Accepted K M)} {s s' : State K σ M} (hI : Inv c st o0 x1 first acc s)
    (hh : 0 < s.h) (hfl : s.work.follows_reject_step = false) (he : equalTurn st fin s = ok (.next s')) :
    ∃ a, Inv c st o0 x1 first (acc ++ [a]) s' ∧ a.h = s.h ∧ s'.x = s.x + s.h ∧ s'.h = s.h ∧
      s'.work.stats.n_steps = s.work.stats.n_steps + 1 ∧ s'.work.follows_reject_step = false := by
  unfold equalTurn at he
  dsimp only at he
  rw [bind_eq_ok] at he
  obtain ⟨⟨m1, w1, a1⟩, h1, he⟩ := he
  dsimp only at he
  rw [bind_eq_ok] at he
  obtain ⟨⟨m2, w2, x2, y2, a2⟩, h2, he⟩ := he
  dsimp only at he
  rw [bind_eq_ok] at he
  obtain ⟨_, -, he⟩ := he
  rw [bind_eq_ok] at he
  obtain ⟨⟨s3, stop⟩, h3, he⟩ := he
  dsimp only at he
  split at he
  · cases he
  · rename_i hstop
    have hs : stop = false := by simpa using hstop
    subst hs
    cases he
    obtain ⟨⟨r0, -⟩, r1, r2, r3, r4⟩ := hreg.step h1 hI.meth
    obtain ⟨⟨q0, qΦ, qJ, -⟩, q1, q2, q3, q4⟩ := hreg.accept h2 hh r0
    simp only [Workspace.addStep, Workspace.addAccepted] at r1 r2 r3 r4 q1 q2 q3 q4
    have q5 : w2.follows_reject_step = false := by rw [q4, r4, hfl]
    obtain ⟨⟨e1, e2, e3, e4, e5, e6⟩, hO⟩ := runOutput_spec (xp := s.x) w1.rel_error w1.iterations_diverging h3 (by dsimp only; omega) q0 hI.out
    have hacc := hI.nacc
    have hrej := hI.nrej
    refine ⟨⟨m2, s.h, w1.rel_error, w1.iterations_diverging, x2, y2⟩, ⟨?_, ?_, ?_, ?_, ?_⟩, rfl, ?_, e5, ?_, by rw [e2]; exact q5⟩
    · rw [e3, e4]
      exact hI.path.snoc ⟨m2, s.h, w1.rel_error, w1.iterations_diverging, x2, y2⟩ hh q0 qΦ
    · rw [e1, e2, e3, e4]
      dsimp only
      rw [q5]
      exact qJ _ (by omega)
    · rw [e2]; simp; omega
    · rw [e2]; dsimp only; omega
    · rw [e3]; exact hO
    · rw [e3]; exact q0
    · rw [e2]; dsimp only; omega

/-- What follows an accepted step. -/
theorem acceptTurn_spec (hreg : st.Meets c) {acc : List (Accepted K M)} {s : State K σ M} {t : Turn (State K σ M)}
    (he : acceptTurn st p fin x1 s = ok t) (hP : c.P s.m s.x s.y s.h s.work.rel_error s.work.iterations_diverging)
    (hpath : Path c.Φ first.2.1 first.2.2 acc s.x s.y) (hnacc : s.work.stats.n_accepted = acc.length)
    (hrej : s.work.stats.n_accepted + s.work.stats.n_rejected + 1 ≤ s.work.stats.n_steps)
    (hO : OutInv st o0 x1 first acc s.x s.out) (hh : 0 < s.h) :
    (∃ s', t = .stopped s') ∨
    ∃ a s', Inv c st o0 x1 first (acc ++ [a]) s' ∧ (a.h = s.h ∧ (a.err = s.work.rel_error ∧ a.div = s.work.iterations_diverging) ∧ c.U s.h s'.work.h_new ∧
      s'.work.iterations_diverging = s.work.iterations_diverging) ∧
      s'.x = s.x + s.h ∧ s'.work.stats.n_steps = s.work.stats.n_steps ∧
      ((t = .finished s' true ∧ s.last_step = true) ∨
        (t = .next s' ∧ s.last_step = false ∧ (s'.last_step = true → x1 ≤ s'.x + s'.work.h_new))) := by
  unfold acceptTurn at he
  dsimp only at he
  rw [bind_eq_ok] at he
  obtain ⟨⟨m2, w2, x2, y2, a2⟩, h2, he⟩ := he
  dsimp only at he
  rw [bind_eq_ok] at he
  obtain ⟨_, -, he⟩ := he
  rw [bind_eq_ok] at he
  obtain ⟨⟨s3, stop⟩, h3, he⟩ := he
  dsimp only at he
  split at he
  · cases he
    exact Or.inl ⟨_, rfl⟩
  · rename_i hstop
    have hs : stop = false := by simpa using hstop
    subst hs
    right
    obtain ⟨⟨q0, qΦ, qJ, qU, qD⟩, q1, q2, q3, -⟩ := hreg.accept h2 hh hP
    simp only [Workspace.addAccepted] at q1 q2 q3 qD
    have hw1 : (if w2.follows_reject_step = true then { w2 with h_new := fmin w2.h_new s.h } else w2).stats = w2.stats := by
      split <;> rfl
    obtain ⟨⟨e1, e2, e3, e4, e5, e6⟩, hO'⟩ := runOutput_spec (xp := s.x) s.work.rel_error s.work.iterations_diverging h3 (by dsimp only; rw [hw1]; omega) q0 hO
    have hI : Inv c st o0 x1 first (acc ++ [⟨m2, s.h, s.work.rel_error, s.work.iterations_diverging, x2, y2⟩]) s3 := by
      refine ⟨?_, ?_, ?_, ?_, ?_⟩
      · rw [e3, e4]
        exact hpath.snoc ⟨m2, s.h, s.work.rel_error, s.work.iterations_diverging, x2, y2⟩ hh q0 qΦ
      · rw [e1, e2, e3, e4]
        dsimp only
        rw [hw1]
        exact qJ _ (by omega)
      · rw [e2]; dsimp only; rw [hw1]; simp; omega
      · rw [e2]; dsimp only; rw [hw1]; omega
      · rw [e3]; exact hO'
    have hsteps : s3.work.stats.n_steps = s.work.stats.n_steps := by rw [e2]; dsimp only; rw [hw1]; omega
    have hx3 : s3.x = s.x + s.h := by rw [e3]; exact q0
    have hU : c.U s.h s3.work.h_new := by
      rw [e2]
      dsimp only
      refine hreg.mono qU ?_
      split
      · dsimp only; unfold fmin; split
        · exact le_rfl
        · rename_i h; exact le_of_not_ge h
      · exact le_rfl
    have hD : s3.work.iterations_diverging = s.work.iterations_diverging := by
      rw [e2, ← qD]; dsimp only; split <;> rfl
    dsimp only at e6
    cases hl : s.last_step
    · rw [e6, hl, if_neg (by simp)] at he
      rw [hl] at e6
      split at he
      · rename_i hc
        cases he
        refine ⟨⟨m2, s.h, s.work.rel_error, s.work.iterations_diverging, x2, y2⟩, { s3 with last_step := true }, ⟨hI.path, hI.meth, hI.nacc, hI.nrej, hI.out⟩, ⟨rfl, ⟨rfl, rfl⟩, hU, hD⟩, hx3, hsteps, Or.inr ⟨rfl, rfl, fun _ => hc⟩⟩
      · cases he
        exact ⟨⟨m2, s.h, s.work.rel_error, s.work.iterations_diverging, x2, y2⟩, _, hI, ⟨rfl, ⟨rfl, rfl⟩, hU, hD⟩, hx3, hsteps, Or.inr ⟨rfl, rfl, fun h => by rw [e6] at h; cases h⟩⟩
    · rw [e6, hl, if_pos rfl] at he
      cases he
      exact ⟨⟨m2, s.h, s.work.rel_error, s.work.iterations_diverging, x2, y2⟩, _, hI, ⟨rfl, ⟨rfl, rfl⟩, hU, hD⟩, hx3, hsteps, Or.inl ⟨rfl, rfl⟩⟩

/-- The error estimates of the accepted steps are below one, none is flagged as diverging, and each stepsize may follow the previous one. -/
structure Controlled (c : Contract K M) (acc : List (Accepted K M)) : Prop where
  err : ∀ a ∈ acc, a.err < 1 ∧ a.div = false
  chain : acc.IsChain fun a b => c.U a.h b.h

/-- The state before a turn of the loop with variable steps, after `k` turns. -/
structure VInv (c : Contract K M) (st : Stepper K σ M) (o0 : Option (Output K σ)) (x1 : K) (first : Report K) (k : Nat) (s : State K σ M) :
    Prop where
  inv : ∃ acc, Inv c st o0 x1 first acc s ∧ Controlled c acc ∧
    ∀ a, acc.getLast? = some a → c.U a.h s.work.h_new
  le : s.x ≤ x1
  steps : s.work.stats.n_steps ≤ k
  div : s.work.iterations_diverging = false
  last : s.last_step = true → x1 ≤ s.x + s.work.h_new

theorem lit_one' : (lit 1 : K) = 1 := by rw [lit_eq]; simp

theorem controlled_snoc {acc : List (Accepted K M)} {a : Accepted K M} (hC : Controlled c acc) (he : a.err < 1 ∧ a.div = false)
    (hu : ∀ b, acc.getLast? = some b → c.U b.h a.h) : Controlled c (acc ++ [a]) := by
  refine ⟨?_, ?_⟩
  · intro b hb
    rcases List.mem_append.1 hb with hb | hb
    · exact hC.err b hb
    · rw [List.mem_singleton.1 hb]; exact he
  · refine List.isChain_append.2 ⟨hC.chain, List.isChain_singleton a, ?_⟩
    intro x hx y hy
    simp only [List.head?_cons, Option.mem_def, Option.some.injEq] at hy
    subst hy
    exact hu x hx

/-- One turn of the loop with variable steps. -/
theorem variableTurn_spec (hreg : st.Meets c) {k : Nat} {s : State K σ M} {t : Turn (State K σ M)}
    (hV : VInv c st o0 x1 first k s) (he : variableTurn st p fin x1 s = ok t) :
    (∃ s', t = .stopped s') ∨ (∃ s', t = .next s' ∧ VInv c st o0 x1 first (k + 1) s') ∨
      ∃ acc s', t = .finished s' true ∧ Inv c st o0 x1 first acc s' ∧ Controlled c acc ∧ s'.x ≤ x1 ∧ x1 - s'.x ≤ tenEps ∧
        s'.work.stats.n_steps ≤ k + 1 := by
  obtain ⟨⟨acc, hI, hC, hnext⟩, hle, hsteps, hdv, hlast⟩ := hV
  unfold variableTurn at he
  dsimp only at he
  split at he
  · rename_i hdx
    cases he
    exact Or.inr (Or.inr ⟨acc, s, rfl, hI, hC, hle, hdx, by omega⟩)
  · rename_i hdx
    split at he
    · cases he
    · rename_i hhe
      rw [not_le] at hhe
      have hpos : 0 < fmin s.work.h_new (x1 - s.x) := lt_trans tenEps_pos hhe
      have hhle : fmin s.work.h_new (x1 - s.x) ≤ x1 - s.x := by
        unfold fmin; split
        · assumption
        · exact le_rfl
      generalize hgen : fmin s.work.h_new (x1 - s.x) = h at he hpos hhle hhe
      rw [bind_eq_ok] at he
      obtain ⟨⟨m1, w1, a1⟩, h1, he⟩ := he
      dsimp only at he
      obtain ⟨⟨r0, rU⟩, r1, r2, r3, -⟩ := hreg.step h1 hI.meth
      simp only [Workspace.addStep] at r1 r2 r3
      have hacc := hI.nacc
      have hrej := hI.nrej
      have hUh : ∀ a, acc.getLast? = some a → c.U a.h h := by
        intro a ha
        refine hreg.mono (hnext a ha) ?_
        rw [← hgen]; unfold fmin; split
        · exact le_rfl
        · rename_i h; exact le_of_not_ge h
      split at he
      · -- diverging iterations
        rename_i hdiv
        cases he
        refine Or.inr (Or.inl ⟨_, rfl, ⟨acc, ⟨hI.path, hreg.keep r0 _, ?_, ?_, hI.out⟩, hC, fun a ha => rU hdv hdiv _ (hUh a ha)⟩,
          hle, ?_, rfl, fun h => by cases h⟩)
        · dsimp only; omega
        · dsimp only; omega
        · dsimp only; omega
      · rename_i hdiv
        have hdiv' : w1.iterations_diverging = false := by simpa using hdiv
        split at he
        · -- accepted
          rename_i herr
          rcases acceptTurn_spec (acc := acc) hreg he r0 hI.path (by dsimp only; omega) (by dsimp only; omega) hI.out hpos with
            h | ⟨a, s', hI', ⟨ha1, ⟨ha2, ha3⟩, hU', hD'⟩, hx', hst', h | h⟩
          · exact Or.inl h
          · have herr' : a.err < 1 ∧ a.div = false := ⟨by rw [ha2, ← lit_one']; exact herr, ha3.trans hdiv'⟩
            have hC' := controlled_snoc hC herr' fun b hb => by rw [ha1]; exact hUh b hb
            right; right
            obtain ⟨rfl, hl⟩ := h
            dsimp only at hl hx' hst'
            have hxe : s'.x = x1 := by
              have hb := hlast hl
              have : h = x1 - s.x := by
                rw [← hgen]; unfold fmin
                split
                · linarith
                · rfl
              rw [hx', this]; ring
            refine ⟨_, s', rfl, hI', hC', hxe.le, ?_, by omega⟩
            rw [hxe, sub_self]; exact tenEps_pos.le
          · have herr' : a.err < 1 ∧ a.div = false := ⟨by rw [ha2, ← lit_one']; exact herr, ha3.trans hdiv'⟩
            have hC' := controlled_snoc hC herr' fun b hb => by rw [ha1]; exact hUh b hb
            right; left
            obtain ⟨rfl, -, hl⟩ := h
            dsimp only at hx' hst'
            refine ⟨s', rfl, ⟨_, hI', hC', ?_⟩, by rw [hx']; linarith, by omega, hD'.trans hdiv', hl⟩
            intro b hb
            rw [List.getLast?_concat] at hb
            cases hb
            rw [ha1]; exact hU'
        · -- rejected
          rename_i herr
          cases he
          refine Or.inr (Or.inl ⟨_, rfl, ?_⟩)
          unfold rejectTurn
          dsimp only
          have hw : ∀ w : Workspace K, w = (if 0 < w1.stats.n_accepted then
              { w1 with stats := { w1.stats with n_rejected := w1.stats.n_rejected + 1 } } else w1) →
              w.stats.n_accepted = acc.length ∧ w.stats.n_steps = s.work.stats.n_steps + 1 ∧
              w.stats.n_accepted + w.stats.n_rejected ≤ w.stats.n_steps ∧ w.rel_error = w1.rel_error ∧ w.iterations_diverging = false := by
            intro w hw
            subst hw
            split
            · dsimp only; exact ⟨by omega, by omega, by omega, rfl, hdiv'⟩
            · exact ⟨by omega, by omega, by omega, rfl, hdiv'⟩
          obtain ⟨u1, u2, u3, u4, u5⟩ := hw _ rfl
          generalize (if 0 < w1.stats.n_accepted then
              { w1 with stats := { w1.stats with n_rejected := w1.stats.n_rejected + 1 } } else w1) = w at u1 u2 u3 u4 u5 ⊢
          split
          · rename_i hfirst
            refine ⟨⟨acc, ⟨hI.path, hreg.keep r0 _, u1, u3, hI.out⟩, hC, ?_⟩, hle, by dsimp only; omega, u5, fun h => by cases h⟩
            intro a ha
            have h0 := hfirst.1
            have : acc = [] := List.eq_nil_of_length_eq_zero (by omega)
            rw [this] at ha; cases ha
          · obtain ⟨⟨v0, vU⟩, v5, v1, v2, v3, v4⟩ := hreg.reject (w := { w with follows_reject_step := true }) hpos
              (by dsimp only; rw [u4]; exact herr) (by dsimp only; rw [u4, u5, ← hdiv']; exact r0)
            dsimp only at v1 v2 v3 v4
            refine ⟨⟨acc, ⟨hI.path, ?_, ?_, ?_, hI.out⟩, hC, fun a ha => vU _ (hUh a ha)⟩, hle, ?_, v5.trans u5, fun h => by cases h⟩
            · dsimp only; rw [v4]; exact v0 _
            · dsimp only; omega
            · dsimp only; omega
            · dsimp only; omega

/-- The loops: an invariant of the turns holds at the end. -/
theorem turns_spec {S : Type} {turn : S → Res (Turn S)} {ft : Bool} (I : Nat → S → Prop) (F : S → Bool → Prop) :
    ∀ (n k : Nat) (s : S) (t : Turn S), I k s →
      (∀ j s t, k ≤ j → j < k + n → I j s → turn s = ok t →
        (∃ s', t = .stopped s') ∨ (∃ s', t = .next s' ∧ I (j + 1) s') ∨ (∃ s' b, t = .finished s' b ∧ F s' b)) →
      turns turn ft n s = ok t →
      (∃ s', t = .stopped s') ∨ (∃ s', t = .finished s' ft ∧ I (k + n) s') ∨ (∃ s' b, t = .finished s' b ∧ F s' b) := by
  intro n
  induction n with
  | zero =>
    intro k s t hI _ he
    cases he
    exact Or.inr (Or.inl ⟨s, rfl, hI⟩)
  | succ n ih =>
    intro k s t hI hturn he
    unfold turns at he
    rw [bind_eq_ok] at he
    obtain ⟨u, hu, he⟩ := he
    rcases hturn k s u le_rfl (by omega) hI hu with ⟨s', rfl⟩ | ⟨s', rfl, hI'⟩ | ⟨s', b, rfl, hF⟩
    · cases he
      exact Or.inl ⟨s', rfl⟩
    · dsimp only at he
      have := ih (k + 1) s' t hI' (fun j s t h1 h2 => hturn j s t (by omega) (by omega)) he
      rwa [show k + 1 + n = k + (n + 1) by omega] at this
    · cases he
      exact Or.inr (Or.inr ⟨s', b, rfl, hF⟩)

end

end Russell.Ode
