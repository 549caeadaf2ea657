import Verif.Ode.ErkProps

/-!
# `solve` with the explicit Runge-Kutta methods: steps, stations, absence of panics (C59, C61)
-/

namespace Russell.Ode

open Russell Russell.Res Russell.Lab

set_option linter.unusedSectionVars false

/-! ### Absence of panics -/

section
variable {K σ M : Type} [Field K] [LinearOrder K] [FloorSemiring K] [IsStrictOrderedRing K]
variable {st : Stepper K σ M} {p : SolveParams K} {fin : List K → Res Unit} {c : Contract K M}

/-- The operations of the method do not panic when the contract holds. -/
structure Stepper.Safe (st : Stepper K σ M) (c : Contract K M) : Prop where
  step : ∀ {m w x y h a}, c.J m w.stats.n_accepted w.follows_reject_step x y → st.step m w x y h a ≠ Res.panic
  accept : ∀ {m w x y h a}, c.P m x y h w.rel_error w.iterations_diverging → st.accept m w x y h a ≠ Res.panic

theorem bind_no_panic {α β : Type} {r : Res α} {f : α → Res β} (h : r ≠ Res.panic) (hf : ∀ a, r = ok a → f a ≠ Res.panic) :
    (r >>= f) ≠ Res.panic := by
  cases r with
  | ok a => exact hf a rfl
  | err e => intro h; cases h
  | panic => exact absurd rfl h

theorem ite_no_panic {α : Type} {c : Prop} [Decidable c] {a b : Res α} (ha : a ≠ Res.panic) (hb : b ≠ Res.panic) :
    (if c then a else b) ≠ Res.panic := by
  split <;> assumption

theorem ok_no_panic {α : Type} (a : α) : ok a ≠ Res.panic := by intro h; cases h

theorem runOutput_none {s : State K σ M} (h : s.out = none) : runOutput st s = ok (s, false) := by
  unfold runOutput; rw [h]

theorem equalTurn_safe (hreg : st.Meets c) (hsafe : st.Safe c) (hfin : ∀ y, fin y ≠ Res.panic) {s : State K σ M}
    (hJ : c.J s.m s.work.stats.n_accepted s.work.follows_reject_step s.x s.y) (ho : s.out = none) :
    equalTurn st fin s ≠ Res.panic := by
  unfold equalTurn
  dsimp only
  apply bind_no_panic (hsafe.step (w := s.work.addStep) hJ)
  rintro ⟨m, w, a⟩ h1
  dsimp only
  obtain ⟨⟨r0, -⟩, -⟩ := hreg.step h1 hJ
  apply bind_no_panic (hsafe.accept (w := w.addAccepted) r0)
  rintro ⟨m2, w2, x2, y2, a2⟩ h2
  dsimp only
  apply bind_no_panic (hfin _)
  intro _ _
  rw [runOutput_none (by exact ho), ok_bind]
  intro h; cases h

theorem variableTurn_safe {x1 : K} (hreg : st.Meets c) (hsafe : st.Safe c) (hfin : ∀ y, fin y ≠ Res.panic) {s : State K σ M}
    (hJ : c.J s.m s.work.stats.n_accepted s.work.follows_reject_step s.x s.y) (ho : s.out = none) :
    variableTurn st p fin x1 s ≠ Res.panic := by
  unfold variableTurn
  dsimp only
  split
  · intro h; cases h
  · split
    · intro h; cases h
    · apply bind_no_panic (hsafe.step (w := s.work.addStep) hJ)
      rintro ⟨m, w, a⟩ h1
      dsimp only
      obtain ⟨⟨r0, -⟩, -⟩ := hreg.step h1 hJ
      split
      · intro h; cases h
      · split
        · unfold acceptTurn
          dsimp only
          apply bind_no_panic (hsafe.accept (w := w.addAccepted) r0)
          rintro ⟨m2, w2, x2, y2, a2⟩ h2
          dsimp only
          apply bind_no_panic (hfin _)
          intro _ _
          rw [runOutput_none (by exact ho), ok_bind]
          dsimp only
          exact ite_no_panic (ok_no_panic _) (ite_no_panic (ok_no_panic _) (ite_no_panic (ok_no_panic _) (ok_no_panic _)))
        · intro h; cases h

theorem turns_safe {S : Type} {turn : S → Res (Turn S)} {ft : Bool} (I : Nat → S → Prop)
    (hs : ∀ j s, I j s → turn s ≠ Res.panic) (hk : ∀ j s s', I j s → turn s = ok (.next s') → I (j + 1) s') :
    ∀ (n k : Nat) (s : S), I k s → turns turn ft n s ≠ Res.panic := by
  intro n
  induction n with
  | zero => intro k s _ h; cases h
  | succ n ih =>
    intro k s hI
    unfold turns
    apply bind_no_panic (hs k s hI)
    intro t ht
    cases t with
    | next s' => exact ih (k + 1) s' (hk k s s' hI ht)
    | finished s' b => intro h; cases h
    | stopped s' => intro h; cases h

theorem turns_not_next {S : Type} {turn : S → Res (Turn S)} {ft : Bool} : ∀ (n : Nat) (s s' : S),
    turns turn ft n s ≠ ok (.next s') := by
  intro n
  induction n with
  | zero => intro s s' h; cases h
  | succ n ih =>
    intro s s' h
    unfold turns at h
    rw [bind_eq_ok] at h
    obtain ⟨t, -, h⟩ := h
    cases t with
    | next s1 => exact ih s1 s' h
    | finished s1 b => cases h
    | stopped s1 => cases h

/-- The output stays empty. -/
theorem outInv_none {x1 : K} {first : Report K} {acc : List (Accepted K M)} {x : K} {out : Option (Output K σ)}
    (h : OutInv st none x1 first acc x out) : out = none := by
  rcases h with ⟨-, h⟩ | ⟨q, o, h, -⟩
  · exact h
  · cases h

theorem finish_safe {t : Turn (State K σ M)} (h : ∀ s, t ≠ .next s) (ho : ∀ s b, t = .finished s b → s.out = none) :
    finish t ≠ Res.panic := by
  unfold finish
  cases t with
  | next s => exact absurd rfl (h s)
  | stopped s => intro h; cases h
  | finished s b =>
    dsimp only
    unfold runLast
    rw [ho s b rfl]
    dsimp only
    rw [ok_bind]
    split <;> (intro h; cases h)

/-- **C59**: without output, `solve` does not panic when the operations of the method do not panic under their contract. -/
theorem solve_no_panic {m : M} {y0 : List K} {x0 x1 : K} {h_equal : Option K} {args : σ}
    (hreg : st.Meets c) (hsafe : st.Safe c) (hfin : ∀ y, fin y ≠ Res.panic) (hJ : y0.length = p.ndim → c.J m 0 false x0 y0)
    (hini : 0 < p.h_ini) : solve st p fin m y0 x0 x1 h_equal args none ≠ Res.panic := by
  unfold solve
  split
  · intro h; cases h
  · rename_i hdim
    rw [not_not] at hdim
    split
    · intro h; cases h
    · rename_i hx
      rw [not_le] at hx
      have hpos : ∀ b h, initialStep p x0 x1 h_equal = ok (b, h) → 0 < h := by
        intro b h he
        unfold initialStep at he
        have hd : 0 < x1 - x0 := sub_pos.2 hx
        cases h_equal with
        | some g =>
          dsimp only at he
          split at he
          · cases he
          · rename_i hg
            cases he
            rw [not_lt] at hg
            have hq : 0 < (x1 - x0) / g := div_pos hd (lt_of_lt_of_le tenEps_pos hg)
            rw [lit_eq]
            refine div_pos hd ?_
            have := Nat.ceil_pos.2 hq
            change (0 : K) < (((⌈(x1 - x0) / g⌉₊ : ℕ) : ℚ) : K)
            push_cast
            exact_mod_cast this
        | none =>
          dsimp only at he
          split at he
          · cases he
            rw [fmin_eq]; exact lt_min hini hd
          · cases he
            rw [lit_eq]
            refine div_pos hd ?_
            norm_num
      apply bind_no_panic
      · unfold initialStep
        split <;> split <;> (intro h; cases h)
      · rintro ⟨eq, h⟩ hi
        have hh := hpos eq h hi
        dsimp only
        rw [if_neg (by rw [not_not, lit_zero]; exact hh)]
        unfold firstOutput
        dsimp only
        rw [ok_bind]
        dsimp only
        rw [if_neg (by simp)]
        have hI : Inv c st none x1 (h, x0, y0) [] ({ m := m, work := Workspace.reset h p.rel_error_prev_min, x := x0, y := y0, h := h, last_step := false, out := none, args := args } : State K σ M) :=
          ⟨Path.nil, hJ hdim, rfl, le_rfl, Or.inl ⟨rfl, rfl⟩⟩
        split
        · apply bind_no_panic
          · refine turns_safe (fun _ s => s.h = h ∧ s.work.follows_reject_step = false ∧ ∃ acc, Inv c st none x1 (h, x0, y0) acc s)
              ?_ ?_ _ 0 _ ⟨rfl, rfl, [], hI⟩
            · rintro j s ⟨-, -, acc, hI⟩
              exact equalTurn_safe hreg hsafe hfin hI.meth (outInv_none hI.out)
            · rintro j s s' ⟨e1, e2, acc, hI⟩ he
              obtain ⟨a, k1, k2, k3, k4, k5, k6⟩ := equalTurn_spec hreg hI (by rw [e1]; exact hh) e2 he
              exact ⟨k4.trans e1, k6, _, k1⟩
          · intro t ht
            refine finish_safe (fun s hs => turns_not_next _ _ _ (ht.trans (congrArg ok hs))) ?_
            intro s b hs
            rcases turns_spec (fun _ s => s.h = h ∧ s.work.follows_reject_step = false ∧ ∃ acc, Inv c st none x1 (h, x0, y0) acc s)
              (fun s _ => s.out = none) _ 0 _ t ⟨rfl, rfl, [], hI⟩ (by
                rintro j s t - - ⟨e1, e2, acc, hI⟩ he
                cases t with
                | next s' =>
                  obtain ⟨a, k1, k2, k3, k4, k5, k6⟩ := equalTurn_spec hreg hI (by rw [e1]; exact hh) e2 he
                  exact Or.inr (Or.inl ⟨s', rfl, k4.trans e1, k6, _, k1⟩)
                | stopped s' => exact Or.inl ⟨s', rfl⟩
                | finished s' b =>
                  exfalso
                  unfold equalTurn at he
                  dsimp only at he
                  rw [bind_eq_ok] at he
                  obtain ⟨⟨m1, w1, a1⟩, -, he⟩ := he
                  dsimp only at he
                  rw [bind_eq_ok] at he
                  obtain ⟨⟨m2, w2, x2, y2, a2⟩, -, he⟩ := he
                  dsimp only at he
                  rw [bind_eq_ok] at he
                  obtain ⟨_, -, he⟩ := he
                  rw [bind_eq_ok] at he
                  obtain ⟨⟨s3, stop⟩, -, he⟩ := he
                  dsimp only at he
                  split at he <;> cases he) ht with ⟨s', h1⟩ | ⟨s', h1, -, -, acc, hI'⟩ | ⟨s', b', h1, h2⟩
            · rw [h1] at hs; cases hs
            · rw [h1] at hs; cases hs; exact outInv_none hI'.out
            · rw [h1] at hs; cases hs; exact h2
        · have hV : VInv c st none x1 (h, x0, y0) 0 ({ m := m, work := Workspace.reset h p.rel_error_prev_min, x := x0, y := y0, h := h, last_step := false, out := none, args := args } : State K σ M) :=
            ⟨⟨[], hI, ⟨by simp, List.IsChain.nil⟩, by simp⟩, hx.le, le_rfl, rfl, fun h => by cases h⟩
          apply bind_no_panic
          · refine turns_safe (fun k s => VInv c st none x1 (h, x0, y0) k s) ?_ ?_ _ 0 _ hV
            · intro j s hV
              obtain ⟨acc, hI, -⟩ := hV.inv
              exact variableTurn_safe hreg hsafe hfin hI.meth (outInv_none hI.out)
            · intro j s s' hV he
              rcases variableTurn_spec hreg hV he with ⟨_, h1⟩ | ⟨s1, h1, hV'⟩ | ⟨_, _, h1, -⟩
              · cases h1
              · cases h1; exact hV'
              · cases h1
          · intro t ht
            refine finish_safe (fun s hs => turns_not_next _ _ _ (ht.trans (congrArg ok hs))) ?_
            intro s b hs
            rcases turns_spec (fun k s => VInv c st none x1 (h, x0, y0) k s) (fun s _ => s.out = none) _ 0 _ t hV (by
                intro j s t _ _ hV he
                rcases variableTurn_spec hreg hV he with h1 | h1 | ⟨acc, s1, h1, hI', -⟩
                · exact Or.inl h1
                · exact Or.inr (Or.inl h1)
                · exact Or.inr (Or.inr ⟨s1, true, h1, outInv_none hI'.out⟩)) ht with
              ⟨s', h1⟩ | ⟨s', h1, hV'⟩ | ⟨s', b', h1, h2⟩
            · rw [h1] at hs; cases hs
            · rw [h1] at hs; cases hs
              obtain ⟨acc, hI', -⟩ := hV'.inv
              exact outInv_none hI'.out
            · rw [h1] at hs; cases hs; exact h2

/-- Two sequences of steps of the same sizes give the same solution, when a step is determined by station, solution and
stepsize. -/
theorem Path.det {M' : Type} {Φ : K → List K → K → K → Bool → M → List K → Prop} {Φ' : K → List K → K → K → Bool → M' → List K → Prop}
    (hΦ : ∀ x y h e1 d1 m1 y1 e2 d2 m2 y2, Φ x y h e1 d1 m1 y1 → Φ' x y h e2 d2 m2 y2 → y1 = y2) {x0 : K} {y0 : List K} {x x' : K}
    {y y' : List K} {acc : List (Accepted K M)} {acc' : List (Accepted K M')}
    (h : Path Φ x0 y0 acc x y) (h' : Path Φ' x0 y0 acc' x' y')
    (he : acc.map (fun a => a.h) = acc'.map (fun a => a.h)) :
    x = x' ∧ y = y' ∧ acc.map (fun a => (a.x, a.y)) = acc'.map (fun a => (a.x, a.y)) := by
  induction h generalizing x' y' acc' with
  | nil =>
    cases h' with
    | nil => exact ⟨rfl, rfl, rfl⟩
    | snoc a _ _ _ _ => simp at he
  | snoc a hp h1 h2 h3 ih =>
    cases h' with
    | nil => simp at he
    | snoc a' hp' h1' h2' h3' =>
      rw [List.map_append, List.map_append] at he
      obtain ⟨e1, e2⟩ := List.append_inj' he rfl
      simp only [List.map_cons, List.map_nil, List.cons.injEq, and_true] at e2
      obtain ⟨rfl, rfl, e3⟩ := ih hp' e1
      rw [← e2] at h2' h3'
      have hx : a.x = a'.x := h2.trans h2'.symm
      have hy : a.y = a'.y := hΦ _ _ _ _ _ _ _ _ _ _ _ h3 h3'
      refine ⟨hx, hy, ?_⟩
      rw [List.map_append, List.map_append, e3]
      simp [hx, hy]

end

variable {K σ : Type} [Field K] [LinearOrder K] [FloorSemiring K] [IsStrictOrderedRing K]
variable {fns : MathFns K} {sys : System K σ} {F : K → List K → List K} {p : ErkParams K} {t : Tableau} {e : Erk K}
variable {sp : SolveParams K} {fin : List K → Res Unit}

/-- The explicit Runge-Kutta methods do not panic under their contract. -/
theorem erk_safe (hF : Computes sys F) : (erk fns sys).Safe (erkContract fns sys.ndim F p t) where
  step := by
    rintro e w x y h a ⟨hM, hy, hre⟩
    exact (step_post (fns := fns) hF hM.holds hy h (work := w) a (by
      rintro (⟨h1, h2⟩ | h1)
      · exact hre (Or.inl ⟨h1, by rw [← hM.info]; exact h2⟩)
      · exact hre (Or.inr h1))).no_panic
  accept := by
    rintro e w x y h a ⟨hM, hD, -⟩
    exact (accept_post (fns := fns) hF hM.holds hD w a).no_panic

/-! ### C59 -/

/-- **C59**: variable steps. Whatever the rejections, every accepted step of a solution is the step of the Runge-Kutta tableau
of the method, from the previous accepted station, with the error estimate of the method, which is below one. A stepsize is at
most `m_max` times the previous one (**C61**). -/
theorem C59_variable_steps {y0 : List K} {x0 x1 : K} {args : σ} {out : Option (Output K σ)} {r : Solved K σ (Erk K)}
    (he : solve (erk fns sys) sp fin e y0 x0 x1 none args out = ok r) (hstop : r.stopped = false)
    (hnew : Erk.new sys p = ok e) (hF : Computes sys F) (hf : fns.Good) (hp : p.Valid) (hn : sp.ndim = sys.ndim)
    (hemb : sp.embedded = p.method.information.embedded) (hvar : p.method.information.embedded = true)
    (hS : ∀ o, out = some o → o.withDenseOutput = true → StationsSet o) :
    ∃ t acc, p.method.tableau = some t ∧ Path (fun x y h err _ => ErkRelation fns sys.ndim F p t x y h err) x0 y0 acc r.state.x r.state.y ∧
      r.state.work.stats.n_accepted = acc.length ∧ (∀ a ∈ acc, a.err < 1) ∧
      acc.IsChain (fun a b => b.h ≤ p.m_max * a.h) := by
  have hy : y0.length = sys.ndim := by
    by_contra hne
    unfold solve at he
    rw [if_pos (by rw [hn]; exact hne)] at he
    cases he
  obtain ⟨t, ht, hJ⟩ := erk_starts (fns := fns) (F := F) (out := out) (x0 := x0) hnew hy
  obtain ⟨acc, h1, -, -, h2, -, -, h3, h4⟩ := C58_variable_steps he hstop (erk_meets hf hF hp) hJ hS (hemb.trans hvar)
  exact ⟨t, acc, ht, h1, h2, fun a ha => (h3 a ha).1, h4.imp fun _ _ h => h hvar⟩

/-- **C59**: equal steps: the same, with `n` steps of the size `(x1 - x0) / n`. -/
theorem C59_equal_steps {y0 : List K} {x0 x1 : K} {h_equal : Option K} {args : σ} {out : Option (Output K σ)}
    {r : Solved K σ (Erk K)}
    (he : solve (erk fns sys) sp fin e y0 x0 x1 h_equal args out = ok r) (hstop : r.stopped = false)
    (hnew : Erk.new sys p = ok e) (hF : Computes sys F) (hf : fns.Good) (hp : p.Valid) (hn : sp.ndim = sys.ndim)
    (heq : h_equal.isSome = true ∨ sp.embedded = false)
    (hS : ∀ o, out = some o → o.withDenseOutput = true → StationsSet o) :
    ∃ t acc, p.method.tableau = some t ∧ Path (fun x y h err _ => ErkRelation fns sys.ndim F p t x y h err) x0 y0 acc x1 r.state.y ∧
      0 < acc.length ∧ ∀ a ∈ acc, a.h = (x1 - x0) / acc.length := by
  have hy : y0.length = sys.ndim := by
    by_contra hne
    unfold solve at he
    rw [if_pos (by rw [hn]; exact hne)] at he
    cases he
  obtain ⟨t, ht, hJ⟩ := erk_starts (fns := fns) (F := F) (out := out) (x0 := x0) hnew hy
  obtain ⟨n, acc, h1, h2, -, -, h3, h4, -⟩ := C58_equal_steps he hstop (erk_meets hf hF hp) hJ hS heq
  exact ⟨t, acc, ht, h2, by omega, by rw [h3]; exact h4⟩

/-- A step is determined by station, solution and stepsize. -/
theorem erkRelation_det {fns' : MathFns K} {p' : ErkParams K} {n : Nat} {x : K} {y : List K} {h e1 e2 : K} {m1 m2 : Erk K}
    {y1 y2 : List K} (h1 : ErkRelation fns n F p t x y h e1 m1 y1) (h2 : ErkRelation fns' n F p' t x y h e2 m2 y2) : y1 = y2 := by
  obtain ⟨k, k1, rfl, -⟩ := h1
  obtain ⟨k', k1', rfl, -⟩ := h2
  exact lin_congr (fun _ _ => rfl) fun j hj => k1.unique k1' j hj

/-- **C59**: two solutions with the same method whose accepted steps have the same sizes agree at all the stations, whatever
the tolerances, the other parameters, the rejected steps, the arguments and the output have been. -/
theorem C59_steps_determine {p' : ErkParams K} {fns' : MathFns K} {x0 : K} {y0 : List K} {x x' : K} {y y' : List K}
    {acc acc' : List (Accepted K (Erk K))} (h : Path (fun x y h err _ => ErkRelation fns sys.ndim F p t x y h err) x0 y0 acc x y)
    (h' : Path (fun x y h err _ => ErkRelation fns' sys.ndim F p' t x y h err) x0 y0 acc' x' y') (he : acc.map (fun a => a.h) = acc'.map (fun a => a.h)) :
    x = x' ∧ y = y' ∧ acc.map (fun a => (a.x, a.y)) = acc'.map (fun a => (a.x, a.y)) :=
  Path.det (Φ := fun x y h err _ => ErkRelation fns sys.ndim F p t x y h err)
    (Φ' := fun x y h err _ => ErkRelation fns' sys.ndim F p' t x y h err) (fun _ _ _ _ _ _ _ _ _ _ _ h1 h2 => erkRelation_det h1 h2) h h' he

/-- **C59**: a solution without output does not panic. -/
theorem C59_no_panic {y0 : List K} {x0 x1 : K} {h_equal : Option K} {args : σ} (hnew : Erk.new sys p = ok e)
    (hF : Computes sys F) (hf : fns.Good) (hp : p.Valid) (hn : sp.ndim = sys.ndim) (hini : 0 < sp.h_ini)
    (hfin : ∀ y, fin y ≠ Res.panic) : solve (erk fns sys) sp fin e y0 x0 x1 h_equal args none ≠ Res.panic := by
  obtain ⟨t, hM, -⟩ := made_new hnew
  refine solve_no_panic (c := erkContract fns sys.ndim F p t) (erk_meets hf hF hp) (erk_safe hF) hfin ?_ hini
  intro hy
  refine ⟨hM, by rw [hy, hn], ?_⟩
  rintro (⟨h, -⟩ | h)
  · omega
  · cases h

/-! ### Dense output of DoPri5 -/

theorem calc5_spec {d : List (List K)} {n : Nat} (hd : Rows d 5 n) {θ u : K} {aux r : List K}
    (he : forRange 0 n aux (calc5Body d θ u) = ok r) : ∀ m, m < n → comp r m =
      comp (d.getD 0 []) m + θ * (comp (d.getD 1 []) m + u * (comp (d.getD 2 []) m +
        θ * (comp (d.getD 3 []) m + u * comp (d.getD 4 []) m))) := by
  refine forRange_ok (fun m (r : List K) => ∀ q, q < m → comp r q =
      comp (d.getD 0 []) q + θ * (comp (d.getD 1 []) q + u * (comp (d.getD 2 []) q +
        θ * (comp (d.getD 3 []) q + u * comp (d.getD 4 []) q)))) (Nat.zero_le n) (fun q hq => absurd hq (Nat.not_lt_zero q))
    ?_ he
  rintro m r r' - hm hI hb
  unfold calc5Body at hb
  rw [hd.get2 (by omega) hm, ok_bind, hd.get2 (by omega) hm, ok_bind, hd.get2 (by omega) hm, ok_bind,
    hd.get2 (by omega) hm, ok_bind, hd.get2 (by omega) hm, ok_bind] at hb
  by_cases hlt : m < r.length
  · obtain ⟨g1, g2, g3⟩ := vset_comp (n := r.length) rfl hlt (comp (d.getD 0 []) m + θ * (comp (d.getD 1 []) m +
      u * (comp (d.getD 2 []) m + θ * (comp (d.getD 3 []) m + u * comp (d.getD 4 []) m))))
    rw [g1] at hb
    cases hb
    intro q hq
    rw [g3]
    rcases Nat.lt_succ_iff_lt_or_eq.1 hq with h' | h'
    · rw [if_neg (by omega)]; exact hI q h'
    · rw [if_pos h', h']
  · rw [vset_ge _ (by omega : r.length ≤ m)] at hb; cases hb

/-- **C59**: the interpolation of DoPri5. Within an accepted step from `(x, y)` of size `h`, the value at the station `xo` is
`y + h Σ_j b_j(θ) k_j`, with `θ = (xo - x) / h` and the weights `dense5Weight`. -/
theorem C59_dense5 {n : Nat} {x : K} {y : List K} {h err : K} {e' : Erk K} {y' aux r : List K} {o : ErkDense K} {xo : K}
    (hR : ErkRelation fns n F p doPri5 x y h err e' y') (hm : p.method = .DoPri5) (ho : e'.dense_out = some o)
    (he : e'.denseOutput aux xo (x + h) y' h = ok r) :
    ∃ k : Nat → List K, RkStages n 7 doPri5.coefs.a doPri5.coefs.c F x y h k ∧ y' = lin n y h 7 doPri5.coefs.b k ∧
      ∀ m, m < n → comp r m = comp (lin n y h 7 (dense5Weight doPri5.coefs.b ((xo - x) / h)) k) m := by
  obtain ⟨k, k1, k2, -, k3⟩ := hR
  obtain ⟨hH, hD⟩ := k3 o ho
  have hom : o.method = .DoPri5 := hH.method.trans hm
  refine ⟨k, k1, k2, ?_⟩
  intro m hmn
  unfold Erk.denseOutput at he
  rw [ho] at he
  dsimp only at he
  unfold ErkDense.calculate at he
  dsimp only at he
  rw [if_pos hom, hH.ndim] at he
  rw [calc5_spec (hH.five hm) he m hmn, hD.1 hom 0 m (by omega) hmn, hD.1 hom 1 m (by omega) hmn, hD.1 hom 2 m (by omega) hmn,
    hD.1 hom 3 m (by omega) hmn, hD.1 hom 4 m (by omega) hmn, lit_one, show xo - (x + h - h) = xo - x by ring]
  exact dense5_value k2 _ hmn

end Russell.Ode
