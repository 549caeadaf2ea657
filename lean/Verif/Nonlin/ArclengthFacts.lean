import Verif.Nonlin.ArclengthProp

/-!
# C78: consequences, linear problems and deviations
-/

namespace Russell.Nonlin

open Russell Russell.Res

variable {n : Nat} {A : Type}

theorem path_mem {X : Type} {R : X → X → Prop} {x0 : X} {pts : List X} {x : X} (h : Path R x0 pts x) :
    ∀ y ∈ pts, y = x0 ∨ ∃ p ∈ pts, R p y := by
  have hx : ∀ {pts x}, Path R x0 pts x → x ∈ pts := by
    intro pts x h
    cases h <;> simp
  induction h with
  | start => intro y hy; exact Or.inl (List.mem_singleton.1 hy)
  | @next pts x y hp hr ih =>
    intro z hz
    rcases List.mem_append.1 hz with hz | hz
    · rcases ih z hz with h | ⟨p, h1, h2⟩
      · exact Or.inl h
      · exact Or.inr ⟨p, List.mem_append_left _ h1, h2⟩
    · rw [List.mem_singleton.1 hz]
      exact Or.inr ⟨x, List.mem_append_left _ (hx hp), hr⟩

/-- the residuals evaluated at the point are within the tolerance -/
def SmallResidual (c : Config) (sys : System n A) (p : Vec n × ℝ) : Prop :=
  ∃ a a' gg, sys.calcG p.2 p.1 a = ok (gg, a') ∧ ∀ i, |gg i| < c.tolAbsResidual

/-- **Residuals of the natural method**: when convergence of the corrections is disabled, every accepted point satisfies the
equations within the tolerance, in every run that returns. -/
theorem C77_residuals {c : Config} {fin : ℝ → Bool} {sys : System n A} {L : LinSol n} {sv : Solver n (Nat' n L.F)} {a : A}
    {u : Vec n} {l : ℝ} {dir : IniDir} {stop : Stop} {ddl : DeltaLambda} {out : Option (Output n A)}
    {r : Run n A (Nat' n L.F)} {st : Status} (hv : c.validate = ok ()) (hrho : 0 ≤ c.rhoTiny) (hd : c.disableRelDelta = true)
    (h : solve c fin (natural c fin sys L) sv a u l dir stop ddl out = ok (r, st)) :
    ∃ pts, pts.head? = some (u, l) ∧ pts.getLast? = some (r.u, r.l) ∧ OutEnd out pts r.out ∧
      ∀ p ∈ pts.tail, SmallResidual c sys p := by
  obtain ⟨pts, hp, hlen, ho⟩ := natural_path hv hrho h
  have key : ∀ {pts x}, Path (NatStep c sys L dir stop) (u, l) pts x → pts.head? = some (u, l) ∧ pts.getLast? = some x ∧
      ∀ p ∈ pts.tail, SmallResidual c sys p := by
    intro pts x h
    induction h with
    | start => simp
    | @next pts x y hp hr ih =>
      obtain ⟨i1, i2, i3⟩ := ih
      cases pts with
      | nil => simp at i1
      | cons z zs =>
        refine ⟨by simpa using i1, by rw [List.getLast?_append]; rfl, ?_⟩
        intro p hp
        simp only [List.cons_append, List.tail_cons, List.mem_append, List.mem_singleton] at hp
        rcases hp with hp | rfl
        · exact i3 p hp
        · rcases hr.2.2 with ⟨h1, h2⟩ | ⟨h0, -⟩
          · exact ⟨_, _, _, h1, h2⟩
          · rw [hd] at h0; cases h0
  obtain ⟨k1, k2, k3⟩ := key hp
  exact ⟨pts, k1, k2, ho, k3⟩

theorem cauchy {m : Nat} (x y : Vec m) (a b : ℝ) (h : ∑ i, y i ^ 2 + b ^ 2 = 1) :
    |∑ i, x i * y i + a * b| ≤ Real.sqrt (∑ i, x i ^ 2 + a ^ 2) := by
  apply Real.abs_le_sqrt
  have h1 := Finset.sum_mul_sq_le_sq_mul_sq Finset.univ (fun i : Fin (m + 1) => vcat x a i) (fun i => vcat y b i)
  rw [Fin.sum_univ_castSucc, Fin.sum_univ_castSucc, Fin.sum_univ_castSucc] at h1
  simp only [vcat_cast, vcat_last] at h1
  rw [h, mul_one] at h1
  exact h1

/-- **Progress**: when convergence of the corrections is disabled and no value of λ is prescribed, an accepted point satisfies
the equations within the tolerance and is at a distance of at least the step length (less the tolerance) from the previous
one, on the side the tangent vector points to. -/
theorem C78_progress {c : Config} {sys : System n A} {stop : Stop} {p q : Vec n × ℝ} (hd : c.disableRelDelta = true)
    (hst : stop.lambda = none) (h : ArcStep c sys stop p q) :
    SmallResidual c sys q ∧ ∃ K g du dl h, Evaluated sys K g ∧ IsTangent K g du dl ∧ 0 < h ∧
      |∑ i, (q.1 i - p.1 i) * du i + (q.2 - p.2) * dl - h| < c.tolAbsResidual ∧
      h - c.tolAbsResidual < Real.sqrt (∑ i, (q.1 i - p.1 i) ^ 2 + (q.2 - p.2) ^ 2) := by
  obtain ⟨K, g, du, dl, theta, h, h1, h2, h3, h4, h5⟩ := h
  have ht : theta = 1 := by
    rcases h3 with h | ⟨-, h⟩
    · exact h
    · exact absurd hst h
  subst ht
  cases h5 with
  | residual r1 r2 r3 =>
    refine ⟨⟨_, _, _, r1, r2⟩, K, g, du, dl, h, h1, h2, h4, ?_, ?_⟩
    · norm_num at r3 ⊢; exact r3
    · have hc := cauchy (fun i => q.1 i - p.1 i) du (q.2 - p.2) dl h2.unit
      have r4 := (abs_lt.1 r3).1
      have r5 := le_abs_self (∑ i, (q.1 i - p.1 i) * du i + (q.2 - p.2) * dl)
      norm_num at r4
      linarith
  | delta h0 => rw [hd] at h0; cases h0

/-- The length of the first step is such that λ is predicted to change by the given initial amount in the chosen
direction. -/
theorem C78_first_step {c : Config} {sys : System n A} {L : LinSols n} (hL : L.small.Exact) (hM : L.large.Exact)
    {s s' : ArcS L} {w w' : Work n} {a a' : A} {u : Vec n} {l x : ℝ} {dir : IniDir}
    (h : arcInit c sys L s w x u l dir a = ok (s', w', a')) :
    s'.theta = 1 ∧ w'.h * w'.dlds = dir.sign * x ∧ w'.u = u ∧ w'.l = l ∧
      (∃ K g, sys.calcJ l u a = ok (K, g, a') ∧ IsTangent K g w'.duds w'.dlds ∧ 0 < dir.sign * w'.dlds) := by
  unfold arcInit at h
  obtain ⟨⟨s1, w1, a1⟩, h4, h3⟩ := bind_eq_ok.1 h
  obtain ⟨K, g, e1, e2, e3, e4, e5, e6, st, e7⟩ := C78_initial_tangent hL hM h4
  simp only at h3
  split at h3
  · cases h3
  · cases ok.inj h3
    refine ⟨e6, ?_, by simp only; rw [e7], by simp only; rw [e7], K, g, e1, e2, e3⟩
    simp only
    have hp : 0 < |w1.dlds| := lt_of_lt_of_le hMin_pos e4
    rcases sign_cases dir with hs | hs
    · rw [hs, one_mul] at e3 ⊢
      rw [abs_of_pos e3, div_mul_cancel₀ _ e3.ne']
    · rw [hs] at e3 ⊢
      have : w1.dlds < 0 := by linarith
      rw [abs_of_neg this]
      have h0 : w1.dlds ≠ 0 := this.ne
      field_simp

/-! ## A prescribed value of λ -/

/-- **Targeting λ**: when the predicted λ would pass the prescribed value, a step converged by its residual ends within
`tol / (2 |dλ/ds|)` of it. -/
theorem C78_target {c : Config} {fin : ℝ → Bool} {sys : System n A} {L : LinSols n} (hL : L.small.Exact)
    (hM : L.large.Exact) {s s' : ArcS L} {w w' : Work n} {u : Vec n} {l l1 : ℝ} {a a' : A} (hv : c.validate = ok ())
    (hd : c.disableRelDelta = true) (hm : s.theta = 1) (hh : 0 < w.h) (hb : l < l1) (hpass : l1 ≤ l + w.h * w.dlds)
    (h : arcStep c fin sys L s w u l (.maxLambda l1) a = ok (s', w', a', .success)) :
    |w'.l - l1| * (2 * |w.dlds|) < c.tolAbsResidual := by
  obtain ⟨v1, -, -, -, v2, -, -, -, v3, -⟩ := validate_spec hv
  have ht : 0 < c.tolAbsResidual := lt_of_lt_of_le (by unfold tolMin; positivity) v2
  obtain ⟨-, -, -, e4, -, e5⟩ := arcStep_spec (stop := .maxLambda l1) hL hM ht v3 (Or.inl hm) hh hb trivial h
  obtain ⟨f1, f2⟩ := e4 (by simp [Stop.lambda])
  have hlam : (arcLambda s w l (.maxLambda l1)).1.theta = 0 ∧ (arcLambda s w l (.maxLambda l1)).2.h = 2 * (l1 - l) * w.dlds := by
    unfold arcLambda
    simp only [Stop.lambda]
    rw [if_pos (Or.inr ⟨by simp only [hm]; linarith, trivial⟩)]
    exact ⟨rfl, rfl⟩
  obtain ⟨g1, -⟩ := e5 rfl
  rw [f1, f2, hlam.1, hlam.2] at g1
  cases g1 with
  | residual r1 r2 r3 =>
    have : (0 : ℝ) * ∑ i, (w'.u i - u i) * w.duds i + (2 - 0) * (w'.l - l) * w.dlds - 2 * (l1 - l) * w.dlds
      = (w'.l - l1) * (2 * w.dlds) := by ring
    rw [this, abs_mul, abs_mul, abs_two] at r3
    exact r3
  | delta h0 => rw [hd] at h0; cases h0

/-- The predictor of such a step does not have the prescribed λ: it is `l + 4 (l1 - l) (dλ/ds)²`. -/
theorem C78_target_predictor {F G : Type} (s : Arc n F G) (w : Work n) {l l1 : ℝ} (hm : s.theta = 1) (hb : l < l1)
    (hpass : l1 ≤ l + w.h * w.dlds) :
    (arcLambda s w l (.maxLambda l1)).2.l = l + 4 * (l1 - l) * w.dlds ^ 2 ∧
    ((arcLambda s w l (.maxLambda l1)).2.l = l1 ↔ w.dlds ^ 2 = 1 / 4) := by
  have hlam : (arcLambda s w l (.maxLambda l1)).2.l = l + 4 * (l1 - l) * w.dlds ^ 2 := by
    unfold arcLambda
    simp only [Stop.lambda]
    rw [if_pos (Or.inr ⟨by simp only [hm]; linarith, trivial⟩)]
    simp only
    ring
  refine ⟨hlam, ?_⟩
  rw [hlam]
  constructor
  · intro h
    have h1 : (l1 - l) * (4 * w.dlds ^ 2 - 1) = 0 := by linarith
    rcases mul_eq_zero.1 h1 with h | h <;> linarith
  · intro h; rw [h]; ring

/-- with `dλ/ds` close to one the predictor goes four times as far as the prescribed λ -/
example : (arcLambda (n := 1) (F := Unit) (G := Unit) ⟨1, false, 0, 0, 0, none, none⟩
    { Work.new 1 with h := 3, dlds := 1 } 0 (.maxLambda 1)).2.l = 4 := by
  rw [(C78_target_predictor _ _ rfl (by norm_num) (by norm_num)).1]
  norm_num

/-- Once a prescribed λ has been targeted, θ remains zero for the rest of the solution (`initialize` resets it), also when the
step was rejected: the method is natural continuation from there on. -/
theorem C78_theta_sticks {c : Config} {fin : ℝ → Bool} {sys : System n A} {L : LinSols n} (hL : L.small.Exact)
    (hM : L.large.Exact) {s s' : ArcS L} {w w' : Work n} {u : Vec n} {l : ℝ} {stop : Stop} {a a' : A} {st : Status}
    (hv : c.validate = ok ()) (hth : s.theta = 0) (hst : stop.lambda ≠ none) (hh : 0 < w.h) (hb : Before stop l)
    (h : arcStep c fin sys L s w u l stop a = ok (s', w', a', st)) : s'.theta = 0 := by
  obtain ⟨v1, -, -, -, v2, -, -, -, v3, -⟩ := validate_spec hv
  have ht : 0 < c.tolAbsResidual := lt_of_lt_of_le (by unfold tolMin; positivity) v2
  have hbu : BeforeU stop u := by cases stop <;> simp [Stop.lambda] at hst <;> trivial
  exact (arcStep_spec hL hM ht v3 (Or.inr ⟨hth, hst⟩) hh hb hbu h).2.2.1 hth

/-- A rejected step does not restore the tangent vector: when a step that converged is redone because it passed a prescribed
component of u, the new attempt starts at the old point with the tangent vector of the rejected one. -/
theorem C78_reject_keeps_tangent {c : Config} {fin : ℝ → Bool} {sys : System n A} {L : LinSols n} {s s' : ArcS L}
    {w w' : Work n} {a a' : A} (h : (arclength c fin sys L).reject s w a = ok (s', w', a')) :
    w'.duds = w.duds ∧ w'.dlds = w.dlds ∧ s' = s := by
  obtain ⟨⟨w1, a1⟩, h1, h⟩ := bind_eq_ok.1 h
  cases ok.inj h
  obtain ⟨d, rfl⟩ := reject_keeps h1
  exact ⟨rfl, rfl, rfl⟩

/-- Without bordering, the option to write the matrix panics at the first tangent vector. -/
theorem C78_write_matrix_panic {c : Config} {fin : ℝ → Bool} {sys : System n A} {L : LinSols n} {sv : Solver n (ArcS L)}
    {a a' : A} {u : Vec n} {l x : ℝ} {dir : IniDir} {stop : Stop} {ddl : DeltaLambda} {out : Option (Output n A)} {K g}
    {k : Nat} (hb : c.bordering = false) (hk : c.writeMatrix = some k) (hk1 : 1 ≤ k) (h1 : stop.validate u l = ok ())
    (h2 : ddl.ini stop l = ok x) (h3 : sys.calcJ l u a = ok (K, g, a')) :
    solve c fin (arclength c fin sys L) sv a u l dir stop ddl out = panic := by
  have hw : 0 < k := hk1
  simp [solve, h1, h2, arclength, arcInit, initTangent, initTangentRaw, hb, initTangentAug, arcAug, h3, writes, hk,
    Work.resetStats, Stats.reset, Stats.new, hw]

/-! ## Relative difference -/

theorem avePush_nonneg {tol x0 x1 : ℝ} (ht : 0 ≤ tol) {acc : ℝ × Nat} (h : 0 ≤ acc.1) : 0 ≤ (avePush tol x0 x1 acc).1 := by
  unfold avePush
  simp only
  split
  · exact add_nonneg h (div_nonneg (div_nonneg (abs_nonneg _) (abs_nonneg _)) ht)
  · exact h

theorem maxPush_nonneg {x0 x1 m : ℝ} (h : 0 ≤ m) : 0 ≤ maxPush x0 x1 m := by
  unfold maxPush
  simp only
  split
  · split
    · next h1 => exact h.trans h1.le
    · exact h
  · exact h

/-- The relative difference is never negative: the assertion of the stepsize control holds. -/
theorem C78_rdiff_nonneg {c : Config} {F G : Type} (hv : c.validate = ok ()) (s : Arc n F G) (w : Work n) :
    0 ≤ arcRdiff c s w := by
  obtain ⟨-, -, -, -, -, -, -, -, -, -, -, -, -, ht⟩ := validate_spec hv
  have ht : 0 < c.tgTol := lt_of_lt_of_le (by unfold tolMin; positivity) ht
  unfold arcRdiff
  split
  · have key : ∀ (xs : List (Fin n)) (acc : ℝ × Nat), 0 ≤ acc.1 →
        0 ≤ (xs.foldl (fun acc i => avePush c.tgTol (s.dudsPrev i) (w.duds i) acc) acc).1 := by
      intro xs
      induction xs with
      | nil => intro acc h; exact h
      | cons x xs ih => intro acc h; rw [List.foldl_cons]; exact ih _ (avePush_nonneg ht.le h)
    simp only
    split
    · exact div_nonneg (avePush_nonneg ht.le (key _ _ (le_refl _))) (Nat.cast_nonneg _)
    · exact le_refl _
  · have key : ∀ (xs : List (Fin n)) (m : ℝ), 0 ≤ m →
        0 ≤ xs.foldl (fun m i => maxPush (s.dudsPrev i) (w.duds i) m) m := by
      intro xs
      induction xs with
      | nil => intro acc h; exact h
      | cons x xs ih => intro acc h; rw [List.foldl_cons]; exact ih _ (maxPush_nonneg h)
    exact div_nonneg (maxPush_nonneg (key _ _ (le_refl _))) ht.le

theorem avePush_same (tol x : ℝ) (acc : ℝ × Nat) (h : acc.1 = 0) : (avePush tol x x acc).1 = 0 := by
  unfold avePush
  simp only
  split
  · simp [h]
  · exact h

theorem maxPush_same (x : ℝ) : maxPush x x 0 = 0 := by
  unfold maxPush
  simp

/-- When the tangent vector does not change, the relative difference is zero. -/
theorem C78_rdiff_straight {c : Config} {F G : Type} (s : Arc n F G) (w : Work n) (h1 : s.dudsPrev = w.duds)
    (h2 : s.dldsPrev = w.dlds) : arcRdiff c s w = 0 := by
  unfold arcRdiff
  rw [h1, h2]
  split
  · have key : ∀ (xs : List (Fin n)) (acc : ℝ × Nat), acc.1 = 0 →
        (xs.foldl (fun acc i => avePush c.tgTol (w.duds i) (w.duds i) acc) acc).1 = 0 := by
      intro xs
      induction xs with
      | nil => intro acc h; exact h
      | cons x xs ih => intro acc h; rw [List.foldl_cons]; exact ih _ (avePush_same _ _ _ h)
    simp only
    rw [avePush_same _ _ _ (key _ _ rfl), zero_div, ite_self]
  · have key : ∀ (xs : List (Fin n)), xs.foldl (fun m i => maxPush (w.duds i) (w.duds i) m) 0 = 0 := by
      intro xs
      induction xs with
      | nil => rfl
      | cons x xs ih => rw [List.foldl_cons, maxPush_same]; exact ih
    simp only
    rw [key, maxPush_same, zero_div]

/-! ## Linear problems -/

theorem tangent_unique {K : Matrix (Fin n) (Fin n) ℝ} {g x y : Vec n} {a b : ℝ} (hK : ∀ z, K.mulVec z = 0 → z = 0)
    (h1 : IsTangent K g x a) (h2 : IsTangent K g y b) (h3 : 0 ≤ ∑ i, x i * y i + a * b) : x = y ∧ a = b := by
  have hz : ∀ {x a}, IsTangent K g x a → a ≠ 0 := by
    intro x a h h0
    have : x = 0 := hK x (by funext i; have := h.kernel i; rw [h0] at this; simpa using this)
    have hu := h.unit
    rw [this, h0] at hu
    simp at hu
  have ha := hz h1
  have hb := hz h2
  have e : (fun i => b * x i - a * y i) = 0 := by
    apply hK
    funext i
    have e1 : K.mulVec (fun i => b * x i - a * y i) i = b * K.mulVec x i - a * K.mulVec y i := by
      simp only [Matrix.mulVec, dotProduct, Finset.mul_sum, ← Finset.sum_sub_distrib]
      exact Finset.sum_congr rfl (fun j _ => by ring)
    rw [e1]
    have k1 := h1.kernel i
    have k2 := h2.kernel i
    simp only [Pi.zero_apply]
    linear_combination b * k1 - a * k2
  have hx : ∀ i, x i = a / b * y i := by
    intro i
    have := congrFun e i
    simp only [Pi.zero_apply] at this
    field_simp
    linarith
  have hsq : (a / b) ^ 2 = 1 := by
    have hu := h1.unit
    simp only [hx] at hu
    have : ∑ i, (a / b * y i) ^ 2 + a ^ 2 = (a / b) ^ 2 * (∑ i, y i ^ 2 + b ^ 2) := by
      rw [mul_add, Finset.mul_sum]
      congr 1
      · exact Finset.sum_congr rfl (fun i _ => by ring)
      · field_simp
    rw [this, h2.unit, mul_one] at hu
    exact hu
  have hpos : 0 ≤ a / b := by
    simp only [hx] at h3
    have : ∑ i, a / b * y i * y i + a * b = a / b * (∑ i, y i ^ 2 + b ^ 2) := by
      rw [mul_add, Finset.mul_sum]
      congr 1
      · exact Finset.sum_congr rfl (fun i _ => by ring)
      · field_simp
    rw [this, h2.unit, mul_one] at h3
    exact h3
  have h1' : a / b = 1 := by nlinarith
  refine ⟨funext (fun i => by rw [hx i, h1', one_mul]), ?_⟩
  rwa [div_eq_one_iff_eq hb] at h1'

theorem normMax_zero : normMax (fun _ : Fin n => (0 : ℝ)) = 0 := by
  unfold normMax
  rw [List.ofFn_const]
  generalize n = m
  induction m with
  | zero => rfl
  | succ m ih => rw [List.replicate_succ, List.foldl_cons]; simpa using ih

/-- **Linear problems**: unless a value of λ is prescribed, every step succeeds without any correction; it ends at the point
of the line at the distance `h`, and the tangent vector remains. -/
theorem C78_affine_step {c : Config} {fin : ℝ → Bool} {L : LinSols n} {K : Matrix (Fin n) (Fin n) ℝ} {f g : Vec n}
    {s s' : ArcS L} {w w' : Work n} {u : Vec n} {l : ℝ} {stop : Stop} {a a' : A} {st : Status} (hL : L.small.Exact)
    (hM : L.large.Exact) (ht : 0 < c.tolAbsResidual) (hi : 1 ≤ c.nIterationMax) (hfin : fin 0 = true)
    (hK : ∀ z, K.mulVec z = 0 → z = 0) (hst : stop.lambda = none) (hth : s.theta = 1) (hh : 0 < w.h) (hb : BeforeU stop u)
    (htan : IsTangent K (fun i => -f i) w.duds w.dlds) (hu : ∀ i, K.mulVec u i = l * f i + g i)
    (h : arcStep c fin (affine K f g) L s w u l stop a = ok (s', w', a', st)) :
    st = .success ∧ w'.nIter = 0 ∧ s'.theta = 1 ∧ 0 < w'.h ∧ w'.h ≤ w.h ∧
      (stop.uComp = none → w'.h = w.h) ∧ w'.u = (fun i => u i + w'.h * w.duds i) ∧
      w'.l = l + w'.h * w.dlds ∧ (∀ i, K.mulVec w'.u i = w'.l * f i + g i) ∧ w'.duds = w.duds ∧ w'.dlds = w.dlds ∧
      arcRdiff c s' w' = 0 := by
  have hm : Mode stop s.theta := Or.inl hth
  have hbl : Before stop l := by cases stop <;> simp [Stop.lambda] at hst <;> trivial
  obtain ⟨sys, hG, hJ, hS, hx⟩ : ∃ sys : System n A, (∀ l u a, sys.calcG l u a = ok (fun i => K.mulVec u i - l * f i - g i, a)) ∧
      (∀ l u a, sys.calcJ l u a = ok (K, fun i => -f i, a)) ∧ (∀ p u v l m a, sys.supdate p u v l m a = (.success, a)) ∧
      arcStep c fin sys L s w u l stop a = ok (s', w', a', st) :=
    ⟨_, fun _ _ _ => rfl, fun _ _ _ => rfl, fun _ _ _ _ _ _ => rfl, h⟩
  clear h
  have h := hx
  clear hx
  unfold arcStep at h
  simp only at h
  obtain ⟨w2, h1, hz⟩ := bind_eq_ok.1 h
  clear h
  obtain ⟨s1, w1, hlam⟩ : ∃ s1 w1, arcLambda s (stepBegin c sys w u l a).1 l stop = (s1, w1) := ⟨_, _, rfl⟩
  rw [hlam] at h1 hz
  simp only at h1 hz
  have hl0 : s1 = s ∧ w1.h = w.h := by
    unfold arcLambda at hlam
    rw [hst] at hlam
    cases hlam
    exact ⟨rfl, rfl⟩
  obtain ⟨rfl, hwh⟩ := hl0
  obtain ⟨m1, m2, m3, m4, ⟨th, m5⟩, x1, y1, m6⟩ := arcLambda_spec
    (w := (stepBegin c sys w u l a).1) hm hh hbl hlam
  have hdu : w1.duds = w.duds ∧ w1.dlds = w.dlds := by rw [m6]; exact ⟨rfl, rfl⟩
  rw [arcU_spec m1.cases] at h1
  have t0 : stop.uComp = none → w2.h = w1.h := by
    intro h0
    unfold arcTruncate at h1
    rw [h0] at h1
    rw [← ok.inj h1]
  obtain ⟨t1, t2, t3, t4, ⟨x2, y2, z2, t5⟩, -⟩ := arcTruncate_spec (s := s1) (u := u) (l := l)
    (w := { w1 with u := fun i => u i + s1.theta * w1.h * w1.duds i }) m1 m2 hb rfl
    (by simp only; rw [m3, hdu.2]; rfl) h1
  simp only at t2 t3 t4
  rw [hdu.1, hth] at t2
  rw [hdu.2, hth] at t3
  rw [hwh] at t4
  simp only [one_mul] at t2
  have t3 : w2.l = l + w2.h * w.dlds := by rw [t3]; ring
  have hdu2 : w2.duds = w.duds ∧ w2.dlds = w.dlds := by rw [t5]; exact hdu
  have hon : ∀ i, K.mulVec w2.u i = w2.l * f i + g i := by
    intro i
    have e1 : K.mulVec (fun i => u i + w2.h * w.duds i) i = K.mulVec u i + w2.h * K.mulVec w.duds i := by
      simp only [Matrix.mulVec, dotProduct, Finset.mul_sum, ← Finset.sum_add_distrib]
      exact Finset.sum_congr rfl (fun j _ => by ring)
    rw [t2, e1, hu i, t3]
    have := htan.kernel i
    linear_combination w2.h * this
  have h := hz
  clear hz
  simp only [hS, Status.failure] at h
  simp only [ne_eq, not_true_eq_false, decide_false, Bool.false_eq_true, if_false] at h
  unfold arcNewton at h
  obtain ⟨w3, h3, h⟩ := bind_eq_ok.1 h
  obtain ⟨d, rfl⟩ := pushDebug_keeps h3
  obtain ⟨⟨s4, w4, a4, st4⟩, h4, h⟩ := bind_eq_ok.1 h
  simp only at h
  obtain ⟨k, hk⟩ : ∃ k, c.nIterationMax = k + 1 := ⟨c.nIterationMax - 1, by omega⟩
  rw [hk] at h4
  unfold iterLoop at h4
  obtain ⟨⟨s5, w5, a5, st5⟩, h5, h4⟩ := bind_eq_ok.1 h4
  unfold arcIterate at h5
  simp only [hG, ok_bind] at h5
  have hz : (fun i => K.mulVec w2.u i - w2.l * f i - g i) = fun _ => 0 := by
    funext i
    rw [hon i]; ring
  rw [hz] at h5
  have hN : ∀ stt gg, constraintN s1.theta { w2 with debug := d, nIter := 0, stats := stt, gg := gg } u l = 0 := by
    intro stt gg
    rw [constraintN_eq m1.cases]
    simp only
    rw [hth, t2, t3, hdu2.1, hdu2.2]
    have e : ∑ i, (u i + w2.h * w.duds i - u i) * w.duds i = w2.h * ∑ i, w.duds i ^ 2 := by
      rw [Finset.mul_sum]
      exact Finset.sum_congr rfl (fun i _ => by ring)
    rw [e]
    have := htan.unit
    linear_combination w2.h * this
  rw [hN] at h5
  unfold IterErr.analyzeResidual at h5
  simp only [normMax_zero, abs_zero, max_self, hfin, Bool.not_true, Bool.false_eq_true, if_false, IterErr.converged, ht,
    decide_true, Bool.true_or, if_true] at h5
  cases ok.inj h5
  simp only [Status.failure, ne_eq, not_true_eq_false, decide_false, Bool.false_eq_true, if_false, IterErr.converged,
    Bool.true_or, if_true] at h4
  cases ok.inj h4
  unfold arcFinish at h
  simp only [Status.failure, ne_eq, not_true_eq_false, decide_false, Bool.false_eq_true, if_false] at h
  obtain ⟨⟨s6, w6, a6⟩, h6, h⟩ := bind_eq_ok.1 h
  cases ok.inj h
  obtain ⟨k1, k2, k3, ⟨stx, dx, ex, k4⟩, K', g', k5, k6, -, -, k7, -⟩ := updateTangent_spec hL hM
    (fun h => (Bool.false_ne_true h).elim) h6
  obtain ⟨l', u', a', a'', k8⟩ := k5
  rw [hJ] at k8
  have := ok.inj k8
  simp only [Prod.mk.injEq] at this
  rw [← this.1, ← this.2.1] at k6
  simp only [hdu2.1, hdu2.2] at k2 k3 k7
  obtain ⟨q1, q2⟩ := tangent_unique hK k6 htan (k7 hth)
  have e1 : w6.h = w2.h ∧ w6.u = w2.u ∧ w6.l = w2.l ∧ w6.nIter = 0 := by rw [k4]; exact ⟨rfl, rfl, rfl, rfl⟩
  refine ⟨rfl, e1.2.2.2, k1.trans hth, by rw [e1.1]; exact t1, by rw [e1.1]; exact t4,
    fun h0 => by rw [e1.1, t0 h0, hwh], ?_, ?_, ?_, q1, q2, ?_⟩
  · rw [e1.2.1, e1.1, t2]
  · rw [e1.2.2.1, e1.1, t3]
  · rw [e1.2.1, e1.2.2.1]; exact hon
  · exact C78_rdiff_straight s6 w6 (by rw [k2, q1]) (by rw [k3, q2])

/-- **Runs on linear problems**: unless a value of λ is prescribed, the accepted points solve the problem exactly and follow
each other on a ray in the direction of one unit vector, along which λ changes as chosen. -/
theorem C78_affine {c : Config} {fin : ℝ → Bool} {L : LinSols n} {K : Matrix (Fin n) (Fin n) ℝ} {f g : Vec n}
    {sv : Solver n (ArcS L)} {a : A} {u : Vec n} {l : ℝ} {dir : IniDir} {stop : Stop} {ddl : DeltaLambda}
    {out : Option (Output n A)} {r : Run n A (ArcS L)} {st : Status} (hv : c.validate = ok ()) (hrho : 0 ≤ c.rhoTiny)
    (hL : L.small.Exact) (hM : L.large.Exact) (hK : ∀ z, K.mulVec z = 0 → z = 0) (hfin : fin 0 = true)
    (hst : stop.lambda = none) (hu : ∀ i, K.mulVec u i = l * f i + g i)
    (h : solve c fin (arclength c fin (affine K f g) L) sv a u l dir stop ddl out = ok (r, st)) :
    ∃ (du : Vec n) (dl : ℝ), ∑ i, du i ^ 2 + dl ^ 2 = 1 ∧ 0 < dir.sign * dl ∧ ∃ pts, Path (fun p q : Vec n × ℝ =>
      (∀ i, K.mulVec q.1 i = q.2 * f i + g i) ∧
      ∃ h, 0 < h ∧ (∀ i, q.1 i = p.1 i + h * du i) ∧ q.2 = p.2 + h * dl) (u, l) pts (r.u, r.l) ∧ OutEnd out pts r.out := by
  obtain ⟨v1, -, -, -, v2, -, -, -, v3, -⟩ := validate_spec hv
  have ht : 0 < c.tolAbsResidual := lt_of_lt_of_le (by unfold tolMin; positivity) v2
  have hmf : 0 < c.mFailure := lt_of_lt_of_le (by norm_num) v1
  have hg : ∀ (du : Vec n) (dl : ℝ), Guide c (arclength c fin (affine (A := A) K f g) L) stop
      (fun s w u l => s.theta = 1 ∧ 0 < w.h ∧ BeforeU stop u ∧ w.duds = du ∧ w.dlds = dl ∧
        IsTangent K (fun i => -f i) du dl ∧ ∀ i, K.mulVec u i = l * f i + g i)
      (fun p q : Vec n × ℝ => (∀ i, K.mulVec q.1 i = q.2 * f i + g i) ∧
        ∃ h, 0 < h ∧ (∀ i, q.1 i = p.1 i + h * du i) ∧ q.2 = p.2 + h * dl) := by
    intro du dl
    refine ⟨?_, ?_, ?_⟩
    · intro s w w' u l h1 h2 h3 h
      rw [h1, h2, h3]; exact h
    · intro s w u l a s' w' a' w'' s'' u'' l'' rd ⟨j1, j2, j3, j4, j5, j6, j7⟩ hs hsame hacc
      rw [← j4, ← j5] at j6
      obtain ⟨-, -, e3, e4, e5, -, e6, e7, e8, e9, e10, -⟩ := C78_affine_step hL hM ht v3 hfin hK hst j1 j2 j3 j6 j7 hs
      have h := ok.inj hacc
      simp only [Prod.mk.injEq] at h
      obtain ⟨h1, h2, h3, -⟩ := h
      rw [← h2, ← h3, hsame.u, hsame.l]
      refine ⟨⟨e8, w'.h, e4, ?_, ?_⟩, ?_⟩
      · intro i; simp only; rw [e6, j4]
      · simp only; rw [e7, j5]
      · intro hn hpos ⟨i, hnow⟩
        rw [j4, j5] at j6
        exact ⟨by rw [← h1]; exact e3, hpos e4, beforeU_of_now hnow, e9.trans j4, e10.trans j5, j6, e8⟩
    · intro s w u l a s' w' a' st w'' s'' w3 a'' ⟨j1, j2, j3, j4, j5, j6, j7⟩ hs hsame hrej
      rw [← j4, ← j5] at j6
      obtain ⟨-, -, e3, e4, e5, -, e6, e7, e8, e9, e10, -⟩ := C78_affine_step hL hM ht v3 hfin hK hst j1 j2 j3 j6 j7 hs
      rw [j4, j5] at j6
      obtain ⟨⟨w1, a1⟩, h1, h⟩ := bind_eq_ok.1 hrej
      cases ok.inj h
      obtain ⟨d, rfl⟩ := reject_keeps h1
      refine ⟨e3, ?_, j3, ?_, ?_, j6, j7⟩
      · simp only; rw [hsame.h]; exact mul_pos e4 hmf
      · simp only; rw [hsame.duds, e9, j4]
      · simp only; rw [hsame.dlds, e10, j5]
  obtain ⟨h0, x, s, w, a', g', r0, h1, h2, h3, h4⟩ := solve_start h
  have h2' := h2
  change arcInit c (affine (A := A) K f g) L sv.st (sv.w.resetStats ddl.auto) x u l dir a = _ at h2'
  obtain ⟨i1, i2, i3, i4, K', gg, i5, i6, i7⟩ := C78_first_step hL hM h2'
  have := ok.inj i5
  simp only [Prod.mk.injEq] at this
  rw [← this.1, ← this.2.1] at i6
  have hwh : 0 < w.h := by
    have := (arclength_start hL hM h0 h1 h2).2.1
    exact this
  have hini : ∀ {x' s' w' a''}, stop.validate u l = ok () → ddl.ini stop l = ok x' →
      (arclength c fin (affine (A := A) K f g) L).init sv.st (sv.w.resetStats ddl.auto) x' u l dir a = ok (s', w', a'') →
      s'.theta = 1 ∧ 0 < w'.h ∧ BeforeU stop u ∧ w'.duds = w.duds ∧ w'.dlds = w.dlds ∧
        IsTangent K (fun i => -f i) w.duds w.dlds ∧ ∀ i, K.mulVec u i = l * f i + g i := by
    intro x' s' w' a'' q1 q2 q3
    rw [h1] at q2
    cases ok.inj q2
    rw [h2] at q3
    cases ok.inj q3
    exact ⟨i1, hwh, beforeU_of_validate q1, rfl, rfl, i6, hu⟩
  refine ⟨w.duds, w.dlds, i6.unit, i7, ?_⟩
  cases hauto : ddl.auto with
  | true =>
    rw [hauto] at hini
    obtain ⟨pts, p1, -, p3⟩ := (C76_auto (arclength_keeps c fin _ L) (hg w.duds w.dlds) hv hrho hauto hini h).path
    exact ⟨pts, p1, p3⟩
  | false =>
    rw [hauto] at hini
    obtain ⟨pts, p1, -, p3⟩ := (C76_fixed (arclength_keeps c fin _ L) (hg w.duds w.dlds) hauto hini h).path
    exact ⟨pts, p1, p3⟩

open Classical in
/-- division, for one equation -/
noncomputable def divSolver : LinSol 1 where
  F := ℝ
  factorize := fun M => if M 0 0 = 0 then err "singular" else ok (M 0 0)
  solve := fun f b => ok (fun _ => b 0 / f)

theorem divSolver_exact : divSolver.Exact := by
  intro M f h1 b x h2
  simp only [divSolver] at h1
  split at h1
  · cases h1
  · next h0 =>
    cases ok.inj h1
    cases ok.inj h2
    funext i
    fin_cases i
    simp only [Matrix.mulVec, dotProduct, Fin.sum_univ_one, Fin.zero_eta, Fin.isValue]
    field_simp

/-- a solver that is not used -/
def noSolver (m : Nat) : LinSol m where
  F := Unit
  factorize := fun _ => err "unavailable"
  solve := fun _ _ => err "unavailable"

theorem noSolver_exact (m : Nat) : (noSolver m).Exact := by
  intro M f h
  cases h

/-- the default configuration for the arclength method -/
noncomputable def cfg7 : Config := { Config.new with arclength := true }

/-- `4 u = 3 λ` -/
noncomputable def sys34 : System 1 Unit := affine (fun _ _ => 4) (fun _ => 3) (fun _ => 0)

theorem run_init (w : Work 1) : arcInit cfg7 sys34 ⟨divSolver, noSolver 2⟩ ⟨1, false, 0, 0, 0, none, none⟩ w (4 / 5) 0 0 .pos () =
    ok (⟨1, false, fun _ => -3, 0, 0, some (4 : ℝ), none⟩,
      { w with
        u := 0, l := 0, h := 1, duds := fun _ => 3 / 5, dlds := 4 / 5
        stats := { w.stats with nJacobian := w.stats.nJacobian + 1, nFactor := w.stats.nFactor + 1, nLinSol := w.stats.nLinSol + 1 } },
      ()) := by
  have hs : Real.sqrt (1 + -3 / 4 * (-3 / 4)) = 5 / 4 := by
    rw [show (1 + -3 / 4 * (-3 / 4) : ℝ) = (5 / 4) ^ 2 by norm_num, Real.sqrt_sq (by norm_num)]
  have h1 : ¬ |(4 / 5 : ℝ)| < hMin := by unfold hMin; norm_num
  have h2 : ¬ |(3 / 5 : ℝ)| < hMin := by unfold hMin; norm_num
  have h3 : ¬ (4 / 5 : ℝ) < hMin := by unfold hMin; norm_num
  have h4 : ¬ (3 / 5 : ℝ) < hMin := by unfold hMin; norm_num
  simp only [arcInit, initTangent, initTangentRaw, cfg7, Config.new, if_true, initTangentBord, arcJac, Bool.not_true,
    Bool.false_eq_true, if_false, sys34, affine, ok_bind, writes, divSolver, Work.countSol, LinSol.run, dot, Fin.sum_univ_one,
    checkTangent, normMax, List.ofFn_succ, List.ofFn_zero, List.foldl, IniDir.sign, OfNat.ofNat_ne_zero, hs]
  norm_num [h1, h2, h3, h4]

theorem run_step (s : ArcS (⟨divSolver, noSolver 2⟩ : LinSols 1)) (w : Work 1) (u : Vec 1) (l : ℝ) (k : Nat) (h1 : s.theta = 1)
    (h2 : w.duds = fun _ => 3 / 5) (h3 : w.dlds = 4 / 5) (hu : 4 * u 0 = 3 * l) :
    ∃ s' w', arcStep cfg7 (fun _ => true) sys34 ⟨divSolver, noSolver 2⟩ s w u l (.steps k) () = ok (s', w', (), .success) := by
  have hs : Real.sqrt (1 + -3 / 4 * (-3 / 4)) = 5 / 4 := by
    rw [show (1 + -3 / 4 * (-3 / 4) : ℝ) = (5 / 4) ^ 2 by norm_num, Real.sqrt_sq (by norm_num)]
  have e1 : 4 * (1 * u 0 + 1 * w.h * (3 / 5)) - (l + (2 - 1) * w.h * (4 / 5)) * 3 - 0 = 0 := by linarith
  have e2 : 1 * ((1 * u 0 + 1 * w.h * (3 / 5) - u 0) * (3 / 5)) + (2 - 1) * (l + (2 - 1) * w.h * (4 / 5) - l) * (4 / 5) - w.h = 0 := by ring
  have h4 : (0 : ℝ) < 1 / 10 ^ 10 := by positivity
  simp only [arcStep, stepBegin, arcLambda, Stop.lambda, arcU, h1, gt_iff_lt, zero_lt_one, if_true, arcTruncate, Stop.uComp, ok_bind,
    System.supdate, sys34, affine, Status.failure, arcNewton, Work.pushDebug, cfg7, Config.new, Bool.false_eq_true, if_false,
    ne_eq, not_true_eq_false, decide_false, iterLoop, arcIterate, h2, h3, Matrix.mulVec, dotProduct, Fin.sum_univ_one, e1,
    constraintN, e2, IterErr.analyzeResidual, normMax, List.ofFn_succ, List.ofFn_zero, List.foldl, abs_zero, max_self,
    Bool.not_true, IterErr.converged, h4, decide_true, Bool.true_or, arcFinish, updateTangent, tangentBord, needJac, arcJac, writes,
    divSolver, Work.countSol, LinSol.run, dot, OfNat.ofNat_ne_zero, hs, fixSign]
  exact ⟨_, _, rfl⟩

theorem cfg7_valid : cfg7.validate = ok () := by
  unfold Config.validate cfg7 Config.new tolMin
  norm_num

theorem sys34_inj : ∀ z : Vec 1, Matrix.mulVec (fun _ _ : Fin 1 => (4 : ℝ)) z = 0 → z = 0 := by
  intro z h
  funext i
  have := congrFun h 0
  simp [Matrix.mulVec, dotProduct] at this
  fin_cases i
  exact this

theorem sys34_tangent : IsTangent (n := 1) (fun _ _ => 4) (fun _ => -3) (fun _ => 3 / 5) (4 / 5) := by
  refine ⟨?_, ?_⟩
  · intro i; simp [Matrix.mulVec, dotProduct]; norm_num
  · norm_num

/-- two steps along the line `4 u = 3 λ` -/
theorem arclength_run : ∃ r, solve cfg7 (fun _ => true) (arclength cfg7 (fun _ => true) sys34 ⟨divSolver, noSolver 2⟩)
    ⟨⟨1, false, 0, 0, 0, none, none⟩, Work.new 1, 0, 0, 0, 0⟩ () 0 0 .pos (.steps 2) ⟨false, 4 / 5, [4 / 5, 8 / 5, 8 / 5]⟩ none =
      ok (r, .success) ∧ r.l = 12 / 5 ∧ r.u = (fun _ => 9 / 5) := by
  have n1 : ¬ (4 / 5 : ℝ) ≤ hMin := by unfold hMin; norm_num
  have n2 : ¬ (8 / 5 : ℝ) ≤ hMin := by unfold hMin; norm_num
  have n3 : ¬ (4 / 5 : ℝ) < hMin := by unfold hMin; norm_num
  have ht : 0 < cfg7.tolAbsResidual := by unfold cfg7 Config.new; norm_num
  have hi : 1 ≤ cfg7.nIterationMax := by unfold cfg7 Config.new; norm_num
  have ha : cfg7.arclength = true := rfl
  have key : ∀ (s : ArcS (⟨divSolver, noSolver 2⟩ : LinSols 1)) (w : Work 1) (u : Vec 1) (l : ℝ), s.theta = 1 → 0 < w.h →
      (w.duds = fun _ => 3 / 5) → w.dlds = 4 / 5 → 4 * u 0 = 3 * l → ∃ s' w',
      arcStep cfg7 (fun _ => true) sys34 ⟨divSolver, noSolver 2⟩ s w u l (.steps 2) () = ok (s', w', (), .success) ∧
      s'.theta = 1 ∧ (w'.u = fun i => u i + w.h * (3 / 5)) ∧ w'.l = l + w.h * (4 / 5) ∧ (w'.duds = fun _ => 3 / 5) ∧
      w'.dlds = 4 / 5 := by
    intro s w u l h1 h2 h3 h4 h5
    obtain ⟨s', w', h⟩ := run_step s w u l 2 h1 h3 h4 h5
    obtain ⟨-, -, e1, -, -, e2, e3, e4, -, e5, e6, -⟩ := C78_affine_step (stop := .steps 2) (K := fun _ _ => 4) (f := fun _ => 3) (g := fun _ => 0)
      divSolver_exact (noSolver_exact 2) ht hi rfl sys34_inj rfl h1 h2 trivial (by rw [h3, h4]; exact sys34_tangent)
      (by intro i; fin_cases i; simp [Matrix.mulVec, dotProduct]; linarith) h
    refine ⟨s', w', h, e1, ?_, ?_, by rw [e5, h3], by rw [e6, h4]⟩
    · rw [e3, e2 rfl, h3]
    · rw [e4, e2 rfl, h4]
  have body : ∀ (i : Nat) (next : ℝ) (r : Run 1 Unit (ArcS (⟨divSolver, noSolver 2⟩ : LinSols 1))), r.sv.st.theta = 1 →
      0 < r.sv.w.h → (r.sv.w.duds = fun _ => 3 / 5) → r.sv.w.dlds = 4 / 5 → 4 * r.u 0 = 3 * r.l → r.out = none →
      (∀ w : Work 1, w.dlds = 4 / 5 → nextListed cfg7 ⟨false, 4 / 5, [4 / 5, 8 / 5, 8 / 5]⟩ i w = ok next) →
      ∃ r' : Run 1 Unit (ArcS (⟨divSolver, noSolver 2⟩ : LinSols 1)),
      fixedBody cfg7 (fun _ => true) (arclength cfg7 (fun _ => true) sys34 ⟨divSolver, noSolver 2⟩) (.steps 2)
        ⟨false, 4 / 5, [4 / 5, 8 / 5, 8 / 5]⟩ i r = ok (r', .success, decide (i + 1 = 2)) ∧
      r'.sv.st.theta = 1 ∧ r'.sv.w.h = next ∧ (r'.sv.w.duds = fun _ => 3 / 5) ∧ r'.sv.w.dlds = 4 / 5 ∧
      (r'.u = fun j => r.u j + r.sv.w.h * (3 / 5)) ∧ r'.l = r.l + r.sv.w.h * (4 / 5) ∧ r'.out = none := by
    intro i next r h1 h2 h3 h4 h5 h6 h7
    obtain ⟨s1, w1, k1, k2, k3, k4, k5, k6⟩ := key r.sv.st
      { r.sv.w with stats := { r.sv.w.stats with nSteps := r.sv.w.stats.nSteps + 1 } } r.u r.l h1 h2 h3 h4 h5
    unfold fixedBody doStep
    simp only [arclength]
    erw [k1]
    simp only [ok_bind, Status.failure, ne_eq, not_true_eq_false, decide_false, Bool.false_eq_true, if_false, fixedAccept,
      doAccept, h7, k6, if_true, Run.setW, allFinite, implies_true, stepExit, doOutput, h6, Stop.now]
    exact ⟨_, rfl, k2, rfl, k5, rfl, k3, k4, rfl⟩
  obtain ⟨r1, b1, b2, b3, b4, b5, b6, b7, b8⟩ := body 0 2
    ⟨⟨⟨1, false, fun _ => -3, 0, 0, some (4 : ℝ), none⟩, { (Work.new 1).resetStats false with
      u := 0, l := 0, h := 1, duds := fun _ => 3 / 5, dlds := 4 / 5
      stats := { ((Work.new 1).resetStats false).stats with nJacobian := 1, nFactor := 1, nLinSol := 1 } },
      0, 0, 0, 0⟩, 0, 0, (), none⟩ rfl one_pos rfl rfl (by simp) rfl
    (by
      intro w hw
      simp only [nextListed, zero_add, List.getElem?_cons_succ, List.getElem?_cons_zero, n2, if_false, ha, if_true, hw,
        abs_of_pos (show (0 : ℝ) < 4 / 5 by norm_num), n3]
      norm_num)
  obtain ⟨r2, d1, d2, d3, d4, d5, d6, d7, d8⟩ := body 1 2 r1 b2 (by rw [b3]; exact two_pos) b4 b5 (by rw [b6, b7]; norm_num) b8
    (by
      intro w hw
      simp only [nextListed, Nat.reduceAdd, List.getElem?_cons_succ, List.getElem?_cons_zero, n2, if_false, ha, if_true, hw,
        abs_of_pos (show (0 : ℝ) < 4 / 5 by norm_num), n3]
      norm_num)
  refine ⟨r2, ?_, ?_, ?_⟩
  · unfold solve
    simp only [Stop.validate, ok_bind, DeltaLambda.ini, checkIni, n1, if_false]
    have hin := run_init ((Work.new 1).resetStats false)
    change arcInit _ _ _ _ _ _ _ _ _ _ = _ at hin
    simp only [arclength] at b1 d1 ⊢
    rw [hin]
    simp only [ok_bind, doOutput, Bool.false_eq_true, if_false, continuation, List.length_cons, List.length_nil, zero_add,
      Nat.reduceAdd, Nat.ofNat_pos, gt_iff_lt, if_true, loopUntil]
    erw [b1]
    simp only [ok_bind, zero_add, OfNat.one_ne_ofNat, decide_false, Bool.false_eq_true, if_false]
    rw [d1]
    simp
  · rw [d7, b7, b3]; norm_num
  · rw [d6, b6, b3]; norm_num

/-- the theorem on linear problems applies to this run -/
example : ∃ r : Run 1 Unit (ArcS (⟨divSolver, noSolver 2⟩ : LinSols 1)), r.l = 12 / 5 ∧ ∃ (du : Vec 1) (dl : ℝ), ∑ i, du i ^ 2 + dl ^ 2 = 1 ∧ 0 < 1 * dl ∧ ∃ pts,
    Path (fun p q : Vec 1 × ℝ => (∀ i, Matrix.mulVec (fun _ _ : Fin 1 => (4 : ℝ)) q.1 i = q.2 * 3 + 0) ∧
      ∃ h, 0 < h ∧ (∀ i, q.1 i = p.1 i + h * du i) ∧ q.2 = p.2 + h * dl) (0, 0) pts (r.u, r.l) := by
  obtain ⟨r, h1, h2, -⟩ := arclength_run
  obtain ⟨du, dl, e1, e2, pts, e3, -⟩ := C78_affine (K := fun _ _ => 4) (f := fun _ => 3) (g := fun _ => 0) cfg7_valid
    (by unfold cfg7 Config.new; norm_num) divSolver_exact (noSolver_exact 2) sys34_inj rfl rfl
    (by intro i; simp [Matrix.mulVec, dotProduct]) h1
  exact ⟨r, h2, du, dl, e1, e2, pts, e3⟩

/-- the general theorem on runs with given stepsizes applies as well -/
example : ∃ r : Run 1 Unit (ArcS (⟨divSolver, noSolver 2⟩ : LinSols 1)), r.l = 12 / 5 ∧
    ∃ pts, Path (ArcStep cfg7 sys34 (.steps 2)) (0, 0) pts (r.u, r.l) := by
  obtain ⟨r, h1, h2, -⟩ := arclength_run
  obtain ⟨pts, e, -⟩ := (C78_fixed divSolver_exact (noSolver_exact 2) cfg7_valid rfl h1).path
  exact ⟨r, h2, pts, e⟩

/-! ## The tangent vector is not that of the accepted point -/

/-- `4 u + 5 u² = 3 λ` -/
noncomputable def sysQ : System 1 Unit where
  calcG := fun l u a => ok (fun i => 4 * u i + 5 * u i ^ 2 - 3 * l, a)
  calcJ := fun _ u a => ok (fun i _ => 4 + 10 * u i, fun _ => -3, a)
  backup := none
  restore := none
  prepare := none
  update := none

/-- the configuration with a larger tolerance -/
noncomputable def cfgQ : Config := { Config.new with arclength := true, tolAbsResidual := 1 / 5, disableRelDelta := true }

theorem cfgQ_valid : cfgQ.validate = ok () := by
  unfold Config.validate cfgQ Config.new tolMin
  norm_num


theorem stale_iter0 (s : ArcS (⟨divSolver, noSolver 2⟩ : LinSols 1)) (w : Work 1) (h1 : s.theta = 1)
    (h2 : w.u = fun _ => 3 / 5) (h3 : w.l = 4 / 5) (h4 : w.duds = fun _ => 3 / 5) (h5 : w.dlds = 4 / 5) (h6 : w.h = 1)
    (h7 : w.err.deltaConverged = false) (h8 : w.err.deltaMax = 0) (h9 : w.err.nContResDiv = 0) (h10 : w.err.nContDeltaDiv = 0)
    (h11 : w.nIter = 0) (h12 : w.err.residualDiverging = false) :
    ∃ s' w', arcIterate cfgQ (fun _ => true) sysQ ⟨divSolver, noSolver 2⟩ s w 0 0 () = ok (s', w', (), .success) ∧
      w'.err.converged = false ∧ s'.theta = 1 ∧ s'.iterJac = true ∧ s'.ls = some (10 : ℝ) ∧ (s'.ggl = fun _ => -3) ∧
      (w'.u = fun _ => 111 / 245) ∧ w'.l = 223 / 245 ∧ (w'.duds = fun _ => 3 / 5) ∧ w'.dlds = 4 / 5 ∧ w'.h = 1 ∧
      w'.err.deltaConverged = false := by
  have e1 : 4 * (3 / 5 : ℝ) + 5 * (3 / 5) ^ 2 - 3 * (4 / 5) = 9 / 5 := by norm_num
  have e2 : 1 * ((3 / 5 - 0) * (3 / 5)) + (2 - 1) * (4 / 5 - 0) * (4 / 5) - 1 = (0 : ℝ) := by norm_num
  have e3 : max (max 0 |(9 / 5 : ℝ)|) |0| = 9 / 5 := by norm_num
  have e4 : ¬ (9 / 5 : ℝ) < 1 / 5 := by norm_num
  have e5 : (4 + 10 * (3 / 5) : ℝ) = 10 := by norm_num
  have e6 : (1 : ℝ) * (3 / 5 * (-3 / 10)) - (2 - 1) * (4 / 5) = - (49 / 50) := by norm_num
  have e7 : ¬ |(-(49 / 50) : ℝ)| < hMin := by unfold hMin; norm_num
  have e8 : ¬ (0 : ℝ) > 10 ^ 8 := by norm_num
  have e9 : ¬ 3 ≤ 0 := by norm_num
  have e10 : ¬ 5 ≤ 0 := by norm_num
  have e11 : ¬ 0 = 20 - 1 := by norm_num
  unfold arcIterate
  simp only [sysQ, h2, h3, ok_bind, e1]
  simp only [constraintN, h1, gt_iff_lt, zero_lt_one, if_true, Fin.sum_univ_one, h4, h5, h6, Pi.zero_apply, e2,
    IterErr.analyzeResidual, normMax, List.ofFn_succ, List.ofFn_zero, List.foldl, e3, Bool.not_true, Bool.false_eq_true, if_false,
    IterErr.converged, cfgQ, Config.new, e4, decide_false, h7, Bool.or_false, arcCorrect, arcSolve, correctBord, arcJac, ok_bind,
    writes, divSolver, e5, OfNat.ofNat_ne_zero, LinSol.run, Work.countSol, dot, e6, e7, arcAnalyze, IterErr.analyzeDelta,
    arcUpdate, IterErr.captureFailures, h8, e8, h11, h12, h9, h10, Bool.false_and, System.supdate, Status.failure, ge_iff_le,
    e9, e10, e11, ne_eq, not_true_eq_false]
  refine ⟨_, _, rfl, rfl, rfl, rfl, rfl, rfl, ?_, ?_, rfl, rfl, rfl, rfl⟩
  · funext i
    simp only [vhead, vcat_cast]
    norm_num
  · simp only [vlast, vcat_last]
    norm_num

theorem stale_iter1 (s : ArcS (⟨divSolver, noSolver 2⟩ : LinSols 1)) (w : Work 1) (h1 : s.theta = 1)
    (h2 : w.u = fun _ => 111 / 245) (h3 : w.l = 223 / 245) (h4 : w.duds = fun _ => 3 / 5) (h5 : w.dlds = 4 / 5) (h6 : w.h = 1) :
    ∃ w', arcIterate cfgQ (fun _ => true) sysQ ⟨divSolver, noSolver 2⟩ s w 0 0 () = ok (s, w', (), .success) ∧
      w'.err.converged = true ∧ (w'.u = fun _ => 111 / 245) ∧ (w'.duds = fun _ => 3 / 5) ∧ w'.dlds = 4 / 5 := by
  have e1 : 4 * (111 / 245 : ℝ) + 5 * (111 / 245) ^ 2 - 3 * (223 / 245) = 1296 / 12005 := by norm_num
  have e2 : 1 * ((111 / 245 - 0) * (3 / 5)) + (2 - 1) * (223 / 245 - 0) * (4 / 5) - 1 = (0 : ℝ) := by norm_num
  have e3 : max (max 0 |(1296 / 12005 : ℝ)|) |0| = 1296 / 12005 := by norm_num
  have e4 : (1296 / 12005 : ℝ) < 1 / 5 := by norm_num
  unfold arcIterate
  simp only [sysQ, h2, h3, ok_bind, e1]
  simp only [constraintN, h1, gt_iff_lt, zero_lt_one, if_true, Fin.sum_univ_one, h4, h5, h6, Pi.zero_apply, e2,
    IterErr.analyzeResidual, normMax, List.ofFn_succ, List.ofFn_zero, List.foldl, e3, Bool.not_true, Bool.false_eq_true, if_false,
    IterErr.converged, cfgQ, Config.new, e4, decide_true, Bool.true_or]
  exact ⟨_, rfl, rfl, rfl, rfl, rfl⟩

theorem stale_newton (s : ArcS (⟨divSolver, noSolver 2⟩ : LinSols 1)) (w : Work 1) (h1 : s.theta = 1)
    (h2 : w.u = fun _ => 3 / 5) (h3 : w.l = 4 / 5) (h4 : w.duds = fun _ => 3 / 5) (h5 : w.dlds = 4 / 5) (h6 : w.h = 1)
    (h7 : w.err.deltaConverged = false) (h8 : w.err.deltaMax = 0) (h9 : w.err.nContResDiv = 0) (h10 : w.err.nContDeltaDiv = 0)
    (h12 : w.err.residualDiverging = false) :
    ∃ s' w', arcNewton cfgQ (fun _ => true) sysQ ⟨divSolver, noSolver 2⟩ s w 0 0 () = ok (s', w', (), .success) ∧
      w'.u 0 = 111 / 245 ∧ ¬ IsTangent (n := 1) (fun i _ => 4 + 10 * w'.u i) (fun _ => -3) w'.duds w'.dlds := by
  obtain ⟨s1, w1, a1, a2, a3, a4, a5, a6, a7, a8, a9, a10, a11, -⟩ := stale_iter0 { s with iterJac := false }
    { w with nIter := 0, stats := { w.stats with nIterTotal := w.stats.nIterTotal + 1 } } h1 h2 h3 h4 h5 h6 h7 h8 h9 h10 rfl h12
  obtain ⟨w2, b1, b2, b3, b4, b5⟩ := stale_iter1 s1
    { w1 with
      nIter := w1.nIter + 1
      stats := { w1.stats.recAppend cfgQ w1.err.residualMax with
        nIterTotal := (w1.stats.recAppend cfgQ w1.err.residualMax).nIterTotal + 1 } } a3 a7 a8 a9 a10 a11
  unfold arcNewton
  simp only [Work.pushDebug, show cfgQ.debugPredictor = false from rfl, Bool.false_eq_true, if_false, ok_bind,
    show cfgQ.nIterationMax = 18 + 1 + 1 from rfl]
  unfold iterLoop
  simp only
  erw [a1]
  simp only [ok_bind, Status.failure, ne_eq, not_true_eq_false, decide_false, Bool.false_eq_true, if_false, a2]
  unfold iterLoop
  simp only
  erw [b1]
  simp only [ok_bind, Status.failure, ne_eq, not_true_eq_false, decide_false, Bool.false_eq_true, if_false, b2, if_true]
  have e0 : ¬ (10 : ℝ) = 0 := by norm_num
  simp only [arcFinish, Status.failure, ne_eq, not_true_eq_false, decide_false, Bool.false_eq_true, if_false, updateTangent,
    show cfgQ.bordering = true from rfl, if_true, tangentBord, needJac, a4, ok_bind, a5, a6, divSolver, LinSol.run, dot,
    Fin.sum_univ_one, fixSign, Work.countSol, b4, b5]
  have hpos : 0 < 1 / Real.sqrt (1 + -3 / 10 * (-3 / 10)) := by positivity
  rw [if_neg (by nlinarith)]
  refine ⟨_, _, rfl, by simp only [b3], ?_⟩
  intro h
  have := h.kernel 0
  simp only [Matrix.mulVec, dotProduct, Fin.sum_univ_one, b3] at this
  nlinarith

/-- **Deviation**: after a step with corrections the tangent vector is computed with the derivatives of the last correction, not
with those at the accepted point: here `u = 111/245` is accepted, where the derivative is `418/49`, with the tangent vector
for the derivative 10. -/
theorem C78_stale_tangent_counterexample : ∃ s w, arcInit cfgQ sysQ ⟨divSolver, noSolver 2⟩
      ⟨1, false, 0, 0, 0, none, none⟩ (Work.new 1) (4 / 5) 0 0 .pos () = ok (s, w, ()) ∧
    ∃ s' w', arcStep cfgQ (fun _ => true) sysQ ⟨divSolver, noSolver 2⟩ s w 0 0 (.steps 1) () = ok (s', w', (), .success) ∧
      w'.u 0 = 111 / 245 ∧ ¬ IsTangent (n := 1) (fun i _ => 4 + 10 * w'.u i) (fun _ => -3) w'.duds w'.dlds := by
  have hs : Real.sqrt (1 + -3 / 4 * (-3 / 4)) = 5 / 4 := by
    rw [show (1 + -3 / 4 * (-3 / 4) : ℝ) = (5 / 4) ^ 2 by norm_num, Real.sqrt_sq (by norm_num)]
  have h1 : ¬ |(4 / 5 : ℝ)| < hMin := by unfold hMin; norm_num
  have h2 : ¬ |(3 / 5 : ℝ)| < hMin := by unfold hMin; norm_num
  have h3 : ¬ (4 / 5 : ℝ) < hMin := by unfold hMin; norm_num
  have h4 : ¬ (3 / 5 : ℝ) < hMin := by unfold hMin; norm_num
  have hin : arcInit cfgQ sysQ ⟨divSolver, noSolver 2⟩ ⟨1, false, 0, 0, 0, none, none⟩ (Work.new 1) (4 / 5) 0 0 .pos () =
      ok (⟨1, false, fun _ => -3, 0, 0, some (4 : ℝ), none⟩,
        { Work.new 1 with
          u := 0, l := 0, h := 1, duds := fun _ => 3 / 5, dlds := 4 / 5
          stats := { (Work.new 1).stats with nJacobian := 1, nFactor := 1, nLinSol := 1 } }, ()) := by
    simp only [arcInit, initTangent, initTangentRaw, cfgQ, Config.new, if_true, initTangentBord, arcJac, Bool.not_true,
      Bool.false_eq_true, if_false, sysQ, ok_bind, writes, divSolver, Work.countSol, LinSol.run, dot, Fin.sum_univ_one,
      checkTangent, normMax, List.ofFn_succ, List.ofFn_zero, List.foldl, IniDir.sign, OfNat.ofNat_ne_zero, Pi.zero_apply, mul_zero,
      add_zero, hs]
    norm_num [h1, h2, h3, h4, Work.new, Stats.new]
  refine ⟨_, _, hin, ?_⟩
  unfold arcStep stepBegin
  simp only [arcLambda, Stop.lambda, arcU, gt_iff_lt, zero_lt_one, if_true, arcTruncate, Stop.uComp, ok_bind, Pi.zero_apply]
  obtain ⟨s', w', e1, e2, e3⟩ := stale_newton ⟨1, false, fun _ => -3, 0, 0, some (4 : ℝ), none⟩
    { Work.new 1 with
      u := fun _ => 1 * 0 + 1 * 1 * (3 / 5), l := 0 + (2 - 1) * 1 * (4 / 5), h := 1, duds := fun _ => 3 / 5, dlds := 4 / 5
      err := (Work.new 1).err.reset cfgQ (0 : Vec 1) 0
      stats := Stats.recStart cfgQ { (Work.new 1).stats with nJacobian := 1, nFactor := 1, nLinSol := 1 } } rfl
    (by funext i; norm_num) (by norm_num) rfl rfl rfl rfl rfl rfl rfl rfl
  exact ⟨s', w', e1, e2, e3⟩

end Russell.Nonlin
