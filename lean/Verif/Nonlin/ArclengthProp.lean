import Verif.Nonlin.NaturalProp
import Mathlib.Algebra.BigOperators.Field

/-!
# C78: pseudo-arclength continuation
-/

namespace Russell.Nonlin

open Russell Russell.Res

variable {n : Nat} {A : Type}

/-! ## Vectors and the augmented matrix -/

theorem vcat_cast (x : Vec n) (y : ℝ) (i : Fin n) : vcat x y i.castSucc = x i := by
  unfold vcat
  have : (i.castSucc : Fin (n + 1)).1 < n := i.2
  rw [dif_pos this]
  rfl

theorem vcat_last (x : Vec n) (y : ℝ) : vcat x y (Fin.last n) = y := by
  unfold vcat
  rw [dif_neg (by simp)]

theorem vcat_head (x : Vec (n + 1)) : vcat (vhead x) (vlast x) = x := by
  funext i
  refine Fin.lastCases ?_ (fun i => ?_) i
  · rw [vcat_last]; rfl
  · rw [vcat_cast]; rfl

theorem dot_succ (x y : Vec (n + 1)) : dot x y = dot (vhead x) (vhead y) + vlast x * vlast y := by
  unfold dot
  rw [Fin.sum_univ_castSucc]
  rfl

theorem dot_self_nonneg {m : Nat} (x : Vec m) : 0 ≤ dot x x := Finset.sum_nonneg (fun i _ => mul_self_nonneg _)

theorem dot_smul_left {m : Nat} (k : ℝ) (x y : Vec m) : dot (fun i => k * x i) y = k * dot x y := by
  unfold dot
  rw [Finset.mul_sum]
  exact Finset.sum_congr rfl (fun i _ => by ring)

theorem dot_smul_right {m : Nat} (k : ℝ) (x y : Vec m) : dot x (fun i => k * y i) = k * dot x y := by
  unfold dot
  rw [Finset.mul_sum]
  exact Finset.sum_congr rfl (fun i _ => by ring)

theorem dot_comm {m : Nat} (x y : Vec m) : dot x y = dot y x :=
  Finset.sum_congr rfl (fun i _ => mul_comm _ _)

/-- the augmented matrix times a vector, by blocks -/
theorem aug_mulVec (K : Matrix (Fin n) (Fin n) ℝ) (col row : Vec n) (corner : ℝ) (x : Vec (n + 1)) :
    (∀ i, (aug K col row corner).mulVec x i.castSucc = K.mulVec (vhead x) i + vlast x * col i) ∧
    (aug K col row corner).mulVec x (Fin.last n) = dot row (vhead x) + corner * vlast x := by
  constructor
  · intro i
    simp only [Matrix.mulVec, dotProduct]
    rw [Fin.sum_univ_castSucc]
    have h1 : ∀ j : Fin n, aug K col row corner i.castSucc j.castSucc = K i j := by
      intro j
      unfold aug
      rw [dif_pos (show (i.castSucc : Fin (n + 1)).1 < n from i.2), dif_pos (show (j.castSucc : Fin (n + 1)).1 < n from j.2)]
      rfl
    have h2 : aug K col row corner i.castSucc (Fin.last n) = col i := by
      unfold aug
      rw [dif_pos (show (i.castSucc : Fin (n + 1)).1 < n from i.2), dif_neg (by simp)]
      rfl
    simp only [h1, h2, vhead, vlast]
    ring
  · simp only [Matrix.mulVec, dotProduct]
    rw [Fin.sum_univ_castSucc]
    have h1 : ∀ j : Fin n, aug K col row corner (Fin.last n) j.castSucc = row j := by
      intro j
      unfold aug
      rw [dif_neg (by simp), dif_pos (show (j.castSucc : Fin (n + 1)).1 < n from j.2)]
      rfl
    have h2 : aug K col row corner (Fin.last n) (Fin.last n) = corner := by
      unfold aug
      rw [dif_neg (by simp), dif_neg (by simp)]
    simp only [h1, h2, vhead, vlast, dot]

/-! ## Tangent vectors -/

/-- `(du, dl)` is a unit tangent vector of a curve with the derivatives `K = ∂G/∂u` and `g = ∂G/∂λ`: it has length one and
`K du + dl g = 0` -/
structure IsTangent (K : Matrix (Fin n) (Fin n) ℝ) (g du : Vec n) (dl : ℝ) : Prop where
  kernel : ∀ i, K.mulVec du i + dl * g i = 0
  unit : ∑ i, du i ^ 2 + dl ^ 2 = 1

theorem mulVec_smul' (K : Matrix (Fin n) (Fin n) ℝ) (k : ℝ) (x : Vec n) (i : Fin n) :
    K.mulVec (fun j => k * x j) i = k * K.mulVec x i := by
  simp only [Matrix.mulVec, dotProduct, Finset.mul_sum]
  exact Finset.sum_congr rfl (fun j _ => by ring)

/-- the tangent vector of the bordering algorithm -/
theorem tangent_of_mdu {K : Matrix (Fin n) (Fin n) ℝ} {g mdu : Vec n} (h : K.mulVec mdu = g) {sg : ℝ} (hs : sg * sg = 1) :
    IsTangent K g (fun i => -(sg / Real.sqrt (1 + dot mdu mdu)) * mdu i) (sg / Real.sqrt (1 + dot mdu mdu)) ∧
      0 < sg * (sg / Real.sqrt (1 + dot mdu mdu)) := by
  have hp : 0 < 1 + dot mdu mdu := by have := dot_self_nonneg mdu; linarith
  have hsq : Real.sqrt (1 + dot mdu mdu) ^ 2 = 1 + dot mdu mdu := Real.sq_sqrt hp.le
  have hr : 0 < Real.sqrt (1 + dot mdu mdu) := Real.sqrt_pos.2 hp
  refine ⟨⟨?_, ?_⟩, ?_⟩
  · intro i
    rw [mulVec_smul', h]
    ring
  · have : ∑ i, (-(sg / Real.sqrt (1 + dot mdu mdu)) * mdu i) ^ 2 = (sg / Real.sqrt (1 + dot mdu mdu)) ^ 2 * dot mdu mdu := by
      unfold dot
      rw [Finset.mul_sum]
      exact Finset.sum_congr rfl (fun i _ => by ring)
    rw [this, div_pow, hsq, sq sg, hs]
    field_simp
    ring
  · rw [mul_div_assoc', hs]
    positivity

/-- a tangent vector and its opposite -/
theorem IsTangent.neg {K : Matrix (Fin n) (Fin n) ℝ} {g du : Vec n} {dl : ℝ} (h : IsTangent K g du dl) :
    IsTangent K g (fun i => -du i) (-dl) := by
  refine ⟨fun i => ?_, ?_⟩
  · have := h.kernel i
    have e : K.mulVec (fun i => -du i) i = -K.mulVec du i := by
      have := mulVec_smul' K (-1) du i
      simpa using this
    rw [e]; linarith
  · simpa using h.unit

theorem arcJac_spec {c : Config} {sys : System n A} {L : LinSols n} {s s' : ArcS L} {w w' : Work n} {a a' : A}
    (h : arcJac c sys L s w a = ok (s', w', a')) : c.bordering = true ∧ ∃ K f st,
      sys.calcJ w.l w.u a = ok (K, s'.ggl, a') ∧ L.small.factorize K = ok f ∧
      s' = { s with ggl := s'.ggl, ls := some f } ∧ w' = { w with stats := st } := by
  unfold arcJac at h
  split at h
  · cases h
  next hb =>
  obtain ⟨⟨K, ggl, a1⟩, h1, h⟩ := bind_eq_ok.1 h
  simp only at h
  split at h
  · cases h
  · obtain ⟨f, h2, h⟩ := bind_eq_ok.1 h
    cases ok.inj h
    exact ⟨by simpa using hb, K, f, _, h1, h2, rfl, rfl⟩

theorem arcAug_spec {c : Config} {sys : System n A} {L : LinSols n} {s s' : ArcS L} {w w' : Work n} {a a' : A} {b : Bool}
    (h : arcAug c sys L s w a b = ok (s', w', a')) : c.bordering = false ∧ ∃ K f st,
      sys.calcJ w.l w.u a = ok (K, s'.ggl, a') ∧
      L.large.factorize (if b then aug K 0 0 1
        else aug K s'.ggl (fun i => s.theta * w.duds i) ((2 - s.theta) * w.dlds)) = ok f ∧
      s' = { s with ggl := s'.ggl, la := some f } ∧ w' = { w with stats := st } := by
  unfold arcAug at h
  split at h
  · cases h
  next hb =>
  obtain ⟨⟨K, ggl, a1⟩, h1, h⟩ := bind_eq_ok.1 h
  simp only at h
  split at h
  · cases h
  · obtain ⟨f, h2, h⟩ := bind_eq_ok.1 h
    cases ok.inj h
    exact ⟨by simpa using hb, K, f, _, h1, h2, rfl, rfl⟩

/-- **The initial tangent vector** is a unit tangent vector for the derivatives at the given point, whichever of the two
algorithms is used, and λ starts in the chosen direction. -/
theorem C78_initial_tangent {c : Config} {sys : System n A} {L : LinSols n} (hL : L.small.Exact) (hM : L.large.Exact)
    {s s' : ArcS L} {w w' : Work n} {a a' : A} {dir : IniDir} (h : initTangent c sys L s w dir.sign a = ok (s', w', a')) :
    ∃ K g, sys.calcJ w.l w.u a = ok (K, g, a') ∧ IsTangent K g w'.duds w'.dlds ∧ 0 < dir.sign * w'.dlds ∧
      hMin ≤ |w'.dlds| ∧ hMin ≤ normMax w'.duds ∧ s'.theta = s.theta ∧ ∃ st, w' = { w with
        stats := st, duds := w'.duds, dlds := w'.dlds } := by
  unfold initTangent at h
  obtain ⟨⟨s1, w1, a1⟩, h1, h⟩ := bind_eq_ok.1 h
  obtain ⟨_, hc, h⟩ := bind_eq_ok.1 h
  cases ok.inj h
  have hck : hMin ≤ |w'.dlds| ∧ hMin ≤ normMax w'.duds := by
    unfold checkTangent at hc
    split at hc
    · cases hc
    split at hc
    · cases hc
    next p q => exact ⟨not_lt.1 p, not_lt.1 q⟩
  unfold initTangentRaw at h1
  split at h1
  · unfold initTangentBord at h1
    obtain ⟨⟨s2, w2, a2⟩, h2, h1⟩ := bind_eq_ok.1 h1
    obtain ⟨-, K, f, st, e1, e2, e3, e4⟩ := arcJac_spec h2
    obtain ⟨mdu, h3, h1⟩ := bind_eq_ok.1 h1
    cases ok.inj h1
    simp only at h3 hck
    rw [e3] at h3
    obtain ⟨t1, t2⟩ := tangent_of_mdu (hL K f e2 _ _ h3) (sign_sq dir)
    refine ⟨K, _, e1, t1, t2, hck.1, hck.2, by rw [e3], w2.countSol.stats, ?_⟩
    rw [e4]; rfl
  · unfold initTangentAug at h1
    obtain ⟨⟨s2, w2, a2⟩, h2, h1⟩ := bind_eq_ok.1 h1
    obtain ⟨-, K, f, st, e1, e2, e3, e4⟩ := arcAug_spec h2
    obtain ⟨x, h3, h1⟩ := bind_eq_ok.1 h1
    split at h1
    · cases h1
    next hx0 =>
    have hx0 : vlast x = 0 := not_not.1 hx0
    cases ok.inj h1
    simp only at h3 hck
    rw [e3] at h3
    simp only [if_true] at e2
    have hx := hM _ f e2 _ _ h3
    have hd : dot x x = dot (fun i => -vhead x i) (fun i => -vhead x i) := by
      rw [dot_succ, hx0]; simp [dot]
    have hk : K.mulVec (fun i => -vhead x i) = s'.ggl := by
      funext i
      have := congrFun hx i.castSucc
      rw [(aug_mulVec _ _ _ _ _).1, vcat_cast] at this
      have e := mulVec_smul' K (-1) (vhead x) i
      simp only [neg_one_mul] at e
      rw [e]
      simp only [Pi.zero_apply, mul_zero, add_zero] at this
      rw [this]; ring
    obtain ⟨t1, t2⟩ := tangent_of_mdu hk (sign_sq dir)
    rw [← hd] at t1 t2
    refine ⟨K, _, e1, ?_, t2, hck.1, hck.2, by rw [e3], w2.countSol.stats, ?_⟩
    · simpa using t1
    · rw [e4]; rfl

/-! ## The corrections -/

/-- Newton's equations of the extended system: the equations `G = 0` and the constraint `N = 0` -/
def NewtonEq (K : Matrix (Fin n) (Fin n) ℝ) (g du : Vec n) (theta dl : ℝ) (gg : Vec n) (nn : ℝ) (x : Vec n) (y : ℝ) : Prop :=
  (∀ i, K.mulVec x i + y * g i = -gg i) ∧ theta * ∑ i, du i * x i + (2 - theta) * dl * y = -nn

/-- what has been factorized -/
def Factored (c : Config) {L : LinSols n} (s : ArcS L) (du : Vec n) (dl : ℝ) (K : Matrix (Fin n) (Fin n) ℝ) (g : Vec n) : Prop :=
  (c.bordering = true → s.ggl = g ∧ ∃ f, s.ls = some f ∧ L.small.factorize K = ok f) ∧
  (c.bordering = false → ∃ f, s.la = some f ∧
    L.large.factorize (aug K g (fun i => s.theta * du i) ((2 - s.theta) * dl)) = ok f)

/-- the derivatives `K`, `g` have been returned by the system for some state -/
def Evaluated (sys : System n A) (K : Matrix (Fin n) (Fin n) ℝ) (g : Vec n) : Prop :=
  ∃ l u a a', sys.calcJ l u a = ok (K, g, a')

/-- **The correction** satisfies Newton's equations of the extended system at the trial state, in both algorithms; the
bordering algorithm gives up exactly when the denominator is small. -/
theorem C78_correction {c : Config} {sys : System n A} {L : LinSols n} (hL : L.small.Exact) (hM : L.large.Exact)
    {s s' : ArcS L} {w w' : Work n} {a a' : A} {nn : ℝ} {x : Option (Vec (n + 1))}
    (h : arcSolve c sys L s w nn a = ok (s', w', a', x)) :
    ∃ K g, sys.calcJ w.l w.u a = ok (K, g, a') ∧ Factored c s' w.duds w.dlds K g ∧ s'.iterJac = true ∧
      s'.theta = s.theta ∧ (∃ st, w' = { w with stats := st }) ∧
      (∀ y, x = some y → NewtonEq K g w.duds s.theta w.dlds w.gg nn (vhead y) (vlast y)) ∧
      (x = none → ∃ z, K.mulVec z = g ∧ |s.theta * ∑ i, w.duds i * z i - (2 - s.theta) * w.dlds| < hMin) := by
  unfold arcSolve at h
  split at h
  · next hb =>
    unfold correctBord at h
    obtain ⟨⟨s3, w3, a3⟩, h3, h⟩ := bind_eq_ok.1 h
    obtain ⟨-, K, f, st, e1, e2, e3, e4⟩ := arcJac_spec h3
    obtain ⟨dua, h4, h⟩ := bind_eq_ok.1 h
    obtain ⟨dub, h5, h⟩ := bind_eq_ok.1 h
    simp only at h h4 h5
    have hth : s3.theta = s.theta := by rw [e3]
    have hw3 : w3.duds = w.duds ∧ w3.dlds = w.dlds ∧ w3.gg = w.gg := by rw [e4]; exact ⟨rfl, rfl, rfl⟩
    have h4' : K.mulVec dua = s3.ggl := by
      rw [e3] at h4
      exact hL K f e2 _ _ h4
    have h5' : K.mulVec dub = w.gg := by
      rw [e3] at h5
      have := hL K f e2 _ _ h5
      rw [this, ← hw3.2.2]; rfl
    have hF : Factored c ({ s3 with theta := s.theta, iterJac := true } : ArcS L) w.duds w.dlds K s3.ggl :=
      ⟨fun _ => ⟨rfl, f, by rw [e3], e2⟩, fun h => by rw [hb] at h; cases h⟩
    have hd : w3.countSol.countSol.duds = w.duds ∧ w3.countSol.countSol.dlds = w.dlds := ⟨hw3.1, hw3.2.1⟩
    rw [hd.1, hd.2, hth] at h
    split at h
    · next hden =>
      cases ok.inj h
      refine ⟨K, s3.ggl, e1, hF, rfl, rfl, ⟨w3.countSol.countSol.stats, by rw [e4]; rfl⟩, ?_, fun _ => ⟨dua, h4', hden⟩⟩
      intro y hy; cases hy
    · next hden =>
      cases ok.inj h
      refine ⟨K, s3.ggl, e1, hF, rfl, rfl, ⟨w3.countSol.countSol.stats, by rw [e4]; rfl⟩, ?_, fun h => by cases h⟩
      intro y hy
      cases hy
      have hd0 : s.theta * dot w.duds dua - (2 - s.theta) * w.dlds ≠ 0 := by
        intro h0
        rw [h0, abs_zero] at hden
        exact hden hMin_pos
      set den := s.theta * dot w.duds dua - (2 - s.theta) * w.dlds with hden'
      set dl := (nn - s.theta * dot w.duds dub) / den with hdl
      have hmul : dl * den = nn - s.theta * dot w.duds dub := div_mul_cancel₀ _ hd0
      have hv : vlast (vcat (fun i => -dl * dua i - dub i) dl) = dl := vcat_last _ _
      have hh : vhead (vcat (fun i => -dl * dua i - dub i) dl) = fun i => -dl * dua i - dub i := by
        funext i; exact vcat_cast _ _ i
      rw [hv, hh]
      refine ⟨?_, ?_⟩
      · intro i
        have e : K.mulVec (fun i => -dl * dua i - dub i) i = -dl * K.mulVec dua i - K.mulVec dub i := by
          simp only [Matrix.mulVec, dotProduct, Finset.mul_sum, ← Finset.sum_sub_distrib]
          exact Finset.sum_congr rfl (fun j _ => by ring)
        rw [e, h4', h5']; ring
      · have e : ∑ i, w.duds i * (-dl * dua i - dub i) = -dl * dot w.duds dua - dot w.duds dub := by
          simp only [dot, Finset.mul_sum, ← Finset.sum_sub_distrib]
          exact Finset.sum_congr rfl (fun j _ => by ring)
        rw [e]
        linear_combination (-1 : ℝ) * hmul - dl * hden'
  · next hb =>
    unfold correctAug at h
    obtain ⟨⟨s3, w3, a3⟩, h3, h⟩ := bind_eq_ok.1 h
    obtain ⟨-, K, f, st, e1, e2, e3, e4⟩ := arcAug_spec h3
    obtain ⟨y, h4, h⟩ := bind_eq_ok.1 h
    cases ok.inj h
    simp only at h4
    simp only [Bool.false_eq_true, if_false] at e2
    have hth : s3.theta = s.theta := by rw [e3]
    have hw3 : w3.gg = w.gg := by rw [e4]
    refine ⟨K, s3.ggl, e1, ⟨fun h => absurd h hb, fun _ => ⟨f, by rw [e3], ?_⟩⟩, rfl, hth,
      ⟨w3.countSol.stats, by rw [e4]; rfl⟩, ?_, fun h => by cases h⟩
    · simp only; rw [hth]; exact e2
    · intro z hz
      cases hz
      rw [e3] at h4
      have hx := hM _ f e2 _ _ h4
      refine ⟨fun i => ?_, ?_⟩
      · have := congrFun hx i.castSucc
        rw [(aug_mulVec _ _ _ _ _).1, vcat_cast] at this
        rw [this, ← hw3]; rfl
      · have := congrFun hx (Fin.last n)
        rw [(aug_mulVec _ _ _ _ _).2, vcat_last, dot_smul_left] at this
        exact this

/-! ## Convergence -/

/-- The Newton iterations of a step of length `h` from `(u0, l0)` with the unit tangent vector `(du, dl)` ended at the trial
state `(u1, l1)`: either all residuals including that of the constraint are smaller than the tolerance, or (unless
disabled) Newton's correction at the trial state (not applied any more) is small compared to the tolerances and the size of `(u0, l0)`. -/
inductive ArcConverged (c : Config) (sys : System n A) (du : Vec n) (dl theta h : ℝ) (u0 : Vec n) (l0 : ℝ) (u1 : Vec n)
    (l1 : ℝ) : Prop where
  | residual {a a1 gg} : sys.calcG l1 u1 a = ok (gg, a1) → (∀ i, |gg i| < c.tolAbsResidual) →
    |theta * ∑ i, (u1 i - u0 i) * du i + (2 - theta) * (l1 - l0) * dl - h| < c.tolAbsResidual →
    ArcConverged c sys du dl theta h u0 l0 u1 l1
  | delta {a a1 a2 gg K g x y} : c.disableRelDelta = false → sys.calcG l1 u1 a = ok (gg, a1) → sys.calcJ l1 u1 a1 = ok (K, g, a2) →
    NewtonEq K g du theta dl gg (theta * ∑ i, (u1 i - u0 i) * du i + (2 - theta) * (l1 - l0) * dl - h) x y →
    Real.sqrt ((∑ i, (x i / (c.tolAbsDelta + c.tolRelDelta * |u0 i|)) ^ 2 +
      (y / (c.tolAbsDelta + c.tolRelDelta * |l0|)) ^ 2) / (n + 1)) ≤ 1 →
    ArcConverged c sys du dl theta h u0 l0 u1 l1

theorem constraintN_eq {theta : ℝ} (ht : theta = 1 ∨ theta = 0) (w : Work n) (u : Vec n) (l : ℝ) :
    constraintN theta w u l = theta * ∑ i, (w.u i - u i) * w.duds i + (2 - theta) * (w.l - l) * w.dlds - w.h := by
  unfold constraintN
  rcases ht with rfl | rfl
  · rw [if_pos (by norm_num)]
  · rw [if_neg (by norm_num)]; simp

/-- the part of the state that the iterations do not change, and the factorization made by them -/
structure ArcFix (c : Config) (sys : System n A) {L : LinSols n} (th : ℝ) (du : Vec n) (dl h : ℝ) (sc : Nat → ℝ)
    (s : ArcS L) (w : Work n) : Prop where
  theta : s.theta = th
  duds : w.duds = du
  dlds : w.dlds = dl
  h : w.h = h
  scaling : w.err.scaling = sc
  jac : s.iterJac = true → ∃ K g, Evaluated sys K g ∧ Factored c s du dl K g

theorem arcIterate_fix {c : Config} {fin : ℝ → Bool} {sys : System n A} {L : LinSols n} (hL : L.small.Exact)
    (hM : L.large.Exact) {s s' : ArcS L}
    {w w' : Work n} {u : Vec n} {l : ℝ} {a a' : A} {st : Status} {th dl hh : ℝ} {du : Vec n} {sc : Nat → ℝ}
    (hf : ArcFix c sys th du dl hh sc s w) (h : arcIterate c fin sys L s w u l a = ok (s', w', a', st)) :
    ArcFix c sys th du dl hh sc s' w' ∧ w'.nIter = w.nIter := by
  obtain ⟨f1, f2, f3, f4, f5, f6⟩ := hf
  unfold arcIterate at h
  obtain ⟨⟨gg, a1⟩, h1, h⟩ := bind_eq_ok.1 h
  simp only at h
  have hr := (analyzeResidual_spec (c := c) (fin := fin) (it := w.nIter) (gg := gg)
    (nn := constraintN s.theta { w with stats := { w.stats with nFunction := w.stats.nFunction + 1 }, gg := gg } u l) (e := w.err)).1
  split at h
  · cases ok.inj h
    exact ⟨⟨f1, f2, f3, f4, hr.trans f5, f6⟩, rfl⟩
  split at h
  · cases ok.inj h
    exact ⟨⟨f1, f2, f3, f4, hr.trans f5, f6⟩, rfl⟩
  unfold arcCorrect at h
  obtain ⟨⟨s1, w1, a2, x⟩, h2, h⟩ := bind_eq_ok.1 h
  obtain ⟨K, g, e1, e2, e3, e4, ⟨st1, e5⟩, -⟩ := C78_correction hL hM h2
  have hs1 : s1.theta = th := e4.trans f1
  have hj : ∃ K g, Evaluated sys K g ∧ Factored c s1 du dl K g :=
    ⟨K, g, ⟨_, _, _, _, e1⟩, by simpa only [f2, f3] using e2⟩
  have hw1 : w1.duds = du ∧ w1.dlds = dl ∧ w1.h = hh ∧ w1.err.scaling = sc ∧ w1.nIter = w.nIter := by
    rw [e5]; exact ⟨f2, f3, f4, hr.trans f5, rfl⟩
  obtain ⟨p1, p2, p3, p4, p5⟩ := hw1
  cases x with
  | none =>
    cases ok.inj h
    exact ⟨⟨hs1, p1, p2, p3, p4, fun _ => hj⟩, p5⟩
  | some x =>
    have h := ok.inj h
    have hd := (analyzeDelta_spec (c := c) (fin := fin) (it := w1.nIter) (x := x) (e := w1.err)).1
    unfold arcAnalyze at h
    simp only at h
    split at h
    · cases h
      exact ⟨⟨hs1, p1, p2, p3, hd.trans p4, fun _ => hj⟩, p5⟩
    split at h
    · cases h
      exact ⟨⟨hs1, p1, p2, p3, hd.trans p4, fun _ => hj⟩, p5⟩
    unfold arcUpdate at h
    simp only at h
    have hcf := (captureFailures_spec c w1.nIter (w1.err.analyzeDelta c fin w1.nIter x).2).1
    split at h
    · cases h
      exact ⟨⟨hs1, p1, p2, p3, hcf.trans (hd.trans p4), fun _ => hj⟩, p5⟩
    · cases h
      exact ⟨⟨hs1, p1, p2, p3, hcf.trans (hd.trans p4), fun _ => hj⟩, p5⟩

/-- one iteration that returns success has converged at the present trial state or is followed by another one -/
theorem arcIterate_spec {c : Config} {fin : ℝ → Bool} {sys : System n A} {L : LinSols n} (hL : L.small.Exact)
    (hM : L.large.Exact) {s s' : ArcS L}
    {w w' : Work n} {u : Vec n} {l : ℝ} {a a' : A} (ht : 0 < c.tolAbsResidual) (hd : w.err.deltaConverged = false)
    (hsc : w.err.scaling = fun i => if h : i < n then c.tolAbsDelta + c.tolRelDelta * |u ⟨i, h⟩|
      else if i = n then c.tolAbsDelta + c.tolRelDelta * |l| else w.err.scaling i)
    (hth : s.theta = 1 ∨ s.theta = 0)
    (h : arcIterate c fin sys L s w u l a = ok (s', w', a', .success)) :
    (w'.err.converged = true → ArcConverged c sys w.duds w.dlds s.theta w.h u l w'.u w'.l) ∧
    (w'.err.converged = false → w'.err.deltaConverged = false ∧ w.nIter ≠ c.nIterationMax - 1) := by
  unfold arcIterate at h
  obtain ⟨⟨gg, a1⟩, h1, h⟩ := bind_eq_ok.1 h
  simp only at h1 h
  have hnn := constraintN_eq hth
    { w with stats := { w.stats with nFunction := w.stats.nFunction + 1 }, gg := gg } u l
  rw [hnn] at h
  simp only at h
  set nn := s.theta * ∑ i, (w.u i - u i) * w.duds i + (2 - s.theta) * (w.l - l) * w.dlds - w.h with hnndef
  have hr := analyzeResidual_spec (c := c) (fin := fin) (it := w.nIter) (gg := gg) (nn := nn) (e := w.err)
  split at h
  · have := ok.inj h
    simp at this
  next hnan =>
  simp only [Bool.not_eq_true] at hnan
  obtain ⟨r1, r2, r3⟩ := hr
  have r3 := r3 hnan
  split at h
  · next hc =>
    cases ok.inj h
    refine ⟨fun _ => ?_, fun h => ?_⟩
    · unfold IterErr.converged at hc
      rw [r2, hd, r3] at hc
      simp only [Bool.or_false, decide_eq_true_eq, max_lt_iff, normMax_lt ht] at hc
      exact .residual h1 hc.1 hc.2
    · rw [hc] at h; cases h
  next hc =>
  have hc0 : (w.err.analyzeResidual c fin w.nIter gg nn).2.residualConverged = false := by
    simp only [IterErr.converged, Bool.or_eq_true, not_or, Bool.not_eq_true] at hc
    exact hc.1
  unfold arcCorrect at h
  obtain ⟨⟨s1, w1, a2, xo⟩, h2, h⟩ := bind_eq_ok.1 h
  obtain ⟨K, g, e1, -, -, e4, ⟨st1, e5⟩, e6, -⟩ := C78_correction hL hM h2
  cases xo with
  | none =>
    have := ok.inj h
    simp at this
  | some x =>
  have heq := e6 x rfl
  simp only at heq e1
  have h := ok.inj h
  have herr : w1.err = (w.err.analyzeResidual c fin w.nIter gg nn).2 := by rw [e5]
  have hu : w1.u = w.u ∧ w1.l = w.l ∧ w1.nIter = w.nIter := by rw [e5]; exact ⟨rfl, rfl, rfl⟩
  obtain ⟨d1, d2, d3⟩ := analyzeDelta_spec (c := c) (fin := fin) (it := w1.nIter) (x := x) (e := w1.err)
  rw [herr] at d2 d3
  unfold arcAnalyze at h
  simp only at h
  split at h
  · have := congrArg (fun x => x.2.2.2) h
    simp at this
  next hnan2 =>
  split at h
  · next hc2 =>
    have hw' : w' = { w1 with err := (w1.err.analyzeDelta c fin w1.nIter x).2 } := (congrArg (fun x => x.2.1) h).symm
    refine ⟨fun _ => ?_, fun h => ?_⟩
    · simp only [IterErr.converged] at hc2
      rw [herr, d2, hc0, Bool.false_or] at hc2
      have hrms := d3 (by rw [← herr]; simpa using hnan2) hc2
      rw [r2, hd] at hrms
      rw [hw']
      simp only
      rw [hu.1, hu.2.1]
      rcases hrms with h | ⟨hdis, h⟩
      · cases h
      · refine .delta hdis h1 e1 heq ?_
        unfold rms at h
        rw [r1, Fin.sum_univ_castSucc, hsc] at h
        simpa [sq, vhead, vlast] using h
    · rw [hw'] at h
      simp only at h
      rw [hc2] at h; cases h
  next hc2 =>
  unfold arcUpdate at h
  simp only at h
  have hcf := captureFailures_spec c w1.nIter (w1.err.analyzeDelta c fin w1.nIter x).2
  have hno : (w1.err.analyzeDelta c fin w1.nIter x).2.converged = false := by simpa using hc2
  split at h
  · next hfl =>
    have := congrArg (fun x => x.2.2.2) h
    simp only at this
    rw [this] at hfl
    cases hfl
  · next hfl =>
    have hs := success_of_not_failure hfl
    have hw' : w'.err = ((w1.err.analyzeDelta c fin w1.nIter x).2.captureFailures c w1.nIter).2 := by
      rw [← congrArg (fun x => x.2.1.err) h]
    have hconv : w'.err.converged = false := by
      rw [hw']
      unfold IterErr.converged at hno ⊢
      rw [hcf.2.1, hcf.2.2.1]; exact hno
    refine ⟨fun h => ?_, fun _ => ⟨?_, ?_⟩⟩
    · rw [hconv] at h; cases h
    · rw [hw', hcf.2.2.1]
      unfold IterErr.converged at hno
      simp only [Bool.or_eq_false_iff] at hno
      exact hno.2
    · rw [← hu.2.2]
      exact hcf.2.2.2 hs

/-! ## The updated tangent vector -/

theorem fixSign_spec {F G : Type} (s : Arc n F G) (w : Work n) {K : Matrix (Fin n) (Fin n) ℝ} {g : Vec n}
    (h : IsTangent K g w.duds w.dlds) : IsTangent K g (fixSign s w).duds (fixSign s w).dlds ∧
      0 ≤ ∑ i, (fixSign s w).duds i * s.dudsPrev i + (fixSign s w).dlds * s.dldsPrev ∧
      ∃ d l, fixSign s w = { w with duds := d, dlds := l } := by
  unfold fixSign
  split
  · next hn =>
    refine ⟨h.neg, ?_, ⟨_, _, rfl⟩⟩
    simp only [neg_mul, Finset.sum_neg_distrib]
    unfold dot at hn
    linarith
  · next hn =>
    refine ⟨h, ?_, ⟨w.duds, w.dlds, rfl⟩⟩
    unfold dot at hn
    linarith

/-- the updated tangent vector: a unit tangent vector for the derivatives `K`, `g` that were evaluated last -/
theorem updateTangent_spec {c : Config} {sys : System n A} {L : LinSols n} (hL : L.small.Exact)
    (hM : L.large.Exact) {s s' : ArcS L} {w w' : Work n} {a a' : A}
    (hj : s.iterJac = true → ∃ K g, Evaluated sys K g ∧ Factored c s w.duds w.dlds K g)
    (h : updateTangent c sys L s w a = ok (s', w', a')) :
    s'.theta = s.theta ∧ s'.dudsPrev = w.duds ∧ s'.dldsPrev = w.dlds ∧
    (∃ st d e, w' = { w with stats := st, duds := d, dlds := e }) ∧
    ∃ K g, Evaluated sys K g ∧ IsTangent K g w'.duds w'.dlds ∧
      (s.iterJac = false → sys.calcJ w.l w.u a = ok (K, g, a')) ∧ (s.iterJac = true → Factored c s w.duds w.dlds K g) ∧
      (s.theta = 1 → 0 ≤ ∑ i, w'.duds i * w.duds i + w'.dlds * w.dlds) ∧
      (c.bordering = false → 0 < s.theta * ∑ i, w'.duds i * w.duds i + (2 - s.theta) * (w'.dlds * w.dlds)) := by
  unfold updateTangent at h
  simp only at h
  split at h
  · next hb =>
    unfold tangentBord at h
    obtain ⟨⟨s1, w1, a1⟩, h1, h⟩ := bind_eq_ok.1 h
    obtain ⟨mdu, h2, h⟩ := bind_eq_ok.1 h
    cases ok.inj h
    have key : ∃ K, Evaluated sys K s'.ggl ∧ K.mulVec mdu = s'.ggl ∧ s'.theta = s.theta ∧ s'.dudsPrev = w.duds ∧
        s'.dldsPrev = w.dlds ∧ (∃ st, w1 = { w with stats := st }) ∧
        (s.iterJac = false → sys.calcJ w.l w.u a = ok (K, s'.ggl, a')) ∧
        (s.iterJac = true → Factored c s w.duds w.dlds K s'.ggl) := by
      unfold needJac at h1
      split at h1
      · next hi =>
        cases ok.inj h1
        obtain ⟨K, g, ev, hF⟩ := hj hi
        obtain ⟨g1, f, g2, g3⟩ := hF.1 hb
        simp only [g2, LinSol.run] at h2
        refine ⟨K, by simpa only [g1] using ev, hL K f g3 _ _ h2, rfl, rfl, rfl, ⟨w.stats, rfl⟩, ?_, ?_⟩
        · intro h0; simp only at hi; rw [hi] at h0; cases h0
        · intro _; simpa only [g1] using hF
      · next hi =>
        obtain ⟨-, K, f, st, e1, e2, e3, e4⟩ := arcJac_spec h1
        rw [e3] at h2
        refine ⟨K, ⟨_, _, _, _, e1⟩, hL K f e2 _ _ h2, by rw [e3], by rw [e3], by rw [e3], ⟨st, e4⟩, fun _ => e1, ?_⟩
        intro h0; exact absurd h0 hi
    obtain ⟨K, k1, k2, k3, k4, k5, ⟨st, k6⟩, k7, k8⟩ := key
    have ht := (tangent_of_mdu k2 (sg := 1) (by norm_num)).1
    obtain ⟨t1, t2, d, e, t3⟩ := fixSign_spec s' { w1.countSol with
      dlds := 1 / Real.sqrt (1 + dot mdu mdu), duds := fun i => -(1 / Real.sqrt (1 + dot mdu mdu)) * mdu i } ht
    refine ⟨k3, k4, k5, ⟨w1.countSol.stats, d, e, ?_⟩, K, s'.ggl, k1, t1, k7, k8, ?_, ?_⟩
    · rw [t3, k6]; rfl
    · intro _; rw [k4, k5] at t2; exact t2
    · intro h0; rw [hb] at h0; cases h0
  · next hb =>
    unfold tangentAug at h
    obtain ⟨⟨s1, w1, a1⟩, h1, h⟩ := bind_eq_ok.1 h
    obtain ⟨x, h2, h⟩ := bind_eq_ok.1 h
    cases ok.inj h
    have key : ∃ K g, Evaluated sys K g ∧ (aug K g (fun i => s.theta * w.duds i) ((2 - s.theta) * w.dlds)).mulVec x = vcat 0 1 ∧
        s'.theta = s.theta ∧ s'.dudsPrev = w.duds ∧
        s'.dldsPrev = w.dlds ∧ (∃ st, w1 = { w with stats := st }) ∧
        (s.iterJac = false → sys.calcJ w.l w.u a = ok (K, g, a')) ∧
        (s.iterJac = true → Factored c s w.duds w.dlds K g) := by
      unfold needAug at h1
      split at h1
      · next hi =>
        cases ok.inj h1
        obtain ⟨K, g, ev, hF⟩ := hj hi
        obtain ⟨f, g2, g3⟩ := hF.2 (by simpa using hb)
        simp only [g2, LinSol.run] at h2
        refine ⟨K, g, ev, hM _ f g3 _ _ h2, rfl, rfl, rfl, ⟨w.stats, rfl⟩, ?_, fun _ => hF⟩
        intro h0; simp only at hi; rw [hi] at h0; cases h0
      · next hi =>
        obtain ⟨-, K, f, st, e1, e2, e3, e4⟩ := arcAug_spec h1
        rw [e3] at h2
        refine ⟨K, s'.ggl, ⟨_, _, _, _, e1⟩, hM _ f (by simpa using e2) _ _ h2, by rw [e3], by rw [e3], by rw [e3],
          ⟨st, e4⟩, fun _ => e1, ?_⟩
        intro h0; exact absurd h0 hi
    obtain ⟨K, g, k1, k2, k3, k4, k5, ⟨st, k6⟩, k7, k8⟩ := key
    have q1 : ∀ i, K.mulVec (vhead x) i + vlast x * g i = 0 := by
      intro i
      have := congrFun k2 i.castSucc
      rw [(aug_mulVec _ _ _ _ _).1, vcat_cast] at this
      exact this
    have q2 : s.theta * dot w.duds (vhead x) + (2 - s.theta) * w.dlds * vlast x = 1 := by
      have := congrFun k2 (Fin.last n)
      rw [(aug_mulVec _ _ _ _ _).2, vcat_last, dot_smul_left] at this
      exact this
    have hpos : 0 < dot x x := by
      rcases (dot_self_nonneg x).lt_or_eq with h | h
      · exact h
      · exfalso
        rw [dot_succ] at h
        have p1 := dot_self_nonneg (vhead x)
        have p2 := mul_self_nonneg (vlast x)
        have b2 : vlast x = 0 := by
          have : vlast x * vlast x = 0 := by linarith
          simpa using this
        have b1 : ∀ i, vhead x i = 0 := by
          intro i
          have h0 : dot (vhead x) (vhead x) = 0 := by linarith
          have := (Finset.sum_eq_zero_iff_of_nonneg (fun i _ => mul_self_nonneg (vhead x i))).1 h0 i (Finset.mem_univ _)
          simpa using this
        rw [b2] at q2
        simp [dot, b1] at q2
    have hr : 0 < Real.sqrt (dot x x) := Real.sqrt_pos.2 hpos
    have hsq : Real.sqrt (dot x x) ^ 2 = dot x x := Real.sq_sqrt hpos.le
    have hdir : 0 < s.theta * ∑ i, vhead x i / Real.sqrt (dot x x) * w.duds i +
        (2 - s.theta) * (vlast x / Real.sqrt (dot x x) * w.dlds) := by
      have : ∑ i, vhead x i / Real.sqrt (dot x x) * w.duds i = dot w.duds (vhead x) / Real.sqrt (dot x x) := by
        unfold dot
        rw [Finset.sum_div]
        exact Finset.sum_congr rfl (fun i _ => by ring)
      rw [this]
      have e : s.theta * (dot w.duds (vhead x) / Real.sqrt (dot x x)) + (2 - s.theta) * (vlast x / Real.sqrt (dot x x) * w.dlds)
        = (s.theta * dot w.duds (vhead x) + (2 - s.theta) * w.dlds * vlast x) / Real.sqrt (dot x x) := by ring
      rw [e, q2]
      positivity
    refine ⟨k3, k4, k5, ⟨w1.countSol.stats, _, _, by rw [k6]; rfl⟩, K, g, k1, ⟨?_, ?_⟩, k7, k8, ?_, fun _ => hdir⟩
    · intro i
      simp only
      have e : K.mulVec (fun i => vhead x i / Real.sqrt (dot x x)) i = (Real.sqrt (dot x x))⁻¹ * K.mulVec (vhead x) i := by
        rw [← mulVec_smul']
        congr 1; funext j; ring
      rw [e]
      have := q1 i
      have e2 : (Real.sqrt (dot x x))⁻¹ * K.mulVec (vhead x) i + vlast x / Real.sqrt (dot x x) * g i =
        (Real.sqrt (dot x x))⁻¹ * (K.mulVec (vhead x) i + vlast x * g i) := by ring
      rw [e2, this, mul_zero]
    · simp only [div_pow, hsq]
      rw [← Finset.sum_div, ← add_div, div_eq_one_iff_eq hpos.ne', dot_succ]
      simp [dot, sq]
    · intro h1
      have := hdir
      rw [h1] at this
      simp only
      linarith

/-! ## Steps -/

/-- the component of u has not reached a prescribed value -/
def BeforeU (stop : Stop) (u : Vec n) : Prop :=
  match stop with
  | .minCompU i u1 => ∀ h : i < n, u1 < u ⟨i, h⟩
  | .maxCompU i u1 => ∀ h : i < n, u ⟨i, h⟩ < u1
  | _ => True

theorem at_ok {u : Vec n} {i : Nat} {x : ℝ} (h : u.at i = ok x) : ∃ hi : i < n, x = u ⟨i, hi⟩ := by
  unfold Vec.at at h
  split at h
  · next hi => exact ⟨hi, (ok.inj h).symm⟩
  · cases h

theorem beforeU_of_now {stop : Stop} {i : Nat} {u : Vec n} {l : ℝ} (h : stop.now i u l = ok false) : BeforeU stop u := by
  cases stop with
  | minCompU j u1 =>
    intro hj
    simp only [Stop.now] at h
    obtain ⟨x, h1, h⟩ := bind_eq_ok.1 h
    obtain ⟨_, rfl⟩ := at_ok h1
    have := ok.inj h
    simp only [decide_eq_false_iff_not, not_or, not_lt] at this
    rcases this.1.lt_or_eq with h2 | h2
    · exact h2
    · have := this.2
      rw [← h2, sub_self, abs_zero] at this
      exact absurd hMin_pos (not_lt.2 this)
  | maxCompU j u1 =>
    intro hj
    simp only [Stop.now] at h
    obtain ⟨x, h1, h⟩ := bind_eq_ok.1 h
    obtain ⟨_, rfl⟩ := at_ok h1
    have := ok.inj h
    simp only [decide_eq_false_iff_not, not_or, not_lt] at this
    rcases this.1.lt_or_eq with h2 | h2
    · exact h2
    · have := this.2
      rw [h2, sub_self, abs_zero] at this
      exact absurd hMin_pos (not_lt.2 this)
  | maxNormU a b c d => trivial
  | minLambda l1 => trivial
  | maxLambda l1 => trivial
  | steps k => trivial

theorem beforeU_of_validate {stop : Stop} {u : Vec n} {l : ℝ} (h : stop.validate u l = ok ()) : BeforeU stop u := by
  cases stop with
  | minCompU j u1 =>
    intro hj
    simp only [Stop.validate, dif_pos hj] at h
    split at h
    · cases h
    · next hn => exact not_le.1 hn
  | maxCompU j u1 =>
    intro hj
    simp only [Stop.validate, dif_pos hj] at h
    split at h
    · cases h
    · next hn => exact not_le.1 hn
  | maxNormU a b c d => trivial
  | minLambda l1 => trivial
  | maxLambda l1 => trivial
  | steps k => trivial

/-- the weight θ is one, or zero when a value of λ is prescribed -/
def Mode (stop : Stop) (theta : ℝ) : Prop := theta = 1 ∨ theta = 0 ∧ stop.lambda ≠ none

theorem Mode.cases {stop : Stop} {theta : ℝ} (h : Mode stop theta) : theta = 1 ∨ theta = 0 := h.imp id And.left

theorem Mode.le {stop : Stop} {theta : ℝ} (h : Mode stop theta) : 0 < 2 - theta := by
  rcases h.cases with h | h <;> rw [h] <;> norm_num

theorem arcLambda_spec {F G : Type} {s s1 : Arc n F G} {w w1 : Work n} {l : ℝ} {stop : Stop} (hm : Mode stop s.theta)
    (hh : 0 < w.h) (hb : Before stop l) (h : arcLambda s w l stop = (s1, w1)) :
    Mode stop s1.theta ∧ 0 < w1.h ∧ w1.l = l + (2 - s1.theta) * w1.h * w.dlds ∧ (s.theta = 0 → s1.theta = 0) ∧
    (∃ th, s1 = { s with theta := th }) ∧ ∃ x y, w1 = { w with h := x, l := y } := by
  have hle := hm.le
  unfold arcLambda at h
  simp only at h
  split at h
  · cases h
    exact ⟨hm, hh, rfl, id, ⟨s.theta, rfl⟩, w.h, _, rfl⟩
  · next l1 isMin hst =>
    split at h
    · next hc =>
      have hb' : (isMin = true → l1 < l) ∧ (isMin = false → l < l1) := by
        cases stop <;> simp only [Stop.lambda, Option.some.injEq, Prod.mk.injEq, reduceCtorEq] at hst
        · obtain ⟨rfl, rfl⟩ := hst
          exact ⟨fun _ => hb, fun h => by cases h⟩
        · obtain ⟨rfl, rfl⟩ := hst
          exact ⟨fun h => (Bool.false_ne_true h).elim, fun _ => hb⟩
      cases h
      refine ⟨Or.inr ⟨rfl, by rw [hst]; simp⟩, ?_, ?_, fun _ => rfl, ⟨0, rfl⟩, _, _, rfl⟩
      · simp only
        have hk : 0 < (2 - s.theta) * w.h := mul_pos hle hh
        rcases hc with ⟨h1, h2⟩ | ⟨h1, h2⟩
        · have h3 := hb'.1 h2
          have : w.dlds < 0 := by
            by_contra hn
            have := mul_nonneg hk.le (not_lt.1 hn)
            linarith
          have := mul_pos_of_neg_of_neg (show l1 - l < 0 by linarith) this
          linarith
        · have h3 := hb'.2 h2
          have : 0 < w.dlds := by
            by_contra hn
            have := mul_nonpos_of_nonneg_of_nonpos hk.le (not_lt.1 hn)
            linarith
          have := mul_pos (show 0 < l1 - l by linarith) this
          linarith
      · simp only
        ring
    · cases h
      exact ⟨hm, hh, rfl, id, ⟨s.theta, rfl⟩, w.h, _, rfl⟩

theorem arcU_spec {F G : Type} {s : Arc n F G} {w : Work n} {u : Vec n} (ht : s.theta = 1 ∨ s.theta = 0) :
    arcU s w u = { w with u := fun i => u i + s.theta * w.h * w.duds i } := by
  unfold arcU
  rcases ht with h | h
  · rw [if_pos (by rw [h]; norm_num)]; simp
  · rw [if_neg (by rw [h]; norm_num), h]; simp

theorem arcTruncate_spec {F G : Type} {s : Arc n F G} {w w2 : Work n} {u : Vec n} {l : ℝ} {stop : Stop}
    (hm : Mode stop s.theta) (hh : 0 < w.h) (hb : BeforeU stop u)
    (hu : w.u = fun i => u i + s.theta * w.h * w.duds i) (hl : w.l = l + (2 - s.theta) * w.h * w.dlds)
    (h : arcTruncate s w u l stop = ok w2) :
    0 < w2.h ∧ w2.u = (fun i => u i + s.theta * w2.h * w.duds i) ∧ w2.l = l + (2 - s.theta) * w2.h * w.dlds ∧
    w2.h ≤ w.h ∧ (∃ x y z, w2 = { w with h := x, l := y, u := z }) ∧
    (∀ i u1 (hi : i < n), stop = .maxCompU i u1 → w2.u ⟨i, hi⟩ ≤ u1) ∧
    (∀ i u1 (hi : i < n), stop = .minCompU i u1 → u1 ≤ w2.u ⟨i, hi⟩) := by
  unfold arcTruncate at h
  split at h
  · next hst =>
    cases ok.inj h
    refine ⟨hh, hu, hl, le_refl _, ⟨_, _, _, rfl⟩, ?_, ?_⟩ <;>
    · intro i u1 hi h0
      rw [h0] at hst; cases hst
  · next i u1 isMin hst =>
    have h1 : s.theta = 1 := by
      rcases hm with h | ⟨-, h⟩
      · exact h
      · exfalso
        cases stop <;> simp [Stop.lambda, Stop.uComp] at h hst
    obtain ⟨wi, h2, h⟩ := bind_eq_ok.1 h
    obtain ⟨hi, rfl⟩ := at_ok h2
    have hb' : (isMin = true → u1 < u ⟨i, hi⟩) ∧ (isMin = false → u ⟨i, hi⟩ < u1) := by
      cases stop <;> simp only [Stop.uComp, Option.some.injEq, Prod.mk.injEq, reduceCtorEq] at hst
      · obtain ⟨rfl, rfl, rfl⟩ := hst
        exact ⟨fun _ => hb hi, fun h => by cases h⟩
      · obtain ⟨rfl, rfl, rfl⟩ := hst
        exact ⟨fun h => (Bool.false_ne_true h).elim, fun _ => hb hi⟩
    have hstop : (∀ j v (hj : j < n), stop = .maxCompU j v → j = i ∧ v = u1 ∧ isMin = false) ∧
        (∀ j v (hj : j < n), stop = .minCompU j v → j = i ∧ v = u1 ∧ isMin = true) := by
      constructor <;> intro j v hj h0 <;> rw [h0] at hst <;> simp only [Stop.uComp, Option.some.injEq, Prod.mk.injEq] at hst
      · exact ⟨hst.1, hst.2.1, hst.2.2.symm⟩
      · exact ⟨hst.1, hst.2.1, hst.2.2.symm⟩
    split at h
    · next hc =>
      obtain ⟨di, h3, h5⟩ := bind_eq_ok.1 h
      obtain ⟨_, hdi⟩ := at_ok h3
      split at h5
      · next hbig =>
        obtain ⟨ui, h4, h6⟩ := bind_eq_ok.1 h5
        obtain ⟨_, hui⟩ := at_ok h4
        have h7 := ok.inj h6
        subst h7
        rw [hdi] at hbig ⊢
        rw [hui]
        have hwi : w.u ⟨i, hi⟩ = u ⟨i, hi⟩ + w.h * w.duds ⟨i, hi⟩ := by rw [hu, h1]; ring
        have hne : w.duds ⟨i, hi⟩ ≠ 0 := by
          intro h0; rw [h0, abs_zero] at hbig; exact absurd hMin_pos (not_lt.2 hbig.le)
        have hpos : 0 < (u1 - u ⟨i, hi⟩) / w.duds ⟨i, hi⟩ ∧ (u1 - u ⟨i, hi⟩) / w.duds ⟨i, hi⟩ ≤ w.h := by
          rcases hc with ⟨a1, a2⟩ | ⟨a1, a2⟩
          · have b := hb'.1 a2
            have hd : w.duds ⟨i, hi⟩ < 0 := by
              by_contra hn
              have := mul_nonneg hh.le (not_lt.1 hn)
              linarith
            refine ⟨div_pos_of_neg_of_neg (by linarith) hd, ?_⟩
            rw [div_le_iff_of_neg hd]; linarith
          · have b := hb'.2 a2
            have hd : 0 < w.duds ⟨i, hi⟩ := by
              by_contra hn
              have := mul_nonpos_of_nonneg_of_nonpos hh.le (not_lt.1 hn)
              linarith
            refine ⟨div_pos (by linarith) hd, ?_⟩
            rw [div_le_iff₀ hd]; linarith
        have hu1 : 1 * u ⟨i, hi⟩ + s.theta * ((u1 - u ⟨i, hi⟩) / w.duds ⟨i, hi⟩) * w.duds ⟨i, hi⟩ = u1 := by
          rw [h1]; field_simp; ring
        refine ⟨hpos.1, by simp, rfl, hpos.2, ⟨_, _, _, rfl⟩, ?_, ?_⟩
        · intro j v hj h0
          obtain ⟨rfl, rfl, -⟩ := hstop.1 j v hj h0
          exact hu1.le
        · intro j v hj h0
          obtain ⟨rfl, rfl, -⟩ := hstop.2 j v hj h0
          exact hu1.ge
      · cases h5
    · next hc =>
      cases ok.inj h
      simp only [not_or, not_and] at hc
      refine ⟨hh, hu, hl, le_refl _, ⟨_, _, _, rfl⟩, ?_, ?_⟩
      · intro j v hj h0
        obtain ⟨rfl, rfl, b⟩ := hstop.1 j v hj h0
        exact not_lt.1 (fun h => hc.2 h b)
      · intro j v hj h0
        obtain ⟨rfl, rfl, b⟩ := hstop.2 j v hj h0
        exact not_lt.1 (fun h => hc.1 h b)

/-- one step -/
theorem arcStep_spec {c : Config} {fin : ℝ → Bool} {sys : System n A} {L : LinSols n} (hL : L.small.Exact)
    (hM : L.large.Exact) {s s' : ArcS L}
    {w w' : Work n} {u : Vec n} {l : ℝ} {stop : Stop} {a a' : A} {st : Status} (ht : 0 < c.tolAbsResidual)
    (hi : 1 ≤ c.nIterationMax) (hm : Mode stop s.theta) (hh : 0 < w.h) (hb : Before stop l) (hbu : BeforeU stop u)
    (h : arcStep c fin sys L s w u l stop a = ok (s', w', a', st)) :
    Mode stop s'.theta ∧ 0 < w'.h ∧ (s.theta = 0 → s'.theta = 0) ∧
    (stop.lambda ≠ none → s'.theta = (arcLambda s w l stop).1.theta ∧ w'.h = (arcLambda s w l stop).2.h) ∧
    (st ≠ .success → w'.duds = w.duds ∧ w'.dlds = w.dlds) ∧
    (st = .success → ArcConverged c sys w.duds w.dlds s'.theta w'.h u l w'.u w'.l ∧ s'.dudsPrev = w.duds ∧
      s'.dldsPrev = w.dlds ∧ ∃ K g, Evaluated sys K g ∧ IsTangent K g w'.duds w'.dlds ∧
      (s'.theta = 1 → 0 ≤ ∑ i, w'.duds i * w.duds i + w'.dlds * w.dlds) ∧
      (c.bordering = false → 0 < s'.theta * ∑ i, w'.duds i * w.duds i + (2 - s'.theta) * (w'.dlds * w.dlds))) := by
  unfold arcStep at h
  simp only at h
  obtain ⟨w2, h1, h⟩ := bind_eq_ok.1 h
  obtain ⟨s1, w1, hlam⟩ : ∃ s1 w1, arcLambda s (stepBegin c sys w u l a).1 l stop = (s1, w1) := ⟨_, _, rfl⟩
  rw [hlam] at h1 h
  simp only at h1 h
  obtain ⟨m1, m2, m3, m4, ⟨th, m5⟩, x1, y1, m6⟩ := arcLambda_spec (w := (stepBegin c sys w u l a).1) hm hh hb hlam
  have hdu : w1.duds = w.duds ∧ w1.dlds = w.dlds := by rw [m6]; exact ⟨rfl, rfl⟩
  have htarget : stop.lambda ≠ none → s1.theta = (arcLambda s w l stop).1.theta ∧ w2.h = (arcLambda s w l stop).2.h := by
    intro hst
    have e : s1.theta = (arcLambda s w l stop).1.theta ∧ w1.h = (arcLambda s w l stop).2.h := by
      rw [← congrArg (fun x => x.1.theta) hlam, ← congrArg (fun x => x.2.h) hlam]
      unfold arcLambda
      split
      · exact ⟨rfl, rfl⟩
      · simp only
        split <;> rename_i hc
        · rw [if_pos (by exact hc)]; exact ⟨rfl, rfl⟩
        · rw [if_neg (by exact hc)]; exact ⟨rfl, rfl⟩
    refine ⟨e.1, ?_⟩
    rw [← e.2]
    have hu0 : stop.uComp = none := by cases stop <;> simp [Stop.lambda, Stop.uComp] at hst ⊢
    unfold arcTruncate at h1
    rw [hu0] at h1
    rw [← ok.inj h1, arcU_spec m1.cases]
  rw [arcU_spec m1.cases] at h1
  obtain ⟨t1, t2, t3, t4, ⟨x2, y2, z2, t5⟩, -⟩ := arcTruncate_spec (s := s1) (u := u) (l := l)
    (w := { w1 with u := fun i => u i + s1.theta * w1.h * w1.duds i }) m1 m2 hbu rfl
    (by simp only; rw [m3, hdu.2]; rfl) h1
  have hdu2 : w2.duds = w.duds ∧ w2.dlds = w.dlds := by rw [t5]; exact hdu
  have herr2 : w2.err = w.err.reset c u l := by rw [t5, m6]; rfl
  split at h
  · next hf =>
    cases ok.inj h
    exact ⟨m1, t1, m4, htarget, fun _ => hdu2, fun h => absurd h (failure_ne hf)⟩
  · unfold arcNewton at h
    obtain ⟨w3, h3, h⟩ := bind_eq_ok.1 h
    obtain ⟨d, rfl⟩ := pushDebug_keeps h3
    obtain ⟨⟨s4, w4, a4, st4⟩, h4, h⟩ := bind_eq_ok.1 h
    simp only at h
    have hfix : ArcFix c sys s1.theta w.duds w.dlds w2.h (w.err.reset c u l).scaling ({ s1 with iterJac := false } : ArcS L)
        { w2 with debug := d, nIter := 0 } :=
      ⟨rfl, hdu2.1, hdu2.2, rfl, congrArg IterErr.scaling herr2, fun h => by cases h⟩
    have hinv := iterLoop_inv (P := fun s' w' _ => ArcFix c sys s1.theta w.duds w.dlds w2.h
      (w.err.reset c u l).scaling s' w') (fun _ _ _ _ h => ⟨h.1, h.2, h.3, h.4, h.5, h.6⟩)
      (fun _ _ _ _ h => ⟨h.1, h.2, h.3, h.4, h.5, h.6⟩)
      (fun _ _ _ _ _ _ _ hp h => (arcIterate_fix hL hM hp h).1) _ _ { w2 with debug := d, nIter := 0 } _ _ hfix h4
    have hconv : st4 = .success → ArcConverged c sys w.duds w.dlds s1.theta w2.h u l w4.u w4.l := by
      rintro rfl
      refine iterLoop_success (w' := w4)
        (P := fun s' w' _ => ArcFix c sys s1.theta w.duds w.dlds w2.h (w.err.reset c u l).scaling s' w' ∧
          w'.err.deltaConverged = false)
        (Q := fun _ w' _ => ArcConverged c sys w.duds w.dlds s1.theta w2.h u l w'.u w'.l)
        (fun _ _ _ _ h => ⟨⟨h.1.1, h.1.2, h.1.3, h.1.4, h.1.5, h.1.6⟩, h.2⟩)
        (fun _ _ _ _ h => ⟨⟨h.1.1, h.1.2, h.1.3, h.1.4, h.1.5, h.1.6⟩, h.2⟩) (fun _ _ _ _ h => h)
        ?_ _ _ { w2 with debug := d, nIter := 0 } _ _ ⟨hfix, by simp only; rw [herr2]; rfl⟩ hi (Nat.zero_add _) h4
      intro s5 w5 a5 s6 w6 a6 hp h5
      have hsc : w5.err.scaling = fun i => if h : i < n then c.tolAbsDelta + c.tolRelDelta * |u ⟨i, h⟩|
          else if i = n then c.tolAbsDelta + c.tolRelDelta * |l| else w5.err.scaling i := by
        funext i
        rw [hp.1.scaling]
        simp only [IterErr.reset]
        split
        · rfl
        split
        · rfl
        · rfl
      obtain ⟨g1, g2⟩ := arcIterate_spec hL hM ht hp.2 hsc (by rw [hp.1.theta]; exact m1.cases) h5
      obtain ⟨g3, g4⟩ := arcIterate_fix hL hM hp.1 h5
      rw [hp.1.theta, hp.1.duds, hp.1.dlds, hp.1.h] at g1
      exact ⟨g1, fun hc => ⟨⟨g3, (g2 hc).1⟩, g4, (g2 hc).2⟩⟩
    unfold arcFinish at h
    split at h
    · next hf =>
      cases ok.inj h
      refine ⟨?_, ?_, ?_, ?_, fun _ => ⟨hinv.duds, hinv.dlds⟩, fun h => absurd h (failure_ne hf)⟩
      · rw [hinv.theta]; exact m1
      · simp only; rw [hinv.h]; exact t1
      · rw [hinv.theta]; exact m4
      · simp only; rw [hinv.theta, hinv.h]; exact htarget
    · next hf =>
      obtain ⟨⟨s5, w5, a5⟩, h5, h⟩ := bind_eq_ok.1 h
      cases ok.inj h
      have hs4 := success_of_not_failure hf
      have hj := hinv.jac
      rw [← hinv.duds, ← hinv.dlds] at hj
      obtain ⟨k1, k2, k3, ⟨stx, dx, ex, k4⟩, K, g, k5, k6, -, -, k7, k8⟩ := updateTangent_spec hL hM
        (w := { w4 with stats := w4.stats.recStop c w4.err.converged }) hj h5
      rw [hinv.theta] at k1 k7 k8
      simp only [hinv.duds, hinv.dlds] at k2 k3 k7 k8
      have e1 : w'.h = w2.h ∧ w'.u = w4.u ∧ w'.l = w4.l := by rw [k4]; exact ⟨hinv.h, rfl, rfl⟩
      refine ⟨by rw [k1]; exact m1, by rw [e1.1]; exact t1, by rw [k1]; exact m4, by rw [k1, e1.1]; exact htarget,
        fun h => absurd hs4 h, fun _ => ?_⟩
      refine ⟨?_, k2, k3, K, g, k5, k6, ?_, ?_⟩
      · rw [k1, e1.1, e1.2.1, e1.2.2]; exact hconv hs4
      · rw [k1]; exact k7
      · rw [k1]; exact k8

/-! ## Whole runs -/

/-- The relation between consecutive accepted points of the pseudo-arclength method: there is a unit tangent vector (for
derivatives returned by the system), a positive length `h` and a weight θ (one, or zero when a value of λ is prescribed), for
which the iterations converged. -/
def ArcStep (c : Config) (sys : System n A) (stop : Stop) (p q : Vec n × ℝ) : Prop :=
  ∃ K g du dl theta h, Evaluated sys K g ∧ IsTangent K g du dl ∧ Mode stop theta ∧ 0 < h ∧
    ArcConverged c sys du dl theta h p.1 p.2 q.1 q.2

theorem arclength_guide {c : Config} {fin : ℝ → Bool} {sys : System n A} {L : LinSols n} (hL : L.small.Exact)
    (hM : L.large.Exact) (hv : c.validate = ok ()) (stop : Stop) :
    Guide c (arclength c fin sys L) stop (fun s w u l => Mode stop s.theta ∧ 0 < w.h ∧ Before stop l ∧ BeforeU stop u ∧
      ∃ K g, Evaluated sys K g ∧ IsTangent K g w.duds w.dlds) (ArcStep c sys stop) := by
  obtain ⟨v1, -, -, -, v2, -, -, -, v3, -⟩ := validate_spec hv
  have ht : 0 < c.tolAbsResidual := lt_of_lt_of_le (by unfold tolMin; positivity) v2
  have hm : 0 < c.mFailure := lt_of_lt_of_le (by norm_num) v1
  refine ⟨?_, ?_, ?_⟩
  · intro s w w' u l h1 h2 h3 h
    rw [h1, h2, h3]; exact h
  · intro s w u l a s' w' a' w'' s'' u'' l'' rd ⟨j1, j2, j3, j4, K, g, j5, j6⟩ hs hsame hacc
    obtain ⟨e1, e2, e3, -, e4, e5⟩ := arcStep_spec hL hM ht v3 j1 j2 j3 j4 hs
    obtain ⟨g1, g2, g3, K', g', g4, g5, -⟩ := e5 rfl
    have h := ok.inj hacc
    simp only [Prod.mk.injEq] at h
    obtain ⟨h1, h2, h3, -⟩ := h
    rw [← h2, ← h3, hsame.u, hsame.l]
    refine ⟨⟨K, g, w.duds, w.dlds, s'.theta, w'.h, j5, j6, e1, e2, g1⟩, ?_⟩
    intro hn hpos ⟨i, hnow⟩
    refine ⟨by rw [← h1]; exact e1, hpos e2, before_of_now hnow, beforeU_of_now hnow, K', g', g4, g5⟩
  · intro s w u l a s' w' a' st w'' s'' w3 a'' ⟨j1, j2, j3, j4, K, g, j5, j6⟩ hs hsame hrej
    obtain ⟨e1, e2, e3, -, e4, e5⟩ := arcStep_spec hL hM ht v3 j1 j2 j3 j4 hs
    obtain ⟨⟨w1, a1⟩, h1, h⟩ := bind_eq_ok.1 hrej
    cases ok.inj h
    obtain ⟨d, rfl⟩ := reject_keeps h1
    refine ⟨e1, ?_, j3, j4, ?_⟩
    · simp only
      rw [hsame.h]
      exact mul_pos e2 hm
    · simp only
      rw [hsame.duds, hsame.dlds]
      by_cases hst : st = .success
      · obtain ⟨-, -, -, K', g', g4, g5, -⟩ := e5 hst
        exact ⟨K', g', g4, g5⟩
      · obtain ⟨q1, q2⟩ := e4 hst
        rw [q1, q2]
        exact ⟨K, g, j5, j6⟩

theorem arclength_start {c : Config} {fin : ℝ → Bool} {sys : System n A} {L : LinSols n} (hL : L.small.Exact)
    (hM : L.large.Exact) {sv : Solver n (ArcS L)} {a a' : A}
    {u : Vec n} {l x : ℝ} {dir : IniDir} {stop : Stop} {ddl : DeltaLambda} {auto : Bool} {s : ArcS L} {w : Work n}
    (h1 : stop.validate u l = ok ()) (h2 : ddl.ini stop l = ok x)
    (h3 : (arclength c fin sys L).init sv.st (sv.w.resetStats auto) x u l dir a = ok (s, w, a')) :
    Mode stop s.theta ∧ 0 < w.h ∧ Before stop l ∧ BeforeU stop u ∧
      ∃ K g, Evaluated sys K g ∧ IsTangent K g w.duds w.dlds := by
  change arcInit c sys L sv.st (sv.w.resetStats auto) x u l dir a = _ at h3
  unfold arcInit at h3
  obtain ⟨⟨s1, w1, a1⟩, h4, h3⟩ := bind_eq_ok.1 h3
  obtain ⟨K, g, e1, e2, e3, e4, e5, e6, -⟩ := C78_initial_tangent hL hM h4
  simp only at h3
  split at h3
  · cases h3
  · cases ok.inj h3
    refine ⟨Or.inl e6, ?_, before_of_validate h1, beforeU_of_validate h1, K, g, ⟨_, _, _, _, e1⟩, e2⟩
    exact div_pos (lt_trans hMin_pos (C76_initial_stepsize h2).1) (lt_of_lt_of_le hMin_pos e4)

/-- **Pseudo-arclength continuation with variable stepsize.** Everything `C76_auto` says; consecutive accepted points are
related by `ArcStep`. -/
theorem C78_auto {c : Config} {fin : ℝ → Bool} {sys : System n A} {L : LinSols n} (hL : L.small.Exact)
    (hM : L.large.Exact) {sv : Solver n (ArcS L)} {a : A}
    {u : Vec n} {l : ℝ} {dir : IniDir} {stop : Stop} {ddl : DeltaLambda} {out : Option (Output n A)}
    {r : Run n A (ArcS L)} {st : Status} (hv : c.validate = ok ()) (hrho : 0 ≤ c.rhoTiny) (hauto : ddl.auto = true)
    (h : solve c fin (arclength c fin sys L) sv a u l dir stop ddl out = ok (r, st)) :
    Final c (ArcStep c sys stop) stop out (u, l) r st :=
  C76_auto (arclength_keeps c fin sys L) (arclength_guide hL hM hv stop) hv hrho hauto
    (fun h1 h2 h3 => arclength_start hL hM h1 h2 h3) h

/-- **Pseudo-arclength continuation with constant or listed stepsizes.** -/
theorem C78_fixed {c : Config} {fin : ℝ → Bool} {sys : System n A} {L : LinSols n} (hL : L.small.Exact)
    (hM : L.large.Exact) {sv : Solver n (ArcS L)} {a : A}
    {u : Vec n} {l : ℝ} {dir : IniDir} {stop : Stop} {ddl : DeltaLambda} {out : Option (Output n A)}
    {r : Run n A (ArcS L)} {st : Status} (hv : c.validate = ok ()) (hauto : ddl.auto = false)
    (h : solve c fin (arclength c fin sys L) sv a u l dir stop ddl out = ok (r, st)) :
    FixedFinal (if ddl.list.length > 0 then ddl.list.length else c.nStepMax) (ArcStep c sys stop) stop out (u, l) r st :=
  C76_fixed (arclength_keeps c fin sys L) (arclength_guide hL hM hv stop) hauto
    (fun h1 h2 h3 => arclength_start hL hM h1 h2 h3) h

end Russell.Nonlin
