import Verif.Ode.RadauConst

/-!
# The stages of the Radau IIA method and the collocation polynomial (C84)
-/

namespace Russell.Ode

open Russell Russell.Res
open Russell.Nonlin (Vec LinSol)

variable {n : Nat} {A : Type}

/-- **C84**: the collocation polynomial, used by the dense output and as starting value of the next step. If a cubic `u` (in
the variable `s = (x_out - x) / h`) passes through the old solution and the three stages, `s · (…)` is `u s - u 0` up to a
relative error of `10⁻⁴⁸`, inside and outside of the step. -/
theorem C84_polynomial (u : Fin 4 → ℝ) (z : Stages n) (m : Fin n) {U : ℝ → ℝ}
    (hU : ∀ s, U s = u 0 + u 1 * s + u 2 * s ^ 2 + u 3 * s ^ 3) (h0 : z 0 m = U (Rd.MU1 - 1) - U (-1))
    (h1 : z 1 m = U (Rd.MU2 - 1) - U (-1)) (h2 : z 2 m = U 0 - U (-1)) (s : ℝ) :
    |rdPoly (rdYc z) s m - (U s - U 0)| ≤ 1 / 10 ^ 48 * (1 + |s|) ^ 3 * |z 0 m - z 1 m| := by
  have key : rdPoly (rdYc z) s m - (U s - U 0) = (1 / Rd.MU5 - 1 / (Rd.MU1 - Rd.MU2)) * (z 0 m - z 1 m) *
      (s * ((s - Rd.MU4) * (1 / Rd.MU3 + (s - Rd.MU3) * (1 / Rd.MU3 - 1 / Rd.MU2)))) := by
    simp only [rdPoly, rdYc, Matrix.cons_val_zero, Matrix.cons_val_one, Matrix.cons_val]
    rw [h0, h1, h2, hU, hU, hU, hU, hU]
    simp only [Rd.MU1, Rd.MU2, Rd.MU3, Rd.MU4, Rd.MU5]
    ring
  have hc : |1 / Rd.MU5 - 1 / (Rd.MU1 - Rd.MU2)| ≤ 1 / 10 ^ 49 := by
    simp only [Rd.MU1, Rd.MU2, Rd.MU5, abs_le]
    constructor <;> norm_num
  have hg : |s * ((s - Rd.MU4) * (1 / Rd.MU3 + (s - Rd.MU3) * (1 / Rd.MU3 - 1 / Rd.MU2)))| ≤ 10 * (1 + |s|) ^ 3 := by
    have hs := abs_nonneg s
    have e1 : |s - Rd.MU4| ≤ 1 + |s| := by
      refine (abs_sub s _).trans ?_
      have : |Rd.MU4| ≤ 1 := by rw [abs_le]; unfold Rd.MU4; constructor <;> norm_num
      linarith
    have e2 : |s - Rd.MU3| ≤ 1 + |s| := by
      refine (abs_sub s _).trans ?_
      have : |Rd.MU3| ≤ 1 := by rw [abs_le]; unfold Rd.MU3; constructor <;> norm_num
      linarith
    have e3 : |1 / Rd.MU3| ≤ 2 := by rw [abs_le]; unfold Rd.MU3; constructor <;> norm_num
    have e4 : |1 / Rd.MU3 - 1 / Rd.MU2| ≤ 3 := by rw [abs_le]; unfold Rd.MU3 Rd.MU2; constructor <;> norm_num
    have e5 : |1 / Rd.MU3 + (s - Rd.MU3) * (1 / Rd.MU3 - 1 / Rd.MU2)| ≤ 2 + (1 + |s|) * 3 := by
      refine (abs_add_le _ _).trans (add_le_add e3 ?_)
      rw [abs_mul]
      exact mul_le_mul e2 e4 (abs_nonneg _) (by positivity)
    rw [abs_mul, abs_mul]
    calc |s| * (|s - Rd.MU4| * |1 / Rd.MU3 + (s - Rd.MU3) * (1 / Rd.MU3 - 1 / Rd.MU2)|)
        ≤ (1 + |s|) * ((1 + |s|) * (2 + (1 + |s|) * 3)) :=
          mul_le_mul (by linarith) (mul_le_mul e1 e5 (abs_nonneg _) (by positivity)) (by positivity) (by positivity)
      _ ≤ 10 * (1 + |s|) ^ 3 := by nlinarith [mul_nonneg hs hs, mul_nonneg (mul_nonneg hs hs) hs]
  rw [key, abs_mul, abs_mul]
  calc _ ≤ 1 / 10 ^ 49 * |z 0 m - z 1 m| * (10 * (1 + |s|) ^ 3) :=
        mul_le_mul (mul_le_mul_of_nonneg_right hc (abs_nonneg _)) hg (abs_nonneg _) (by positivity)
    _ = _ := by ring

/-- **C84**: the collocation polynomial passes through the new solution, the second stage, and, up to a relative error of
`10⁻⁴⁹`, through the first stage and the old solution. -/
theorem C84_interpolation (z : Stages n) (m : Fin n) : rdPoly (rdYc z) 0 m = 0 ∧ rdPoly (rdYc z) Rd.MU4 m = z 1 m - z 2 m ∧
    |rdPoly (rdYc z) Rd.MU3 m - (z 0 m - z 2 m)| ≤ 1 / 10 ^ 49 * |z 0 m - z 1 m| ∧
    |rdPoly (rdYc z) (-1) m - (0 - z 2 m)| ≤ 1 / 10 ^ 49 * |z 0 m - z 1 m| := by
  have hc : |(Rd.MU1 - Rd.MU2) / Rd.MU5 - 1| ≤ 1 / 10 ^ 49 := by
    simp only [Rd.MU1, Rd.MU2, Rd.MU5, abs_le]
    constructor <;> norm_num
  have e3 : rdPoly (rdYc z) Rd.MU3 m - (z 0 m - z 2 m) = ((Rd.MU1 - Rd.MU2) / Rd.MU5 - 1) * (z 0 m - z 1 m) := by
    simp only [rdPoly, rdYc, Matrix.cons_val_zero, Matrix.cons_val_one, Matrix.cons_val, Rd.MU1, Rd.MU2, Rd.MU3, Rd.MU4, Rd.MU5]
    ring
  have e4 : rdPoly (rdYc z) (-1) m - (0 - z 2 m) = ((Rd.MU1 - Rd.MU2) / Rd.MU5 - 1) * (z 0 m - z 1 m) := by
    simp only [rdPoly, rdYc, Matrix.cons_val_zero, Matrix.cons_val_one, Matrix.cons_val, Rd.MU1, Rd.MU2, Rd.MU3, Rd.MU4, Rd.MU5]
    ring
  refine ⟨by simp [rdPoly], ?_, ?_, ?_⟩
  · simp only [rdPoly, rdYc, Matrix.cons_val_zero, Matrix.cons_val_one, Matrix.cons_val, Rd.MU4]
    ring
  · rw [e3, abs_mul]
    exact mul_le_mul_of_nonneg_right hc (abs_nonneg _)
  · rw [e4, abs_mul]
    exact mul_le_mul_of_nonneg_right hc (abs_nonneg _)

/-- **C84**: the starting values of the iterations. Let the cubic `U` pass through the previous solution and the three stages of the
previous step, of stepsize `h_prev` and beginning at `x - h_prev`. After the first accepted step, and unless zero starting values
are wanted, the starting values of the stages of a step `h` from `x` are the increments of `U` at `x + c h`, for the three
collocation points `c`; otherwise they are zero. -/
theorem C84_starting_values {P : RdParams} {work : Workspace ℝ} {z : Stages n} {h x : ℝ} (u : Fin 4 → ℝ) (m : Fin n) {U : ℝ → ℝ}
    (hp : work.h_prev ≠ 0) (hU : ∀ t, U t = u 0 + u 1 * t + u 2 * t ^ 2 + u 3 * t ^ 3)
    (h0 : z 0 m = U (x - work.h_prev + Rd.MU1 * work.h_prev) - U (x - work.h_prev))
    (h1 : z 1 m = U (x - work.h_prev + Rd.MU2 * work.h_prev) - U (x - work.h_prev))
    (h2 : z 2 m = U x - U (x - work.h_prev)) :
    (work.stats.n_accepted ≠ 0 → P.zero_trial = false → ∀ i, |(rdTrial P work (rdYc z) h).1 i m -
      (U (x + ![Rd.MU1, Rd.MU2, 1] i * h) - U x)| ≤ 1 / 10 ^ 48 * (1 + |h / work.h_prev|) ^ 3 * |z 0 m - z 1 m|) ∧
    (work.stats.n_accepted = 0 ∨ P.zero_trial = true → (rdTrial P work (rdYc z) h).1 = 0) := by
  constructor
  · intro hn hz i
    have hq : ∀ c : ℝ, 0 ≤ c → c ≤ 1 → |rdPoly (rdYc z) (c * (h / work.h_prev)) m - (U (x + c * h) - U x)| ≤
        1 / 10 ^ 48 * (1 + |h / work.h_prev|) ^ 3 * |z 0 m - z 1 m| := by
      intro c hc0 hc1
      set q := work.h_prev
      have key := C84_polynomial (n := n) ![u 0 + u 1 * x + u 2 * x ^ 2 + u 3 * x ^ 3, (u 1 + 2 * u 2 * x + 3 * u 3 * x ^ 2) * q,
        (u 2 + 3 * u 3 * x) * q ^ 2, u 3 * q ^ 3] z m (U := fun s => U (x + s * q))
        (fun s => by simp only [hU, Matrix.cons_val_zero, Matrix.cons_val_one, Matrix.cons_val]; ring)
        (by rw [h0]; congr 2 <;> ring) (by rw [h1]; congr 2 <;> ring)
        (by rw [h2]; congr 2 <;> ring) (c * (h / q))
      have e : x + c * (h / q) * q = x + c * h := by field_simp
      simp only [e, zero_mul, add_zero] at key
      refine key.trans (mul_le_mul_of_nonneg_right (mul_le_mul_of_nonneg_left ?_ (by positivity)) (abs_nonneg _))
      refine pow_le_pow_left₀ (by positivity) ?_ 3
      rw [abs_mul, abs_of_nonneg hc0]
      have := mul_le_mul_of_nonneg_right hc1 (abs_nonneg (h / q))
      linarith
    unfold rdTrial
    rw [if_neg (by simp [hn, hz])]
    fin_cases i
    · exact hq Rd.MU1 (by unfold Rd.MU1; norm_num) (by unfold Rd.MU1; norm_num)
    · exact hq Rd.MU2 (by unfold Rd.MU2; norm_num) (by unfold Rd.MU2; norm_num)
    · have := hq 1 (by norm_num) le_rfl
      simpa using this
  · intro hc
    unfold rdTrial
    rw [if_pos hc]

/-- a parabola: the stages of a step from -2 to 0 -/
example : ∃ (work : Workspace ℝ) (z : Stages 1) (U : ℝ → ℝ), work.h_prev ≠ 0 ∧ work.stats.n_accepted ≠ 0 ∧
    (∀ t, U t = 0 + 1 * t + 1 * t ^ 2 + 0 * t ^ 3) ∧
    z 0 0 = U (0 - work.h_prev + Rd.MU1 * work.h_prev) - U (0 - work.h_prev) ∧
    z 1 0 = U (0 - work.h_prev + Rd.MU2 * work.h_prev) - U (0 - work.h_prev) ∧ z 2 0 = U 0 - U (0 - work.h_prev) :=
  ⟨⟨⟨0, 0, 0, 0, 1, 1, 0, 0, 0, 2⟩, false, false, 1, 2, 2, 1, 1, 0, 0, 0, 0, false⟩,
    ![fun _ => (0 - 2 + Rd.MU1 * 2) + (0 - 2 + Rd.MU1 * 2) ^ 2 - 2, fun _ => (0 - 2 + Rd.MU2 * 2) + (0 - 2 + Rd.MU2 * 2) ^ 2 - 2,
      fun _ => -2], fun t => t + t ^ 2, by norm_num, by simp, fun t => by ring,
    by simp; ring, by simp; ring, by simp; norm_num⟩

/-! ### The linear systems -/

/-- the mass matrix, the identity if there is none -/
def ImpSys.massMatrix (sys : ImpSys n A) : Matrix (Fin n) (Fin n) ℝ := sys.mass.getD 1

theorem massMul_eq (sys : ImpSys n A) (v : Vec n) : massMul sys.mass v = sys.massMatrix.mulVec v := by
  unfold massMul ImpSys.massMatrix
  cases sys.mass <;> simp

theorem rdReal_eq (sys : ImpSys n A) (J : Matrix (Fin n) (Fin n) ℝ) (h : ℝ) :
    rdReal sys.mass J h = (Rd.GAMMA / h) • sys.massMatrix - J := by
  unfold rdReal ImpSys.massMatrix
  ext i j
  cases sys.mass with
  | some m => simp; ring
  | none => by_cases hij : i = j <;> simp [Matrix.one_apply, hij]; ring

theorem rdComp_eq (sys : ImpSys n A) (J : Matrix (Fin n) (Fin n) ℝ) (h : ℝ) (i j : Fin n) :
    (rdComp sys.mass J h i j).re = Rd.ALPHA / h * sys.massMatrix i j - J i j ∧
    (rdComp sys.mass J h i j).im = Rd.BETA / h * sys.massMatrix i j := by
  unfold rdComp ImpSys.massMatrix
  cases sys.mass with
  | some m => simp; ring
  | none => by_cases hij : i = j <;> simp [Matrix.one_apply, hij]; ring

/-- the equation for the increments of the Newton method applied to the transformed collocation equations, with the matrices
for the stepsize `g` and the Jacobian matrix `J` -/
def RdNewton (M J : Matrix (Fin n) (Fin n) ℝ) (g : ℝ) (d r : Stages n) : Prop :=
  ∀ i, (∑ l, (rdLambda i l / g) • M.mulVec (d l)) - J.mulVec (d i) = r i

/-- the residual of the transformed equations: `TI k - Λ/h M w` -/
noncomputable def rdResidual (M : Matrix (Fin n) (Fin n) ℝ) (h : ℝ) (k w : Stages n) : Stages n := fun i =>
  (∑ j, Rd.TI i j • k j) - ∑ l, (rdLambda i l / h) • M.mulVec (w l)

theorem rdRhs_eq (sys : ImpSys n A) (h : ℝ) (k w : Stages n) : rdRhs sys.mass h k w = rdResidual sys.massMatrix h k w := by
  funext i
  unfold rdRhs rdResidual
  simp only [massMul_eq]
  fin_cases i <;> ext m <;> simp [rdTI, Fin.sum_univ_three, rdLambda] <;> ring

theorem both_ok {α β : Type} {c : Bool} {s1 s2 s3 : String} {r : Res α} {q : Res β} {u : α × β}
    (h : both c s1 s2 s3 r q = ok u) : r = ok u.1 ∧ q = ok u.2 := by
  unfold both at h
  cases c
  · simp only [Bool.false_eq_true, if_false] at h
    rw [bind_eq_ok] at h
    obtain ⟨a, h1, h⟩ := h
    rw [bind_eq_ok] at h
    obtain ⟨b, h2, h⟩ := h
    cases h
    exact ⟨h1, h2⟩
  · simp only [if_true] at h
    cases r <;> cases q <;> cases h
    exact ⟨rfl, rfl⟩

/-- The factors belong to the matrices for the stepsize `g` and the Jacobian matrix `J`. -/
def Factored (sys : ImpSys n A) (L : LinSol n) (Q : CLinSol n) (J : Matrix (Fin n) (Fin n) ℝ) (g : ℝ) (fr : Option L.F)
    (fc : Option Q.F) : Prop :=
  (∃ f, fr = some f ∧ L.factorize (rdReal sys.mass J g) = ok f) ∧ ∃ f, fc = some f ∧ Q.factorize (rdComp sys.mass J g) = ok f

/-- the values of the function at the stages -/
noncomputable def rdK (F : ℝ → Vec n → Vec n) (x : ℝ) (y : Vec n) (h : ℝ) (z : Stages n) : Stages n := fun i =>
  F (x + Rd.C i * h) (y + z i)

theorem rdIncrement_ok {P : RdParams} {sys : ImpSys n A} {L : LinSol n} {Q : CLinSol n}
    {F : ℝ → Vec n → Vec n} {J : ℝ → Vec n → Matrix (Fin n) (Fin n) ℝ} (hs : sys.Spec F J) {fr : Option L.F} {fc : Option Q.F}
    {x : ℝ} {y : Vec n} {h : ℝ} {z w d : Stages n} {a a' : A}
    (he : rdIncrement P sys L Q fr fc x y h z w a = ok (d, a')) :
    L.run fr (rdResidual sys.massMatrix h (rdK F x y h z) w 0) = ok (d 0) ∧
    Q.run fc (fun m => ⟨rdResidual sys.massMatrix h (rdK F x y h z) w 1 m, rdResidual sys.massMatrix h (rdK F x y h z) w 2 m⟩) =
      ok (fun m => ⟨d 1 m, d 2 m⟩) := by
  unfold rdIncrement at he
  rw [bind_eq_ok] at he
  obtain ⟨⟨k0, a0⟩, e0, he⟩ := he
  dsimp only at he
  rw [bind_eq_ok] at he
  obtain ⟨⟨k1, a1⟩, e1, he⟩ := he
  dsimp only at he
  rw [bind_eq_ok] at he
  obtain ⟨⟨k2, a2⟩, e2, he⟩ := he
  dsimp only at he
  rw [bind_eq_ok] at he
  obtain ⟨⟨d0, d12⟩, e3, he⟩ := he
  cases he
  have hk : (![k0, k1, k2] : Stages n) = rdK F x y h z := by
    have g0 := hs.f e0
    have g1 := hs.f e1
    have g2 := hs.f e2
    dsimp only at g0 g1 g2
    funext i
    fin_cases i
    · exact g0
    · exact g1
    · exact g2
  rw [hk, rdRhs_eq] at e3
  obtain ⟨h1, h2⟩ := both_ok e3
  exact ⟨h1, h2⟩

/-- **C84**: an iteration of the code is one of the simplified Newton method for the transformed equations, with the matrices
that have been factorized: the real and the complex system together give the increments. -/
theorem C84_increment {P : RdParams} {sys : ImpSys n A} {L : LinSol n} {Q : CLinSol n} (hL : L.Exact) (hQ : Q.Exact)
    {F : ℝ → Vec n → Vec n} {J : ℝ → Vec n → Matrix (Fin n) (Fin n) ℝ} (hs : sys.Spec F J) {Jg : Matrix (Fin n) (Fin n) ℝ} {g : ℝ}
    {fr : Option L.F} {fc : Option Q.F} (hf : Factored sys L Q Jg g fr fc) {x : ℝ} {y : Vec n} {h : ℝ} {z w d : Stages n} {a a' : A}
    (he : rdIncrement P sys L Q fr fc x y h z w a = ok (d, a')) :
    RdNewton sys.massMatrix Jg g d (rdResidual sys.massMatrix h (rdK F x y h z) w) := by
  obtain ⟨h1, h2⟩ := rdIncrement_ok hs he
  obtain ⟨⟨f, rfl, hf⟩, ⟨f', rfl, hf'⟩⟩ := hf
  have g1 := hL _ _ hf _ _ h1
  have g2 := hQ _ _ hf' _ _ h2
  rw [rdReal_eq] at g1
  have g3 : ∀ i, (∑ j, (rdComp sys.mass Jg g i j * (⟨d 1 j, d 2 j⟩ : ℂ)) : ℂ) =
      ⟨rdResidual sys.massMatrix h (rdK F x y h z) w 1 i, rdResidual sys.massMatrix h (rdK F x y h z) w 2 i⟩ :=
    fun i => congrFun g2 i
  generalize rdResidual sys.massMatrix h (rdK F x y h z) w = r at g1 g3 ⊢
  intro i
  fin_cases i
  · simp only [Fin.zero_eta]
    rw [← g1, Matrix.sub_mulVec, Matrix.smul_mulVec]
    simp [Fin.sum_univ_three, rdLambda]
  · ext m
    have := congrArg Complex.re (g3 m)
    simp only [Complex.re_sum, Complex.mul_re, rdComp_eq] at this
    simp only [Fin.mk_one, Fin.sum_univ_three, rdLambda, Matrix.cons_val_zero, Matrix.cons_val_one, Matrix.cons_val, zero_div, zero_smul, zero_add,
      Pi.sub_apply, Pi.add_apply, Pi.smul_apply, smul_eq_mul, Matrix.mulVec, dotProduct]
    rw [← this, Finset.mul_sum, Finset.mul_sum, ← Finset.sum_add_distrib, ← Finset.sum_sub_distrib]
    exact Finset.sum_congr rfl fun j _ => by ring
  · ext m
    have := congrArg Complex.im (g3 m)
    simp only [Complex.im_sum, Complex.mul_im, rdComp_eq] at this
    simp only [Fin.reduceFinMk, Fin.sum_univ_three, rdLambda, Matrix.cons_val_zero, Matrix.cons_val_one, Matrix.cons_val, zero_div, zero_smul, zero_add,
      Pi.sub_apply, Pi.add_apply, Pi.smul_apply, smul_eq_mul, Matrix.mulVec, dotProduct]
    rw [← this, Finset.mul_sum, Finset.mul_sum, ← Finset.sum_add_distrib, ← Finset.sum_sub_distrib]
    exact Finset.sum_congr rfl fun j _ => by ring

/-- The transformed equations stand for the collocation equations with the matrix `rdA`. -/
theorem rdResidual_zero {M : Matrix (Fin n) (Fin n) ℝ} {h : ℝ} (hh : h ≠ 0) {k w : Stages n} (hr : rdResidual M h k w = 0)
    (i : Fin 3) : M.mulVec (rdT w i) = h • ∑ j, rdA i j • k j := by
  have hT : M.mulVec (rdT w i) = ∑ l, Rd.T i l • M.mulVec (w l) := by
    have : rdT w i = ∑ l, Rd.T i l • w l := by ext m; simp [rdT, Fin.sum_univ_three]
    rw [this, Matrix.mulVec_sum]
    simp [Matrix.mulVec_smul]
  have hM : ∀ l, M.mulVec (w l) = h • ∑ p, rdLambdaInv l p • ∑ j, Rd.TI p j • k j := by
    intro l
    have e : ∀ p, ∑ j, Rd.TI p j • k j = ∑ q, (rdLambda p q / h) • M.mulVec (w q) := fun p => by
      have := congrFun hr p
      simp only [rdResidual, Pi.zero_apply] at this
      exact sub_eq_zero.1 this
    simp only [e]
    have inv : ∀ i j, ∑ k, rdLambdaInv i k * rdLambda k j = if i = j then 1 else 0 := by
      intro i j
      fin_cases i <;> fin_cases j <;> simp [Fin.sum_univ_three, rdLambda, rdLambdaInv, Rd.ALPHA, Rd.BETA, Rd.GAMMA] <;> norm_num
    have : h • ∑ p, rdLambdaInv l p • ∑ q, (rdLambda p q / h) • M.mulVec (w q) =
        ∑ q, (∑ p, rdLambdaInv l p * rdLambda p q) • M.mulVec (w q) := by
      ext m
      simp only [Pi.smul_apply, Pi.add_apply, smul_eq_mul, Fin.sum_univ_three]
      field_simp
      ring
    rw [this]
    simp [inv]
  rw [hT]
  simp only [hM]
  ext m
  simp only [rdA, Pi.smul_apply, Pi.add_apply, smul_eq_mul, Fin.sum_univ_three]
  ring

/-- **C84**: what the iterations solve. If an iteration started at `z = T w` has zero increments, the stages satisfy the
collocation equations `M zᵢ = h Σ aᵢⱼ f(x + cⱼ h, y + zⱼ)` of the Radau IIA tableau (with the matrix of `C84_transformation`),
whatever the matrices used by the solvers. -/
theorem C84_stationary {P : RdParams} {sys : ImpSys n A} {L : LinSol n} {Q : CLinSol n} (hL : L.Exact) (hQ : Q.Exact)
    {F : ℝ → Vec n → Vec n} {J : ℝ → Vec n → Matrix (Fin n) (Fin n) ℝ} (hs : sys.Spec F J) {Jg : Matrix (Fin n) (Fin n) ℝ} {g : ℝ}
    {fr : Option L.F} {fc : Option Q.F} (hf : Factored sys L Q Jg g fr fc) {x : ℝ} {y : Vec n} {h : ℝ} (hh : h ≠ 0)
    {w : Stages n} {a a' : A} (he : rdIncrement P sys L Q fr fc x y h (rdT w) w a = ok (0, a')) (i : Fin 3) :
    sys.massMatrix.mulVec (rdT w i) = h • ∑ j, rdA i j • F (x + Rd.C j * h) (y + rdT w j) := by
  have := C84_increment hL hQ hs hf he
  refine rdResidual_zero (k := rdK F x y h (rdT w)) hh ?_ i
  funext i
  rw [← this i]
  simp

/-- **C84**: linear systems. With the exact Jacobian matrix and matrices for the current stepsize one iteration started at
`z = T w` leaves the residual `B (TI T - 1) d`, that is nothing but the rounding of the entries of `T` and `TI` (`10⁻¹⁹` by
`C84_transformation`). -/
theorem C84_linear {sys : ImpSys n A} {B : Matrix (Fin n) (Fin n) ℝ} {b : ℝ → Vec n} {x : ℝ} {y : Vec n} {h : ℝ}
    {w d : Stages n}
    (hd : RdNewton sys.massMatrix B h d (rdResidual sys.massMatrix h (rdK (fun x y => B.mulVec y + b x) x y h (rdT w)) w)) (i : Fin 3) :
    rdResidual sys.massMatrix h (rdK (fun x y => B.mulVec y + b x) x y h (rdT (w + d))) (w + d) i =
      B.mulVec (∑ l, ((∑ k, Rd.TI i k * Rd.T k l) - if i = l then 1 else 0) • d l) := by
  have hi := hd i
  have e1 : ∀ j, rdT (w + d) j = rdT w j + rdT d j := by
    intro j; ext m; simp [rdT]; ring
  have e2 : rdResidual sys.massMatrix h (rdK (fun x y => B.mulVec y + b x) x y h (rdT (w + d))) (w + d) i =
      rdResidual sys.massMatrix h (rdK (fun x y => B.mulVec y + b x) x y h (rdT w)) w i + (∑ j, Rd.TI i j • B.mulVec (rdT d j)) -
        ∑ l, (rdLambda i l / h) • sys.massMatrix.mulVec (d l) := by
    simp only [rdResidual, rdK, e1, Matrix.mulVec_add, Pi.add_apply, smul_add, Finset.sum_add_distrib]
    abel
  rw [e2, ← hi]
  have e3 : (∑ j, Rd.TI i j • B.mulVec (rdT d j)) = B.mulVec (∑ l, (∑ k, Rd.TI i k * Rd.T k l) • d l) := by
    simp only [← Matrix.mulVec_smul, ← Matrix.mulVec_sum]
    congr 1
    ext m
    simp [rdT, Fin.sum_univ_three]
    ring
  rw [e3, add_sub_right_comm, sub_sub_cancel_left, neg_add_eq_sub, ← Matrix.mulVec_sub]
  congr 1
  simp only [sub_smul, Finset.sum_sub_distrib]
  congr 1
  fin_cases i <;> simp [Fin.sum_univ_three]

/-- **C84**: quadrature. If the function does not depend on the solution, one iteration from `z = T w` gives the stages of the
tableau exactly. -/
theorem C84_quadrature {sys : ImpSys n A} {b : ℝ → Vec n} {x : ℝ} {y : Vec n} {h : ℝ} (hh : h ≠ 0) {w d : Stages n}
    (hd : RdNewton sys.massMatrix 0 h d (rdResidual sys.massMatrix h (rdK (fun x _ => b x) x y h (rdT w)) w)) (i : Fin 3) :
    sys.massMatrix.mulVec (rdT (w + d) i) = h • ∑ j, rdA i j • b (x + Rd.C j * h) := by
  have hb : (fun (x : ℝ) (_ : Vec n) => b x) = fun x y => (0 : Matrix (Fin n) (Fin n) ℝ).mulVec y + b x := by
    funext x y; simp
  refine rdResidual_zero (k := rdK (fun x _ => b x) x y h (rdT (w + d))) hh ?_ i
  funext i
  rw [hb] at hd ⊢
  rw [C84_linear hd i, Matrix.zero_mulVec]
  rfl

end Russell.Ode
