import Verif.Ode.Samples
import Mathlib.Analysis.ODE.ExistUnique
import Mathlib.Analysis.SpecialFunctions.Sqrt
import Mathlib.Analysis.SpecialFunctions.ExpDeriv
import Mathlib.Analysis.SpecialFunctions.Log.Deriv
import Mathlib.Analysis.SpecialFunctions.Trigonometric.Deriv
import Mathlib.Analysis.Calculus.MeanValue
import Mathlib.Topology.Algebra.Module.FiniteDimension
import Mathlib.LinearAlgebra.Matrix.ToLin

/-!
# `System` and the sample problems: properties (C96)
-/

namespace Russell.Ode.Samples

open Russell Russell.Res Russell.Sparse Russell.Pde

variable {σ : Type} {n : Nat}

/-- vectors -/
abbrev V (n : Nat) := Fin n → ℝ

/-- `c` is a well-formed square matrix of dimension `n` with room for `nnz` entries, storage `sym`, and entries `es` -/
structure Fits (c : Coo ℝ) (n nnz : Nat) (sym : Sym) (es : List (Entry ℝ)) : Prop where
  rep : c.Rep es
  nrow : c.nrow = n
  ncol : c.ncol = n
  cap : nnz ≤ c.maxNnz
  sym : c.symmetric = sym

/-- the function of the system computes `F` (whatever the vector to be written contained) -/
def Sys.Computes (S : Sys σ) (a : σ) (F : ℝ → V n → V n) : Prop :=
  S.ndim = n ∧ ∀ (f : List ℝ) (x : ℝ) (y : V n), f.length = n → S.function f x (List.ofFn y) a = ok (List.ofFn (F x y), a)

/-- the callback of the Jacobian writes `alpha * J`: in any matrix with the size, the room and the storage announced by the system -/
def Sys.JacIs (S : Sys σ) (a : σ) (J : ℝ → V n → Matrix (Fin n) (Fin n) ℝ) : Prop :=
  ∃ jac, S.jacobian = some jac ∧ ∀ (c : Coo ℝ) (es : List (Entry ℝ)) (alpha x : ℝ) (y : V n), Fits c n S.jac_nnz S.symmetric es →
    ∃ c' es', jac c alpha x (List.ofFn y) a = ok (c', a) ∧ Fits c' n S.jac_nnz S.symmetric es' ∧ c'.maxNnz = c.maxNnz ∧ es'.length ≤ S.jac_nnz ∧
      ∀ i j : Fin n, denseOf S.symmetric es' i j = alpha * J x y i j

/-- the mass matrix of the system is `M` (the identity if there is none) -/
def Sys.MassIs (S : Sys σ) (M : Matrix (Fin n) (Fin n) ℝ) : Prop :=
  (S.calc_mass = none ∧ M = 1) ∨ ∃ mass, S.calc_mass = some mass ∧ ∀ c : Coo ℝ, Fits c n S.mass_nnz S.symmetric [] →
    ∃ c' es', mass c = ok c' ∧ Fits c' n S.mass_nnz S.symmetric es' ∧ ∀ i j : Fin n, denseOf S.symmetric es' i j = M i j

/-- the linear map of a matrix -/
noncomputable def lin (J : Matrix (Fin n) (Fin n) ℝ) : V n →L[ℝ] V n := (Matrix.toLin' J).toContinuousLinearMap

/-- function and Jacobian of the system fit together: the Jacobian is the derivative of the function on the domain `D` -/
def Sys.Consistent (S : Sys σ) (a : σ) (n : Nat) (D : ℝ → V n → Prop) : Prop :=
  ∃ (F : ℝ → V n → V n) (J : ℝ → V n → Matrix (Fin n) (Fin n) ℝ), S.Computes a F ∧ S.JacIs a J ∧ ∀ x y, D x y → HasFDerivAt (F x) (lin (J x y)) y

/-- a solution of `M y' = F(x, y)` on `I` -/
def IsSolution (M : Matrix (Fin n) (Fin n) ℝ) (F : ℝ → V n → V n) (I : Set ℝ) (Y : ℝ → V n) : Prop :=
  ∀ x ∈ I, ∃ v, HasDerivAt Y v x ∧ M.mulVec v = F x (Y x)

/-- `yfn` is the solution of the initial value problem on `I`, and there is no other one -/
def SolvedBy (S : Sample σ) (n : Nat) (I : Set ℝ) (yfn : FnY) : Prop :=
  ∃ (F : ℝ → V n → V n) (M : Matrix (Fin n) (Fin n) ℝ) (Y : ℝ → V n), S.system.Computes S.args F ∧ S.system.MassIs M ∧
    (∀ (y : List ℝ) (x : ℝ), y.length = n → yfn y x = ok (List.ofFn (Y x))) ∧ S.x0 ∈ I ∧ S.y0 = List.ofFn (Y S.x0) ∧
    IsSolution M F I Y ∧ ∀ Z, IsSolution M F I Z → S.y0 = List.ofFn (Z S.x0) → ∀ x ∈ I, Z x = Y x

/-! ### Storage -/

theorem putAll_fits {c : Coo ℝ} {nnz : Nat} {sym : Sym} : ∀ {l : List (Entry ℝ)} {c : Coo ℝ} {es : List (Entry ℝ)}, Fits c n nnz sym es →
    (∀ e ∈ l, e.1 < n ∧ e.2.1 < n ∧ InTriangle sym e.1 e.2.1) → es.length + l.length ≤ nnz →
    ∃ c', putAll c l = ok c' ∧ Fits c' n nnz sym (es ++ l) ∧ c'.maxNnz = c.maxNnz := by
  intro l
  induction l with
  | nil => intro c es h _ _; exact ⟨c, rfl, by simpa using h, rfl⟩
  | cons e l ih =>
    intro c es h hl hn
    have hs := Coo.put_spec h.rep e.1 e.2.1 e.2.2
    obtain ⟨h1, h2, h3⟩ := hl e (List.mem_cons_self ..)
    have hcap := h.cap
    rw [List.length_cons] at hn
    rw [if_pos ⟨by rw [h.nrow]; exact h1, by rw [h.ncol]; exact h2, by omega, by rw [h.sym]; exact h3⟩] at hs
    obtain ⟨c1, e1, r1, a1, a2, a3, a4⟩ := hs
    obtain ⟨c2, e2, r2, r3⟩ := ih (c := c1) (es := es ++ [(e.1, e.2.1, e.2.2)]) ⟨r1, by rw [a1, h.nrow], by rw [a2, h.ncol], by rw [a3]; exact h.cap, by rw [a4, h.sym]⟩
      (fun e he => hl e (List.mem_cons_of_mem _ he)) (by rw [List.length_append, List.length_singleton]; omega)
    refine ⟨c2, ?_, ?_, by rw [r3, a3]⟩
    · show (unwrapM (c.put e.1 e.2.1 e.2.2) >>= fun c => putAll c l) = ok c2
      rw [e1]
      exact e2
    · simpa using r2

theorem Fits.reset {c : Coo ℝ} {nnz : Nat} {sym : Sym} {es : List (Entry ℝ)} (h : Fits c n nnz sym es) : Fits c.reset n nnz sym [] :=
  ⟨Coo.reset_rep h.rep, h.nrow, h.ncol, h.cap, h.sym⟩

/-- a callback that puts fixed entries -/
theorem jac_of {S : Sys σ} {a : σ} {J : ℝ → V n → Matrix (Fin n) (Fin n) ℝ} {jac : FnJ σ} (hj : S.jacobian = some jac)
    (E : ℝ → ℝ → V n → List (Entry ℝ))
    (h1 : ∀ c alpha x (y : V n), jac c alpha x (List.ofFn y) a = (putAll c.reset (E alpha x y) >>= fun c => ok (c, a)))
    (h2 : ∀ alpha x y, ∀ e ∈ E alpha x y, e.1 < n ∧ e.2.1 < n ∧ InTriangle S.symmetric e.1 e.2.1)
    (h3 : ∀ alpha x y, (E alpha x y).length ≤ S.jac_nnz)
    (h4 : ∀ alpha x y, ∀ i j : Fin n, denseOf S.symmetric (E alpha x y) i j = alpha * J x y i j) : S.JacIs a J := by
  refine ⟨jac, hj, fun c es alpha x y h => ?_⟩
  obtain ⟨c', e, f, g⟩ := putAll_fits (c := c) h.reset (h2 alpha x y) (by simpa using h3 alpha x y)
  refine ⟨c', E alpha x y, ?_, by simpa using f, g, h3 alpha x y, h4 alpha x y⟩
  rw [h1, e, ok_bind]

theorem mass_of {S : Sys σ} {M : Matrix (Fin n) (Fin n) ℝ} {E : List (Entry ℝ)} (hm : S.calc_mass = some fun c => putAll c E)
    (h2 : ∀ e ∈ E, e.1 < n ∧ e.2.1 < n ∧ InTriangle S.symmetric e.1 e.2.1) (h3 : E.length ≤ S.mass_nnz)
    (h4 : ∀ i j : Fin n, denseOf S.symmetric E i j = M i j) : S.MassIs M := by
  refine Or.inr ⟨_, hm, fun c h => ?_⟩
  obtain ⟨c', e, f, _⟩ := putAll_fits (c := c) h h2 (by simpa using h3)
  exact ⟨c', E, e, by simpa using f, h4⟩

/-! ### Calculus -/

theorem hasFDeriv_of {F : V n → V n} {J : Matrix (Fin n) (Fin n) ℝ} {y : V n}
    (h : ∀ i, ∃ L : V n →L[ℝ] ℝ, HasFDerivAt (fun y => F y i) L y ∧ ∀ v, L v = ∑ j, J i j * v j) : HasFDerivAt F (lin J) y := by
  rw [hasFDerivAt_pi']
  intro i
  obtain ⟨L, hL, hv⟩ := h i
  refine hL.congr_fderiv ?_
  ext v
  rw [hv]
  simp [lin, Matrix.mulVec, dotProduct]

/-- two solutions of a linear system with constant coefficients agree if they agree at one point -/
theorem unique_of {M A : Matrix (Fin n) (Fin n) ℝ} {N : Matrix (Fin n) (Fin n) ℝ} (hN : N * M = 1) {F : ℝ → V n → V n}
    (hF : ∀ x y z, F x y - F x z = A.mulVec (y - z)) {I : Set ℝ} {x0 : ℝ}
    (hI : ∀ x ∈ I, ∃ a b, x0 ∈ Set.Ioo a b ∧ x ∈ Set.Ioo a b ∧ Set.Ioo a b ⊆ I)
    {Y Z : ℝ → V n} (hY : IsSolution M F I Y) (hZ : IsSolution M F I Z) (h0 : Z x0 = Y x0) : ∀ x ∈ I, Z x = Y x := by
  intro x hx
  obtain ⟨a, b, h1, h2, h3⟩ := hI x hx
  have sol : ∀ {W : ℝ → V n}, IsSolution M F I W → ∀ t ∈ Set.Ioo a b, HasDerivAt W (N.mulVec (F t (W t))) t ∧ W t ∈ (Set.univ : Set (V n)) := by
    intro W hW t ht
    obtain ⟨v, hv, hm⟩ := hW t (h3 ht)
    refine ⟨?_, trivial⟩
    rw [← hm, Matrix.mulVec_mulVec, hN, Matrix.one_mulVec]
    exact hv
  refine ODE_solution_unique_of_mem_Ioo (v := fun t y => N.mulVec (F t y)) (s := fun _ => Set.univ) (K := ‖lin (N * A)‖₊) ?_ h1 (sol hZ) (sol hY) h0 h2
  intro t _
  refine LipschitzWith.lipschitzOnWith (LipschitzWith.of_dist_le_mul fun y z => ?_)
  have e : N.mulVec (F t y) - N.mulVec (F t z) = lin (N * A) (y - z) := by
    rw [← Matrix.mulVec_sub, hF, Matrix.mulVec_mulVec]
    rfl
  rw [dist_eq_norm, dist_eq_norm, e]
  exact (lin (N * A)).le_opNorm _

theorem unique_univ {M A : Matrix (Fin n) (Fin n) ℝ} {N : Matrix (Fin n) (Fin n) ℝ} (hN : N * M = 1) {F : ℝ → V n → V n}
    (hF : ∀ x y z, F x y - F x z = A.mulVec (y - z)) {x0 : ℝ} {Y Z : ℝ → V n} (hY : IsSolution M F Set.univ Y) (hZ : IsSolution M F Set.univ Z)
    (h0 : Z x0 = Y x0) : ∀ x ∈ Set.univ, Z x = Y x :=
  unique_of hN hF (fun x _ => ⟨min x x0 - 1, max x x0 + 1, ⟨by linarith [min_le_right x x0], by linarith [le_max_right x x0]⟩,
    ⟨by linarith [min_le_left x x0], by linarith [le_max_left x x0]⟩, Set.subset_univ _⟩) hY hZ h0

theorem solved_of {S : Sample σ} {I : Set ℝ} {yfn : FnY} {F : ℝ → V n → V n} {M A N : Matrix (Fin n) (Fin n) ℝ} {Y : ℝ → V n}
    (h1 : S.system.Computes S.args F) (h2 : S.system.MassIs M) (h3 : ∀ (y : List ℝ) (x : ℝ), y.length = n → yfn y x = ok (List.ofFn (Y x)))
    (h4 : S.y0 = List.ofFn (Y S.x0)) (h5 : IsSolution M F I Y) (hN : N * M = 1) (hF : ∀ x y z, F x y - F x z = A.mulVec (y - z))
    (h0 : S.x0 ∈ I) (hI : ∀ x ∈ I, ∃ a b, S.x0 ∈ Set.Ioo a b ∧ x ∈ Set.Ioo a b ∧ Set.Ioo a b ⊆ I) : SolvedBy S n I yfn :=
  ⟨F, M, Y, h1, h2, h3, h0, h4, h5, fun Z hZ hz => unique_of hN hF hI h5 hZ (List.ofFn_injective (hz.symm.trans h4))⟩

theorem int_univ (x0 : ℝ) : ∀ x ∈ (Set.univ : Set ℝ), ∃ a b, x0 ∈ Set.Ioo a b ∧ x ∈ Set.Ioo a b ∧ Set.Ioo a b ⊆ Set.univ :=
  fun x _ => ⟨min x x0 - 1, max x x0 + 1, ⟨by linarith [min_le_right x x0], by linarith [le_max_right x x0]⟩,
    ⟨by linarith [min_le_left x x0], by linarith [le_max_left x x0]⟩, Set.subset_univ _⟩

/-! ### The samples -/

/-- **C96** `simple_equation_constant`: the Jacobian is the derivative, and `y_fn_x` is the only solution. -/
theorem C96_simple_equation_constant : ∃ S yfn, simpleEquationConstant = ok (S, yfn) ∧ S.system.Consistent S.args 1 (fun _ _ => True) ∧
    SolvedBy S 1 Set.univ yfn := by
  have hC : ∀ S yfn, simpleEquationConstant = ok (S, yfn) → S.system.Computes S.args (fun (_ : ℝ) (_ : V 1) => ![1]) := by
    rintro _ _ ⟨⟩
    refine ⟨rfl, fun f x y hf => ?_⟩
    match f, hf with
    | [f0], _ => rfl
  refine ⟨_, _, rfl, ⟨_, fun _ _ => !![0], hC _ _ rfl, ?_, ?_⟩, ?_⟩
  · refine jac_of rfl (fun alpha _ _ => [(0, 0, 0 * alpha)]) (fun c alpha x y => rfl) ?_ (fun _ _ _ => le_refl 1) ?_
    · intro alpha x y
      simp [InTriangle]
    · intro alpha x y i j
      fin_cases i; fin_cases j
      simp [denseOf, Hits]
  · intro x y _
    refine hasFDeriv_of fun i => ?_
    fin_cases i
    exact ⟨0, hasFDerivAt_const _ _, fun v => by simp⟩
  · refine solved_of (M := 1) (N := 1) (A := 0) (Y := fun x => ![x]) (hC _ _ rfl) (Or.inl ⟨rfl, rfl⟩) ?_ (by simp) ?_ (by simp) (by simp) trivial (int_univ _)
    · intro y x hy
      match y, hy with
      | [y0], _ => rfl
    · intro x _
      refine ⟨![1], ?_, by simp⟩
      rw [hasDerivAt_pi]
      intro i
      fin_cases i
      exact hasDerivAt_id x

/-- **C96** `kreyszig_eq6_page902`. -/
theorem C96_kreyszig_eq6 : ∃ S yfn, kreyszigEq6 = ok (S, yfn) ∧ S.system.Consistent S.args 1 (fun _ _ => True) ∧
    SolvedBy S 1 Set.univ yfn := by
  have hC : ∀ S yfn, kreyszigEq6 = ok (S, yfn) → S.system.Computes S.args (fun (x : ℝ) (y : V 1) => ![x + y 0]) := by
    rintro _ _ ⟨⟩
    refine ⟨rfl, fun f x y hf => ?_⟩
    match f, hf with
    | [f0], _ => rfl
  refine ⟨_, _, rfl, ⟨_, fun _ _ => !![1], hC _ _ rfl, ?_, ?_⟩, ?_⟩
  · refine jac_of rfl (fun alpha _ _ => [(0, 0, 1 * alpha)]) (fun c alpha x y => rfl) ?_ (fun _ _ _ => le_refl 1) ?_
    · intro alpha x y
      simp [InTriangle]
    · intro alpha x y i j
      fin_cases i; fin_cases j
      simp [denseOf, Hits]
  · intro x y _
    refine hasFDeriv_of fun i => ?_
    fin_cases i
    exact ⟨_, (hasFDerivAt_apply 0 y).const_add x, fun v => by simp⟩
  · refine solved_of (M := 1) (N := 1) (A := 1) (Y := fun x => ![Real.exp x - x - 1]) (hC _ _ rfl) (Or.inl ⟨rfl, rfl⟩) ?_ (by simp) ?_ (by simp) ?_ trivial (int_univ _)
    · intro y x hy
      match y, hy with
      | [y0], _ => rfl
    · intro x _
      refine ⟨![Real.exp x - 1], ?_, by simp; ring⟩
      rw [hasDerivAt_pi]
      intro i
      fin_cases i
      exact ((Real.hasDerivAt_exp x).sub (hasDerivAt_id x)).sub_const 1
    · intro x y z
      ext i
      fin_cases i
      simp

/-- **C96** `hairer_wanner_eq1`. -/
theorem C96_hairer_wanner_eq1 : ∃ S yfn, hairerWannerEq1 = ok (S, yfn) ∧ S.system.Consistent S.args 1 (fun _ _ => True) ∧
    SolvedBy S 1 Set.univ yfn := by
  have hC : ∀ S yfn, hairerWannerEq1 = ok (S, yfn) → S.system.Computes S.args (fun (x : ℝ) (y : V 1) => ![-50 * (y 0 - Real.cos x)]) := by
    rintro _ _ ⟨⟩
    refine ⟨rfl, fun f x y hf => ?_⟩
    match f, hf with
    | [f0], _ => rfl
  refine ⟨_, _, rfl, ⟨_, fun _ _ => !![-50], hC _ _ rfl, ?_, ?_⟩, ?_⟩
  · refine jac_of rfl (fun alpha _ _ => [(0, 0, alpha * -50)]) (fun c alpha x y => rfl) ?_ (fun _ _ _ => le_refl 1) ?_
    · intro alpha x y
      simp [InTriangle]
    · intro alpha x y i j
      fin_cases i; fin_cases j
      simp [denseOf, Hits]
  · intro x y _
    refine hasFDeriv_of fun i => ?_
    fin_cases i
    exact ⟨_, ((hasFDerivAt_apply 0 y).sub_const (Real.cos x)).const_mul (-50), fun v => by simp⟩
  · refine solved_of (M := 1) (N := 1) (A := !![-50])
      (Y := fun x => ![-(-50) * (Real.sin x - (-50) * Real.cos x + (-50) * Real.exp (-50 * x)) / (-50 * -50 + 1)]) (hC _ _ rfl) (Or.inl ⟨rfl, rfl⟩) ?_
      (by simp) ?_ (by simp) ?_ trivial (int_univ _)
    · intro y x hy
      match y, hy with
      | [y0], _ => rfl
    · intro x _
      refine ⟨![-(-50) * (Real.cos x - (-50) * (-Real.sin x) + (-50) * (Real.exp (-50 * x) * (-50 * 1))) / (-50 * -50 + 1)], ?_, ?_⟩
      · rw [hasDerivAt_pi]
        intro i
        fin_cases i
        exact ((((Real.hasDerivAt_sin x).sub ((Real.hasDerivAt_cos x).const_mul (-50))).add
          (((hasDerivAt_id x).const_mul (-50)).exp.const_mul (-50))).const_mul (-(-50))).div_const _
      · ext i
        fin_cases i
        simp
        ring
    · intro x y z
      ext i
      fin_cases i
      simp [Matrix.mulVec, dotProduct]
      ring

/-- **C96** `kreyszig_ex4_page920`. -/
theorem C96_kreyszig_ex4 : ∃ S yfn, kreyszigEx4 = ok (S, yfn) ∧ S.system.Consistent S.args 2 (fun _ _ => True) ∧
    SolvedBy S 2 Set.univ yfn := by
  have hC : ∀ S yfn, kreyszigEx4 = ok (S, yfn) → S.system.Computes S.args
      (fun (x : ℝ) (y : V 2) => ![y 1, -10 * y 0 - 11 * y 1 + 10 * x + 11]) := by
    rintro _ _ ⟨⟩
    refine ⟨rfl, fun f x y hf => ?_⟩
    match f, hf with
    | [f0, f1], _ => rfl
  refine ⟨_, _, rfl, ⟨_, fun _ _ => !![0, 1; -10, -11], hC _ _ rfl, ?_, ?_⟩, ?_⟩
  · refine jac_of rfl (fun alpha _ _ => [(0, 1, 1 * alpha), (1, 0, -10 * alpha), (1, 1, -11 * alpha)]) (fun c alpha x y => rfl) ?_ (fun _ _ _ => le_refl 3) ?_
    · intro alpha x y
      simp [InTriangle]
    · intro alpha x y i j
      fin_cases i <;> fin_cases j <;> simp [denseOf, Hits] <;> ring
  · intro x y _
    refine hasFDeriv_of fun i => ?_
    fin_cases i
    · exact ⟨_, hasFDerivAt_apply 1 y, fun v => by simp⟩
    · exact ⟨_, ((((hasFDerivAt_apply 0 y).const_mul (-10)).sub ((hasFDerivAt_apply 1 y).const_mul 11)).add_const _).add_const _,
        fun v => by simp [Fin.sum_univ_succ]; ring⟩
  · refine solved_of (M := 1) (N := 1) (A := !![0, 1; -10, -11])
      (Y := fun x => ![Real.exp (-x) + Real.exp (-10 * x) + x, -Real.exp (-x) - 10 * Real.exp (-10 * x) + 1]) (hC _ _ rfl) (Or.inl ⟨rfl, rfl⟩) ?_
      (by simp; norm_num) ?_ (by simp) ?_ trivial (int_univ _)
    · intro y x hy
      match y, hy with
      | [y0, y1], _ => rfl
    · intro x _
      have e1 : HasDerivAt (fun x : ℝ => Real.exp (-x)) (Real.exp (-x) * -1) x := (hasDerivAt_neg x).exp
      have e2 : HasDerivAt (fun x : ℝ => Real.exp (-10 * x)) (Real.exp (-10 * x) * (-10 * 1)) x := ((hasDerivAt_id x).const_mul (-10)).exp
      refine ⟨![Real.exp (-x) * -1 + Real.exp (-10 * x) * (-10 * 1) + 1, -(Real.exp (-x) * -1) - 10 * (Real.exp (-10 * x) * (-10 * 1))], ?_, ?_⟩
      · rw [hasDerivAt_pi]
        intro i
        fin_cases i
        · exact (e1.add e2).add (hasDerivAt_id x)
        · exact (e1.neg.sub (e2.const_mul 10)).add_const 1
      · ext i
        fin_cases i <;> simp <;> ring
    · intro x y z
      ext i
      fin_cases i <;> simp [Matrix.mulVec, dotProduct, Fin.sum_univ_succ]
      ring

/-- **C96** `brusselator_ode`. -/
theorem C96_brusselator_ode : ∃ S, brusselatorOde = ok S ∧ S.system.Consistent S.args 2 (fun _ _ => True) ∧ S.system.MassIs (1 : Matrix (Fin 2) (Fin 2) ℝ) := by
  refine ⟨_, rfl, ⟨fun _ y => ![1 - 4 * y 0 + y 0 * y 0 * y 1, 3 * y 0 - y 0 * y 0 * y 1],
    fun _ y => !![-4 + 2 * y 0 * y 1, y 0 * y 0; 3 - 2 * y 0 * y 1, -y 0 * y 0], ⟨rfl, fun f x y hf => ?_⟩, ?_, ?_⟩, Or.inl ⟨rfl, rfl⟩⟩
  · match f, hf with
    | [f0, f1], _ => rfl
  · refine jac_of rfl (fun alpha _ y => [(0, 0, alpha * (-4 + 2 * y 0 * y 1)), (0, 1, alpha * (y 0 * y 0)), (1, 0, alpha * (3 - 2 * y 0 * y 1)),
      (1, 1, alpha * (-y 0 * y 0))]) (fun c alpha x y => rfl) ?_ (fun _ _ _ => le_refl 4) ?_
    · intro alpha x y
      simp [InTriangle]
    · intro alpha x y i j
      fin_cases i <;> fin_cases j <;> simp [denseOf, Hits]
  · intro x y _
    have p0 := hasFDerivAt_apply (𝕜 := ℝ) (0 : Fin 2) y
    have p1 := hasFDerivAt_apply (𝕜 := ℝ) (1 : Fin 2) y
    refine hasFDeriv_of fun i => ?_
    fin_cases i
    · exact ⟨_, ((p0.const_mul 4).const_sub 1).add ((p0.mul p0).mul p1), fun v => by simp [Fin.sum_univ_succ]; ring⟩
    · exact ⟨_, (p0.const_mul 3).sub ((p0.mul p0).mul p1), fun v => by simp [Fin.sum_univ_succ]; ring⟩

/-- the equations of `robertson` -/
noncomputable def robF (y : V 3) : V 3 :=
  ![-0.04 * y 0 + 1.0e4 * y 1 * y 2, 0.04 * y 0 - 1.0e4 * y 1 * y 2 - 3.0e7 * y 1 * y 1, 3.0e7 * y 1 * y 1]

theorem rob_computes {S : Sample NoArgs} (h : robertson = ok S) : S.system.Computes S.args (fun (_ : ℝ) => robF) := by
  cases h
  refine ⟨rfl, fun f x y hf => ?_⟩
  match f, hf with
  | [f0, f1, f2], _ => rfl

/-- **C96** `robertson`. -/
theorem C96_robertson : ∃ S, robertson = ok S ∧ S.system.Consistent S.args 3 (fun _ _ => True) ∧ S.system.MassIs (1 : Matrix (Fin 3) (Fin 3) ℝ) := by
  refine ⟨_, rfl, ⟨_, fun _ y => !![-0.04, 1.0e4 * y 2, 1.0e4 * y 1; 0.04, -1.0e4 * y 2 - 6.0e7 * y 1, -1.0e4 * y 1; 0, 6.0e7 * y 1, 0],
    rob_computes rfl, ?_, ?_⟩, Or.inl ⟨rfl, rfl⟩⟩
  · refine jac_of rfl (fun alpha _ y => [(0, 0, -0.04 * alpha), (0, 1, 1.0e4 * y 2 * alpha), (0, 2, 1.0e4 * y 1 * alpha), (1, 0, 0.04 * alpha),
      (1, 1, (-1.0e4 * y 2 - 6.0e7 * y 1) * alpha), (1, 2, (-1.0e4 * y 1) * alpha), (2, 1, 6.0e7 * y 1 * alpha)]) (fun c alpha x y => rfl) ?_
      (fun _ _ _ => le_refl 7) ?_
    · intro alpha x y
      simp [InTriangle]
    · intro alpha x y i j
      fin_cases i <;> fin_cases j <;> simp [denseOf, Hits] <;> ring
  · intro x y _
    have p0 := hasFDerivAt_apply (𝕜 := ℝ) (0 : Fin 3) y
    have p1 := hasFDerivAt_apply (𝕜 := ℝ) (1 : Fin 3) y
    have p2 := hasFDerivAt_apply (𝕜 := ℝ) (2 : Fin 3) y
    refine hasFDeriv_of fun i => ?_
    fin_cases i
    · exact ⟨_, (p0.const_mul (-0.04)).add ((p1.const_mul 1.0e4).mul p2), fun v => by simp [Fin.sum_univ_succ]; ring⟩
    · exact ⟨_, ((p0.const_mul 0.04).sub ((p1.const_mul 1.0e4).mul p2)).sub ((p1.const_mul 3.0e7).mul p1), fun v => by simp [Fin.sum_univ_succ]; ring⟩
    · exact ⟨_, (p1.const_mul 3.0e7).mul p1, fun v => by simp [Fin.sum_univ_succ]; ring⟩

/-- **C96** `van_der_pol`: `epsilon` is ignored in the stationary case and must not be zero otherwise. -/
theorem C96_van_der_pol (epsilon : ℝ) (stationary : Bool) (_he : stationary = false → epsilon ≠ 0) :
    ∃ S x1, vanDerPol epsilon stationary = ok (S, x1) ∧ S.system.Consistent S.args 2 (fun _ _ => True) ∧
      S.system.MassIs (1 : Matrix (Fin 2) (Fin 2) ℝ) ∧ S.x0 < x1 ∧ S.x0 = 0 ∧ (stationary = false → S.y0 = [2, -0.6] ∧ x1 = 2) ∧
      (stationary = true → S.y0 = [2.00861986087484313650940188, 0] ∧ x1 = 6.6632868593231301896996820305) ∧
      S.system.Computes S.args (fun (_ : ℝ) (y : V 2) => ![y 1, ((1 - y 0 ^ 2) * y 1 - y 0) / (if stationary then 1 else epsilon)]) := by
  have hC : ∀ S x1, vanDerPol epsilon stationary = ok (S, x1) → S.system.Computes S.args
      (fun (_ : ℝ) (y : V 2) => ![y 1, ((1 - y 0 * y 0) * y 1 - y 0) / (if stationary then 1 else epsilon)]) := by
    rintro _ _ ⟨⟩
    refine ⟨rfl, fun f x y hf => ?_⟩
    match f, hf with
    | [f0, f1], _ => rfl
  refine ⟨_, _, rfl, ⟨_, fun _ y => !![0, 1; (-2 * y 0 * y 1 - 1) / (if stationary then 1 else epsilon),
    (1 - y 0 * y 0) / (if stationary then 1 else epsilon)], hC _ _ rfl, ?_, ?_⟩, Or.inl ⟨rfl, rfl⟩, ?_, rfl, by rintro rfl; exact ⟨rfl, rfl⟩, by rintro rfl; exact ⟨rfl, rfl⟩, ?_⟩
  · refine jac_of rfl (fun alpha _ y => [(0, 1, 1 * alpha), (1, 0, alpha * (-2 * y 0 * y 1 - 1) / (if stationary then 1 else epsilon)),
      (1, 1, alpha * (1 - y 0 * y 0) / (if stationary then 1 else epsilon))]) (fun c alpha x y => rfl) ?_ (fun _ _ _ => le_refl 3) ?_
    · intro alpha x y
      simp [InTriangle]
    · intro alpha x y i j
      fin_cases i <;> fin_cases j <;> simp [denseOf, Hits] <;> ring
  · intro x y _
    have p0 := hasFDerivAt_apply (𝕜 := ℝ) (0 : Fin 2) y
    have p1 := hasFDerivAt_apply (𝕜 := ℝ) (1 : Fin 2) y
    refine hasFDeriv_of fun i => ?_
    fin_cases i
    · exact ⟨_, p1, fun v => by simp⟩
    · refine ⟨_, ((((p0.mul p0).const_sub 1).mul p1).sub p0).mul_const (if stationary then 1 else epsilon)⁻¹, fun v => ?_⟩
      simp [Fin.sum_univ_succ]
      ring
  · show (0 : ℝ) < if stationary then 6.6632868593231301896996820305 else 2
    split <;> norm_num
  · simp only [pow_two]
    exact hC _ _ rfl

/-- **C96** `simple_system_with_mass_matrix`: for every storage of the matrices, with the mass matrix; the solution exists for `x > -1`. -/
theorem C96_simple_system_with_mass_matrix (symmetric : Bool) (genie : Genie) :
    ∃ S yfn, simpleSystemWithMassMatrix symmetric genie = ok (S, yfn) ∧ S.system.symmetric = genie.getSym symmetric ∧
      S.system.Consistent S.args 3 (fun x _ => x ≠ -1) ∧
      S.system.MassIs (!![1, 1, 0; 1, -1, 0; 0, 0, 1] : Matrix (Fin 3) (Fin 3) ℝ) ∧ SolvedBy S 3 (Set.Ioi (-1)) yfn := by
  have hC : ∀ (S : Sample NoArgs) (yfn : FnY), simpleSystemWithMassMatrix symmetric genie = ok (S, yfn) →
      S.system.Computes S.args (fun (x : ℝ) (y : V 3) => ![-y 0 + y 1, y 0 + y 1, 1 / (1 + x)]) ∧
      S.system.JacIs S.args (fun _ (_ : V 3) => !![-1, 1, 0; 1, 1, 0; 0, 0, 0]) ∧
      S.system.MassIs (!![1, 1, 0; 1, -1, 0; 0, 0, 1] : Matrix (Fin 3) (Fin 3) ℝ) ∧ S.system.symmetric = genie.getSym symmetric ∧
      (∀ (y : List ℝ) (x : ℝ), y.length = 3 → yfn y x = ok (List.ofFn ![Real.cos x, -Real.sin x, Real.log (1 + x)])) ∧ S.x0 = 0 ∧ S.y0 = [1, 0, 0] := by
    intro S yfn h
    unfold simpleSystemWithMassMatrix at h
    have hs : genie.getSym symmetric = Sym.no ∨ genie.getSym symmetric = Sym.yesFull ∨ genie.getSym symmetric = Sym.yesLower := by
      unfold Genie.getSym
      cases symmetric <;> cases genie <;> simp
    generalize genie.getSym symmetric = sym at h hs
    dsimp only at h
    rcases hs with rfl | rfl | rfl <;> cases h
    all_goals
      refine ⟨⟨rfl, fun f x y hf => ?_⟩, ?_, ?_, rfl, ?_, rfl, rfl⟩
      · match f, hf with
        | [f0, f1, f2], _ => rfl
    · refine jac_of rfl (fun alpha _ _ => [(0, 0, alpha * (-1)), (0, 1, alpha * 1), (1, 0, alpha * 1), (1, 1, alpha * 1)]) (fun c alpha x y => rfl) ?_
        (fun _ _ _ => le_refl 4) ?_
      · intro alpha x y
        simp [InTriangle]
      · intro alpha x y i j
        fin_cases i <;> fin_cases j <;> simp [denseOf, Hits]
    · refine mass_of rfl ?_ (le_refl 5) ?_
      · simp [InTriangle, Sym.triangular]
      · intro i j
        fin_cases i <;> fin_cases j <;> simp [denseOf, Hits, Sym.triangular]
    · intro y x hy
      match y, hy with
      | [y0, y1, y2], _ => rfl
    · refine jac_of rfl (fun alpha _ _ => [(0, 0, alpha * (-1)), (0, 1, alpha * 1), (1, 0, alpha * 1), (1, 1, alpha * 1)]) (fun c alpha x y => rfl) ?_
        (fun _ _ _ => le_refl 4) ?_
      · intro alpha x y
        simp [InTriangle]
      · intro alpha x y i j
        fin_cases i <;> fin_cases j <;> simp [denseOf, Hits]
    · refine mass_of rfl ?_ (le_refl 5) ?_
      · simp [InTriangle, Sym.triangular]
      · intro i j
        fin_cases i <;> fin_cases j <;> simp [denseOf, Hits, Sym.triangular]
    · intro y x hy
      match y, hy with
      | [y0, y1, y2], _ => rfl
    · refine jac_of rfl (fun alpha _ _ => [(0, 0, alpha * (-1)), (1, 0, alpha * 1), (1, 1, alpha * 1)]) (fun c alpha x y => rfl) ?_
        (fun _ _ _ => le_refl 3) ?_
      · intro alpha x y
        simp [InTriangle]
      · intro alpha x y i j
        fin_cases i <;> fin_cases j <;> simp [denseOf, Hits]
    · refine mass_of rfl ?_ (le_refl 4) ?_
      · simp [InTriangle, Sym.triangular]
      · intro i j
        fin_cases i <;> fin_cases j <;> simp [denseOf, Hits, Sym.triangular]
    · intro y x hy
      match y, hy with
      | [y0, y1, y2], _ => rfl
  have hex : ∃ S yfn, simpleSystemWithMassMatrix symmetric genie = ok (S, yfn) := by
    unfold simpleSystemWithMassMatrix
    generalize genie.getSym symmetric = sym
    cases sym <;> exact ⟨_, _, rfl⟩
  obtain ⟨S, yfn, h⟩ := hex
  obtain ⟨h1, h2, h3, h4, h5, h6, h7⟩ := hC S yfn h
  refine ⟨S, yfn, h, h4, ⟨_, _, h1, h2, ?_⟩, h3, ?_⟩
  · intro x y _
    have p0 := hasFDerivAt_apply (𝕜 := ℝ) (0 : Fin 3) y
    have p1 := hasFDerivAt_apply (𝕜 := ℝ) (1 : Fin 3) y
    refine hasFDeriv_of fun i => ?_
    fin_cases i
    · exact ⟨_, p0.neg.add p1, fun v => by simp [Fin.sum_univ_succ]⟩
    · exact ⟨_, p0.add p1, fun v => by simp [Fin.sum_univ_succ]⟩
    · exact ⟨0, hasFDerivAt_const _ _, fun v => by simp [Fin.sum_univ_succ]⟩
  · refine solved_of (N := !![1 / 2, 1 / 2, 0; 1 / 2, -1 / 2, 0; 0, 0, 1]) (A := !![-1, 1, 0; 1, 1, 0; 0, 0, 0]) h1 h3 h5 ?_ ?_ ?_ ?_ ?_ ?_
    · rw [h6, h7]
      simp
    · intro x hx
      have hx' : (1 + x) ≠ 0 := by have : -1 < x := hx; linarith
      refine ⟨![-Real.sin x, -Real.cos x, 1 / (1 + x)], ?_, ?_⟩
      · rw [hasDerivAt_pi]
        intro i
        fin_cases i
        · exact Real.hasDerivAt_cos x
        · exact (Real.hasDerivAt_sin x).neg
        · exact ((hasDerivAt_id x).const_add 1).log hx'
      · ext i
        fin_cases i <;> simp [Matrix.mulVec, dotProduct, Fin.sum_univ_succ] <;> ring
    · ext i j
      fin_cases i <;> fin_cases j <;> simp [Matrix.mul_apply, Fin.sum_univ_succ] <;> norm_num
    · intro x y z
      ext i
      fin_cases i <;> simp [Matrix.mulVec, dotProduct, Fin.sum_univ_succ] <;> ring
    · rw [h6]; exact Set.mem_Ioi.2 (by norm_num)
    · intro x hx
      rw [h6]
      have hx' : -1 < x := hx
      refine ⟨-1, max x 0 + 1, ⟨by norm_num, by linarith [le_max_right x 0]⟩, ⟨hx', by linarith [le_max_left x 0]⟩, fun t ht => ht.1⟩

/-- derivative of `a / (t sqrt t)` -/
theorem quot_deriv {a t : V n → ℝ} {a' t' : V n →L[ℝ] ℝ} {y : V n} (ha : HasFDerivAt a a' y) (ht : HasFDerivAt t t' y) (hp : 0 < t y) :
    HasFDerivAt (fun y => a y / (t y * Real.sqrt (t y)))
      ((1 / (t y * Real.sqrt (t y))) • a' - (a y * (3 / 2 * Real.sqrt (t y)) / ((t y * Real.sqrt (t y)) * (t y * Real.sqrt (t y)))) • t') y := by
  have hs : 0 < Real.sqrt (t y) := Real.sqrt_pos.2 hp
  have hq : Real.sqrt (t y) * Real.sqrt (t y) = t y := Real.mul_self_sqrt hp.le
  have hd := ht.mul (ht.sqrt hp.ne')
  have hi := (hasDerivAt_inv (mul_pos hp hs).ne').comp_hasFDerivAt y hd
  refine (ha.mul hi).congr_fderiv ?_
  ext v
  simp
  generalize Real.sqrt (t y) = r at *
  rw [← hq]
  have : r ≠ 0 := hs.ne'
  field_simp
  ring

/-- the third body is not at the place of one of the other two -/
def Apart (y0 y1 : ℝ) : Prop := 0 < (y0 + MU) * (y0 + MU) + y1 * y1 ∧ 0 < (y0 - MD) * (y0 - MD) + y1 * y1

/-- the equations of `arenstorf` -/
noncomputable def areF (y : V 4) : V 4 :=
  ![y 2, y 3,
    y 0 + 2 * y 3 - MD * (y 0 + MU) / (((y 0 + MU) * (y 0 + MU) + y 1 * y 1) * Real.sqrt ((y 0 + MU) * (y 0 + MU) + y 1 * y 1)) -
      MU * (y 0 - MD) / (((y 0 - MD) * (y 0 - MD) + y 1 * y 1) * Real.sqrt ((y 0 - MD) * (y 0 - MD) + y 1 * y 1)),
    y 1 - 2 * y 2 - MD * y 1 / (((y 0 + MU) * (y 0 + MU) + y 1 * y 1) * Real.sqrt ((y 0 + MU) * (y 0 + MU) + y 1 * y 1)) -
      MU * y 1 / (((y 0 - MD) * (y 0 - MD) + y 1 * y 1) * Real.sqrt ((y 0 - MD) * (y 0 - MD) + y 1 * y 1))]

theorem are_computes {S : Sample NoArgs} {x1 : ℝ} (h : arenstorf = ok (S, x1)) : S.system.Computes S.args (fun (_ : ℝ) => areF) := by
  cases h
  refine ⟨rfl, fun f x y hf => ?_⟩
  match f, hf with
  | [f0, f1, f2, f3], _ => rfl

/-- the entries of the Jacobian of `arenstorf` with the distances as parameters -/
noncomputable def areE (y0 y1 t0 t1 s0 s1 alpha : ℝ) : List (Entry ℝ) :=
  [(0, 2, 1 * alpha), (1, 3, 1 * alpha),
    (2, 0, (1 + (y0 + MU) * (3 * (y0 + MU) * s0) * MD / (t0 * s0 * (t0 * s0)) + (y0 - MD) * (3 * (y0 - MD) * s1) * MU / (t1 * s1 * (t1 * s1)) +
      (-MD / (t0 * s0) - MU / (t1 * s1))) * alpha),
    (2, 1, ((y0 + MU) * (3 * y1 * s0) * MD / (t0 * s0 * (t0 * s0)) + (y0 - MD) * (3 * y1 * s1) * MU / (t1 * s1 * (t1 * s1))) * alpha), (2, 3, 2 * alpha),
    (3, 0, ((3 * (y0 + MU) * s0) * y1 * MD / (t0 * s0 * (t0 * s0)) + (3 * (y0 - MD) * s1) * y1 * MU / (t1 * s1 * (t1 * s1))) * alpha),
    (3, 1, (1 + (3 * y1 * s0) * y1 * MD / (t0 * s0 * (t0 * s0)) + (3 * y1 * s1) * y1 * MU / (t1 * s1 * (t1 * s1)) +
      (-MD / (t0 * s0) - MU / (t1 * s1))) * alpha),
    (3, 2, -2 * alpha)]

/-- the Jacobian of `arenstorf` with the distances as parameters -/
noncomputable def areJ (y0 y1 t0 t1 s0 s1 : ℝ) : Matrix (Fin 4) (Fin 4) ℝ :=
  !![0, 0, 1, 0; 0, 0, 0, 1;
    1 + (y0 + MU) * (3 * (y0 + MU) * s0) * MD / (t0 * s0 * (t0 * s0)) + (y0 - MD) * (3 * (y0 - MD) * s1) * MU / (t1 * s1 * (t1 * s1)) +
      (-MD / (t0 * s0) - MU / (t1 * s1)),
    (y0 + MU) * (3 * y1 * s0) * MD / (t0 * s0 * (t0 * s0)) + (y0 - MD) * (3 * y1 * s1) * MU / (t1 * s1 * (t1 * s1)), 0, 2;
    (3 * (y0 + MU) * s0) * y1 * MD / (t0 * s0 * (t0 * s0)) + (3 * (y0 - MD) * s1) * y1 * MU / (t1 * s1 * (t1 * s1)),
    1 + (3 * y1 * s0) * y1 * MD / (t0 * s0 * (t0 * s0)) + (3 * y1 * s1) * y1 * MU / (t1 * s1 * (t1 * s1)) +
      (-MD / (t0 * s0) - MU / (t1 * s1)), -2, 0]

theorem areE_dense (y0 y1 t0 t1 s0 s1 alpha : ℝ) (i j : Fin 4) : denseOf Sym.no (areE y0 y1 t0 t1 s0 s1 alpha) i j = alpha * areJ y0 y1 t0 t1 s0 s1 i j := by
  rw [mul_comm]
  unfold areE areJ
  fin_cases i <;> fin_cases j <;> simp [denseOf, Hits]

/-- **C96** `arenstorf`: as long as the bodies are apart. -/
theorem C96_arenstorf : ∃ S x1, arenstorf = ok (S, x1) ∧ S.system.Consistent S.args 4 (fun _ y => Apart (y 0) (y 1)) ∧
    S.system.MassIs (1 : Matrix (Fin 4) (Fin 4) ℝ) ∧ S.x0 < x1 ∧ ∃ y0 : V 4, S.y0 = List.ofFn y0 ∧ Apart (y0 0) (y0 1) := by
  refine ⟨_, _, rfl, ⟨_, fun _ y => areJ (y 0) (y 1) ((y 0 + MU) * (y 0 + MU) + y 1 * y 1) ((y 0 - MD) * (y 0 - MD) + y 1 * y 1)
    (Real.sqrt ((y 0 + MU) * (y 0 + MU) + y 1 * y 1)) (Real.sqrt ((y 0 - MD) * (y 0 - MD) + y 1 * y 1)), are_computes rfl, ?_, ?_⟩, Or.inl ⟨rfl, rfl⟩, ?_, ?_⟩
  · refine jac_of rfl (fun alpha _ y => areE (y 0) (y 1) ((y 0 + MU) * (y 0 + MU) + y 1 * y 1) ((y 0 - MD) * (y 0 - MD) + y 1 * y 1)
      (Real.sqrt ((y 0 + MU) * (y 0 + MU) + y 1 * y 1)) (Real.sqrt ((y 0 - MD) * (y 0 - MD) + y 1 * y 1)) alpha) (fun c alpha x y => rfl) ?_ (fun _ _ _ => le_refl 8) ?_
    · intro alpha x y
      simp [InTriangle, areE]
    · intro alpha x y i j
      exact areE_dense _ _ _ _ _ _ _ i j
  · intro x y hy
    have p0 := hasFDerivAt_apply (𝕜 := ℝ) (0 : Fin 4) y
    have p1 := hasFDerivAt_apply (𝕜 := ℝ) (1 : Fin 4) y
    have p2 := hasFDerivAt_apply (𝕜 := ℝ) (2 : Fin 4) y
    have p3 := hasFDerivAt_apply (𝕜 := ℝ) (3 : Fin 4) y
    have q0 := ((p0.add_const MU).mul (p0.add_const MU)).add (p1.mul p1)
    have q1 := ((p0.sub_const MD).mul (p0.sub_const MD)).add (p1.mul p1)
    refine hasFDeriv_of fun i => ?_
    fin_cases i
    · exact ⟨_, p2, fun v => by simp [areJ, Fin.sum_univ_succ]⟩
    · exact ⟨_, p3, fun v => by simp [areJ, Fin.sum_univ_succ]⟩
    · refine ⟨_, ((p0.add (p3.const_mul 2)).sub (quot_deriv ((p0.add_const MU).const_mul MD) q0 hy.1)).sub
        (quot_deriv ((p0.sub_const MD).const_mul MU) q1 hy.2), fun v => ?_⟩
      simp [areJ, Fin.sum_univ_succ]
      generalize (y 0 + MU) * (y 0 + MU) + y 1 * y 1 = T0
      generalize (y 0 - MD) * (y 0 - MD) + y 1 * y 1 = T1
      ring
    · refine ⟨_, ((p1.sub (p2.const_mul 2)).sub (quot_deriv (p1.const_mul MD) q0 hy.1)).sub
        (quot_deriv (p1.const_mul MU) q1 hy.2), fun v => ?_⟩
      simp [areJ, Fin.sum_univ_succ]
      generalize (y 0 + MU) * (y 0 + MU) + y 1 * y 1 = T0
      generalize (y 0 - MD) * (y 0 - MD) + y 1 * y 1 = T1
      ring
  · show (0 : ℝ) < 17.0652165601579625588917206249
    norm_num
  · refine ⟨![0.994, 0, 0, -2.00158510637908252240537862224], by simp, ?_⟩
    unfold Apart MD MU
    constructor <;> simp <;> norm_num

/-- **C96** `amplifier1t`: Jacobian, (singular) mass matrix, and the initial values satisfy the algebraic constraints. -/
theorem C96_amplifier1t : ∃ S, amplifier1t = ok S ∧ S.system.Consistent S.args 5 (fun _ _ => True) ∧
    ∃ (F : ℝ → V 5 → V 5) (M : Matrix (Fin 5) (Fin 5) ℝ), S.system.Computes S.args F ∧ S.system.MassIs M ∧ M.det = 0 ∧
      (∃ y0 v : V 5, S.y0 = List.ofFn y0 ∧ M.mulVec v = F S.x0 y0) ∧
      ∀ x y v, M.mulVec v = F x y → F x y 0 + F x y 1 = 0 ∧ F x y 3 + F x y 4 = 0 := by
  have hC : ∀ S, amplifier1t = ok S → S.system.Computes S.args
      (fun (x : ℝ) (y : V 5) => ![(y 0 - 0.4 * Real.sin (200 * Real.pi * x)) / 1000, (2 * y 1 - 6) / 9000 + (1 - 0.99) * (1e-6 * (Real.exp ((y 1 - y 2) / 0.026) - 1)),
        y 2 / 9000 - 1e-6 * (Real.exp ((y 1 - y 2) / 0.026) - 1), (y 3 - 6) / 9000 + 0.99 * (1e-6 * (Real.exp ((y 1 - y 2) / 0.026) - 1)), y 4 / 9000]) := by
    rintro _ ⟨⟩
    refine ⟨rfl, fun f x y hf => ?_⟩
    match f, hf with
    | [f0, f1, f2, f3, f4], _ => rfl
  have hM : ∀ S, amplifier1t = ok S → S.system.MassIs (!![-1e-6, 1e-6, 0, 0, 0; 1e-6, -1e-6, 0, 0, 0; 0, 0, -2e-6, 0, 0; 0, 0, 0, -3e-6, 3e-6;
      0, 0, 0, 3e-6, -3e-6] : Matrix (Fin 5) (Fin 5) ℝ) := by
    rintro _ ⟨⟩
    refine mass_of rfl ?_ (le_refl 9) ?_
    · simp [InTriangle]
    · intro i j
      fin_cases i <;> fin_cases j <;> simp [denseOf, Hits]
  refine ⟨_, rfl, ⟨_, fun _ y => !![1 / 1000, 0, 0, 0, 0;
      0, 2 / 9000 + (1 - 0.99) * (1e-6 * Real.exp ((y 1 - y 2) / 0.026) / 0.026), -(1 - 0.99) * (1e-6 * Real.exp ((y 1 - y 2) / 0.026) / 0.026), 0, 0;
      0, -(1e-6 * Real.exp ((y 1 - y 2) / 0.026) / 0.026), 1 / 9000 + 1e-6 * Real.exp ((y 1 - y 2) / 0.026) / 0.026, 0, 0;
      0, 0.99 * (1e-6 * Real.exp ((y 1 - y 2) / 0.026) / 0.026), -0.99 * (1e-6 * Real.exp ((y 1 - y 2) / 0.026) / 0.026), 1 / 9000, 0;
      0, 0, 0, 0, 1 / 9000], hC _ rfl, ?_, ?_⟩, _, _, hC _ rfl, hM _ rfl, ?_, ?_, ?_⟩
  · refine jac_of rfl (fun aa _ y => [(0, 0, aa * (1 / 1000)), (1, 1, aa * (2 / 9000 + (1 - 0.99) * (1e-6 * Real.exp ((y 1 - y 2) / 0.026) / 0.026))),
      (1, 2, aa * (-(1 - 0.99) * (1e-6 * Real.exp ((y 1 - y 2) / 0.026) / 0.026))), (2, 1, aa * (-(1e-6 * Real.exp ((y 1 - y 2) / 0.026) / 0.026))),
      (2, 2, aa * (1 / 9000 + 1e-6 * Real.exp ((y 1 - y 2) / 0.026) / 0.026)), (3, 1, aa * (0.99 * (1e-6 * Real.exp ((y 1 - y 2) / 0.026) / 0.026))),
      (3, 2, aa * (-0.99 * (1e-6 * Real.exp ((y 1 - y 2) / 0.026) / 0.026))), (3, 3, aa * (1 / 9000)), (4, 4, aa * (1 / 9000))])
      (fun c alpha x y => rfl) ?_ (fun _ _ _ => le_refl 9) ?_
    · intro alpha x y
      simp [InTriangle]
    · intro alpha x y i j
      generalize (1e-6 * Real.exp ((y 1 - y 2) / 0.026) / 0.026 : ℝ) = h12
      fin_cases i <;> fin_cases j <;> simp [denseOf, Hits]
  · intro x y _
    have p0 := hasFDerivAt_apply (𝕜 := ℝ) (0 : Fin 5) y
    have p1 := hasFDerivAt_apply (𝕜 := ℝ) (1 : Fin 5) y
    have p2 := hasFDerivAt_apply (𝕜 := ℝ) (2 : Fin 5) y
    have p3 := hasFDerivAt_apply (𝕜 := ℝ) (3 : Fin 5) y
    have p4 := hasFDerivAt_apply (𝕜 := ℝ) (4 : Fin 5) y
    have g : HasFDerivAt (fun y : V 5 => (1e-6 : ℝ) * (Real.exp ((y 1 - y 2) / 0.026) - 1)) _ y :=
      ((((p1.sub p2).mul_const (0.026 : ℝ)⁻¹).exp).sub_const 1).const_mul (1e-6 : ℝ)
    refine hasFDeriv_of fun i => ?_
    fin_cases i
    · exact ⟨_, (p0.sub_const _).mul_const (1000 : ℝ)⁻¹, fun v => by simp [Fin.sum_univ_succ]⟩
    · refine ⟨_, (((p1.const_mul 2).sub_const 6).mul_const (9000 : ℝ)⁻¹).add (g.const_mul (1 - 0.99 : ℝ)), fun v => ?_⟩
      simp [Fin.sum_univ_succ]
      ring
    · refine ⟨_, (p2.mul_const (9000 : ℝ)⁻¹).sub g, fun v => ?_⟩
      simp [Fin.sum_univ_succ]
      ring
    · refine ⟨_, ((p3.sub_const 6).mul_const (9000 : ℝ)⁻¹).add (g.const_mul (0.99 : ℝ)), fun v => ?_⟩
      simp [Fin.sum_univ_succ]
      ring
    · exact ⟨_, p4.mul_const (9000 : ℝ)⁻¹, fun v => by simp [Fin.sum_univ_succ]⟩
  · rw [← Matrix.exists_mulVec_eq_zero_iff]
    refine ⟨![1, 1, 0, 0, 0], fun h => by simpa using congrFun h 0, ?_⟩
    ext i
    fin_cases i <;> simp [Matrix.mulVec, dotProduct, Fin.sum_univ_succ]
  · refine ⟨![0, 6 / 2, 6 / 2, 6, 0], ![0, 0, -(3 / 9000) / 2e-6, 0, 0], by simp, ?_⟩
    ext i
    fin_cases i <;> simp [Matrix.mulVec, dotProduct, Fin.sum_univ_succ] <;> norm_num
  · intro x y v h
    rw [← h]
    constructor <;> simp [Matrix.mulVec, dotProduct, Fin.sum_univ_succ] <;> ring

/-! ### Conserved quantities -/

theorem const_of {I : Set ℝ} (hI : I.OrdConnected) {g : ℝ → ℝ} (hg : ∀ x ∈ I, HasDerivAt g 0 x) {a b : ℝ} (ha : a ∈ I) (hb : b ∈ I) : g a = g b := by
  wlog hab : a < b
  · rcases lt_trichotomy a b with h | h | h
    · exact absurd h hab
    · rw [h]
    · exact (this hI hg hb ha h).symm
  have hs : Set.Icc a b ⊆ I := hI.out ha hb
  obtain ⟨c, hc, e⟩ := exists_hasDerivAt_eq_slope g (fun _ => 0) hab (fun x hx => (hg x (hs hx)).continuousAt.continuousWithinAt)
    (fun x hx => hg x (hs ⟨hx.1.le, hx.2.le⟩))
  have : b - a ≠ 0 := by linarith
  rw [eq_comm, div_eq_zero_iff] at e
  rcases e with e | e
  · linarith
  · exact absurd e this

/-- **C96** `robertson`: the sum of the components is constant along every solution of the system; it is 1 initially. -/
theorem C96_robertson_mass : ∃ S F, robertson = ok S ∧ S.system.Computes S.args F ∧ S.y0.sum = 1 ∧ ∀ (I : Set ℝ) (Y : ℝ → V 3), I.OrdConnected → IsSolution 1 F I Y →
    ∀ x ∈ I, ∀ x' ∈ I, Y x 0 + Y x 1 + Y x 2 = Y x' 0 + Y x' 1 + Y x' 2 := by
  refine ⟨_, _, rfl, rob_computes rfl, by simp, fun I Y hI hY x hx x' hx' => ?_⟩
  refine const_of hI (g := fun x => Y x 0 + Y x 1 + Y x 2) (fun t ht => ?_) hx hx'
  obtain ⟨v, hv, he⟩ := hY t ht
  rw [Matrix.one_mulVec] at he
  rw [hasDerivAt_pi] at hv
  refine (((hv 0).add (hv 1)).add (hv 2)).congr_deriv ?_
  rw [he]
  simp [robF]
  ring

/-- a solution: everything has become the third substance -/
example : IsSolution 1 (fun _ => robF) Set.univ (fun _ => ![0, 0, 1]) := fun x _ => ⟨0, hasDerivAt_const _ _, by ext i; fin_cases i <;> simp [robF]⟩

/-- the Jacobi integral of the restricted three-body problem -/
noncomputable def jacobiIntegral (y : V 4) : ℝ :=
  y 0 ^ 2 + y 1 ^ 2 + 2 * MD / Real.sqrt ((y 0 + MU) ^ 2 + y 1 ^ 2) + 2 * MU / Real.sqrt ((y 0 - MD) ^ 2 + y 1 ^ 2) - (y 2 ^ 2 + y 3 ^ 2)

theorem inv_sqrt_deriv {t : ℝ → ℝ} {t' x : ℝ} (c : ℝ) (ht : HasDerivAt t t' x) (hp : 0 < t x) :
    HasDerivAt (fun x => 2 * c / Real.sqrt (t x)) (-(c * t' / (t x * Real.sqrt (t x)))) x := by
  have hs : 0 < Real.sqrt (t x) := Real.sqrt_pos.2 hp
  have hq : Real.sqrt (t x) * Real.sqrt (t x) = t x := Real.mul_self_sqrt hp.le
  have := ((ht.sqrt hp.ne').inv hs.ne').const_mul (2 * c)
  refine this.congr_deriv ?_
  generalize Real.sqrt (t x) = r at *
  rw [← hq]
  have : r ≠ 0 := hs.ne'
  field_simp

/-- **C96** `arenstorf`: the Jacobi integral is constant along every solution of the system, as long as the bodies are apart. -/
theorem C96_arenstorf_integral : ∃ S x1 F, arenstorf = ok (S, x1) ∧ S.system.Computes S.args F ∧ ∀ (I : Set ℝ) (Y : ℝ → V 4), I.OrdConnected → IsSolution 1 F I Y →
    (∀ x ∈ I, Apart (Y x 0) (Y x 1)) → ∀ x ∈ I, ∀ x' ∈ I, jacobiIntegral (Y x) = jacobiIntegral (Y x') := by
  refine ⟨_, _, _, rfl, are_computes rfl, fun I Y hI hY hA x hx x' hx' => ?_⟩
  refine const_of hI (g := fun x => jacobiIntegral (Y x)) (fun t ht => ?_) hx hx'
  obtain ⟨v, hv, he⟩ := hY t ht
  rw [Matrix.one_mulVec] at he
  rw [hasDerivAt_pi] at hv
  have h1 : 0 < (Y t 0 + MU) ^ 2 + Y t 1 ^ 2 := by simpa only [pow_two] using (hA t ht).1
  have h2 : 0 < (Y t 0 - MD) ^ 2 + Y t 1 ^ 2 := by simpa only [pow_two] using (hA t ht).2
  have d0 : HasDerivAt (fun x => (Y x 0 + MU) ^ 2 + Y x 1 ^ 2) _ t := (((hv 0).add_const MU).pow 2).add ((hv 1).pow 2)
  have d1 : HasDerivAt (fun x => (Y x 0 - MD) ^ 2 + Y x 1 ^ 2) _ t := (((hv 0).sub_const MD).pow 2).add ((hv 1).pow 2)
  have key := (((((hv 0).pow 2).add ((hv 1).pow 2)).add (inv_sqrt_deriv MD d0 h1)).add (inv_sqrt_deriv MU d1 h2)).sub (((hv 2).pow 2).add ((hv 3).pow 2))
  refine key.congr_deriv ?_
  rw [he]
  simp [areF, ← pow_two]
  generalize (Y t 0 + MU) ^ 2 + Y t 1 ^ 2 = T0
  generalize (Y t 0 - MD) ^ 2 + Y t 1 ^ 2 = T1
  ring

/-- a solution: the third body stays at the corner of an equilateral triangle -/
example : IsSolution 1 (fun _ => areF) Set.univ (fun _ => ![1 / 2 - MU, Real.sqrt 3 / 2, 0, 0]) ∧ Apart (1 / 2 - MU) (Real.sqrt 3 / 2) := by
  have h3 : Real.sqrt 3 * Real.sqrt 3 = 3 := Real.mul_self_sqrt (by norm_num)
  have t0 : (1 / 2 - MU + MU) * (1 / 2 - MU + MU) + Real.sqrt 3 / 2 * (Real.sqrt 3 / 2) = 1 := by nlinarith
  have t1 : (1 / 2 - MU - MD) * (1 / 2 - MU - MD) + Real.sqrt 3 / 2 * (Real.sqrt 3 / 2) = 1 := by unfold MD; nlinarith
  constructor
  · intro x _
    refine ⟨0, hasDerivAt_const _ _, ?_⟩
    rw [Matrix.one_mulVec]
    ext i
    fin_cases i
    · simp [areF]
    · simp [areF]
    · simp only [areF]
      simp at t0 t1 ⊢
      simp [t0, t1]
      unfold MD
      ring
    · simp only [areF]
      simp at t0 t1 ⊢
      simp [t0, t1]
      unfold MD
      ring
  · constructor
    · rw [t0]; exact one_pos
    · rw [t1]; exact one_pos

/-! ### `System` -/

/-- a call of `set_jacobian` or `set_mass` -/
inductive SetOp (σ : Type) where
  | jac (nnz : Option Nat) (sym : Sym) (f : FnJ σ)
  | mass (nnz : Option Nat) (sym : Sym) (f : FnM)

/-- the storage asked for in a call -/
def SetOp.sym : SetOp σ → Sym
  | .jac _ s _ => s
  | .mass _ s _ => s

/-- a call; after an error the system is as it was -/
def SetOp.run (s : Sys σ) : SetOp σ → MRes (Sys σ)
  | .jac nnz sym f => s.setJacobian nnz sym f
  | .mass nnz sym f => s.setMass nnz sym f

/-- the state after a call, whether it succeeded or not -/
def SetOp.after (s : Sys σ) (o : SetOp σ) : Sys σ :=
  match o.run s with
  | .ok s' => s'
  | .err s' _ => s'
  | .panic => s

/-- **C96** `set_jacobian` and `set_mass`: in whatever order and however often they are called, the storage of the two matrices always agrees with the
one announced by the system; a call fails exactly if the other matrix is there with another storage, and then changes nothing. -/
theorem C96_set (ndim : Nat) (f : FnF σ) (ops : List (SetOp σ)) :
    let s := ops.foldl SetOp.after (Sys.new ndim f)
    s.ndim = ndim ∧ (s.jacobian.isSome = s.sym_jac.isSome) ∧ (s.calc_mass.isSome = s.sym_mass.isSome) ∧
    (s.sym_jac = none ∨ s.sym_jac = some s.symmetric) ∧ (s.sym_mass = none ∨ s.sym_mass = some s.symmetric) ∧
    (∀ nnz sym g, (s.calc_mass.isSome = true ∧ sym ≠ s.symmetric ∧ ∃ m, s.setJacobian nnz sym g = .err s m) ∨
      ((s.calc_mass = none ∨ sym = s.symmetric) ∧ ∃ s', s.setJacobian nnz sym g = .ok s' ∧ s'.jacobian = some g ∧ s'.symmetric = sym ∧ s'.calc_mass = s.calc_mass ∧
        s'.jac_nnz = nnz.getD (if sym = Sym.yesLower ∨ sym = Sym.yesUpper then ndim * (ndim + 1) / 2 else ndim ^ 2))) ∧
    (∀ nnz sym g, (s.jacobian.isSome = true ∧ sym ≠ s.symmetric ∧ ∃ m, s.setMass nnz sym g = .err s m) ∨
      ((s.jacobian = none ∨ sym = s.symmetric) ∧ ∃ s', s.setMass nnz sym g = .ok s' ∧ s'.calc_mass = some g ∧ s'.symmetric = sym ∧ s'.jacobian = s.jacobian ∧
        s'.mass_nnz = nnz.getD (if sym = Sym.yesLower ∨ sym = Sym.yesUpper then ndim * (ndim + 1) / 2 else ndim ^ 2))) := by
  intro s
  have inv : s.ndim = ndim ∧ (s.jacobian.isSome = s.sym_jac.isSome) ∧ (s.calc_mass.isSome = s.sym_mass.isSome) ∧
      (s.sym_jac = none ∨ s.sym_jac = some s.symmetric) ∧ (s.sym_mass = none ∨ s.sym_mass = some s.symmetric) := by
    have step : ∀ (ops : List (SetOp σ)) (s : Sys σ), (s.ndim = ndim ∧ (s.jacobian.isSome = s.sym_jac.isSome) ∧ (s.calc_mass.isSome = s.sym_mass.isSome) ∧
      (s.sym_jac = none ∨ s.sym_jac = some s.symmetric) ∧ (s.sym_mass = none ∨ s.sym_mass = some s.symmetric)) →
      let s := ops.foldl SetOp.after s
      (s.ndim = ndim ∧ (s.jacobian.isSome = s.sym_jac.isSome) ∧ (s.calc_mass.isSome = s.sym_mass.isSome) ∧
      (s.sym_jac = none ∨ s.sym_jac = some s.symmetric) ∧ (s.sym_mass = none ∨ s.sym_mass = some s.symmetric)) := by
      intro ops
      induction ops with
      | nil => intro s h; exact h
      | cons o ops ih =>
        intro s h
        refine ih _ ?_
        obtain ⟨h1, h2, h3, h4, h5⟩ := h
        cases o with
        | jac nnz sym g =>
          unfold SetOp.after SetOp.run Sys.setJacobian
          by_cases hc : s.sym_mass.isSome ∧ s.sym_mass ≠ some sym
          · simp only [if_pos hc]; exact ⟨h1, h2, h3, h4, h5⟩
          · simp only [if_neg hc]
            refine ⟨h1, rfl, h3, Or.inr trivial, ?_⟩
            cases hs : s.sym_mass with
            | none => exact Or.inl rfl
            | some q =>
              rw [hs] at hc
              right
              by_contra hq
              exact hc ⟨rfl, hq⟩
        | mass nnz sym g =>
          unfold SetOp.after SetOp.run Sys.setMass
          by_cases hc : s.sym_jac.isSome ∧ s.sym_jac ≠ some sym
          · simp only [if_pos hc]; exact ⟨h1, h2, h3, h4, h5⟩
          · simp only [if_neg hc]
            refine ⟨h1, h2, rfl, ?_, Or.inr trivial⟩
            cases hs : s.sym_jac with
            | none => exact Or.inl rfl
            | some q =>
              rw [hs] at hc
              right
              by_contra hq
              exact hc ⟨rfl, hq⟩
    exact step ops _ ⟨rfl, rfl, rfl, Or.inl rfl, Or.inl rfl⟩
  obtain ⟨h1, h2, h3, h4, h5⟩ := inv
  have hnnz : ∀ nnz sym, nnzOr ndim nnz sym = nnz.getD (if sym = Sym.yesLower ∨ sym = Sym.yesUpper then ndim * (ndim + 1) / 2 else ndim ^ 2) := by
    intro nnz sym
    have e : ndim + ndim * ndim = ndim * (ndim + 1) := by ring
    cases nnz <;> cases sym <;> simp [nnzOr, Sym.triangular, e, pow_two]
  have hn : ∀ {α : Type} {o : Option α}, o.isSome = false → o = none := fun h => by simpa using h
  refine ⟨h1, h2, h3, h4, h5, ?_, ?_⟩
  · intro nnz sym g
    unfold Sys.setJacobian
    by_cases hc : s.sym_mass.isSome ∧ s.sym_mass ≠ some sym
    · left
      rw [if_pos hc]
      refine ⟨by rw [h3]; exact hc.1, ?_, _, rfl⟩
      rintro rfl
      rcases h5 with h | h
      · rw [h] at hc; exact absurd hc.1 (by simp)
      · exact hc.2 h
    · right
      rw [if_neg hc]
      refine ⟨?_, _, rfl, rfl, rfl, rfl, by rw [← hnnz, ← h1]⟩
      rcases h5 with h | h
      · left; apply hn; rw [h3, h]; rfl
      · right
        by_contra hq
        exact hc ⟨by rw [h]; rfl, by rw [h]; intro e; cases e; exact hq rfl⟩
  · intro nnz sym g
    unfold Sys.setMass
    by_cases hc : s.sym_jac.isSome ∧ s.sym_jac ≠ some sym
    · left
      rw [if_pos hc]
      refine ⟨by rw [h2]; exact hc.1, ?_, _, rfl⟩
      rintro rfl
      rcases h4 with h | h
      · rw [h] at hc; exact absurd hc.1 (by simp)
      · exact hc.2 h
    · right
      rw [if_neg hc]
      refine ⟨?_, _, rfl, rfl, rfl, rfl, by rw [← hnnz, ← h1]⟩
      rcases h4 with h | h
      · left; apply hn; rw [h2, h]; rfl
      · right
        by_contra hq
        exact hc ⟨by rw [h]; rfl, by rw [h]; intro e; cases e; exact hq rfl⟩

/-! ### The documented equations -/

/-- **C96** the systems and initial values of `brusselator_ode`, `robertson`, `arenstorf` and `amplifier1t` are the documented ones. -/
theorem C96_equations :
    (∃ S, brusselatorOde = ok S ∧ S.x0 = 0 ∧ S.y0 = [3 / 2, 3] ∧ S.system.Computes S.args (fun _ (y : V 2) => ![1 - 4 * y 0 + y 0 ^ 2 * y 1, 3 * y 0 - y 0 ^ 2 * y 1])) ∧
    (∃ S, robertson = ok S ∧ S.x0 = 0 ∧ S.y0 = [1, 0, 0] ∧ S.system.Computes S.args (fun _ (y : V 3) =>
      ![-0.04 * y 0 + 1.0e4 * y 1 * y 2, 0.04 * y 0 - 1.0e4 * y 1 * y 2 - 3.0e7 * y 1 ^ 2, 3.0e7 * y 1 ^ 2])) ∧
    (∃ S x1, arenstorf = ok (S, x1) ∧ S.x0 = 0 ∧ S.system.Computes S.args (fun _ (y : V 4) =>
      let mu := 0.012277471
      let mu' := 1 - mu
      let d0 := ((y 0 + mu) ^ 2 + y 1 ^ 2) ^ (3 / 2 : ℝ)
      let d1 := ((y 0 - mu') ^ 2 + y 1 ^ 2) ^ (3 / 2 : ℝ)
      ![y 2, y 3, y 0 + 2 * y 3 - mu' * (y 0 + mu) / d0 - mu * (y 0 - mu') / d1, y 1 - 2 * y 2 - mu' * y 1 / d0 - mu * y 1 / d1])) ∧
    (∃ S, amplifier1t = ok S ∧ S.x0 = 0 ∧ S.y0 = [0, 3, 3, 6, 0] ∧ S.system.Computes S.args (fun x (y : V 5) =>
      let g := 1e-6 * (Real.exp ((y 1 - y 2) / 0.026) - 1)
      ![(y 0 - 0.4 * Real.sin (200 * Real.pi * x)) / 1000, (2 * y 1 - 6) / 9000 + 0.01 * g, y 2 / 9000 - g, (y 3 - 6) / 9000 + 0.99 * g, y 4 / 9000])) := by
  have hsq : ∀ t : ℝ, 0 ≤ t → t ^ (3 / 2 : ℝ) = t * Real.sqrt t := by
    intro t ht
    rcases ht.eq_or_lt with rfl | h
    · rw [Real.zero_rpow (by norm_num), zero_mul]
    · rw [show (3 / 2 : ℝ) = 1 + 1 / 2 by norm_num, Real.rpow_add h, Real.rpow_one, Real.sqrt_eq_rpow]
  refine ⟨⟨_, rfl, rfl, rfl, rfl, ?_⟩, ⟨_, rfl, rfl, rfl, rfl, ?_⟩, ⟨_, _, rfl, rfl, rfl, ?_⟩, ⟨_, rfl, rfl, ?_, rfl, ?_⟩⟩
  · intro f x y hf
    simp only [pow_two]
    match f, hf with
    | [f0, f1], _ => rfl
  · intro f x y hf
    simp only [pow_two, ← mul_assoc]
    match f, hf with
    | [f0, f1, f2], _ => rfl
  · intro f x y hf
    refine ((are_computes rfl).2 f x y hf).trans ?_
    dsimp only
    rw [hsq _ (by positivity), hsq _ (by positivity)]
    simp only [pow_two]
    rfl
  · norm_num
  · intro f x y hf
    rw [show (0.01 : ℝ) = 1 - 0.99 by norm_num]
    match f, hf with
    | [f0, f1, f2, f3, f4], _ => rfl

/-- a mass matrix with another storage is refused, and then the Jacobian may still be changed -/
example (f : FnF Nat) (g : FnJ Nat) (h : FnM) : ([.jac none .yesLower g, .mass none .no h, .jac (some 1) .no g] : List (SetOp Nat)).foldl SetOp.after (Sys.new 2 f) =
    { Sys.new 2 f with jac_nnz := 1, symmetric := Sym.no, sym_jac := some Sym.no, jacobian := some g } := rfl

end Russell.Ode.Samples
