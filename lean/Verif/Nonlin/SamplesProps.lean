import Verif.Nonlin.Samples
import Mathlib.Analysis.SpecialFunctions.Pow.Deriv
import Mathlib.Topology.Order.IntermediateValue
import Mathlib.Analysis.Calculus.Deriv.Polynomial

/-!
# `System` and the sample problems of russell_nonlin: properties (C100)
-/

namespace Russell.Nonlin.Samples

open Russell Russell.Res Russell.Sparse Russell.Lab Polynomial
open Russell.Ode.Samples (V Fits putAll lin NoArgs putAll_fits hasFDeriv_of)

variable {A : Type} {n : Nat}

/-- `calc_gg` computes `G` (whatever the vector to be written contained), for all extra arguments in `Ok`, which stay there -/
def Sys.Computes (S : Sys ℝ A) (Ok : A → Prop) (G : ℝ → V n → V n) : Prop :=
  S.ndim = n ∧ ∀ (gg : List ℝ) (l : ℝ) (u : V n) (a : A), gg.length = n → Ok a →
    ∃ a', S.calc_gg gg l (List.ofFn u) a = ok (List.ofFn (G l u), a') ∧ Ok a'

/-- `calc_jac` writes `J` into any empty matrix with the size, the room and the storage announced by the system; it writes `L` into the
vector of the derivatives with respect to λ, or leaves the vector alone if there is no `L` -/
def Sys.JacIs (S : Sys ℝ A) (Ok : A → Prop) (J : ℝ → V n → Matrix (Fin n) (Fin n) ℝ) (L : Option (ℝ → V n → V n)) : Prop :=
  ∀ (c : Coo ℝ) (ggl : List ℝ) (l : ℝ) (u : V n) (a : A), Fits c n S.nnz_ggu S.sym_ggu [] → ggl.length = n → Ok a →
    ∃ c' es' a', S.calc_jac c ggl l (List.ofFn u) a = ok (c', (L.map fun L => List.ofFn (L l u)).getD ggl, a') ∧ Ok a' ∧
      Fits c' n S.nnz_ggu S.sym_ggu es' ∧ ∀ i j : Fin n, denseOf S.sym_ggu es' i j = J l u i j

/-- the callbacks fit together: on `D` the matrix is the derivative of `G` with respect to `u`, and the vector the derivative with respect
to λ; if no vector is written then `G` does not depend on λ -/
structure Sys.Consistent (S : Sys ℝ A) (Ok : A → Prop) (G : ℝ → V n → V n) (J : ℝ → V n → Matrix (Fin n) (Fin n) ℝ) (L : Option (ℝ → V n → V n))
    (D : ℝ → V n → Prop) : Prop where
  gg : S.Computes Ok G
  jac : S.JacIs Ok J L
  du : ∀ l u, D l u → HasFDerivAt (G l) (lin (J l u)) u
  dl : ∀ L', L = some L' → ∀ l u, D l u → HasDerivAt (fun l => G l u) (L' l u) l
  nol : L = none → ∀ l l' u, G l u = G l' u

theorem jac_of {S : Sys ℝ A} {Ok : A → Prop} {J : ℝ → V n → Matrix (Fin n) (Fin n) ℝ} {L : Option (ℝ → V n → V n)} (E : ℝ → V n → List (Entry ℝ))
    (h1 : ∀ c ggl l (u : V n) a, ggl.length = n → Ok a → ∃ a', Ok a' ∧
      S.calc_jac c ggl l (List.ofFn u) a = (putAll c (E l u) >>= fun c => ok (c, (L.map fun L => List.ofFn (L l u)).getD ggl, a')))
    (h2 : ∀ l u, ∀ e ∈ E l u, e.1 < n ∧ e.2.1 < n ∧ InTriangle S.sym_ggu e.1 e.2.1) (h3 : ∀ l u, (E l u).length ≤ S.nnz_ggu)
    (h4 : ∀ l u, ∀ i j : Fin n, denseOf S.sym_ggu (E l u) i j = J l u i j) : S.JacIs Ok J L := by
  intro c ggl l u a hc hg ha
  obtain ⟨a', ha', e⟩ := h1 c ggl l u a hg ha
  obtain ⟨c', e1, f, _⟩ := putAll_fits (c := c) hc (h2 l u) (by simpa using h3 l u)
  refine ⟨c', E l u, a', ?_, ha', by simpa using f, h4 l u⟩
  rw [e, e1, ok_bind]

/-! ### `System` -/

section system

variable {α B : Type} [Field α] [LinearOrder α]

omit [Field α] [LinearOrder α] in
/-- **C100** `System::new` succeeds exactly for at least one equation and, if given, at least one entry; the default number of entries is the
one of a full matrix or of a full triangle. -/
theorem C100_new (ndim : Nat) (nnz : Option Nat) (sym : Sym) (f : FnG α B) (g : FnJ α B) :
    (1 ≤ ndim → nnz ≠ some 0 → ∃ S, Sys.new ndim nnz sym f g = ok S ∧ S.ndim = ndim ∧ S.sym_ggu = sym ∧ S.calc_gg = f ∧ S.calc_jac = g ∧ 1 ≤ S.nnz_ggu ∧
      (∀ k, nnz = some k → S.nnz_ggu = k) ∧ (nnz = none → sym.triangular = false → S.nnz_ggu = ndim * ndim) ∧
      (nnz = none → sym.triangular = true → S.nnz_ggu = ∑ i ∈ Finset.range ndim, (i + 1))) ∧
    (ndim = 0 → Sys.new ndim nnz sym f g = err "ndim must be at least 1") ∧
    (1 ≤ ndim → nnz = some 0 → Sys.new ndim nnz sym f g = err "nnz_ggu must be at least 1") := by
  have hsum : ∀ m, 2 * ∑ i ∈ Finset.range m, (i + 1) = m + m * m := by
    intro m
    induction m with
    | zero => rfl
    | succ m ih => rw [Finset.sum_range_succ, mul_add, ih]; ring
  have hmul : 1 ≤ ndim → 1 ≤ ndim * ndim := fun h => Nat.mul_pos h h
  refine ⟨fun h1 h2 => ?_, fun h => ?_, fun h1 h2 => ?_⟩
  · unfold Sys.new
    rw [if_neg (by omega)]
    cases nnz with
    | some k =>
      have : k ≠ 0 := fun h => h2 (by rw [h])
      refine ⟨_, if_neg (by omega), rfl, rfl, rfl, rfl, by show 1 ≤ k; omega, ?_, ?_, ?_⟩
      · intro k' h; cases h; rfl
      · intro h; simp at h
      · intro h; simp at h
    | none =>
      have hs := hsum ndim
      have hm := hmul h1
      refine ⟨_, rfl, rfl, rfl, rfl, rfl, ?_, ?_, ?_, ?_⟩
      · dsimp only
        split <;> omega
      · intro k h; simp at h
      · intro _ h; dsimp only; rw [h]; rfl
      · intro _ h; dsimp only; rw [h, if_pos rfl]; omega
  · unfold Sys.new
    rw [if_pos (by omega)]
  · unfold Sys.new
    rw [if_neg (by omega), h2]
    rfl

variable [IsStrictOrderedRing α]

omit [Field α] [LinearOrder α] in
theorem unitLoop {n : Nat} {f : Nat → Unit → Res Unit} {Q : Nat → Prop} (h : ∀ k, k < n → (Q k ∧ f k () = ok ()) ∨ (¬ Q k ∧ f k () = Res.panic)) :
    ((∀ k, k < n → Q k) ∧ forRange 0 n () f = ok ()) ∨ (¬ (∀ k, k < n → Q k) ∧ forRange 0 n () f = Res.panic) := by
  induction n with
  | zero => exact Or.inl ⟨fun k hk => by omega, forRange_empty (le_refl 0)⟩
  | succ n ih =>
    rw [forRange_succ_right (Nat.zero_le n)]
    rcases ih fun k hk => h k (by omega) with ⟨h1, e⟩ | ⟨h1, e⟩
    · rw [e, ok_bind]
      rcases h n (by omega) with ⟨h2, e2⟩ | ⟨h2, e2⟩
      · refine Or.inl ⟨fun k hk => ?_, e2⟩
        rcases Nat.lt_succ_iff_lt_or_eq.1 hk with hk | rfl
        · exact h1 k hk
        · exact h2
      · exact Or.inr ⟨fun h3 => h2 (h3 n (by omega)), e2⟩
    · rw [e, panic_bind]
      exact Or.inr ⟨fun h3 => h1 fun k hk => h3 k (by omega), rfl⟩

omit [IsStrictOrderedRing α] in
/-- **C100** `mat_approx_eq` passes exactly if all entries differ by at most the tolerance, and panics otherwise. -/
theorem C100_mat_approx_eq {a : NumMatrix α} {mm : Nat} {f : Nat → Nat → α} (ha : IsDense a mm mm f) (b : Arr2 α) (tol : α) :
    ((∀ i j, i < mm → j < mm → |f i j - b i j| ≤ tol) → matApproxEq a mm mm b tol = ok ()) ∧
    ((∃ i j, i < mm ∧ j < mm ∧ tol < |f i j - b i j|) → matApproxEq a mm mm b tol = Res.panic) := by
  unfold matApproxEq
  rw [if_neg (by simp [ha.nrow]), if_neg (by simp [ha.ncol]), ha.nrow, ha.ncol]
  have h := unitLoop (n := mm) (f := fun i (_ : Unit) => forRange 0 mm () fun j _ => do
      let x ← a.get i j
      let y ← Arr2.get mm mm b i j
      if |x - y| > tol then Res.panic else ok ()) (Q := fun i => ∀ j, j < mm → |f i j - b i j| ≤ tol) (by
        intro i hi
        refine unitLoop fun j hj => ?_
        rw [ha.get i j hi hj, ok_bind, Arr2.get_ok hi hj, ok_bind]
        by_cases hc : |f i j - b i j| ≤ tol
        · exact Or.inl ⟨hc, if_neg (not_lt.2 hc)⟩
        · exact Or.inr ⟨hc, if_pos (not_le.1 hc)⟩)
  rcases h with ⟨h1, e⟩ | ⟨h1, e⟩
  · refine ⟨fun _ => e, fun ⟨i, j, hi, hj, h⟩ => absurd (h1 i hi j hj) (not_le.2 h)⟩
  · refine ⟨fun h2 => absurd (fun i hi j hj => h2 i j hi hj) h1, fun _ => e⟩

/-- **C100** What `check_ggu` checks: the matrix that `calc_jac` gives at the load factor `l_at` is compared with the numerical derivative of
`G` at the load factor **zero**. With the true derivatives `d i j` of `G(·, 0)` and the error `e` of the numerical derivative, the check
passes if all entries differ by at most `tol - e` and panics (rather than returning an error) if one differs by more than `tol + e`. -/
theorem C100_check_ggu {cbrt : α → α} (hcb : CbrtOk cbrt) {S : Sys α B} {l_at tol e : α} {u_at : List α} {args args1 : B} {c0 c1 : Coo α} {ggl1 : List α}
    {es : List (Entry α)} (hu : u_at.length = S.ndim) (h0 : Coo.new S.ndim S.ndim S.nnz_ggu S.sym_ggu = ok c0)
    (hj : S.calc_jac c0 (List.replicate S.ndim 0) l_at u_at args = ok (c1, ggl1, args1)) (hr : c1.Rep es) (hrow : c1.nrow = S.ndim) (hcol : c1.ncol = S.ndim)
    {G : List α → List α} {upd : List α → B → B} (hG : ∀ yy, yy.length = S.ndim → (G yy).length = S.ndim)
    (hfun : ∀ fv yy a, yy.length = S.ndim → S.calc_gg fv 0 yy a = ok (G yy, upd yy a)) {d : Nat → Nat → α}
    (hd : ∀ i j, i < S.ndim → j < S.ndim → ∃ (c : Nat → α) (R : α → α) (M : α), c 1 = d i j ∧ 5 / 12 * M * fdStep ^ 4 ≤ e ∧
      Expands (fun t => (G (u_at.set j t)).getD i 0) (u_at.getD j 0) 5 c R (fun u => |u| ≤ fdStep) ∧ ∀ u, |u| ≤ fdStep → |R u| ≤ M * |u| ^ 5) :
    ((∀ i j, i < S.ndim → j < S.ndim → |denseOf c1.symmetric es i j - d i j| + e ≤ tol) → ∃ a, S.checkGgu cbrt l_at u_at args tol = ok a) ∧
    ((∃ i j, i < S.ndim ∧ j < S.ndim ∧ tol + e < |denseOf c1.symmetric es i j - d i j|) → S.checkGgu cbrt l_at u_at args tol = Res.panic) := by
  obtain ⟨jac, a2, e2, hjac⟩ := C81_num_jacobian hcb (function := S.calc_gg) (x := 0) (y := u_at) (n := S.ndim) 1 args1 hu.ge
    (fun yy h => hG yy (h.trans hu)) (fun fv yy a h => hfun fv yy a (h.trans hu))
  obtain ⟨ana, e3, hana⟩ := Coo.asDense_spec hr
  rw [hrow, hcol] at hana
  have hdiff : ∀ i j, i < S.ndim → j < S.ndim → |jac i j - d i j| ≤ e := by
    intro i j hi hj
    obtain ⟨c, R, M, h1, h2, h3, h4⟩ := hd i j hi hj
    have := hjac i j hi hj c R M h3 h4
    rw [abs_one, one_mul, one_mul, h1] at this
    exact this.trans h2
  have hrun : S.checkGgu cbrt l_at u_at args tol = (matApproxEq ana S.ndim S.ndim jac tol >>= fun _ => ok a2) := by
    unfold Sys.checkGgu
    rw [h0, Res.unwrap_ok, ok_bind]
    dsimp only
    rw [hj, Res.unwrap_ok, ok_bind]
    dsimp only
    rw [e2, Res.unwrap_ok, ok_bind]
    dsimp only
    rw [e3, ok_bind]
  obtain ⟨p1, p2⟩ := C100_mat_approx_eq hana jac tol
  rw [hrun]
  constructor
  · intro h
    rw [p1]
    · exact ⟨a2, rfl⟩
    · intro i j hi hj
      have h1 := h i j hi hj
      have h2 := hdiff i j hi hj
      have h3 := abs_sub_le (denseOf c1.symmetric es i j) (d i j) (jac i j)
      rw [abs_sub_comm (d i j)] at h3
      linarith
  · rintro ⟨i, j, hi, hj, h⟩
    rw [p2]
    · rfl
    · refine ⟨i, j, hi, hj, ?_⟩
      have h2 := hdiff i j hi hj
      have h3 := abs_sub_le (denseOf c1.symmetric es i j) (jac i j) (d i j)
      linarith

end system

/-- the system `G(u, λ) = λ u - 1` with the callback `jac` for the matrix -/
def loadSys (jac : ℚ → ℚ) : Sys ℚ NoArgs := ⟨1, 1, Sym.no,
  fun _ l u a => do
    let u0 ← vget u 0
    ok ([l * u0 - 1], a),
  fun c ggl l _ a => do
    let c ← Pde.unwrapM (c.put 0 0 (jac l))
    ok (c, ggl, a)⟩

theorem loadSys_check (jac : ℚ → ℚ) (tol l u : ℚ) :
    (|jac l| ≤ tol → ∃ a, (loadSys jac).checkGgu (fun _ => 1) l [u] 0 tol = ok a) ∧
    (tol < |jac l| → (loadSys jac).checkGgu (fun _ => 1) l [u] 0 tol = Res.panic) := by
  obtain ⟨c0, h0⟩ : ∃ c0 : Coo ℚ, Coo.new 1 1 1 Sym.no = ok c0 := ⟨_, rfl⟩
  obtain ⟨hr, h1, h2, h3, h4⟩ := Coo.new_rep h0 (by norm_num) (by norm_num)
  have hp := Coo.put_spec hr 0 0 (jac l)
  rw [if_pos ⟨by omega, by omega, by simp [h3], by simp [InTriangle, h4]⟩] at hp
  obtain ⟨c1, e1, r1, g1, g2, g3, g4⟩ := hp
  have key := C100_check_ggu (cbrt := fun _ : ℚ => 1) (fun _ _ _ => ⟨by norm_num, le_rfl⟩) (S := loadSys jac) (l_at := l) (u_at := [u]) (args := 0)
    (args1 := 0) (tol := tol) (e := 0) (c0 := c0) (c1 := c1) (ggl1 := [0]) (es := [(0, 0, jac l)]) rfl h0
    (by show (Pde.unwrapM (c0.put 0 0 (jac l)) >>= _) = _; rw [e1]; rfl) (by simpa using r1) (g1.trans h1) (g2.trans h2) (G := fun _ => [-1]) (upd := fun _ a => a)
    (fun _ _ => rfl) (fun fv yy a h => by
      match yy, h with
      | [y0], _ =>
        show ok ([0 * y0 - 1], a) = _
        rw [zero_mul, zero_sub]) (d := fun _ _ => 0)
    (fun i j _ _ => ⟨fun k => if k = 0 then ([-1] : List ℚ).getD i 0 else 0, fun _ => 0, 0, by simp, by simp, by intro t _; simp, by simp⟩)
  have hden : denseOf c1.symmetric [(0, 0, jac l)] 0 0 = jac l := by
    rw [g4, h4]
    simp [denseOf, Hits]
  constructor
  · intro h
    refine key.1 fun i j hi hj => ?_
    have hi0 : i = 0 := Nat.lt_one_iff.1 hi
    have hj0 : j = 0 := Nat.lt_one_iff.1 hj
    rw [hi0, hj0, hden]
    simpa using h
  · intro h
    refine key.2 ⟨0, 0, Nat.one_pos, Nat.one_pos, ?_⟩
    rw [hden]
    simpa using h

/-- **C100** (deviation) `check_ggu` does not check the matrix at the given load factor: for `G = λ u - 1` at `λ = 1` it rejects the right
matrix `λ` and accepts the wrong one `0`. -/
theorem C100_check_ggu_counterexample :
    (loadSys fun l => l).checkGgu (fun _ => 1) 1 [2] 0 (1 / 2) = Res.panic ∧ ∃ a, (loadSys fun _ => 0).checkGgu (fun _ => 1) 1 [2] 0 (1 / 2) = ok a :=
  ⟨(loadSys_check _ _ 1 2).2 (by norm_num), (loadSys_check _ _ 1 2).1 (by norm_num)⟩

/-- at `λ = 0` the check is right -/
example : (∃ a, (loadSys fun l => l).checkGgu (fun _ => 1) 0 [2] 0 (1 / 2) = ok a) ∧ (loadSys fun _ => 1).checkGgu (fun _ => 1) 0 [2] 0 (1 / 2) = Res.panic :=
  ⟨(loadSys_check _ _ 0 2).1 (by norm_num), (loadSys_check _ _ 0 2).2 (by norm_num)⟩

/-! ### The samples -/

/-- every value of the extra arguments is fine -/
abbrev Any (_ : NoArgs) : Prop := True

/-- everywhere -/
abbrev All (_ : ℝ) (_ : V n) : Prop := True

/-- **C100** `simple_linear_problem`, for every kind of storage. -/
theorem C100_simple_linear_problem (sym : Sym) : ∃ S u l a, simpleLinearProblem sym = ok (S, u, l, a) ∧
    S.Consistent Any (fun l (u : V 1) => ![u 0 - l]) (fun _ _ => !![1]) (some fun _ _ => ![-1]) All ∧ S.sym_ggu = sym ∧ u = [0] ∧ l = 0 := by
  refine ⟨_, _, _, _, rfl, ⟨⟨rfl, ?_⟩, ?_, ?_, ?_, by simp⟩, rfl, rfl, rfl⟩
  · intro gg l u a hg _
    match gg, hg with
    | [g0], _ => exact ⟨a, rfl, trivial⟩
  · refine jac_of (fun _ _ => [(0, 0, 1)]) ?_ ?_ (fun _ _ => le_refl 1) ?_
    · intro c ggl l u a hg _
      match ggl, hg with
      | [g0], _ => exact ⟨a, trivial, rfl⟩
    · intro l u
      simp [InTriangle]
    · intro l u i j
      fin_cases i; fin_cases j
      simp [denseOf, Hits]
  · intro l u _
    refine hasFDeriv_of fun i => ?_
    fin_cases i
    exact ⟨_, (hasFDerivAt_apply 0 u).sub_const l, fun v => by simp⟩
  · rintro _ ⟨⟩ l u _
    rw [hasDerivAt_pi]
    intro i
    fin_cases i
    exact (hasDerivAt_id l).const_sub (u 0)

/-- **C100** `cubic_poly_1`: there is one root only, and `u_reference` is the root rounded to fourteen digits; Newton's method started at
`u_oscillation` alternates between 0 and -1; the derivative vanishes at `u_indeterminate`. -/
theorem C100_cubic_poly_1 : ∃ S uo us ui ur a, cubicPoly1 = ok (S, [uo], [us], [ui], [ur], a) ∧
    S.Consistent Any (fun _ (u : V 1) => ![u 0 ^ 3 - 2 * u 0 - 2]) (fun _ u => !![3 * u 0 ^ 2 - 2]) none All ∧
    (∃ r : ℝ, (∀ x : ℝ, x ^ 3 - 2 * x - 2 = 0 ↔ x = r) ∧ |ur - r| ≤ 1e-14) ∧
    (us - (us ^ 3 - 2 * us - 2) / (3 * us ^ 2 - 2) = -1 ∧ (-1 : ℝ) - ((-1) ^ 3 - 2 * (-1) - 2) / (3 * (-1) ^ 2 - 2) = us) ∧
    3 * ui ^ 2 - 2 = 0 ∧ 3 * uo ^ 2 - 2 ≠ 0 := by
  refine ⟨_, _, _, _, _, _, rfl, ⟨⟨rfl, ?_⟩, ?_, ?_, by simp, fun _ _ _ _ => rfl⟩, ?_, ⟨by norm_num, by norm_num⟩, ?_, by norm_num⟩
  · intro gg l u a hg _
    match gg, hg with
    | [g0], _ =>
      refine ⟨a, ?_, trivial⟩
      show ok ([u 0 * u 0 * u 0 - 2 * u 0 - 2], a) = ok ([u 0 ^ 3 - 2 * u 0 - 2], a)
      rw [show u 0 * u 0 * u 0 = u 0 ^ 3 by ring]
  · refine jac_of (fun _ u => [(0, 0, 3 * u 0 * u 0 - 2)]) ?_ ?_ (fun _ _ => le_refl 1) ?_
    · intro c ggl l u a hg _
      exact ⟨a, trivial, rfl⟩
    · intro l u
      simp [InTriangle]
    · intro l u i j
      fin_cases i; fin_cases j
      simp [denseOf, Hits]
      ring
  · intro l u _
    refine hasFDeriv_of fun i => ?_
    fin_cases i
    exact ⟨_, (((hasFDerivAt_apply 0 u).pow 3).sub ((hasFDerivAt_apply 0 u).const_mul 2)).sub_const 2, fun v => by simp; ring⟩
  · have hc : ContinuousOn (fun x : ℝ => x ^ 3 - 2 * x - 2) (Set.Icc (1.76929235423863 - 1e-14) (1.76929235423863 + 1e-14)) := by fun_prop
    obtain ⟨r, ⟨hr1, hr2⟩, hr⟩ := intermediate_value_Icc (by norm_num) hc (show (0 : ℝ) ∈ _ from ⟨by norm_num, by norm_num⟩)
    dsimp only at hr
    refine ⟨r, fun x => ⟨fun hx => ?_, fun hx => by rw [hx]; exact hr⟩, ?_⟩
    · have h1 : (x - r) * (x ^ 2 + x * r + r ^ 2 - 2) = 0 := by linear_combination hx - hr
      rcases mul_eq_zero.1 h1 with h | h
      · linarith
      · exfalso
        have : (1.7 : ℝ) ≤ r := le_trans (by norm_num) hr1
        nlinarith [sq_nonneg (x + r / 2)]
    · rw [abs_le]
      constructor <;> linarith
  · rw [Real.sq_sqrt (by norm_num)]
    norm_num

/-- **C100** `cubic_poly_2`: `u_reference` is the only root. -/
theorem C100_cubic_poly_2 : ∃ S u ur a, cubicPoly2 = ok (S, [u], [ur], a) ∧
    S.Consistent Any (fun _ (u : V 1) => ![(u 0 - 1) ^ 3 + 0.512]) (fun _ u => !![3 * (u 0 - 1) ^ 2]) none All ∧
    (∀ x : ℝ, (x - 1) ^ 3 + 0.512 = 0 ↔ x = ur) ∧ u = 5 := by
  refine ⟨_, _, _, _, rfl, ⟨⟨rfl, ?_⟩, ?_, ?_, by simp, fun _ _ _ _ => rfl⟩, ?_, rfl⟩
  · intro gg l u a hg _
    match gg, hg with
    | [g0], _ => exact ⟨a, rfl, trivial⟩
  · refine jac_of (fun _ u => [(0, 0, 3 * (u 0 - 1) ^ 2)]) ?_ ?_ (fun _ _ => le_refl 1) ?_
    · intro c ggl l u a hg _
      exact ⟨a, trivial, rfl⟩
    · intro l u
      simp [InTriangle]
    · intro l u i j
      fin_cases i; fin_cases j
      simp [denseOf, Hits]
  · intro l u _
    refine hasFDeriv_of fun i => ?_
    fin_cases i
    exact ⟨_, (((hasFDerivAt_apply 0 u).sub_const 1).pow 3).add_const 0.512, fun v => by simp⟩
  · intro x
    constructor
    · intro h
      have h1 : (x - 0.2) * ((x - 1) ^ 2 - 0.8 * (x - 1) + 0.64) = 0 := by linear_combination h
      rcases mul_eq_zero.1 h1 with h | h
      · linarith
      · nlinarith [sq_nonneg (x - 1 - 0.4)]
    · rintro rfl
      norm_num

theorem cube_mono {x y : ℝ} (h : x < y) : x ^ 3 < y ^ 3 := (Odd.strictMono_pow (by decide : Odd 3)) h

/-- **C100** `two_eq_ref`: `u_reference` is the only solution. -/
theorem C100_two_eq_ref : ∃ S u ur a, twoEqRef = ok (S, u, ur, a) ∧
    S.Consistent Any (fun _ (u : V 2) => ![u 0 ^ 3 + u 1 - 1, -u 0 + u 1 ^ 3 + 1]) (fun _ u => !![3 * u 0 ^ 2, 1; -1, 3 * u 1 ^ 2]) none All ∧
    (∀ x y : ℝ, (x ^ 3 + y - 1 = 0 ∧ -x + y ^ 3 + 1 = 0) ↔ [x, y] = ur) ∧ u = [0.5, 0.5] := by
  refine ⟨_, _, _, _, rfl, ⟨⟨rfl, ?_⟩, ?_, ?_, by simp, fun _ _ _ _ => rfl⟩, ?_, rfl⟩
  · intro gg l u a hg _
    match gg, hg with
    | [g0, g1], _ => exact ⟨a, rfl, trivial⟩
  · refine jac_of (fun _ u => [(0, 0, 3 * u 0 * u 0), (0, 1, 1), (1, 0, -1), (1, 1, 3 * u 1 * u 1)]) ?_ ?_ (fun _ _ => le_refl 4) ?_
    · intro c ggl l u a hg _
      exact ⟨a, trivial, rfl⟩
    · intro l u
      simp [InTriangle]
    · intro l u i j
      fin_cases i <;> fin_cases j <;> simp [denseOf, Hits] <;> ring
  · intro l u _
    refine hasFDeriv_of fun i => ?_
    fin_cases i
    · exact ⟨_, (((hasFDerivAt_apply 0 u).pow 3).add (hasFDerivAt_apply 1 u)).sub_const 1, fun v => by simp⟩
    · exact ⟨_, (((hasFDerivAt_apply 0 u).neg).add ((hasFDerivAt_apply 1 u).pow 3)).add_const 1, fun v => by simp⟩
  · intro x y
    constructor
    · rintro ⟨h1, h2⟩
      have hx : x = 1 + y ^ 3 := by linarith
      have hy : y = 0 := by
        rcases lt_trichotomy y 0 with h | h | h
        · have h3 := cube_mono h
          have h4 := cube_mono (show x < 1 by rw [hx]; linarith)
          linarith
        · exact h
        · have h3 := cube_mono h
          have h4 := cube_mono (show 1 < x by rw [hx]; linarith)
          linarith
      rw [hx, hy]
      norm_num
    · intro h
      simp only [List.cons.injEq, and_true] at h
      obtain ⟨rfl, rfl⟩ := h
      norm_num

/-- **C100** `two_eq_nr_prob_1`: the origin is the only solution, and the matrix is singular there and at the initial guess. -/
theorem C100_two_eq_nr_prob_1 : ∃ S u0 u1 ur a, twoEqNrProb1 = ok (S, [u0, u1], ur, a) ∧
    S.Consistent Any (fun _ (u : V 2) => ![u 0 ^ 2 + u 1 ^ 2, u 0 ^ 2 - u 1 ^ 2]) (fun _ u => !![2 * u 0, 2 * u 1; 2 * u 0, -2 * u 1]) none All ∧
    (∀ x y : ℝ, (x ^ 2 + y ^ 2 = 0 ∧ x ^ 2 - y ^ 2 = 0) ↔ [x, y] = ur) ∧
    (!![2 * 0, 2 * 0; 2 * 0, -2 * 0] : Matrix (Fin 2) (Fin 2) ℝ).det = 0 ∧ !![2 * u0, 2 * u1; 2 * u0, -2 * u1].det = 0 ∧ u1 = 1e-5 := by
  refine ⟨_, _, _, _, _, rfl, ⟨⟨rfl, ?_⟩, ?_, ?_, by simp, fun _ _ _ _ => rfl⟩, ?_, by simp [Matrix.det_fin_two], by simp [Matrix.det_fin_two], rfl⟩
  · intro gg l u a hg _
    match gg, hg with
    | [g0, g1], _ =>
      refine ⟨a, ?_, trivial⟩
      show ok ([u 0 * u 0 + u 1 * u 1, u 0 * u 0 - u 1 * u 1], a) = ok ([u 0 ^ 2 + u 1 ^ 2, u 0 ^ 2 - u 1 ^ 2], a)
      simp only [pow_two]
  · refine jac_of (fun _ u => [(0, 0, 2 * u 0), (0, 1, 2 * u 1), (1, 0, 2 * u 0), (1, 1, -2 * u 1)]) ?_ ?_ (fun _ _ => le_refl 4) ?_
    · intro c ggl l u a hg _
      exact ⟨a, trivial, rfl⟩
    · intro l u
      simp [InTriangle]
    · intro l u i j
      fin_cases i <;> fin_cases j <;> simp [denseOf, Hits]
  · intro l u _
    refine hasFDeriv_of fun i => ?_
    fin_cases i
    · exact ⟨_, ((hasFDerivAt_apply 0 u).pow 2).add ((hasFDerivAt_apply 1 u).pow 2), fun v => by simp⟩
    · exact ⟨_, ((hasFDerivAt_apply 0 u).pow 2).sub ((hasFDerivAt_apply 1 u).pow 2), fun v => by simp; ring⟩
  · intro x y
    constructor
    · rintro ⟨h1, h2⟩
      have hx : x = 0 := by nlinarith
      have hy : y = 0 := by nlinarith
      rw [hx, hy]
    · intro h
      simp only [List.cons.injEq, and_true] at h
      obtain ⟨rfl, rfl⟩ := h
      norm_num

/-- **C100** `two_eq_nr_prob_2`: the two reference points are the only solutions; the matrix is singular at `u_bad` (and wherever
the two components agree) and regular at the other initial guesses. -/
theorem C100_two_eq_nr_prob_2 : ∃ S a0 a1 b0 b1 c0 c1 r1 r2 a, twoEqNrProb2 = ok (S, [a0, a1], [b0, b1], [c0, c1], r1, r2, a) ∧
    S.Consistent Any (fun _ (u : V 2) => ![u 0 ^ 2 + u 1 ^ 2 - 2, (u 0 - 1) ^ 2 + (u 1 - 1) ^ 2 - 2])
      (fun _ u => !![2 * u 0, 2 * u 1; 2 * (u 0 - 1), 2 * (u 1 - 1)]) none All ∧
    (∀ x y : ℝ, (x ^ 2 + y ^ 2 - 2 = 0 ∧ (x - 1) ^ 2 + (y - 1) ^ 2 - 2 = 0) ↔ [x, y] = r1 ∨ [x, y] = r2) ∧ r1 ≠ r2 ∧
    (∀ x y : ℝ, (!![2 * x, 2 * y; 2 * (x - 1), 2 * (y - 1)]).det = 0 ↔ x = y) ∧ c0 = c1 ∧ a0 ≠ a1 ∧ b0 ≠ b1 := by
  have h3 : Real.sqrt 3 ^ 2 = 3 := Real.sq_sqrt (by norm_num)
  have h3p : 0 < Real.sqrt 3 := Real.sqrt_pos.2 (by norm_num)
  refine ⟨_, _, _, _, _, _, _, _, _, _, rfl, ⟨⟨rfl, ?_⟩, ?_, ?_, by simp, fun _ _ _ _ => rfl⟩, ?_, ?_, ?_, rfl, by norm_num, by norm_num⟩
  · intro gg l u a hg _
    match gg, hg with
    | [g0, g1], _ => exact ⟨a, rfl, trivial⟩
  · refine jac_of (fun _ u => [(0, 0, 2 * u 0), (0, 1, 2 * u 1), (1, 0, 2 * (u 0 - 1)), (1, 1, 2 * (u 1 - 1))]) ?_ ?_ (fun _ _ => le_refl 4) ?_
    · intro c ggl l u a hg _
      exact ⟨a, trivial, rfl⟩
    · intro l u
      simp [InTriangle]
    · intro l u i j
      fin_cases i <;> fin_cases j <;> simp [denseOf, Hits]
  · intro l u _
    refine hasFDeriv_of fun i => ?_
    fin_cases i
    · exact ⟨_, (((hasFDerivAt_apply 0 u).pow 2).add ((hasFDerivAt_apply 1 u).pow 2)).sub_const 2, fun v => by simp⟩
    · exact ⟨_, ((((hasFDerivAt_apply 0 u).sub_const 1).pow 2).add (((hasFDerivAt_apply 1 u).sub_const 1).pow 2)).sub_const 2, fun v => by simp⟩
  · intro x y
    simp only [List.cons.injEq, and_true]
    constructor
    · rintro ⟨h1, h2⟩
      have hy : y = 1 - x := by linarith
      have h4 : (x - (1 - Real.sqrt 3) / 2) * (x - (1 + Real.sqrt 3) / 2) = 0 := by
        rw [hy] at h1
        linear_combination h1 / 2 - h3 / 4
      rcases mul_eq_zero.1 h4 with h | h
      · left; constructor <;> linarith
      · right; constructor <;> linarith
    · rintro (⟨rfl, rfl⟩ | ⟨rfl, rfl⟩)
      · constructor <;> linear_combination h3 / 2
      · constructor <;> linear_combination h3 / 2
  · intro h
    simp only [List.cons.injEq, and_true] at h
    linarith [h.1]
  · intro x y
    rw [Matrix.det_fin_two]
    show 2 * x * (2 * (y - 1)) - 2 * y * (2 * (x - 1)) = 0 ↔ x = y
    constructor
    · intro h; linarith
    · rintro rfl; ring

/-- **C100** `one_eq_with_fold_point`: the solutions are exactly the points with `λ = lambda_ana(u)`; along them the matrix vanishes at `u = 1`
only, where λ has its maximum `1/e`. -/
theorem C100_one_eq_with_fold_point : ∃ S u0 l0 f a, oneEqWithFoldPoint = ok (S, [u0], l0, f, a) ∧
    S.Consistent Any (fun l (u : V 1) => ![u 0 - l * Real.exp (u 0)]) (fun l u => !![1 - l * Real.exp (u 0)]) (some fun _ u => ![-Real.exp (u 0)]) All ∧
    (∀ l u : ℝ, u - l * Real.exp u = 0 ↔ l = f u) ∧ l0 = f u0 ∧
    (∀ u : ℝ, 1 - f u * Real.exp u = 0 ↔ u = 1) ∧ f 1 = Real.exp (-1) ∧ (∀ u : ℝ, u ≠ 1 → f u < f 1) := by
  have hf : ∀ u : ℝ, Real.exp (-u) * u * Real.exp u = u := fun u => by
    rw [mul_right_comm, ← Real.exp_add, neg_add_cancel, Real.exp_zero, one_mul]
  refine ⟨_, _, _, _, _, rfl, ⟨⟨rfl, ?_⟩, ?_, ?_, ?_, by simp⟩, ?_, by simp, ?_, by simp, ?_⟩
  · intro gg l u a hg _
    match gg, hg with
    | [g0], _ => exact ⟨a, rfl, trivial⟩
  · refine jac_of (fun l u => [(0, 0, 1 - l * Real.exp (u 0))]) ?_ ?_ (fun _ _ => le_refl 1) ?_
    · intro c ggl l u a hg _
      match ggl, hg with
      | [g0], _ => exact ⟨a, trivial, rfl⟩
    · intro l u
      simp [InTriangle]
    · intro l u i j
      fin_cases i; fin_cases j
      simp [denseOf, Hits]
  · intro l u _
    refine hasFDeriv_of fun i => ?_
    fin_cases i
    exact ⟨_, (hasFDerivAt_apply 0 u).sub (((hasFDerivAt_apply 0 u).exp).const_mul l), fun v => by simp; ring⟩
  · rintro _ ⟨⟩ l u _
    rw [hasDerivAt_pi]
    intro i
    fin_cases i
    have := ((hasDerivAt_id l).mul_const (Real.exp (u 0))).const_sub (u 0)
    simpa using this
  · intro l u
    have he := Real.exp_pos u
    constructor
    · intro h
      have h1 := hf u
      have h2 : (l - Real.exp (-u) * u) * Real.exp u = 0 := by linarith
      rcases mul_eq_zero.1 h2 with h | h
      · linarith
      · exact absurd h he.ne'
    · rintro rfl
      rw [hf]; ring
  · intro u
    rw [hf]
    constructor <;> intro h <;> linarith
  · intro u hu
    have h1 := Real.add_one_lt_exp (x := u - 1) (sub_ne_zero.2 hu)
    have h2 : u < Real.exp (u - 1) := by linarith
    have h3 := mul_lt_mul_of_pos_left h2 (Real.exp_pos (-u))
    rw [← Real.exp_add] at h3
    rw [mul_one]
    calc Real.exp (-u) * u < Real.exp (-u + (u - 1)) := h3
      _ = Real.exp (-1) := by congr 1; ring

/-- **C100** `singular_initial_state`: right for positive `u`; the solutions are the points with `λ = lambda_ana(u)`; without perturbation the
initial state is a solution, at which the matrix vanishes if the exponent exceeds one. -/
theorem C100_singular_initial_state (alpha perturbation : ℝ) : ∃ S f a, singularInitialState alpha perturbation = ok (S, [perturbation], 0, f, a) ∧
    S.Consistent Any (fun l (u : V 1) => ![u 0 ^ alpha - l]) (fun _ u => !![alpha * u 0 ^ (alpha - 1)]) (some fun _ _ => ![-1]) (fun _ u => 0 < u 0) ∧
    (∀ l u : ℝ, u ^ alpha - l = 0 ↔ l = f u) ∧ (alpha ≠ 0 → f 0 = 0) ∧ (1 < alpha → alpha * (0 : ℝ) ^ (alpha - 1) = 0) := by
  refine ⟨_, _, _, rfl, ⟨⟨rfl, ?_⟩, ?_, ?_, ?_, by simp⟩, ?_, ?_, ?_⟩
  · intro gg l u a hg _
    match gg, hg with
    | [g0], _ => exact ⟨a, rfl, trivial⟩
  · refine jac_of (fun l u => [(0, 0, alpha * u 0 ^ (alpha - 1))]) ?_ ?_ (fun _ _ => le_refl 1) ?_
    · intro c ggl l u a hg _
      match ggl, hg with
      | [g0], _ => exact ⟨a, trivial, rfl⟩
    · intro l u
      simp [InTriangle]
    · intro l u i j
      fin_cases i; fin_cases j
      simp [denseOf, Hits]
  · intro l u hu
    refine hasFDeriv_of fun i => ?_
    fin_cases i
    exact ⟨_, ((hasFDerivAt_apply 0 u).rpow_const (p := alpha) (Or.inl hu.ne')).sub_const l, fun v => by simp⟩
  · rintro _ ⟨⟩ l u _
    rw [hasDerivAt_pi]
    intro i
    fin_cases i
    exact (hasDerivAt_id l).const_sub (u 0 ^ alpha)
  · intro l u
    show u ^ alpha - l = 0 ↔ l = u ^ alpha
    constructor <;> intro h <;> linarith
  · intro h
    exact Real.zero_rpow h
  · intro h
    rw [Real.zero_rpow (by linarith), mul_zero]

/-- **C100** `circle_ul`: the initial state lies on the circle, on the diagonal; the matrix vanishes at the points with `u = 0`. -/
theorem C100_circle_ul (radius : ℝ) : ∃ S u0 l0 a, circleUl radius = ok (S, [u0], l0, a) ∧
    S.Consistent Any (fun l (u : V 1) => ![u 0 ^ 2 + l ^ 2 - radius ^ 2]) (fun _ u => !![2 * u 0]) (some fun l _ => ![2 * l]) All ∧
    u0 ^ 2 + l0 ^ 2 - radius ^ 2 = 0 ∧ u0 = l0 ∧ (0 < radius → 0 < u0) := by
  have h2 : Real.sqrt 2 ^ 2 = 2 := Real.sq_sqrt (by norm_num)
  refine ⟨_, _, _, _, rfl, ⟨⟨rfl, ?_⟩, ?_, ?_, ?_, by simp⟩, ?_, rfl, fun h => ?_⟩
  · intro gg l u a hg _
    match gg, hg with
    | [g0], _ =>
      refine ⟨a, ?_, trivial⟩
      show ok ([u 0 * u 0 + l * l - radius * radius], a) = ok ([u 0 ^ 2 + l ^ 2 - radius ^ 2], a)
      simp only [pow_two]
  · refine jac_of (fun l u => [(0, 0, 2 * u 0)]) ?_ ?_ (fun _ _ => le_refl 1) ?_
    · intro c ggl l u a hg _
      match ggl, hg with
      | [g0], _ => exact ⟨a, trivial, rfl⟩
    · intro l u
      simp [InTriangle]
    · intro l u i j
      fin_cases i; fin_cases j
      simp [denseOf, Hits]
  · intro l u _
    refine hasFDeriv_of fun i => ?_
    fin_cases i
    exact ⟨_, (((hasFDerivAt_apply 0 u).pow 2).add_const (l ^ 2)).sub_const (radius ^ 2), fun v => by simp⟩
  · rintro _ ⟨⟩ l u _
    rw [hasDerivAt_pi]
    intro i
    fin_cases i
    have := (((hasDerivAt_id l).pow 2).const_add (u 0 ^ 2)).sub_const (radius ^ 2)
    simpa using this
  · rw [div_pow, h2]; ring
  · exact div_pos h (Real.sqrt_pos.2 (by norm_num))

/-! ### The B-spline problem -/

section curve

variable {α : Type} [Field α] [LinearOrder α] [IsStrictOrderedRing α]

/-- the point of the curve, also at the right end -/
theorem calcPoint_core {b : BsplineD α} {ndim : Nat} {P : Nat → Nat → α} (hr : b.Ready ndim P) {u : α} {s : Nat} (e : findSpan b.p b.uu u = ok s)
    (g1 : b.p ≤ s) (g2 : s < b.numBasis) {cc : List α} (hcc : cc.length = ndim) :
    ∃ b' cc', b.toBspline.calcPoint cc u false = ok (b', cc') ∧ ({ b with toBspline := b' } : BsplineD α).Ready ndim P ∧ b'.p = b.p ∧ b'.uu = b.uu ∧
      IsVec cc' ndim (fun l => (curveP b.uu b.p s (fun i => P i l)).eval u) := by
  have hlen := hr.wf.len
  have hnb : 0 < b.numBasis := by omega
  obtain ⟨p0, hp0, hv0⟩ := hr.rows 0 hnb
  unfold Bspline.calcPoint
  dsimp only
  rw [if_neg (by simpa using hr.len), vget_of hp0, ok_bind, hv0.len, if_neg (by simpa using hcc), if_neg (by simp)]
  have hz : IsVec (List.replicate cc.length (0 : α)) ndim (fun _ => 0) := by rw [hcc]; exact isVec_replicate _ _
  have hnbe : b.numBasis = b.uu.length - 1 - b.p := rfl
  obtain ⟨ndu, left, right, e2, hn⟩ := basisFuns_spec b.toBspline u g1 (by omega)
  rw [e, ok_bind, e2, ok_bind]
  dsimp only
  have hsub : subUsize s b.p = ok (s - b.p) := by simp [subUsize, g1]
  obtain ⟨cc', e3, h⟩ := forRange_spec (f := fun i cc => do
      let s ← subUsize s b.p
      let w ← Arr2.get (b.p + 1) (b.p + 1) ndu i b.p
      accumulatePoint ndim w b.pp (s + i) cc)
    (fun k c => IsVec c ndim (fun j => ∑ i ∈ Finset.range k, piece (knot b.uu) s u b.p (s - b.p + i) * P (s - b.p + i) j))
    (Nat.zero_le (b.p + 1)) (s := List.replicate cc.length (0 : α)) (hz.congr (fun i _ => by simp))
    (by
      intro k c _ hk hc
      rw [hsub, ok_bind, Arr2.get_ok hk (by omega), ok_bind, hn.val b.p k (by omega) (by omega)]
      obtain ⟨row, hr, hv⟩ := hr.rows (s - b.p + k) (by omega)
      obtain ⟨c', e, h⟩ := accumulatePoint_spec (w := piece (knot b.uu) s u b.p (s - b.p + k)) hr hv hc
      exact ⟨c', e, h.congr (fun j _ => by rw [Finset.sum_range_succ])⟩)
  refine ⟨{ b.toBspline with ndu, left, right }, cc', by rw [e3, ok_bind],
    ⟨⟨hr.wf.deg, hr.wf.len, hr.wf.min_le, hr.wf.le_max, hr.wf.min_mem, hr.wf.max_mem⟩, hr.pos, hr.len, hr.rows, hr.cc, hr.pd⟩, rfl, rfl, h.congr (fun j hj => ?_)⟩
  rw [curveP, eval_finsetSum]
  refine Finset.sum_congr rfl fun i _ => ?_
  rw [eval_mul, eval_C, pieceP_eval, mul_comm]

end curve

/-- a function given in three parts -/
noncomputable def parts (f g h : ℝ → ℝ) (t : ℝ) : ℝ := if t < 2 / 5 then f t else if t < 3 / 5 then g t else h t

/-- the curve of the sample, first coordinate -/
noncomputable def curveX (δ : ℝ) : ℝ → ℝ := parts (fun t => 5 / 2 * t + 25 / 12 * t ^ 2)
  (fun t => -5 / 3 + 65 / 6 * t - 25 / 3 * t ^ 2 + δ * (-4 / 3 + 20 / 3 * t - 25 / 3 * t ^ 2))
  (fun t => 25 / 12 - 5 / 3 * t + 25 / 12 * t ^ 2 + δ * (65 / 12 - 95 / 6 * t + 125 / 12 * t ^ 2))

/-- the curve of the sample, second coordinate -/
noncomputable def curveY : ℝ → ℝ := parts (fun t => 5 * t - 25 / 4 * t ^ 2) (fun t => -1 / 3 + 20 / 3 * t - 25 / 3 * t ^ 2)
  (fun t => 127 / 24 - 145 / 12 * t + 175 / 24 * t ^ 2)

/-- the tangent, first coordinate -/
noncomputable def curveDX (δ : ℝ) : ℝ → ℝ := parts (fun t => 5 / 2 + 25 / 6 * t) (fun t => 65 / 6 - 50 / 3 * t + δ * (20 / 3 - 50 / 3 * t))
  (fun t => -5 / 3 + 25 / 6 * t + δ * (-95 / 6 + 125 / 6 * t))

/-- the tangent, second coordinate -/
noncomputable def curveDY : ℝ → ℝ := parts (fun t => 5 - 25 / 2 * t) (fun t => 20 / 3 - 50 / 3 * t) (fun t => -145 / 12 + 175 / 12 * t)

theorem glue {f g : ℝ → ℝ} {a d : ℝ} (hf : HasDerivAt f d a) (hg : HasDerivAt g d a) (h : f a = g a) : HasDerivAt (fun t => if t < a then f t else g t) d a := by
  rw [← hasDerivWithinAt_univ, ← Set.Iic_union_Ici (a := a)]
  refine HasDerivWithinAt.union ?_ ?_
  · refine hf.hasDerivWithinAt.congr (fun t ht => ?_) (by rw [if_neg (lt_irrefl a), h])
    rcases lt_or_eq_of_le (show t ≤ a from ht) with h1 | rfl
    · rw [if_pos h1]
    · rw [if_neg (lt_irrefl _), h]
  · refine hg.hasDerivWithinAt.congr (fun t ht => ?_) (by rw [if_neg (lt_irrefl a)])
    rw [if_neg (not_lt.2 ht)]

theorem parts_deriv {f g h f' g' h' : ℝ → ℝ} (hf : ∀ t, HasDerivAt f (f' t) t) (hg : ∀ t, HasDerivAt g (g' t) t) (hh : ∀ t, HasDerivAt h (h' t) t)
    (e1 : f (2 / 5) = g (2 / 5)) (e2 : g (3 / 5) = h (3 / 5)) (e3 : f' (2 / 5) = g' (2 / 5)) (e4 : g' (3 / 5) = h' (3 / 5)) (t : ℝ) :
    HasDerivAt (parts f g h) (parts f' g' h' t) t := by
  have h2 : ∀ t, HasDerivAt (fun t => if t < 3 / 5 then g t else h t) (if t < 3 / 5 then g' t else h' t) t := by
    intro t
    rcases lt_trichotomy t (3 / 5) with ht | rfl | ht
    · rw [if_pos ht]
      refine (hg t).congr_of_eventuallyEq ?_
      filter_upwards [Iio_mem_nhds ht] with x hx
      exact if_pos hx
    · rw [if_neg (lt_irrefl _)]
      exact glue (e4 ▸ hg _) (hh _) e2
    · rw [if_neg ht.not_gt]
      refine (hh t).congr_of_eventuallyEq ?_
      filter_upwards [Ioi_mem_nhds ht] with x hx
      exact if_neg (not_lt.2 (le_of_lt hx))
  unfold parts
  rcases lt_trichotomy t (2 / 5) with ht | rfl | ht
  · rw [if_pos ht]
    refine (hf t).congr_of_eventuallyEq ?_
    filter_upwards [Iio_mem_nhds ht] with x hx
    exact if_pos hx
  · rw [if_neg (lt_irrefl _)]
    refine glue (f := f) (g := fun t => if t < 3 / 5 then g t else h t) ?_ (h2 _) ?_
    · rw [if_pos (by norm_num), ← e3]; exact hf _
    · rw [if_pos (by norm_num), e1]
  · rw [if_neg ht.not_gt]
    refine (h2 t).congr_of_eventuallyEq ?_
    filter_upwards [Ioi_mem_nhds ht] with x hx
    exact if_neg (not_lt.2 (le_of_lt hx))

theorem quad_deriv (a b c : ℝ) (t : ℝ) : HasDerivAt (fun t : ℝ => a + b * t + c * t ^ 2) (b + 2 * c * t) t := by
  have := (((hasDerivAt_id t).const_mul b).const_add a).add (((hasDerivAt_id t).pow 2).const_mul c)
  refine (this.congr_deriv ?_).congr_of_eventuallyEq (Filter.Eventually.of_forall fun x => ?_)
  · simp; ring
  · simp

theorem quad_deriv' {f : ℝ → ℝ} {f' : ℝ → ℝ} (a b c : ℝ) (h1 : ∀ t, f t = a + b * t + c * t ^ 2) (h2 : ∀ t, f' t = b + 2 * c * t) (t : ℝ) :
    HasDerivAt f (f' t) t := by
  rw [h2, show f = fun t => a + b * t + c * t ^ 2 from funext h1]
  exact quad_deriv a b c t

theorem curveX_deriv (δ t : ℝ) : HasDerivAt (curveX δ) (curveDX δ t) t := by
  refine parts_deriv (quad_deriv' 0 (5 / 2) (25 / 12) ?_ ?_) (quad_deriv' (-5 / 3 - 4 / 3 * δ) (65 / 6 + 20 / 3 * δ) (-25 / 3 - 25 / 3 * δ) ?_ ?_)
    (quad_deriv' (25 / 12 + 65 / 12 * δ) (-5 / 3 - 95 / 6 * δ) (25 / 12 + 125 / 12 * δ) ?_ ?_) ?_ ?_ ?_ ?_ t
  all_goals first | (intro t; ring) | ring

theorem curveY_deriv (t : ℝ) : HasDerivAt curveY (curveDY t) t := by
  refine parts_deriv (quad_deriv' 0 5 (-25 / 4) ?_ ?_) (quad_deriv' (-1 / 3) (20 / 3) (-25 / 3) ?_ ?_)
    (quad_deriv' (127 / 24) (-145 / 12) (175 / 24) ?_ ?_) ?_ ?_ ?_ ?_ t
  all_goals first | (intro t; ring) | norm_num

/-- the control points -/
noncomputable def bsP (δ : ℝ) (i l : Nat) : ℝ := ((bsControl δ).getD i []).getD l 0

theorem bsKnots_sorted : SortedKnots bsKnots := by
  intro i j hij hj
  have hl : bsKnots.length = 8 := rfl
  rw [hl] at hj
  interval_cases j <;> interval_cases i <;> simp [knot, bsKnots] <;> norm_num

/-- a polynomial with the values of a quadratic function has its derivative -/
theorem poly_quad {Q : ℝ[X]} {a b c : ℝ} (h : ∀ t, Q.eval t = a + b * t + c * t ^ 2) (t : ℝ) : (derivative^[1] Q).eval t = b + 2 * c * t := by
  have hQ : Q = C a + C b * X + C c * X ^ 2 := Polynomial.funext fun t => by rw [h]; simp
  rw [hQ]
  simp
  ring

/-- the values of the pieces -/
theorem bs_values (δ t : ℝ) :
    (curveP bsKnots 2 2 (fun i => bsP δ i 0)).eval t = 0 + 5 / 2 * t + 25 / 12 * t ^ 2 ∧
    (curveP bsKnots 2 3 (fun i => bsP δ i 0)).eval t = (-5 / 3 - 4 / 3 * δ) + (65 / 6 + 20 / 3 * δ) * t + (-25 / 3 - 25 / 3 * δ) * t ^ 2 ∧
    (curveP bsKnots 2 4 (fun i => bsP δ i 0)).eval t = (25 / 12 + 65 / 12 * δ) + (-5 / 3 - 95 / 6 * δ) * t + (25 / 12 + 125 / 12 * δ) * t ^ 2 ∧
    (curveP bsKnots 2 2 (fun i => bsP δ i 1)).eval t = 0 + 5 * t + (-25 / 4) * t ^ 2 ∧
    (curveP bsKnots 2 3 (fun i => bsP δ i 1)).eval t = -1 / 3 + 20 / 3 * t + (-25 / 3) * t ^ 2 ∧
    (curveP bsKnots 2 4 (fun i => bsP δ i 1)).eval t = 127 / 24 + (-145 / 12) * t + 175 / 24 * t ^ 2 := by
  refine ⟨?_, ?_, ?_, ?_, ?_, ?_⟩ <;>
  · rw [curveP, eval_finsetSum]
    simp only [Finset.sum_range_succ, Finset.sum_range_zero, eval_mul, eval_C, pieceP_eval, piece]
    simp [knot, bsKnots, bsP, bsControl]
    ring

/-- the extra arguments of the sample: the curve as set up, whatever the working arrays contain -/
structure BsOk (δ : ℝ) (a : BsplineArgs) : Prop where
  ready : a.bspline.Ready 2 (bsP δ)
  deg : a.bspline.p = 2
  knots : a.bspline.uu = bsKnots
  coords : a.coords.length = 2

/-- the span of a parameter, and the values of the two polynomials on it and of their derivatives -/
theorem bs_span {b : BsplineD ℝ} {δ : ℝ} (hr : b.Ready 2 (bsP δ)) (hp : b.p = 2) (hk : b.uu = bsKnots) {t : ℝ} (h0 : 0 ≤ t) (h1 : t ≤ 1) :
    ∃ s, findSpan b.p b.uu t = ok s ∧ b.p ≤ s ∧ s < b.numBasis ∧ knot b.uu s < knot b.uu (s + 1) ∧
      (curveP b.uu b.p s (fun i => bsP δ i 0)).eval t = curveX δ t ∧ (curveP b.uu b.p s (fun i => bsP δ i 1)).eval t = curveY t ∧
      (derivative^[1] (curveP b.uu b.p s (fun i => bsP δ i 0))).eval t = curveDX δ t ∧
      (derivative^[1] (curveP b.uu b.p s (fun i => bsP δ i 1))).eval t = curveDY t := by
  have hnb : b.numBasis = 5 := by simp [Bspline.numBasis, hp, hk, bsKnots]
  have hin : b.toBspline.InRange t := by
    refine ⟨?_, ?_, ?_, ?_⟩ <;> simp only [hp, hk, hnb] <;> norm_num [knot, bsKnots]
    · exact h0
    · exact h1
  obtain ⟨s, e, g1, g2, g3, g4, g5, g6⟩ := span_spec hr.wf hin
  refine ⟨s, e, g1, g2, g3, ?_⟩
  rw [hnb] at g2
  simp only [hp, hk, hnb] at g1 g3 g4 g5 g6 ⊢
  obtain ⟨v1, v2, v3, v4, v5, v6⟩ := (⟨fun t => (bs_values δ t).1, fun t => (bs_values δ t).2.1, fun t => (bs_values δ t).2.2.1,
    fun t => (bs_values δ t).2.2.2.1, fun t => (bs_values δ t).2.2.2.2.1, fun t => (bs_values δ t).2.2.2.2.2⟩ : (∀ t, _) ∧ (∀ t, _) ∧ (∀ t, _) ∧ (∀ t, _) ∧ (∀ t, _) ∧ ∀ t, _)
  unfold curveX curveY curveDX curveDY parts
  interval_cases s
  · have hlt : t < 2 / 5 := by
      have := g6
      norm_num [knot, bsKnots] at this g5
      rcases lt_or_ge t 1 with h | h
      · exact this h
      · linarith
    simp only [if_pos hlt]
    rw [v1, v4, poly_quad v1, poly_quad v4]
    refine ⟨?_, ?_, ?_, ?_⟩ <;> ring
  · have hge : ¬ t < 2 / 5 := by
      norm_num [knot, bsKnots] at g4
      exact not_lt.2 g4
    have hlt : t < 3 / 5 := by
      have := g6
      norm_num [knot, bsKnots] at this g5
      rcases lt_or_ge t 1 with h | h
      · exact this h
      · linarith
    simp only [if_neg hge, if_pos hlt]
    rw [v2, v5, poly_quad v2, poly_quad v5]
    refine ⟨?_, ?_, ?_, ?_⟩ <;> ring
  · have hge : ¬ t < 3 / 5 := by
      norm_num [knot, bsKnots] at g4
      exact not_lt.2 g4
    have hge' : ¬ t < 2 / 5 := fun h => hge (h.trans (by norm_num))
    simp only [if_neg hge, if_neg hge']
    rw [v3, v6, poly_quad v3, poly_quad v6]
    refine ⟨?_, ?_, ?_, ?_⟩ <;> ring

/-- the parameter of the curve -/
noncomputable def clamp (l : ℝ) : ℝ := min 1 (max 0 l)

theorem clamp_mem (l : ℝ) : 0 ≤ clamp l ∧ clamp l ≤ 1 := ⟨le_min zero_le_one (le_max_left _ _), min_le_left _ _⟩

theorem isVec2 {v : List ℝ} {f : Nat → ℝ} (h : IsVec v 2 f) : v = [f 0, f 1] := by
  have h0 := h.vget (i := 0) (by omega)
  have h1 := h.vget (i := 1) (by omega)
  match v, h.len with
  | [a, b], _ =>
    have e0 : ok a = ok (f 0) := h0
    have e1 : ok b = ok (f 1) := h1
    injection e0 with e0
    injection e1 with e1
    rw [e0, e1]

theorem bs_gg (δ : ℝ) {gg : List ℝ} {l : ℝ} {u : V 2} {a : BsplineArgs} (hg : gg.length = 2) (ha : BsOk δ a) :
    ∃ a', bsplineGg gg l (List.ofFn u) a = ok (List.ofFn ![u 0 - curveX δ (clamp l), u 1 - curveY (clamp l)], a') ∧ BsOk δ a' := by
  obtain ⟨s, e, g1, g2, g3, w1, w2, _, _⟩ := bs_span ha.ready ha.deg ha.knots (clamp_mem l).1 (clamp_mem l).2
  obtain ⟨b', cc', e1, r1, p1, k1, hv⟩ := calcPoint_core ha.ready e g1 g2 ha.coords
  have hv' := isVec2 hv
  rw [w1, w2] at hv'
  refine ⟨⟨{ a.bspline with toBspline := b' }, cc'⟩, ?_, ⟨r1, p1.trans ha.deg, k1.trans ha.knots, hv.len⟩⟩
  unfold bsplineGg
  show (a.bspline.toBspline.calcPoint a.coords (clamp l) false >>= _) = _
  rw [e1, ok_bind, hv']
  match gg, hg with
  | [x, y], _ => rfl

theorem bs_jac (δ : ℝ) {c : Coo ℝ} {ggl : List ℝ} {l : ℝ} {u : V 2} {a : BsplineArgs} (hg : ggl.length = 2) (ha : BsOk δ a) :
    ∃ a', BsOk δ a' ∧ bsplineJac c ggl l (List.ofFn u) a =
      (putAll c [(0, 0, 1), (1, 1, 1)] >>= fun c => ok (c, List.ofFn ![-curveDX δ (clamp l), -curveDY (clamp l)], a')) := by
  obtain ⟨s, e, g1, g2, g3, _, _, w1, w2⟩ := bs_span ha.ready ha.deg ha.knots (clamp_mem l).1 (clamp_mem l).2
  obtain ⟨b', e1, r1, p1, k1, h⟩ := curve_deriv_core ha.ready (by rw [ha.knots]; exact bsKnots_sorted) e g1 g2 g3 1 false
  obtain ⟨cc', e2, hv⟩ := h 1 (Or.inl le_rfl) a.coords ha.coords
  have hv' := isVec2 hv
  rw [w1, w2] at hv'
  refine ⟨⟨b', cc'⟩, ⟨r1, p1.trans ha.deg, k1.trans ha.knots, hv.len⟩, ?_⟩
  unfold bsplineJac
  refine congrArg _ (funext fun c => ?_)
  show (a.bspline.calcCurveDerivs (clamp l) 1 false >>= _) = _
  rw [e1, ok_bind]
  show (b'.getCurveDeriv a.coords 1 >>= _) = _
  rw [e2, ok_bind, hv']
  match ggl, hg with
  | [x, y], _ => rfl

theorem bs_new (δ : ℝ) : ∃ a, bsplineProblem1 δ = ok (⟨2, 2, Sym.no, bsplineGg, bsplineJac⟩, [0, 0], 0, a) ∧ BsOk δ a := by
  obtain ⟨b, b', e1, e2, h, hp, hk⟩ := (C99_ready (P := bsP δ) (ndim := 2) (by norm_num) (pp := bsControl δ)).1 2 bsKnots (by norm_num) (by simp [bsKnots]) rfl (by
    intro i hi
    have hl : (bsControl δ).length = 5 := rfl
    rw [hl] at hi
    interval_cases i
    all_goals exact ⟨_, rfl, isVec_self _ 0⟩)
  refine ⟨⟨b', [0, 0]⟩, ?_, ⟨h, hp, hk, rfl⟩⟩
  unfold bsplineProblem1
  rw [show Sys.new 2 (some 2) Sym.no bsplineGg bsplineJac = ok ⟨2, 2, Sym.no, bsplineGg, bsplineJac⟩ from rfl, Res.unwrap_ok, ok_bind, e1, Res.unwrap_ok, ok_bind,
    e2, Res.unwrap_ok, ok_bind]

/-- **C100** `bspline_problem_1`: the solutions are the points of the B-spline curve with the parameter λ (between 0 and 1); the callbacks stay
right however often they have been called; the initial state is the first point of the curve. -/
theorem C100_bspline_problem_1 (δ : ℝ) : ∃ S u0 u1 l0 a, bsplineProblem1 δ = ok (S, [u0, u1], l0, a) ∧ ∃ Ok : BsplineArgs → Prop, Ok a ∧
    S.Consistent Ok (fun l (u : V 2) => ![u 0 - curveX δ (clamp l), u 1 - curveY (clamp l)]) (fun _ _ => !![1, 0; 0, 1])
      (some fun l _ => ![-curveDX δ (clamp l), -curveDY (clamp l)]) (fun l _ => 0 < l ∧ l < 1) ∧
    u0 = curveX δ (clamp l0) ∧ u1 = curveY (clamp l0) := by
  obtain ⟨a, e, ha⟩ := bs_new δ
  refine ⟨_, _, _, _, _, e, BsOk δ, ha, ⟨⟨rfl, fun gg l u a hg ha => bs_gg δ hg ha⟩, ?_, ?_, ?_, by simp⟩, ?_, ?_⟩
  · refine jac_of (fun _ _ => [(0, 0, 1), (1, 1, 1)]) (fun c ggl l u a hg ha => bs_jac (u := u) δ hg ha) ?_ (fun _ _ => le_refl 2) ?_
    · intro l u
      simp [InTriangle]
    · intro l u i j
      fin_cases i <;> fin_cases j <;> simp [denseOf, Hits]
  · intro l u _
    refine hasFDeriv_of fun i => ?_
    fin_cases i
    · exact ⟨_, (hasFDerivAt_apply 0 u).sub_const _, fun v => by simp⟩
    · exact ⟨_, (hasFDerivAt_apply 1 u).sub_const _, fun v => by simp⟩
  · rintro _ ⟨⟩ l u ⟨h0, h1⟩
    have hev : ∀ᶠ x in nhds l, clamp x = x := by
      filter_upwards [Ioo_mem_nhds h0 h1] with x hx
      rw [clamp, max_eq_right hx.1.le, min_eq_right hx.2.le]
    have hcl : clamp l = l := hev.self_of_nhds
    have comp : ∀ {f : ℝ → ℝ} {f' c : ℝ}, HasDerivAt f f' l → HasDerivAt (fun x => c - f (clamp x)) (-f') l := by
      intro f f' c h
      refine (h.const_sub c).congr_of_eventuallyEq ?_
      filter_upwards [hev] with x hx
      rw [hx]
    rw [hasDerivAt_pi]
    intro i
    fin_cases i
    · exact comp (hcl.symm ▸ curveX_deriv δ l)
    · exact comp (hcl.symm ▸ curveY_deriv l)
  · simp [clamp, curveX, parts]
  · simp [clamp, curveY, parts]

/-- the explicit curve is the B-spline curve with the knots and the control points of the sample (Cox–de Boor) -/
theorem C100_bspline_curve (δ : ℝ) {t : ℝ} (h0 : 0 ≤ t) (h1 : t < 1) :
    curveX δ t = ∑ i ∈ Finset.range 5, coxDeBoor (knot [0, 0, 0, 2 / 5, 3 / 5, 1, 1, 1]) t 2 i * [0, 0.5, 1.75, 2 - δ, 2.5].getD i 0 ∧
    curveY t = ∑ i ∈ Finset.range 5, coxDeBoor (knot [0, 0, 0, 2 / 5, 3 / 5, 1, 1, 1]) t 2 i * [0, 1, 1, 0, 0.5].getD i 0 := by
  have key : ∀ (P : Nat → ℝ) (s : Nat), 2 ≤ s → s < 5 → knot bsKnots s ≤ t → t < knot bsKnots (s + 1) →
      ∑ i ∈ Finset.range 5, coxDeBoor (knot bsKnots) t 2 i * P i = (curveP bsKnots 2 s P).eval t :=
    fun P s hs hs' h1 h2 => curveP_eval bsKnots_sorted hs (show s + 2 + 1 < 8 by omega) P h1 h2
  have hX : ∀ i ∈ Finset.range 5, [0, 0.5, 1.75, 2 - δ, 2.5].getD i 0 = bsP δ i 0 := by
    intro i hi
    have := Finset.mem_range.1 hi
    interval_cases i <;> rfl
  have hY : ∀ i ∈ Finset.range 5, ([0, 1, 1, 0, 0.5] : List ℝ).getD i 0 = bsP δ i 1 := by
    intro i hi
    have := Finset.mem_range.1 hi
    interval_cases i <;> rfl
  suffices h : curveX δ t = ∑ i ∈ Finset.range 5, coxDeBoor (knot bsKnots) t 2 i * bsP δ i 0 ∧ curveY t = ∑ i ∈ Finset.range 5, coxDeBoor (knot bsKnots) t 2 i * bsP δ i 1 by
    refine ⟨h.1.trans (Finset.sum_congr rfl fun i hi => ?_), h.2.trans (Finset.sum_congr rfl fun i hi => ?_)⟩
    · rw [hX i hi]; rfl
    · rw [hY i hi]; rfl
  obtain ⟨v1, v2, v3, v4, v5, v6⟩ := bs_values δ t
  unfold curveX curveY parts
  by_cases hlt : t < 2 / 5
  · simp only [if_pos hlt]
    rw [key (fun i => bsP δ i 0) 2 (by omega) (by omega) (by simpa [knot, bsKnots] using h0) (by simpa [knot, bsKnots] using hlt), v1,
      key (fun i => bsP δ i 1) 2 (by omega) (by omega) (by simpa [knot, bsKnots] using h0) (by simpa [knot, bsKnots] using hlt), v4]
    constructor <;> ring
  · by_cases hlt' : t < 3 / 5
    · simp only [if_neg hlt, if_pos hlt']
      rw [key (fun i => bsP δ i 0) 3 (by omega) (by omega) (by simpa [knot, bsKnots] using not_lt.1 hlt) (by simpa [knot, bsKnots] using hlt'), v2,
        key (fun i => bsP δ i 1) 3 (by omega) (by omega) (by simpa [knot, bsKnots] using not_lt.1 hlt) (by simpa [knot, bsKnots] using hlt'), v5]
      constructor <;> ring
    · simp only [if_neg hlt, if_neg hlt']
      rw [key (fun i => bsP δ i 0) 4 (by omega) (by omega) (by simpa [knot, bsKnots] using not_lt.1 hlt') (by simpa [knot, bsKnots] using h1), v3,
        key (fun i => bsP δ i 1) 4 (by omega) (by omega) (by simpa [knot, bsKnots] using not_lt.1 hlt') (by simpa [knot, bsKnots] using h1), v6]
      constructor <;> ring

/-- the point in the middle of the curve -/
example : ∑ i ∈ Finset.range 5, coxDeBoor (knot [0, 0, 0, 2 / 5, 3 / 5, 1, 1, 1]) (1 / 2 : ℝ) 2 i * [0, 1, 1, 0, 0.5].getD i 0 = 11 / 12 := by
  rw [← (C100_bspline_curve 0 (t := 1 / 2) (by norm_num) (by norm_num)).2]
  norm_num [curveY, parts]

/-- **C100** (deviation) Beyond the end of the curve (and before its begin) `G` does not depend on λ any more, but the derivative with respect
to λ that `calc_jac` returns is not zero. -/
theorem C100_bspline_end_counterexample (δ : ℝ) (u : V 2) :
    HasDerivAt (fun l => (![u 0 - curveX δ (clamp l), u 1 - curveY (clamp l)] : V 2)) 0 2 ∧ (![-curveDX δ (clamp 2), -curveDY (clamp 2)] : V 2) 1 = -5 / 2 ∧
    HasDerivAt (fun l => (![u 0 - curveX δ (clamp l), u 1 - curveY (clamp l)] : V 2)) 0 (-1) ∧ (![-curveDX δ (clamp (-1)), -curveDY (clamp (-1))] : V 2) 1 = -5 := by
  refine ⟨?_, ?_, ?_, ?_⟩
  · refine (hasDerivAt_const (2 : ℝ) (![u 0 - curveX δ 1, u 1 - curveY 1] : V 2)).congr_of_eventuallyEq ?_
    filter_upwards [Ioi_mem_nhds (show (1 : ℝ) < 2 by norm_num)] with x hx
    have hx' : (1 : ℝ) < x := hx
    rw [show clamp x = 1 by rw [clamp, max_eq_right (by linarith), min_eq_left hx'.le]]
  · rw [show clamp 2 = 1 by norm_num [clamp]]
    show -curveDY 1 = _
    norm_num [curveDY, parts]
  · refine (hasDerivAt_const (-1 : ℝ) (![u 0 - curveX δ 0, u 1 - curveY 0] : V 2)).congr_of_eventuallyEq ?_
    filter_upwards [Iio_mem_nhds (show (-1 : ℝ) < 0 by norm_num)] with x hx
    have hx' : x < 0 := hx
    rw [show clamp x = 0 by rw [clamp, max_eq_left hx'.le, min_eq_right (by norm_num)]]
  · rw [show clamp (-1) = 0 by norm_num [clamp]]
    show -curveDY 0 = _
    norm_num [curveDY, parts]

end Russell.Nonlin.Samples
