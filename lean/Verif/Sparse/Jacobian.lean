import Verif.Sparse.CooProps
import Mathlib.Algebra.Order.Field.Basic
import Mathlib.Algebra.Order.BigOperators.Group.Finset
import Mathlib.Algebra.BigOperators.Intervals
import Mathlib.Algebra.BigOperators.Ring.Finset
import Mathlib.Tactic.Linarith
import Mathlib.Tactic.FieldSimp
import Mathlib.Tactic.Ring
import Mathlib.Analysis.Real.Sqrt

/-!
# The numerical Jacobian (russell_sparse/src/numerical_jacobian.rs)

Exact arithmetic over an ordered field; the square root and the two constants of the step size are parameters. The user's
function is any `FnMut(&mut Vector, f64, &Vector, &mut A) -> Result<(), StrError>`: it may change the first vector and the
arguments, and may fail or panic.
-/

namespace Russell.Sparse

open Russell Russell.Res Russell.Lab

variable {α σ : Type}

/-- everything `numerical_jacobian` can change: the matrix, `y`, the two workspaces and the user's arguments -/
structure JacState (α σ : Type) where
  jj : Coo α
  y : List α
  w1 : List α
  w2 : List α
  args : σ
  deriving DecidableEq

/-- the user's function: `function(f, x, y, args)` -/
abbrev JacFn (α σ : Type) := List α → α → List α → σ → MRes (List α × σ)

/-- `let (start, endp1) = match jj.symmetric` (/repo/russell_sparse/src/numerical_jacobian.rs:177-181) -/
def jacRange (sym : Sym) (ndim j : Nat) : Nat × Nat :=
  match sym with
  | .yesLower => (j, ndim)
  | .yesUpper => (0, j + 1)
  | .yesFull => (0, ndim)
  | .no => (0, ndim)

/-- the loop over the rows (/repo/russell_sparse/src/numerical_jacobian.rs:182-185) -/
def jacPuts [Field α] (alpha delta : α) (w1 w2 : List α) (j lo hi : Nat) (jj : Coo α) : Res (Coo α) :=
  forRange lo hi jj fun i jj => do
    let b ← vget w2 i
    let a ← vget w1 i
    let delta_fi := b - a
    match jj.put i j (alpha * delta_fi / delta) with
    | .ok c => ok c
    | _ => Res.panic

/-- one column: perturb, evaluate, put, restore (/repo/russell_sparse/src/numerical_jacobian.rs:172-187);
`step y` is the perturbation computed at line 174 -/
def jacColumn [Field α] (ndim : Nat) (alpha x : α) (step : α → α) (f : JacFn α σ) (j : Nat) (s : JacState α σ) :
    MRes (JacState α σ) :=
  match vget s.y j with
  | .ok original =>
    let delta := step original
    match vset s.y j (original + delta) with
    | .ok y' =>
      match f s.w2 x y' s.args with
      | .ok (w2, args) =>
        match jacPuts alpha delta s.w1 w2 j (jacRange s.jj.symmetric ndim j).1 (jacRange s.jj.symmetric ndim j).2 s.jj with
        | .ok jj =>
          match vset y' j original with
          | .ok y'' => .ok { s with jj := jj, y := y'', w2 := w2, args := args }
          | _ => .panic
        | _ => .panic
      | .err (w2, args) m => .err { s with y := y', w2 := w2, args := args } m
      | .panic => .panic
    | _ => .panic
  | _ => .panic

/-- the perturbation `f64::sqrt(f64::EPSILON * f64::max(THRESHOLD, f64::abs(y[j])))`
(/repo/russell_sparse/src/numerical_jacobian.rs:169, 174) -/
def jacStep [Field α] [LinearOrder α] (sqrt : α → α) (eps thr : α) (y : α) : α := sqrt (eps * max thr |y|)

/-- `numerical_jacobian` (/repo/russell_sparse/src/numerical_jacobian.rs:129-189) -/
def numericalJacobian [Field α] (ndim : Nat) (alpha x : α) (step : α → α) (f : JacFn α σ) (s : JacState α σ) :
    MRes (JacState α σ) :=
  if s.jj.nrow < ndim then .err s "the Jacobian matrix must have nrow ≥ ndim"
  else if s.jj.ncol < ndim then .err s "the Jacobian matrix must have ncol ≥ ndim"
  else if s.jj.symmetric.triangular = true ∧ s.jj.maxNnz < (ndim + ndim * ndim) / 2 then
    .err s "the max number of non-zero values in the numerical (triangular) Jacobian matrix must be at least (ndim + ndim²) / 2"
  else if s.jj.symmetric.triangular = false ∧ s.jj.maxNnz < ndim * ndim then
    .err s "the max number of non-zero values in the numerical Jacobian matrix must be at least ndim²"
  else if s.y.length < ndim then .err s "the y vector must have dim ≥ ndim"
  else if s.w1.length < ndim then .err s "the workspace vector w1 must have dim ≥ ndim"
  else if s.w2.length < ndim then .err s "the workspace vector w2 must have dim ≥ ndim"
  else
    match f s.w1 x s.y s.args with
    | .ok (w1, args) =>
      forMut ndim 0 { s with w1 := w1, args := args, jj := s.jj.reset } (jacColumn ndim alpha x step f)
    | .err (w1, args) m => .err { s with w1 := w1, args := args } m
    | .panic => .panic

/-! ### specification -/

/-- column `j` of the difference quotients, only the stored triangle, from the top down -/
def jacCol (sym : Sym) (n : Nat) (g : Nat → Nat → α) (j : Nat) : List (Entry α) :=
  ((List.range n).filter fun i => InTriangle sym i j).map fun i => (i, j, g i j)

/-- the first `m` columns -/
def jacCols (sym : Sym) (ndim : Nat) (g : Nat → Nat → α) (m : Nat) : List (Entry α) :=
  (List.range m).flatMap (jacCol sym ndim g)

/-- the vector `y` with component `j` increased by `d` -/
def bump [Add α] (y : List α) (j : Nat) (d : α) : List α := y.modify j (· + d)

/-- `f` behaves like the function `g` of `y` alone (on the first `ndim` components), whatever the workspace and the
arguments contain: it never fails, and keeps the length of the vector. -/
def Evaluates (f : JacFn α σ) (x : α) (ndim : Nat) (g : List α → Nat → α) : Prop :=
  ∀ w y args, ndim ≤ w.length → ndim ≤ y.length → ∃ w' args', f w x y args = .ok (w', args') ∧ w'.length = w.length ∧
    ∀ i, i < ndim → w'[i]? = some (g y i)

theorem forMut_inv {τ : Type} {f : Nat → τ → MRes τ} (I : Nat → τ → Prop) :
    ∀ (n lo : Nat) (s : τ), I lo s → (∀ k s, lo ≤ k → k < lo + n → I k s → ∃ s', f k s = .ok s' ∧ I (k + 1) s') →
      ∃ s', forMut n lo s f = .ok s' ∧ I (lo + n) s' := by
  intro n
  induction n with
  | zero => intro lo s h _; exact ⟨s, rfl, h⟩
  | succ n ih =>
    intro lo s h hs
    obtain ⟨s1, e1, i1⟩ := hs lo s (le_refl _) (by omega) h
    obtain ⟨s2, e2, i2⟩ := ih (lo + 1) s1 i1 (fun k s a b => hs k s (by omega) (by omega))
    refine ⟨s2, by simp [forMut, e1, e2], ?_⟩
    rw [show lo + (n + 1) = lo + 1 + n by omega]; exact i2

theorem filter_range_stable {p : Nat → Bool} {a b : Nat} (hab : a ≤ b) (h : ∀ i, a ≤ i → i < b → p i = false) :
    (List.range b).filter p = (List.range a).filter p := by
  obtain ⟨d, rfl⟩ := Nat.exists_eq_add_of_le hab
  induction d with
  | zero => rfl
  | succ d ih =>
    rw [show a + (d + 1) = (a + d) + 1 by omega, List.range_succ, List.filter_append, ih (by omega)
      (fun i h1 h2 => h i h1 (by omega))]
    simp [h (a + d) (by omega) (by omega)]

theorem jacCol_zero_of (sym : Sym) (ndim j : Nat) (g : Nat → Nat → α) :
    jacCol sym (jacRange sym ndim j).1 g j = [] := by
  unfold jacCol
  have : (List.range (jacRange sym ndim j).1).filter (fun i => InTriangle sym i j) = (List.range 0).filter (fun i => InTriangle sym i j) := by
    apply filter_range_stable (by omega)
    intro i _ h2
    cases sym <;> simp [jacRange, InTriangle] at h2 ⊢
    exact h2
  rw [this]; rfl

theorem jacCol_end (sym : Sym) {ndim j : Nat} (hj : j < ndim) (g : Nat → Nat → α) :
    jacCol sym (jacRange sym ndim j).2 g j = jacCol sym ndim g j := by
  unfold jacCol
  have : (List.range ndim).filter (fun i => InTriangle sym i j) =
      (List.range (jacRange sym ndim j).2).filter (fun i => InTriangle sym i j) := by
    apply filter_range_stable
    · cases sym <;> simp [jacRange]; omega
    · intro i h1 h2
      cases sym <;> simp [jacRange, InTriangle] at h1 ⊢ <;> omega
  rw [this]

theorem jacCol_succ {sym : Sym} {i j : Nat} (g : Nat → Nat → α) (h : InTriangle sym i j) :
    jacCol sym (i + 1) g j = jacCol sym i g j ++ [(i, j, g i j)] := by
  simp [jacCol, List.range_succ, List.filter_append, h]

theorem jacRange_inTriangle {sym : Sym} {ndim i j : Nat} (h1 : (jacRange sym ndim j).1 ≤ i)
    (h2 : i < (jacRange sym ndim j).2) : InTriangle sym i j := by
  cases sym <;> simp [jacRange, InTriangle] at h1 h2 ⊢ <;> omega

theorem jacRange_le {sym : Sym} {ndim j : Nat} (hj : j < ndim) :
    (jacRange sym ndim j).1 ≤ (jacRange sym ndim j).2 ∧ (jacRange sym ndim j).2 ≤ ndim := by
  cases sym <;> simp [jacRange] <;> omega

theorem jacCol_length_mono {sym : Sym} {a b j : Nat} (g : Nat → Nat → α) (h : a ≤ b) :
    (jacCol sym a g j).length ≤ (jacCol sym b g j).length := by
  unfold jacCol
  simp only [List.length_map]
  exact List.Sublist.length_le (List.Sublist.filter _ (by
    rw [show b = a + (b - a) by omega, List.range_add]; exact List.sublist_append_left _ _))

theorem jacCols_succ (sym : Sym) (ndim : Nat) (g : Nat → Nat → α) (m : Nat) :
    jacCols sym ndim g (m + 1) = jacCols sym ndim g m ++ jacCol sym ndim g m := by
  simp [jacCols, List.range_succ, List.flatMap_append]

theorem jacCols_length_mono {sym : Sym} {ndim a b : Nat} (g : Nat → Nat → α) (h : a ≤ b) :
    (jacCols sym ndim g a).length ≤ (jacCols sym ndim g b).length := by
  unfold jacCols
  rw [show b = a + (b - a) by omega, List.range_add, List.flatMap_append, List.length_append]
  omega

theorem jacCol_length_lower {n j : Nat} (hj : j < n) (g : Nat → Nat → α) : (jacCol Sym.yesLower n g j).length = n - j := by
  have h0 : ∀ d, (jacCol Sym.yesLower (j + d) g j).length = d := by
    intro d
    induction d with
    | zero => rw [show j + 0 = (jacRange Sym.yesLower n j).1 from rfl, jacCol_zero_of]; rfl
    | succ d ih => rw [show j + (d + 1) = (j + d) + 1 by omega, jacCol_succ g (by simp [InTriangle]), List.length_append, ih]; rfl
  have := h0 (n - j)
  rwa [show j + (n - j) = n by omega] at this

theorem jacCol_length_upper {n j : Nat} (hj : j < n) (g : Nat → Nat → α) : (jacCol Sym.yesUpper n g j).length = j + 1 := by
  have h0 : ∀ d, d ≤ j + 1 → (jacCol Sym.yesUpper d g j).length = d := by
    intro d
    induction d with
    | zero => intro _; rfl
    | succ d ih => intro h; rw [jacCol_succ g (by simp [InTriangle]; omega), List.length_append, ih (by omega)]; rfl
  rw [← jacCol_end Sym.yesUpper hj]
  exact h0 (j + 1) (le_refl _)

theorem jacCol_length_full {sym : Sym} (hs : sym.triangular = false) (n j : Nat) (g : Nat → Nat → α) :
    (jacCol sym n g j).length = n := by
  have : ∀ i, InTriangle sym i j := by intro i; cases sym <;> simp [Sym.triangular, InTriangle] at hs ⊢
  simp [jacCol, this]

theorem jacCols_length_full {sym : Sym} (hs : sym.triangular = false) (n m : Nat) (g : Nat → Nat → α) :
    (jacCols sym n g m).length = m * n := by
  induction m with
  | zero => simp [jacCols]
  | succ m ih => rw [jacCols_succ, List.length_append, ih, jacCol_length_full hs, Nat.succ_mul]

theorem jacCols_length_tri {sym : Sym} (hs : sym.triangular = true) (n : Nat) (g : Nat → Nat → α) :
    (jacCols sym n g n).length = (n + n * n) / 2 := by
  have key : ∀ m, m ≤ n → 2 * (jacCols sym n g m).length =
      if sym = Sym.yesUpper then m * m + m else 2 * (m * n) + m - m * m := by
    intro m
    induction m with
    | zero => simp [jacCols]
    | succ m ih =>
      intro hm
      rw [jacCols_succ, List.length_append, Nat.mul_add, ih (by omega)]
      rcases (Sym.triangular_iff sym).1 hs with rfl | rfl
      · rw [jacCol_length_lower (by omega)]
        simp only [reduceCtorEq, if_false]
        obtain ⟨d, rfl⟩ := Nat.exists_eq_add_of_le hm
        rw [show m + 1 + d - m = d + 1 by omega]
        have e1 : 2 * (m * (m + 1 + d)) + m - m * m = m * m + 2 * m + 2 * (m * d) + m := by
          rw [show 2 * (m * (m + 1 + d)) + m = (m * m + 2 * m + 2 * (m * d) + m) + m * m by ring]; omega
        have e2 : 2 * ((m + 1) * (m + 1 + d)) + (m + 1) - (m + 1) * (m + 1) =
            m * m + 2 * m + 1 + 2 * (m * d) + 2 * d + (m + 1) := by
          rw [show 2 * ((m + 1) * (m + 1 + d)) + (m + 1) =
            (m * m + 2 * m + 1 + 2 * (m * d) + 2 * d + (m + 1)) + (m + 1) * (m + 1) by ring]; omega
        rw [e1, e2]; ring
      · rw [jacCol_length_upper (by omega)]
        simp only [if_true]; ring
  have h := key n (le_refl _)
  rcases (Sym.triangular_iff sym).1 hs with rfl | rfl
  · simp only [reduceCtorEq, if_false] at h
    rw [show 2 * (n * n) + n - n * n = n + n * n by omega] at h
    omega
  · simp only [if_true] at h; omega

theorem jacPuts_spec [Field α] {jj : Coo α} {es : List (Entry α)} (h : jj.Rep es) {alpha delta : α} {w1 w2 : List α}
    {ndim j : Nat} (hj : j < ndim) (hr : ndim ≤ jj.nrow) (hc : ndim ≤ jj.ncol) {F1 F2 : Nat → α}
    (h1 : ∀ i, i < ndim → w1[i]? = some (F1 i)) (h2 : ∀ i, i < ndim → w2[i]? = some (F2 i)) {g : Nat → Nat → α}
    (hg : ∀ i, i < ndim → alpha * (F2 i - F1 i) / delta = g i j)
    (hcap : es.length + (jacCol jj.symmetric ndim g j).length ≤ jj.maxNnz) :
    ∃ jj', jacPuts alpha delta w1 w2 j (jacRange jj.symmetric ndim j).1 (jacRange jj.symmetric ndim j).2 jj = ok jj' ∧
      jj'.Rep (es ++ jacCol jj.symmetric ndim g j) ∧ jj'.nrow = jj.nrow ∧ jj'.ncol = jj.ncol ∧ jj'.maxNnz = jj.maxNnz ∧
      jj'.symmetric = jj.symmetric := by
  obtain ⟨r1, r2⟩ := jacRange_le (sym := jj.symmetric) hj
  have key := forRange_spec (f := fun i jj => do
      let b ← vget w2 i
      let a ← vget w1 i
      let delta_fi := b - a
      match jj.put i j (alpha * delta_fi / delta) with
      | .ok c => ok c
      | _ => Res.panic)
    (fun i (c : Coo α) => c.Rep (es ++ jacCol jj.symmetric i g j) ∧ c.nrow = jj.nrow ∧ c.ncol = jj.ncol ∧
      c.maxNnz = jj.maxNnz ∧ c.symmetric = jj.symmetric) r1 (s := jj)
    ⟨by rw [jacCol_zero_of]; simpa using h, rfl, rfl, rfl, rfl⟩ ?_
  · obtain ⟨jj', e, hh⟩ := key
    refine ⟨jj', e, ?_⟩
    rwa [jacCol_end _ hj] at hh
  · rintro i c hi1 hi2 ⟨hrep, d1, d2, d3, d4⟩
    have hin : i < ndim := by omega
    have ht := jacRange_inTriangle hi1 hi2
    dsimp only
    rw [vget_of (h2 i hin), ok_bind, vget_of (h1 i hin), ok_bind, hg i hin]
    have hp := Coo.put_spec hrep i j (g i j)
    have hmono : (jacCol jj.symmetric (i + 1) g j).length ≤ (jacCol jj.symmetric ndim g j).length :=
      jacCol_length_mono g (by omega)
    rw [jacCol_succ g ht, List.length_append, List.length_singleton] at hmono
    rw [if_pos ⟨by omega, by omega, by rw [d3, List.length_append]; omega, by rw [d4]; exact ht⟩] at hp
    obtain ⟨c', e, hrep', f1, f2, f3, f4⟩ := hp
    refine ⟨c', by rw [e], ?_, by rw [f1, d1], by rw [f2, d2], by rw [f3, d3], by rw [f4, d4]⟩
    rw [jacCol_succ g ht, ← List.append_assoc]; exact hrep'

/-- What the checks of `numerical_jacobian` demand. -/
structure JacOk (ndim : Nat) (s : JacState α σ) : Prop where
  nrow : ndim ≤ s.jj.nrow
  ncol : ndim ≤ s.jj.ncol
  cap : (if s.jj.symmetric = Sym.yesLower ∨ s.jj.symmetric = Sym.yesUpper then (ndim + ndim * ndim) / 2 else ndim * ndim) ≤ s.jj.maxNnz
  y : ndim ≤ s.y.length
  w1 : ndim ≤ s.w1.length
  w2 : ndim ≤ s.w2.length

/-- C17: the checks reject exactly the inputs that are too small, without touching anything or calling the function. -/
theorem C17_checks [Field α] (ndim : Nat) (alpha x : α) (step : α → α) (f : JacFn α σ) (s : JacState α σ)
    (h : ¬ JacOk ndim s) : ∃ msg, numericalJacobian ndim alpha x step f s = .err s msg := by
  unfold numericalJacobian
  by_cases c1 : s.jj.nrow < ndim
  · exact ⟨_, by rw [if_pos c1]⟩
  rw [if_neg c1]
  by_cases c2 : s.jj.ncol < ndim
  · exact ⟨_, by rw [if_pos c2]⟩
  rw [if_neg c2]
  by_cases c3 : s.jj.symmetric.triangular = true ∧ s.jj.maxNnz < (ndim + ndim * ndim) / 2
  · exact ⟨_, by rw [if_pos c3]⟩
  rw [if_neg c3]
  by_cases c4 : s.jj.symmetric.triangular = false ∧ s.jj.maxNnz < ndim * ndim
  · exact ⟨_, by rw [if_pos c4]⟩
  rw [if_neg c4]
  by_cases c5 : s.y.length < ndim
  · exact ⟨_, by rw [if_pos c5]⟩
  rw [if_neg c5]
  by_cases c6 : s.w1.length < ndim
  · exact ⟨_, by rw [if_pos c6]⟩
  rw [if_neg c6]
  by_cases c7 : s.w2.length < ndim
  · exact ⟨_, by rw [if_pos c7]⟩
  exfalso
  apply h
  refine ⟨by omega, by omega, ?_, by omega, by omega, by omega⟩
  by_cases ht : s.jj.symmetric.triangular = true
  · rw [if_pos ((Sym.triangular_iff _).1 ht)]
    by_contra hh; exact c3 ⟨ht, by omega⟩
  · rw [if_neg (fun hh => ht ((Sym.triangular_iff _).2 hh))]
    by_contra hh; exact c4 ⟨by simpa using ht, by omega⟩

/-- the difference quotient `alpha (fᵢ(y + δⱼ eⱼ) - fᵢ(y)) / δⱼ` -/
def quotient [Field α] (alpha : α) (step : α → α) (g : List α → Nat → α) (y : List α) (i j : Nat) : α :=
  alpha * (g (bump y j (step (y.getD j 0))) i - g y i) / step (y.getD j 0)

theorem bump_eq_set [Field α] (y : List α) (j : Nat) (d : α) (hj : j < y.length) : bump y j d = y.set j (y[j] + d) := by
  apply List.ext_getElem?
  intro k
  unfold bump
  rw [List.getElem?_modify, List.getElem?_set]
  by_cases hk : j = k
  · subst hk; simp [hj]
  · simp [hk]

/-- C17: on admissible inputs, for every function (linear or not), `numerical_jacobian` succeeds, stores exactly the
difference quotients of the stored triangle, column by column, and leaves `y` as it was. -/
theorem C17_entries [Field α] {ndim : Nat} {alpha x : α} {step : α → α} {f : JacFn α σ} {s : JacState α σ}
    {es : List (Entry α)} (hrep : s.jj.Rep es) (hok : JacOk ndim s) {g : List α → Nat → α} (hf : Evaluates f x ndim g) :
    ∃ s', numericalJacobian ndim alpha x step f s = .ok s' ∧ s'.y = s.y ∧
      s'.jj.Rep ((List.range ndim).flatMap fun j =>
        ((List.range ndim).filter fun i => InTriangle s.jj.symmetric i j).map fun i =>
          (i, j, quotient alpha step g s.y i j)) ∧
      s'.jj.nrow = s.jj.nrow ∧ s'.jj.ncol = s.jj.ncol ∧ s'.jj.maxNnz = s.jj.maxNnz ∧
      s'.jj.symmetric = s.jj.symmetric := by
  obtain ⟨k1, k2, k3, k4, k5, k6⟩ := hok
  have hlen : (jacCols s.jj.symmetric ndim (quotient alpha step g s.y) ndim).length ≤ s.jj.maxNnz := by
    by_cases ht : s.jj.symmetric.triangular = true
    · rw [jacCols_length_tri ht]; rwa [if_pos ((Sym.triangular_iff _).1 ht)] at k3
    · rw [jacCols_length_full (by simpa using ht)]
      rwa [if_neg (fun hh => ht ((Sym.triangular_iff _).2 hh))] at k3
  unfold numericalJacobian
  rw [if_neg (by omega), if_neg (by omega), if_neg, if_neg, if_neg (by omega), if_neg (by omega), if_neg (by omega)]
  rotate_left
  · rintro ⟨ht, hh⟩
    rw [if_neg (fun h => by rw [(Sym.triangular_iff _).2 h] at ht; cases ht)] at k3; omega
  · rintro ⟨ht, hh⟩
    rw [if_pos ((Sym.triangular_iff _).1 ht)] at k3; omega
  obtain ⟨w1, args, e, l1, v1⟩ := hf s.w1 s.y s.args k5 k4
  rw [e]
  dsimp only
  have key := forMut_inv (f := jacColumn ndim alpha x step f) (fun j (t : JacState α σ) => t.y = s.y ∧ t.w1 = w1 ∧
      ndim ≤ t.w2.length ∧ t.jj.Rep (jacCols s.jj.symmetric ndim (quotient alpha step g s.y) j) ∧
      t.jj.nrow = s.jj.nrow ∧ t.jj.ncol = s.jj.ncol ∧ t.jj.maxNnz = s.jj.maxNnz ∧ t.jj.symmetric = s.jj.symmetric)
    ndim 0 { s with w1 := w1, args := args, jj := s.jj.reset }
    ⟨rfl, rfl, k6, Coo.reset_rep hrep, rfl, rfl, rfl, rfl⟩ ?_
  · obtain ⟨s', e', hy, -, -, hR, d⟩ := key
    refine ⟨s', e', hy, ?_, d⟩
    rw [Nat.zero_add] at hR
    exact hR
  · rintro j t - hj ⟨ty, tw1, tw2, tr, d1, d2, d3, d4⟩
    have hj : j < ndim := by omega
    have hjy : j < s.y.length := by omega
    have e1 : vget t.y j = ok s.y[j] := by rw [ty]; exact vget_lt hjy
    have e2 : vset t.y j (s.y[j] + step s.y[j]) = ok (bump s.y j (step s.y[j])) := by
      rw [ty, vset_lt _ hjy, bump_eq_set _ _ _ hjy]
    obtain ⟨w2, args2, e3, l3, v3⟩ := hf t.w2 (bump s.y j (step s.y[j])) t.args tw2 (by simp [bump]; omega)
    have hgd : s.y.getD j 0 = s.y[j] := by simp [List.getD, hjy]
    obtain ⟨jj', e4, r4, f1, f2, f3, f4⟩ := jacPuts_spec (alpha := alpha) (delta := step s.y[j]) (w1 := t.w1) (w2 := w2)
      (g := quotient alpha step g s.y) tr hj (by omega) (by omega) (by rw [tw1]; exact v1) v3
      (fun i _ => by rw [quotient, hgd]) (by
        have hm : (jacCols s.jj.symmetric ndim (quotient alpha step g s.y) (j + 1)).length ≤
            (jacCols s.jj.symmetric ndim (quotient alpha step g s.y) ndim).length := jacCols_length_mono _ (by omega)
        rw [jacCols_succ, List.length_append] at hm
        rw [d3, d4]; omega)
    have e5 : vset (bump s.y j (step s.y[j])) j s.y[j] = ok s.y := by
      rw [bump_eq_set _ _ _ hjy, vset_lt _ (by simpa using hjy), List.set_set, List.set_getElem_self]
    refine ⟨{ t with jj := jj', y := s.y, w2 := w2, args := args2 }, ?_, rfl, tw1, by dsimp only; omega, ?_, by rw [f1, d1],
      by rw [f2, d2], by rw [f3, d3], by rw [f4, d4]⟩
    · simp only [jacColumn, e1, e2, e3, e4, e5]
    · dsimp only
      rw [jacCols_succ, ← d4, d4, ← d4]; rw [d4] at r4 ⊢; exact r4

/-- the dense form of the stored triangle of a matrix that is symmetric when only a triangle is stored -/
theorem denseOf_jacCols [AddCommMonoid α] (sym : Sym) (n : Nat) (g : Nat → Nat → α)
    (hsym : sym = Sym.yesLower ∨ sym = Sym.yesUpper → ∀ i j, i < n → j < n → g i j = g j i) (r c : Nat) :
    denseOf sym (jacCols sym n g n) r c = if r < n ∧ c < n then g r c else 0 := by
  have hcol : ∀ j m, denseOf sym (jacCol sym m g j) r c =
      ∑ i ∈ Finset.range m, if InTriangle sym i j ∧ Hits sym ((i, j, g i j) : Entry α) r c then g i j else 0 := by
    intro j m
    induction m with
    | zero => simp [jacCol, denseOf]
    | succ m ih =>
      rw [Finset.sum_range_succ, ← ih]
      by_cases ht : InTriangle sym m j
      · rw [jacCol_succ g ht, denseOf_append]
        congr 1
        simp [denseOf, ht]
      · rw [if_neg (fun hh => ht hh.1), add_zero]
        simp [jacCol, List.range_succ, List.filter_append, ht]
  have hcols : ∀ m, denseOf sym (jacCols sym n g m) r c =
      ∑ j ∈ Finset.range m, denseOf sym (jacCol sym n g j) r c := by
    intro m
    induction m with
    | zero => simp [jacCols, denseOf]
    | succ m ih => rw [jacCols_succ, denseOf_append, ih, Finset.sum_range_succ]
  rw [hcols]
  simp only [hcol]
  -- the only position that contributes
  by_cases hrc : r < n ∧ c < n
  · rw [if_pos hrc]
    obtain ⟨hr, hc⟩ := hrc
    have main : ∃ i0 j0, i0 < n ∧ j0 < n ∧ g i0 j0 = g r c ∧
        ∀ i j, (InTriangle sym i j ∧ Hits sym ((i, j, g i j) : Entry α) r c) ↔ (i = i0 ∧ j = j0) := by
      rcases sym with _ | _ | _ | _
      · exact ⟨r, c, hr, hc, rfl, fun i j => by simp [InTriangle, Hits]⟩
      · exact ⟨r, c, hr, hc, rfl, fun i j => by simp [InTriangle, Hits]⟩
      · by_cases h : c ≤ r
        · exact ⟨r, c, hr, hc, rfl, fun i j => by simp [InTriangle, Hits]; omega⟩
        · exact ⟨c, r, hc, hr, hsym (Or.inl rfl) c r hc hr, fun i j => by simp [InTriangle, Hits]; omega⟩
      · by_cases h : r ≤ c
        · exact ⟨r, c, hr, hc, rfl, fun i j => by simp [InTriangle, Hits]; omega⟩
        · exact ⟨c, r, hc, hr, hsym (Or.inr rfl) c r hc hr, fun i j => by simp [InTriangle, Hits]; omega⟩
    obtain ⟨i0, j0, hi0, hj0, hg, hiff⟩ := main
    simp only [hiff]
    rw [Finset.sum_eq_single j0, Finset.sum_eq_single i0]
    · simp [hg]
    · intro i _ h; rw [if_neg (fun hh => h hh.1)]
    · intro h; exact absurd (Finset.mem_range.2 hi0) h
    · intro j _ h
      apply Finset.sum_eq_zero
      intro i _
      rw [if_neg (fun hh => h hh.2)]
    · intro h; exact absurd (Finset.mem_range.2 hj0) h
  · rw [if_neg hrc]
    apply Finset.sum_eq_zero
    intro j hj
    apply Finset.sum_eq_zero
    intro i hi
    rw [if_neg]
    rintro ⟨-, hh⟩
    have hi := Finset.mem_range.1 hi
    have hj := Finset.mem_range.1 hj
    apply hrc
    rcases hh with ⟨rfl, rfl⟩ | ⟨_, rfl, rfl⟩
    · exact ⟨hi, hj⟩
    · exact ⟨hj, hi⟩

/-- difference quotients of an affine function are its coefficients, whatever the (non-zero) step -/
theorem quotient_affine [Field α] (alpha : α) {step : α → α} (A : Nat → Nat → α) (b : Nat → α) {ndim : Nat} {y : List α}
    (hy : ndim ≤ y.length) {i j : Nat} (hj : j < ndim) (hstep : step (y.getD j 0) ≠ 0) {g : List α → Nat → α}
    (hg : ∀ y' i, g y' i = (∑ k ∈ Finset.range ndim, A i k * y'.getD k 0) + b i) :
    quotient alpha step g y i j = alpha * A i j := by
  have hs : (∑ k ∈ Finset.range ndim, A i k * (bump y j (step (y.getD j 0))).getD k 0) =
      (∑ k ∈ Finset.range ndim, A i k * y.getD k 0) + A i j * step (y.getD j 0) := by
    have : ∀ k ∈ Finset.range ndim, A i k * (bump y j (step (y.getD j 0))).getD k 0 =
        A i k * y.getD k 0 + if k = j then A i j * step (y.getD j 0) else 0 := by
      intro k hk
      have hk := Finset.mem_range.1 hk
      have hky : k < y.length := by omega
      by_cases h : k = j
      · subst h
        simp [bump, List.getD, hky, mul_add]
      · have h' : ¬ j = k := fun e => h e.symm
        simp [bump, List.getD, h, h']
    rw [Finset.sum_congr rfl this, Finset.sum_add_distrib, Finset.sum_ite_eq' (Finset.range ndim) j,
      if_pos (Finset.mem_range.2 hj)]
  rw [quotient, hg, hg, hs]
  field_simp
  ring

/-- C17: for an affine function `f(y) = A y + b` the Jacobian is exactly `alpha A` on the leading block (and zero
elsewhere), for all steps different from zero, and `y` is unchanged. When only a triangle is stored, `A` must be symmetric. -/
theorem C17_affine [Field α] {ndim : Nat} {alpha x : α} {step : α → α} {f : JacFn α σ} {s : JacState α σ}
    {es : List (Entry α)} (hrep : s.jj.Rep es) (hok : JacOk ndim s) (A : Nat → Nat → α) (b : Nat → α)
    (hf : Evaluates f x ndim (fun y i => (∑ k ∈ Finset.range ndim, A i k * y.getD k 0) + b i))
    (hstep : ∀ y ∈ s.y, step y ≠ 0)
    (hsym : s.jj.symmetric = Sym.yesLower ∨ s.jj.symmetric = Sym.yesUpper → ∀ i j, i < ndim → j < ndim → A i j = A j i) :
    ∃ s' a, numericalJacobian ndim alpha x step f s = .ok s' ∧ s'.y = s.y ∧ s'.jj.asDense = ok a ∧
      IsDense a s.jj.nrow s.jj.ncol (fun i j => if i < ndim ∧ j < ndim then alpha * A i j else 0) := by
  obtain ⟨s', e, hy, hR, d1, d2, d3, d4⟩ := C17_entries (alpha := alpha) (step := step) hrep hok hf
  obtain ⟨a, ea, ha⟩ := Coo.asDense_spec hR
  refine ⟨s', a, e, hy, ea, ?_⟩
  rw [d1, d2, d4] at ha
  refine ha.congr ?_
  intro r c _ _
  have hq : ∀ i j, i < ndim → j < ndim → quotient alpha step
      (fun y i => (∑ k ∈ Finset.range ndim, A i k * y.getD k 0) + b i) s.y i j = alpha * A i j := by
    intro i j hi hj
    have hjy : j < s.y.length := lt_of_lt_of_le hj hok.y
    exact quotient_affine alpha A b hok.y hj (hstep _ (by simp [List.getD, hjy])) (fun _ _ => rfl)
  have := denseOf_jacCols s.jj.symmetric ndim (quotient alpha step
      (fun y i => (∑ k ∈ Finset.range ndim, A i k * y.getD k 0) + b i) s.y)
    (fun hs i j hi hj => by rw [hq i j hi hj, hq j i hj hi, hsym hs i j hi hj]) r c
  rw [show ((List.range ndim).flatMap fun j =>
        ((List.range ndim).filter fun i => InTriangle s.jj.symmetric i j).map fun i =>
          (i, j, quotient alpha step (fun y i => (∑ k ∈ Finset.range ndim, A i k * y.getD k 0) + b i) s.y i j)) =
      jacCols s.jj.symmetric ndim (quotient alpha step
        (fun y i => (∑ k ∈ Finset.range ndim, A i k * y.getD k 0) + b i) s.y) ndim from rfl, this]
  by_cases h : r < ndim ∧ c < ndim
  · rw [if_pos h, if_pos h, hq r c h.1 h.2]
  · rw [if_neg h, if_neg h]

/-- C17: the step used by the code is never zero. -/
theorem C17_step [Field α] [LinearOrder α] [IsStrictOrderedRing α] {sqrt : α → α} (hs : ∀ t, 0 < t → 0 < sqrt t) {eps thr : α}
    (he : 0 < eps) (ht : 0 < thr) (y : α) : jacStep sqrt eps thr y ≠ 0 :=
  ne_of_gt (hs _ (mul_pos he (lt_of_lt_of_le ht (le_max_left _ _))))

example : ∀ y : ℝ, jacStep Real.sqrt (1/2^52) (1/10^5) y ≠ 0 :=
  C17_step (fun _ h => Real.sqrt_pos.2 h) (by norm_num) (by norm_num)

/-! ### cases -/

/-- `f(y) = (2 y₀ + 3 y₁ + 1, 3 y₀ + 5 y₁)` -/
def sampleFn : JacFn ℚ Nat := fun w _ y n =>
  match w, y with
  | _ :: _ :: ws, y0 :: y1 :: _ => .ok ((2 * y0 + 3 * y1 + 1) :: (3 * y0 + 5 * y1) :: ws, n + 1)
  | _, _ => .panic

theorem sampleFn_evaluates : Evaluates sampleFn 0 2 (fun y i => (∑ k ∈ Finset.range 2,
    (fun i k : Nat => if i = 0 then (if k = 0 then 2 else 3) else if k = 0 then 3 else 5) i k * y.getD k 0) +
      (fun i : Nat => if i = 0 then 1 else 0) i) := by
  intro w y args hw hy
  match w, y, hw, hy with
  | _ :: _ :: ws, y0 :: y1 :: ys, _, _ =>
    refine ⟨(2 * y0 + 3 * y1 + 1) :: (3 * y0 + 5 * y1) :: ws, args + 1, rfl, rfl, ?_⟩
    intro i hi
    have : i = 0 ∨ i = 1 := by omega
    rcases this with rfl | rfl <;> simp [Finset.sum_range_succ]

/-- the sample in a 3 x 3 lower triangular matrix with stale content, steps of one half: the dense form, `y`, the number of
evaluations -/
def sampleRun : Res (List ℚ × List ℚ × Nat) := do
  let c0 ← Coo.new 3 3 4 Sym.yesLower
  match c0.put 2 2 9 with
  | .ok c1 =>
    match numericalJacobian 2 10 0 (fun _ => 1/2) sampleFn { jj := c1, y := [4, -1], w1 := [0, 0], w2 := [7, 7, 7], args := 0 } with
    | .ok s' => do
      let a ← s'.jj.asDense
      ok (a.data, s'.y, s'.args)
    | _ => Res.panic
  | _ => Res.panic

example : sampleRun = ok ([20, 30, 0, 30, 50, 0, 0, 0, 0], [4, -1], 3) := by decide +kernel

/-- its hypotheses in `C17_affine` -/
example (c : Coo ℚ) (h1 : c.nrow = 3) (h2 : c.ncol = 3) (h3 : c.maxNnz = 4) (h4 : c.symmetric = Sym.yesLower) :
    JacOk 2 { jj := c, y := [4, -1], w1 := [0, 0], w2 := [7, 7, 7], args := 0 : JacState ℚ Nat } := by
  constructor <;> simp [h1, h2, h3, h4]

/-- a function that fails when `y₀ ≠ 4` -/
def failFn : JacFn ℚ Unit := fun w _ y u => if y.head? = some 4 then .ok (w, u) else .err (w, u) "stop"

/-- C17: "leaves y unchanged" does not extend to failures: when the function returns an error inside the loop the `?`
returns with `y[j]` still perturbed (/repo/russell_sparse/src/numerical_jacobian.rs:175-176). -/
theorem C17_restore_counterexample : ∃ c0 : Coo ℚ, Coo.new 1 1 1 Sym.no = ok c0 ∧
    JacOk 1 { jj := c0, y := [4], w1 := [0], w2 := [0], args := () } ∧
    numericalJacobian 1 1 0 (fun _ => 1/2) failFn { jj := c0, y := [4], w1 := [0], w2 := [0], args := () } =
      .err { jj := c0, y := [9/2], w1 := [0], w2 := [0], args := () } "stop" := by
  refine ⟨_, rfl, ?_, by decide +kernel⟩
  constructor <;> decide

end Russell.Sparse
