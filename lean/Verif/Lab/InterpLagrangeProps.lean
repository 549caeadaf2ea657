import Verif.Lab.InterpLagrange

/-!
# Properties of the Lagrange interpolation (C34)
-/

namespace Russell.Lab

open Russell Russell.Res Russell.Sparse Finset Ext

/-- a loop that accumulates a sum in a component of the state -/
theorem sumLoop {σ : Type} {g : ℝ → σ} {body : Nat → σ → Res σ} {n : Nat} {f : Nat → ℝ}
    (hb : ∀ k s, k < n → body k (g s) = ok (g (s + f k))) (s0 : ℝ) :
    forRange 0 n (g s0) body = ok (g (s0 + ∑ k ∈ range n, f k)) := by
  obtain ⟨s, h1, h2⟩ := forRange_spec (f := body) (lo := 0) (hi := n) (fun t s => s = g (s0 + ∑ k ∈ range t, f k)) (s := g s0)
    (by omega) (by simp) (by
      rintro k s - hk rfl
      exact ⟨_, hb k _ hk, by rw [sum_range_succ, add_assoc]⟩)
  rw [h1, h2]

theorem sum_skip {n k : Nat} (f : Nat → ℝ) : ∑ j ∈ range n, (if j ≠ k then f j else 0) = ∑ j ∈ range n with j ≠ k, f j := by
  rw [sum_filter]

theorem dxEps_pos : 0 < dxEps := by unfold dxEps; positivity

namespace Interp

/-- The interpolator has nodes `X`, weights `W`. -/
structure Good (s : Interp) (X W : Nat → ℝ) : Prop where
  pos : 1 ≤ s.nn
  npoint : s.npoint = s.nn + 1
  xx : IsVec s.xx (s.nn + 1) X
  lambda : IsVec s.lambda (s.nn + 1) W
  bary : Bary s.nn X W
  sep : ∀ i j, i < j → j ≤ s.nn → dxEps ≤ X j - X i
  eta : s.params.noEtaNormalization = false → ∃ E : Nat → ℝ, IsVec s.eta (s.nn + 1) E ∧
    ∀ k j, k ≤ s.nn → j ≤ s.nn → (-1) ^ (k + j) * Real.exp (E k - E j) = W j / W k
  bound : s.nn ≤ 2048

variable {s : Interp} {X W : Nat → ℝ}

theorem Good.sep' (h : s.Good X W) {i j : Nat} (hi : i ≤ s.nn) (hj : j ≤ s.nn) (hij : i ≠ j) : dxEps ≤ |X i - X j| := by
  rcases lt_or_gt_of_ne hij with hlt | hlt
  · rw [abs_sub_comm]; exact le_trans (h.sep i j hlt hj) (le_abs_self _)
  · exact le_trans (h.sep j i hlt hi) (le_abs_self _)

/-- `x` is a node, or not closer than `DX_EPSILON` to any node -/
def Clear (s : Interp) (X : Nat → ℝ) (x : ℝ) : Prop := ∀ j, j ≤ s.nn → x = X j ∨ dxEps ≤ |x - X j|

theorem psiSum_away (h : s.Good X W) {x : ℝ} (hx : ∀ j, j ≤ s.nn → x ≠ X j) :
    s.psiSum x = ok (fin (∑ k ∈ range (s.nn + 1), W k / (x - X k))) := by
  unfold psiSum
  rw [h.npoint, sumLoop (g := fin) (f := fun k => W k / (x - X k)), zero_add]
  intro k r hk
  rw [h.lambda.vget hk, ok_bind, h.xx.vget hk, ok_bind, fin_div (sub_ne_zero.2 (hx k (by omega))), fin_add]

theorem psiSum_node (h : s.Good X W) {i : Nat} (hi : i ≤ s.nn) : s.psiSum (X i) = ok inf := by
  unfold psiSum
  rw [h.npoint]
  obtain ⟨r, h1, h2⟩ := forRange_spec (lo := 0) (hi := s.nn + 1) (s := fin 0)
    (f := fun k sum => do
      let l ← vget s.lambda k
      let xk ← vget s.xx k
      ok (sum + fin l / fin (X i - xk)))
    (fun t r => if t ≤ i then ∃ a, r = fin a else r = inf) (by omega) (by rw [if_pos (by omega)]; exact ⟨0, rfl⟩) (by
      rintro k r - hk hinv
      simp only [h.lambda.vget hk, ok_bind, h.xx.vget hk]
      refine ⟨_, rfl, ?_⟩
      by_cases hki : k = i
      · subst hki
        rw [if_pos (le_refl _)] at hinv
        obtain ⟨a, rfl⟩ := hinv
        rw [if_neg (by omega), sub_self, fin_div_zero (h.bary.ne_zero (by omega)), fin_add_inf]
      · have hd : X i - X k ≠ 0 := h.bary.sub_ne_zero hi (by omega) (Ne.symm hki)
        rw [fin_div hd]
        by_cases hlt : k < i
        · rw [if_pos (by omega)] at hinv ⊢
          obtain ⟨a, rfl⟩ := hinv
          exact ⟨_, fin_add _ _⟩
        · rw [if_neg (by omega)] at hinv ⊢
          rw [hinv, inf_add_fin])
  rw [if_neg (by omega)] at h2
  rw [h1, h2]

/-- **C34** `psi(j, x)` is the Lagrange polynomial `ℓⱼ(x)`. -/
theorem C34_psi (h : s.Good X W) {x : ℝ} (hx : -1 ≤ x ∧ x ≤ 1) (hc : s.Clear X x) {j : Nat} (hj : j ≤ s.nn) :
    s.psi j x = ok (fin ((Lagrange.basis (range (s.nn + 1)) X j).eval x)) := by
  unfold psi
  rw [if_neg (by omega), if_neg (by push Not; exact hx), h.xx.vget (by omega), ok_bind]
  by_cases hxj : x = X j
  · subst hxj
    rw [if_pos (by rw [sub_self, abs_zero]; exact dxEps_pos), Lagrange.eval_basis_self h.bary.injOn (mem_range.2 (by omega))]
  · have h1 := (hc j hj).resolve_left hxj
    rw [if_neg (not_lt.2 h1)]
    by_cases hn : ∃ i, i ≤ s.nn ∧ x = X i
    · obtain ⟨i, hi, rfl⟩ := hn
      have hij : j ≠ i := by rintro rfl; exact hxj rfl
      rw [psiSum_node h hi, ok_bind, h.lambda.vget (by omega), ok_bind, fin_div (sub_ne_zero.2 hxj), fin_div_inf,
        Lagrange.eval_basis_of_ne hij (mem_range.2 (by omega))]
    · push Not at hn
      rw [psiSum_away h hn, ok_bind, h.lambda.vget (by omega), ok_bind, fin_div (sub_ne_zero.2 hxj), fin_div (h.bary.den_ne_zero hn),
        h.bary.eval_basis hn hj]

/-- **C34** `eval` is the combination of the Lagrange polynomials with the data as coefficients. -/
theorem C34_eval_basis (h : s.Good X W) {x : ℝ} (hx : -1 ≤ x ∧ x ≤ 1) (hc : s.Clear X x) {uu : List ℝ} {U : Nat → ℝ}
    (hu : IsVec uu (s.nn + 1) U) :
    s.eval x uu = ok (fin (∑ j ∈ range (s.nn + 1), U j * (Lagrange.basis (range (s.nn + 1)) X j).eval x)) := by
  unfold eval
  rw [if_neg (by push Not; exact hx), if_neg (by rw [hu.len, h.npoint]; exact not_not.2 rfl), h.npoint,
    sumLoop (g := fin) (f := fun j => U j * (Lagrange.basis (range (s.nn + 1)) X j).eval x), zero_add]
  intro k r hk
  rw [hu.vget hk, ok_bind, C34_psi h hx hc (by omega), unwrap_ok, ok_bind, fin_mul, fin_add]

/-- **C34** the interpolant reproduces every polynomial of degree at most `N`. -/
theorem C34_eval (h : s.Good X W) {x : ℝ} (hx : -1 ≤ x ∧ x ≤ 1) (hc : s.Clear X x) {p : Polynomial ℝ}
    (hp : p.degree ≤ (s.nn : WithBot ℕ)) {uu : List ℝ} (hu : IsVec uu (s.nn + 1) fun j => p.eval (X j)) :
    s.eval x uu = ok (fin (p.eval x)) := by
  rw [C34_eval_basis h hx hc hu, ← h.bary.eval_sum hp]

theorem Good.clear_node (h : s.Good X W) {k : Nat} (hk : k ≤ s.nn) : s.Clear X (X k) := by
  intro j hj
  by_cases e : k = j
  · subst e; exact Or.inl rfl
  · exact Or.inr (h.sep' hk hj e)

/-- **C34** the interpolant passes through the data. -/
theorem C34_data (h : s.Good X W) (hin : ∀ j, j ≤ s.nn → -1 ≤ X j ∧ X j ≤ 1) {uu : List ℝ} {U : Nat → ℝ} (hu : IsVec uu (s.nn + 1) U)
    {k : Nat} (hk : k ≤ s.nn) : s.eval (X k) uu = ok (fin (U k)) := by
  rw [C34_eval_basis h (hin k hk) (h.clear_node hk) hu, sum_eq_single k]
  · rw [Lagrange.eval_basis_self h.bary.injOn (mem_range.2 (by omega)), mul_one]
  · intro b hb hbk
    rw [Lagrange.eval_basis_of_ne hbk (mem_range.2 (by omega)), mul_zero]
  · intro hb; exact absurd (mem_range.2 (by omega)) hb

/-! ## Derivatives -/

theorem searchNode_spec (h : s.Good X W) {x : ℝ} (hc : s.Clear X x) :
    (∃ k, k ≤ s.nn ∧ x = X k ∧ s.searchNode x = ok (some k)) ∨ ((∀ j, j ≤ s.nn → x ≠ X j) ∧ s.searchNode x = ok none) := by
  unfold searchNode
  rw [h.npoint]
  obtain ⟨r, h1, h2⟩ := forRange_spec (lo := 0) (hi := s.nn + 1) (s := (none : Option Nat))
    (f := s.searchStep x)
    (fun t r => (∃ k, k < t ∧ x = X k ∧ r = some k) ∨ ((∀ j, j < t → x ≠ X j) ∧ r = none)) (by omega)
    (Or.inr ⟨by intro j hj; omega, rfl⟩) (by
      rintro t r - ht (⟨k, h1, h2, rfl⟩ | ⟨h1, rfl⟩)
      · exact ⟨_, rfl, Or.inl ⟨k, by omega, h2, rfl⟩⟩
      · unfold searchStep
        dsimp only
        rw [h.xx.vget ht, ok_bind]
        by_cases hx : x = X t
        · refine ⟨some t, by rw [if_pos (by rw [hx, sub_self, abs_zero]; exact dxEps_pos)], Or.inl ⟨t, by omega, hx, rfl⟩⟩
        · have := (hc t (by omega)).resolve_left hx
          refine ⟨none, by rw [if_neg (not_lt.2 this)], Or.inr ⟨?_, rfl⟩⟩
          intro j hj
          by_cases hjt : j = t
          · subst hjt; exact hx
          · exact h1 j (by omega))
  rw [h1]
  rcases h2 with ⟨k, h3, h4, rfl⟩ | ⟨h3, rfl⟩
  · exact Or.inl ⟨k, by omega, h4, rfl⟩
  · exact Or.inr ⟨fun j hj => h3 j (by omega), rfl⟩

/-- the ends of the interval are nodes, or are not evaluated -/
def EndsOk (s : Interp) (X : Nat → ℝ) (x : ℝ) : Prop := (x = -1 → X 0 = -1) ∧ (x = 1 → X s.nn = 1)

theorem atNode_spec (h : s.Good X W) {x : ℝ} (hc : s.Clear X x) (he : s.EndsOk X x) :
    (∃ k, k ≤ s.nn ∧ x = X k ∧ s.atNode x = ok (some k)) ∨ ((∀ j, j ≤ s.nn → x ≠ X j) ∧ s.atNode x = ok none) := by
  unfold atNode
  by_cases h1 : x = -1
  · rw [if_pos h1]
    exact Or.inl ⟨0, by omega, by rw [he.1 h1]; exact h1, rfl⟩
  · rw [if_neg h1]
    by_cases h2 : x = 1
    · rw [if_pos h2]
      exact Or.inl ⟨s.nn, by omega, by rw [he.2 h2]; exact h2, rfl⟩
    · rw [if_neg h2]
      exact searchNode_spec h hc

theorem deriv1Node_spec (h : s.Good X W) {uu : List ℝ} {U : Nat → ℝ} (hu : IsVec uu (s.nn + 1) U) {k : Nat} (hk : k ≤ s.nn) :
    s.deriv1Node k uu = ok (fin (-(∑ j ∈ range (s.nn + 1) with j ≠ k, W j * (U k - U j) / (X k - X j)) / W k)) := by
  unfold deriv1Node
  rw [h.npoint, sumLoop (g := fin) (f := fun j => if j ≠ k then W j * (U k - U j) / (X k - X j) else 0), zero_add, sum_skip, ok_bind,
    h.lambda.vget (by omega), ok_bind, fin_neg, fin_div (h.bary.ne_zero hk)]
  intro j r hj
  by_cases hjk : j = k
  · rw [if_neg (not_not.2 hjk), if_neg (not_not.2 hjk), add_zero]
  · rw [if_pos hjk, if_pos hjk, h.lambda.vget hj, ok_bind, hu.vget (by omega), ok_bind, hu.vget hj, ok_bind, h.xx.vget (by omega), ok_bind,
      h.xx.vget hj, ok_bind, fin_div (h.bary.sub_ne_zero hk (by omega) (Ne.symm hjk)), fin_add]

theorem pairLoop {body : Nat → Ext × Ext → Res (Ext × Ext)} {n : Nat} {f g : Nat → ℝ}
    (hb : ∀ k a b, k < n → body k (fin a, fin b) = ok (fin (a + f k), fin (b + g k))) :
    forRange 0 n (fin 0, fin 0) body = ok (fin (∑ k ∈ range n, f k), fin (∑ k ∈ range n, g k)) := by
  obtain ⟨s, h1, h2⟩ := forRange_spec (f := body) (lo := 0) (hi := n)
    (fun t s => s = (fin (∑ k ∈ range t, f k), fin (∑ k ∈ range t, g k))) (s := (fin 0, fin 0))
    (by omega) (by simp) (by
      rintro k s - hk rfl
      exact ⟨_, hb k _ _ hk, by rw [sum_range_succ, sum_range_succ]⟩)
  rw [h1, h2]

theorem deriv1Away_spec (h : s.Good X W) {x : ℝ} (hx : ∀ j, j ≤ s.nn → x ≠ X j) {uu : List ℝ} {U : Nat → ℝ}
    (hu : IsVec uu (s.nn + 1) U) {p : ℝ} (hp : s.eval x uu = ok (fin p)) :
    s.deriv1Away x uu = ok (fin ((∑ j ∈ range (s.nn + 1), W j / (x - X j) * (p - U j) / (x - X j)) /
      ∑ j ∈ range (s.nn + 1), W j / (x - X j))) := by
  unfold deriv1Away
  rw [hp, unwrap_ok, ok_bind, h.npoint, pairLoop (f := fun j => W j / (x - X j) * (p - U j) / (x - X j)) (g := fun j => W j / (x - X j)), ok_bind]
  · dsimp only
    rw [fin_div (h.bary.den_ne_zero hx)]
  · intro j a b hj
    have hd := sub_ne_zero.2 (hx j (by omega))
    dsimp only
    rw [h.xx.vget hj, ok_bind, h.lambda.vget hj, ok_bind, hu.vget hj, ok_bind, fin_div hd, fin_sub, fin_mul, fin_div hd, fin_add, fin_add]

/-- **C34** `eval_deriv1` is the derivative of the polynomial. -/
theorem C34_deriv1 (h : s.Good X W) {x : ℝ} (hx : -1 ≤ x ∧ x ≤ 1) (hc : s.Clear X x) (he : s.EndsOk X x) {p : Polynomial ℝ}
    (hp : p.degree ≤ (s.nn : WithBot ℕ)) {uu : List ℝ} (hu : IsVec uu (s.nn + 1) fun j => p.eval (X j)) :
    s.evalDeriv1 x uu = ok (fin (p.derivative.eval x)) := by
  unfold evalDeriv1
  rw [if_neg (by push Not; exact hx), if_neg (by rw [hu.len, h.npoint]; exact not_not.2 rfl)]
  rcases atNode_spec h hc he with ⟨k, hk, rfl, e⟩ | ⟨hn, e⟩
  · rw [e, ok_bind]
    dsimp only
    rw [deriv1Node_spec h hu hk, h.bary.deriv1_node hp h.pos hk]
  · rw [e, ok_bind]
    dsimp only
    rw [deriv1Away_spec h hn hu (C34_eval h hx hc hp hu), h.bary.deriv1_away hp h.pos hn]

theorem d1kk_spec (h : s.Good X W) {k : Nat} (hk : k ≤ s.nn) : s.d1kk k = ok (fin (bdd s.nn X W k)) := by
  unfold d1kk
  rw [h.npoint, sumLoop (g := fin) (f := fun j => if j ≠ k then W j / (X k - X j) else 0), zero_add, sum_skip, ok_bind,
    h.lambda.vget (by omega), ok_bind, fin_neg, fin_div (h.bary.ne_zero hk)]
  · congr 2
    rw [bdd, neg_div, sum_div]
    congr 1
    refine sum_congr rfl fun j _ => ?_
    unfold bd
    ring
  · intro j r hj
    by_cases hjk : j = k
    · rw [if_neg (not_not.2 hjk), if_neg (not_not.2 hjk), add_zero]
    · rw [if_pos hjk, if_pos hjk, h.lambda.vget hj, ok_bind, h.xx.vget (by omega), ok_bind,
        h.xx.vget hj, ok_bind, fin_div (h.bary.sub_ne_zero hk (by omega) (Ne.symm hjk)), fin_add]

theorem deriv2Node_spec (h : s.Good X W) {uu : List ℝ} {U : Nat → ℝ} (hu : IsVec uu (s.nn + 1) U) {k : Nat} (hk : k ≤ s.nn) :
    s.deriv2Node k uu = ok (fin (-2 * ∑ j ∈ range (s.nn + 1) with j ≠ k, bd X W k j * (bdd s.nn X W k - 1 / (X k - X j)) * (U k - U j))) := by
  unfold deriv2Node
  rw [d1kk_spec h hk, ok_bind, h.npoint,
    sumLoop (g := fin) (f := fun j => if j ≠ k then bd X W k j * (bdd s.nn X W k - 1 / (X k - X j)) * (U k - U j) else 0), zero_add, sum_skip,
    ok_bind, fin_mul]
  intro j r hj
  by_cases hjk : j = k
  · rw [if_neg (not_not.2 hjk), if_neg (not_not.2 hjk), add_zero]
  · have hd := h.bary.sub_ne_zero hk (by omega : j ≤ s.nn) (Ne.symm hjk)
    rw [if_pos hjk, if_pos hjk, h.xx.vget (by omega), ok_bind, h.xx.vget hj, ok_bind, h.lambda.vget hj, ok_bind,
      h.lambda.vget (by omega), ok_bind, hu.vget (by omega), ok_bind, hu.vget hj, ok_bind]
    dsimp only
    rw [fin_div (h.bary.ne_zero hk), fin_div hd, fin_div hd, fin_sub, fin_mul, fin_mul, fin_add]
    rfl

theorem deriv2Away_spec (h : s.Good X W) {x : ℝ} (hx : ∀ j, j ≤ s.nn → x ≠ X j) {uu : List ℝ} {U : Nat → ℝ}
    (hu : IsVec uu (s.nn + 1) U) {p d : ℝ} (hp : s.eval x uu = ok (fin p)) (hd : s.evalDeriv1 x uu = ok (fin d)) :
    s.deriv2Away x uu = ok (fin ((∑ j ∈ range (s.nn + 1), W j / (x - X j) * (2 / (x - X j)) * (d + (U j - p) / (x - X j))) /
      ∑ j ∈ range (s.nn + 1), W j / (x - X j))) := by
  unfold deriv2Away
  rw [hp, unwrap_ok, ok_bind, hd, unwrap_ok, ok_bind, h.npoint,
    pairLoop (f := fun j => W j / (x - X j) * (2 / (x - X j)) * (d + (U j - p) / (x - X j))) (g := fun j => W j / (x - X j)), ok_bind]
  · dsimp only
    rw [fin_div (h.bary.den_ne_zero hx)]
  · intro j a b hj
    have hd := sub_ne_zero.2 (hx j (by omega))
    dsimp only
    rw [h.xx.vget hj, ok_bind, h.lambda.vget hj, ok_bind, hu.vget hj, ok_bind, fin_div hd, fin_div hd, fin_sub, fin_div hd, fin_mul, fin_add,
      fin_mul, fin_add, fin_add]

/-- **C34** `eval_deriv2` is the second derivative of the polynomial. -/
theorem C34_deriv2 (h : s.Good X W) {x : ℝ} (hx : -1 ≤ x ∧ x ≤ 1) (hc : s.Clear X x) (he : s.EndsOk X x) {p : Polynomial ℝ}
    (hp : p.degree ≤ (s.nn : WithBot ℕ)) {uu : List ℝ} (hu : IsVec uu (s.nn + 1) fun j => p.eval (X j)) :
    s.evalDeriv2 x uu = ok (fin (p.derivative.derivative.eval x)) := by
  unfold evalDeriv2
  rw [if_neg (by push Not; exact hx), if_neg (by rw [hu.len, h.npoint]; exact not_not.2 rfl)]
  rcases atNode_spec h hc he with ⟨k, hk, rfl, e⟩ | ⟨hn, e⟩
  · rw [e, ok_bind]
    dsimp only
    rw [deriv2Node_spec h hu hk, h.bary.deriv2_node hp h.pos hk]
  · rw [e, ok_bind]
    dsimp only
    rw [deriv2Away_spec h hn hu (C34_eval h hx hc hp hu) (C34_deriv1 h hx hc he hp hu), h.bary.deriv2_away hp h.pos hn]

end Interp

end Russell.Lab
