import Verif.Lab.RootFinder
import Verif.Lab.InterpChebyshevProp
import Mathlib.LinearAlgebra.Matrix.Charpoly.Coeff
import Mathlib.LinearAlgebra.Matrix.Adjugate
import Mathlib.Algebra.Polynomial.Roots

/-!
# The companion matrix of a Chebyshev series (C88)
-/

namespace Russell.Lab.Cheb

open Russell Russell.Res Polynomial Polynomial.Chebyshev

open Russell.Lab.RootFinder

noncomputable section

theorem fold_mid (aa : Nat → Nat → ℝ) (s i j : Nat) (hs : 1 ≤ s) : ∀ n : Nat,
    (List.range' s n).foldl (fun aa r => set2 (set2 aa r (r + 1) (1 / 2)) r (r - 1) (1 / 2)) aa i j =
      if s ≤ i ∧ i < s + n ∧ (j = i + 1 ∨ j + 1 = i) then 1 / 2 else aa i j
  | 0 => by rw [if_neg (by omega)]; rfl
  | n + 1 => by
    rw [List.range'_concat, List.foldl_append]
    simp only [List.foldl_cons, List.foldl_nil, one_mul]
    unfold set2
    by_cases h1 : i = s + n ∧ j = s + n - 1
    · rw [if_pos h1, if_pos (by omega)]
    · rw [if_neg h1]
      by_cases h2 : i = s + n ∧ j = s + n + 1
      · rw [if_pos h2, if_pos (by omega)]
      · rw [if_neg h2]
        have := fold_mid aa s i j hs n
        unfold set2 at this
        rw [this]
        by_cases h3 : s ≤ i ∧ i < s + n ∧ (j = i + 1 ∨ j + 1 = i)
        · rw [if_pos h3, if_pos (by omega)]
        · rw [if_neg h3, if_neg (by omega)]

theorem fold_last (aa : Nat → Nat → ℝ) (F : Nat → ℝ) (m i j : Nat) : ∀ n : Nat,
    (List.range n).foldl (fun aa k => set2 aa m k (F k)) aa i j = if i = m ∧ j < n then F j else aa i j
  | 0 => by simp
  | n + 1 => by
    rw [List.range_succ, List.foldl_append]
    simp only [List.foldl_cons, List.foldl_nil]
    show (if i = m ∧ j = n then F n else _) = _
    rw [fold_last aa F m i j n]
    by_cases h1 : i = m ∧ j = n
    · rw [if_pos h1, if_pos (by omega), h1.2]
    · rw [if_neg h1]
      by_cases h2 : i = m ∧ j < n
      · rw [if_pos h2, if_pos (by omega)]
      · rw [if_neg h2, if_neg (by omega)]

theorem companion_last (a : Nat → ℝ) {nn j : Nat} (hn : 2 ≤ nn) (hj : j < nn) :
    companion a nn (nn - 1) j = -(1 / 2) * a j / a nn + if j = nn - 2 then 1 / 2 else 0 := by
  have e := fold_last ((List.range' 1 (nn - 1 - 1)).foldl (fun aa r => set2 (set2 aa r (r + 1) (1 / 2)) r (r - 1) (1 / 2))
    (set2 (fun _ _ => 0) 0 1 1)) (fun k => -(1 / 2) * a k / a nn) (nn - 1) (nn - 1)
  have e1 := e (nn - 2) nn
  have e2 := e j nn
  rw [if_pos ⟨rfl, by omega⟩] at e1 e2
  unfold companion
  show (if nn - 1 = nn - 1 ∧ j = nn - 2 then _ else _) = _
  by_cases h : j = nn - 2
  · rw [if_pos ⟨rfl, h⟩, if_pos h, e1, h]
  · rw [if_neg (by omega), if_neg h, add_zero, e2]

theorem companion_first (a : Nat → ℝ) {nn j : Nat} (hn : 2 ≤ nn) : companion a nn 0 j = if j = 1 then 1 else 0 := by
  unfold companion
  have e1 := fold_last ((List.range' 1 (nn - 1 - 1)).foldl (fun aa r => set2 (set2 aa r (r + 1) (1 / 2)) r (r - 1) (1 / 2))
    (set2 (fun _ _ => 0) 0 1 1)) (fun k => -(1 / 2) * a k / a nn) (nn - 1) 0 j nn
  have e2 := fold_mid (set2 (fun _ _ => 0) 0 1 1) 1 0 j le_rfl (nn - 1 - 1)
  rw [if_neg (by omega)] at e1 e2
  show (if 0 = nn - 1 ∧ j = nn - 2 then _ else _) = _
  rw [if_neg (by omega), e1, e2]
  show (if 0 = 0 ∧ j = 1 then (1 : ℝ) else 0) = _
  simp

theorem companion_mid (a : Nat → ℝ) {nn i j : Nat} (hi : 1 ≤ i) (hn : i + 1 < nn) :
    companion a nn i j = if j = i + 1 ∨ j + 1 = i then 1 / 2 else 0 := by
  unfold companion
  have e1 := fold_last ((List.range' 1 (nn - 1 - 1)).foldl (fun aa r => set2 (set2 aa r (r + 1) (1 / 2)) r (r - 1) (1 / 2))
    (set2 (fun _ _ => 0) 0 1 1)) (fun k => -(1 / 2) * a k / a nn) (nn - 1) i j nn
  have e2 := fold_mid (set2 (fun _ _ => 0) 0 1 1) 1 i j le_rfl (nn - 1 - 1)
  rw [if_neg (by omega)] at e1
  show (if i = nn - 1 ∧ j = nn - 2 then _ else _) = _
  rw [if_neg (by omega), e1, e2]
  by_cases h : j = i + 1 ∨ j + 1 = i
  · rw [if_pos h, if_pos (by omega)]
  · rw [if_neg h, if_neg (by omega)]
    show (if i = 0 ∧ j = 1 then (1 : ℝ) else 0) = _
    rw [if_neg (by omega)]

/-- the series with complex coefficients -/
def cseries (a : Nat → ℝ) (N : Nat) : ℂ[X] := (series a N).map Complex.ofRealHom

theorem cseries_sum (a : Nat → ℝ) (N : Nat) : cseries a N = ∑ j ∈ Finset.range (N + 1), C (a j : ℂ) * T ℂ (j : ℤ) := by
  unfold cseries series
  rw [Polynomial.map_sum]
  refine Finset.sum_congr rfl fun j _ => ?_
  rw [Polynomial.map_mul, Polynomial.map_C, map_T]; rfl

/-- the rows of `X − A` annihilate the Chebyshev polynomials up to the last one, which gives the series -/
theorem charmatrix_row (a : Nat → ℝ) {n : Nat} (hn : 2 ≤ n) (ha : a n ≠ 0) (i : Fin n) :
    ((toMat n (companion a n)).charmatrix.mulVec fun j => T ℂ ((j : Nat) : ℤ)) i =
      if (i : Nat) = n - 1 then C (1 / (2 * (a n : ℂ))) * cseries a n else 0 := by
  have e : ((toMat n (companion a n)).charmatrix.mulVec fun j => T ℂ ((j : Nat) : ℤ)) i =
      X * T ℂ ((i : Nat) : ℤ) - ∑ j ∈ Finset.range n, C ((companion a n i j : ℝ) : ℂ) * T ℂ (j : ℤ) := by
    rw [← Fin.sum_univ_eq_sum_range (fun j => C ((companion a n i j : ℝ) : ℂ) * T ℂ (j : ℤ)) n]
    unfold Matrix.mulVec dotProduct
    simp only [Matrix.charmatrix_apply, sub_mul, Finset.sum_sub_distrib]
    congr 1
    rw [Finset.sum_eq_single i]
    · rw [Matrix.diagonal_apply_eq]
    · intro j _ hj
      rw [Matrix.diagonal_apply_ne _ (Ne.symm hj), zero_mul]
    · simp
  rw [e]
  have ha' : (a n : ℂ) ≠ 0 := by exact_mod_cast ha
  have half : (C (1 / 2 : ℂ) : ℂ[X]) * 2 = 1 := by
    rw [show (2 : ℂ[X]) = C 2 from rfl, ← Polynomial.C_mul]; norm_num
  by_cases h1 : (i : Nat) = n - 1
  · rw [if_pos h1, h1, cseries_sum, Finset.sum_range_succ]
    have e1 : ∀ j ∈ Finset.range n, C ((companion a n (n - 1) j : ℝ) : ℂ) * T ℂ (j : ℤ) =
        -(C (1 / (2 * (a n : ℂ))) * (C (a j : ℂ) * T ℂ (j : ℤ))) + if j = n - 2 then C (1 / 2 : ℂ) * T ℂ ((n - 2 : Nat) : ℤ) else 0 := by
      intro j hj
      rw [companion_last a hn (Finset.mem_range.1 hj)]
      have e2 : C (((-(1 / 2) * a j / a n : ℝ)) : ℂ) = -(C (1 / (2 * (a n : ℂ))) * C (a j : ℂ)) := by
        rw [← Polynomial.C_mul, ← Polynomial.C_neg]
        congr 1
        push_cast
        field_simp
      split_ifs with h
      · rw [Complex.ofReal_add, Polynomial.C_add, e2, add_mul, h]; push_cast; ring
      · rw [add_zero, e2]; ring
    rw [Finset.sum_congr rfl e1, Finset.sum_add_distrib, Finset.sum_neg_distrib, ← Finset.mul_sum, Finset.sum_ite_eq',
      if_pos (Finset.mem_range.2 (by omega))]
    have e3 : T ℂ (n : ℤ) = 2 * X * T ℂ ((n - 1 : Nat) : ℤ) - T ℂ ((n - 2 : Nat) : ℤ) := by
      rw [T_eq]; congr 3 <;> omega
    have e4 : C (1 / (2 * (a n : ℂ))) * (C (a n : ℂ) * T ℂ (n : ℤ)) = C (1 / 2 : ℂ) * T ℂ (n : ℤ) := by
      rw [← mul_assoc, ← Polynomial.C_mul]
      congr 2
      field_simp
    rw [mul_add, e4, e3]
    linear_combination (-(X * T ℂ ((n - 1 : Nat) : ℤ))) * half
  · rw [if_neg h1]
    by_cases h0 : (i : Nat) = 0
    · rw [h0]
      have e1 : ∀ j ∈ Finset.range n, C ((companion a n 0 j : ℝ) : ℂ) * T ℂ (j : ℤ) = if j = 1 then T ℂ (1 : ℤ) else 0 := by
        intro j _
        rw [companion_first a hn]
        split_ifs with h
        · subst h; simp
        · simp
      rw [Finset.sum_congr rfl e1, Finset.sum_ite_eq', if_pos (Finset.mem_range.2 (by omega))]
      simp
    · obtain ⟨k, hk⟩ : ∃ k, (i : Nat) = k + 1 := ⟨i - 1, by omega⟩
      have hi := i.2
      rw [hk]
      have e1 : ∀ j ∈ Finset.range n, C ((companion a n (k + 1) j : ℝ) : ℂ) * T ℂ (j : ℤ) =
          (if j = k + 2 then C (1 / 2 : ℂ) * T ℂ ((k + 2 : Nat) : ℤ) else 0) + if j = k then C (1 / 2 : ℂ) * T ℂ (k : ℤ) else 0 := by
        intro j _
        rw [companion_mid a (by omega) (by omega)]
        by_cases h2 : j = k + 2
        · subst h2
          rw [if_pos (Or.inl rfl), if_pos rfl, if_neg (by omega)]; push_cast; ring
        · rw [if_neg h2]
          by_cases h3 : j = k
          · subst h3
            rw [if_pos (Or.inr rfl), if_pos rfl]; push_cast; ring
          · rw [if_neg h3, if_neg (by omega)]; simp
      rw [Finset.sum_congr rfl e1, Finset.sum_add_distrib, Finset.sum_ite_eq', Finset.sum_ite_eq',
        if_pos (Finset.mem_range.2 (by omega)), if_pos (Finset.mem_range.2 (by omega))]
      have e3 := T_add_two ℂ (k : ℤ)
      push_cast
      rw [e3]
      linear_combination (-(X * T ℂ ((k : ℤ) + 1))) * half

theorem series_natDegree {a : Nat → ℝ} {n : Nat} (hn : 1 ≤ n) (ha : a n ≠ 0) : (series a n).natDegree = n := by
  refine le_antisymm (series_degree a n) (le_natDegree_of_ne_zero ?_)
  rw [series_lead a hn]; positivity

/-- the eigenvalues of the companion matrix are the roots of the series, with their multiplicities -/
theorem charpoly_roots (a : Nat → ℝ) {n : Nat} (hn : 2 ≤ n) (ha : a n ≠ 0) :
    (toMat n (companion a n)).charpoly.roots = (cseries a n).roots := by
  set M := toMat n (companion a n)
  have hd : cseries a n ∣ M.charpoly := by
    have e := congrFun (congrArg (fun A => A.mulVec fun j : Fin n => T ℂ ((j : Nat) : ℤ)) (Matrix.adjugate_mul M.charmatrix)) ⟨0, by omega⟩
    simp only [← Matrix.mulVec_mulVec] at e
    rw [funext (charmatrix_row a hn ha), Matrix.smul_mulVec, Matrix.one_mulVec] at e
    simp only [Pi.smul_apply, smul_eq_mul] at e
    refine ⟨C (1 / (2 * (a n : ℂ))) * M.charmatrix.adjugate ⟨0, by omega⟩ ⟨n - 1, by omega⟩, ?_⟩
    have e0 : T ℂ ((0 : Nat) : ℤ) = 1 := by simp
    rw [e0, mul_one] at e
    show M.charmatrix.det = _
    rw [← e]
    unfold Matrix.mulVec dotProduct
    rw [Finset.sum_eq_single ⟨n - 1, by omega⟩]
    · simp only [if_true]; ring
    · intro j _ hj
      simp only
      rw [if_neg (fun h => hj (Fin.ext h)), mul_zero]
    · simp
  obtain ⟨r, hr⟩ := hd
  have hm := Matrix.charpoly_monic M
  have hr0 : r ≠ 0 := by rintro rfl; rw [mul_zero] at hr; exact hm.ne_zero hr
  have hc0 : cseries a n ≠ 0 := by intro h; rw [h, zero_mul] at hr; exact hm.ne_zero hr
  have hdeg : (cseries a n).natDegree = n := by
    unfold cseries
    rw [natDegree_map, series_natDegree (by omega) ha]
  have h1 := congrArg natDegree hr
  rw [Matrix.charpoly_natDegree_eq_dim, Fintype.card_fin, natDegree_mul hc0 hr0, hdeg] at h1
  rw [eq_C_of_natDegree_eq_zero (by omega : r.natDegree = 0)] at hr hr0
  rw [hr, mul_comm, Polynomial.roots_C_mul _ (fun h => hr0 (by rw [h, C_0]))]

end

end Russell.Lab.Cheb
