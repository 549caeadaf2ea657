import Verif.Lab.InterpLagrangeProps

/-!
# Lagrange interpolation: construction and differentiation matrices (C34)
-/

namespace Russell.Lab

open Russell Russell.Res Russell.Sparse Finset Ext

/-! ## Nodes -/

theorem sin_lower {δ θ : ℝ} (h1 : δ ≤ θ) (h2 : θ ≤ Real.pi - δ) (h0 : 0 ≤ δ) : 2 / Real.pi * δ ≤ Real.sin θ := by
  have hp := Real.pi_pos
  have hq : 0 ≤ 2 / Real.pi := by positivity
  rcases le_total θ (Real.pi / 2) with h | h
  · exact le_trans (mul_le_mul_of_nonneg_left h1 hq) (Real.mul_le_sin (by linarith) h)
  · rw [← Real.sin_pi_sub]
    exact le_trans (mul_le_mul_of_nonneg_left (by linarith) hq) (Real.mul_le_sin (by linarith) (by linarith))

theorem cos_gap {δ a b : ℝ} (h0 : 0 ≤ δ) (h1 : δ ≤ (b - a) / 2) (h2 : (b - a) / 2 ≤ Real.pi - δ) (h3 : δ ≤ (a + b) / 2)
    (h4 : (a + b) / 2 ≤ Real.pi - δ) : 2 * (2 / Real.pi * δ) ^ 2 ≤ Real.cos a - Real.cos b := by
  have e : Real.cos a - Real.cos b = 2 * (Real.sin ((a + b) / 2) * Real.sin ((b - a) / 2)) := by
    rw [Real.cos_sub_cos]
    have : (a - b) / 2 = -((b - a) / 2) := by ring
    rw [this, Real.sin_neg]; ring
  rw [e, sq]
  have hp := Real.pi_pos
  have hq : 0 ≤ 2 / Real.pi * δ := by positivity
  exact mul_le_mul_of_nonneg_left (mul_le_mul (sin_lower h3 h4 h0) (sin_lower h1 h2 h0) hq (le_trans hq (sin_lower h3 h4 h0))) (by norm_num)

/-- the number of points allows for a separation larger than `DX_EPSILON` -/
theorem dxEps_le {n : Nat} (hn : n ≤ 2048) : dxEps ≤ 2 / ((n : ℝ) + 1) ^ 2 := by
  have h1 : (n : ℝ) ≤ 2048 := by exact_mod_cast hn
  have h0 : (0 : ℝ) ≤ n := Nat.cast_nonneg n
  rw [le_div_iff₀ (by positivity)]
  have : ((n : ℝ) + 1) ^ 2 ≤ 2049 ^ 2 := by
    apply pow_le_pow_left₀ (by linarith) (by linarith)
  unfold dxEps
  calc 10 * (1 / 2 ^ 52) * ((n : ℝ) + 1) ^ 2 ≤ 10 * (1 / 2 ^ 52) * 2049 ^ 2 := mul_le_mul_of_nonneg_left this (by norm_num)
    _ ≤ 2 := by norm_num

/-- the nodes of a grid -/
noncomputable def gridPoint (g : InterpGrid) (nn j : Nat) : ℝ :=
  match g with
  | .uniform => -1 + (j : ℝ) * (2 / nn)
  | .chebyshevGauss => -Real.cos ((2 * j + 1) * Real.pi / (2 * nn + 2))
  | .chebyshevGaussLobatto => -Real.cos (j * Real.pi / nn)

theorem grid_spec (g : InterpGrid) {nn : Nat} (h1 : 1 ≤ nn) (h2 : nn ≤ 2048) :
    ∃ xx, Interp.grid g nn (nn + 1) = ok xx ∧ IsVec xx (nn + 1) (gridPoint g nn) ∧
      (∀ i j, i < j → j ≤ nn → dxEps ≤ gridPoint g nn j - gridPoint g nn i) ∧
      (∀ j, j ≤ nn → -1 ≤ gridPoint g nn j ∧ gridPoint g nn j ≤ 1) := by
  have hnn : (1 : ℝ) ≤ nn := by exact_mod_cast h1
  have hpi := Real.pi_pos
  have heps := dxEps_le h2
  cases g with
  | uniform =>
    obtain ⟨l, e1, e2, e3, -⟩ := C24_linspace (-1 : ℝ) 1 id (n := nn + 1) (by omega)
    refine ⟨l, by rw [Interp.grid, e1]; rfl, ⟨e2, fun i hi => ?_⟩, ?_, ?_⟩
    · rw [e3 i hi]; congr 1
      simp only [gridPoint, Nat.add_sub_cancel]; norm_num
    · intro i j hij hj
      have h3 : (i : ℝ) + 1 ≤ j := by exact_mod_cast hij
      have e : gridPoint .uniform nn j - gridPoint .uniform nn i = ((j : ℝ) - i) * (2 / nn) := by
        simp only [gridPoint]; ring
      rw [e]
      refine le_trans heps ?_
      have h4 : 2 / ((nn : ℝ) + 1) ^ 2 ≤ 2 / nn := by
        apply div_le_div_of_nonneg_left (by norm_num) (by linarith)
        nlinarith
      have h5 : (0 : ℝ) ≤ 2 / nn := by positivity
      nlinarith
    · intro j hj
      have hj' : (j : ℝ) ≤ nn := by exact_mod_cast hj
      have hj0 : (0 : ℝ) ≤ j := Nat.cast_nonneg j
      have h5 : (j : ℝ) * (2 / nn) ≤ 2 := by
        rw [mul_div_assoc', div_le_iff₀ (by linarith)]; linarith
      have h6 : 0 ≤ (j : ℝ) * (2 / nn) := by positivity
      simp only [gridPoint]
      constructor <;> linarith
  | chebyshevGauss =>
    obtain ⟨xx, e1, e2, e3, -⟩ := C52_gauss_points nn
    refine ⟨xx, e1, ⟨e2, fun i hi => e3 i (by omega)⟩, ?_, ?_⟩
    · intro i j hij hj
      have h3 : (i : ℝ) + 1 ≤ j := by exact_mod_cast hij
      have hj' : (j : ℝ) ≤ nn := by exact_mod_cast hj
      have hi0 : (0 : ℝ) ≤ i := Nat.cast_nonneg i
      have hM : (0 : ℝ) < 2 * nn + 2 := by linarith
      have key := cos_gap (δ := Real.pi / (2 * nn + 2)) (a := (2 * i + 1) * Real.pi / (2 * nn + 2)) (b := (2 * j + 1) * Real.pi / (2 * nn + 2))
        (by positivity)
        (by
          have : ((2 * j + 1) * Real.pi / (2 * nn + 2) - (2 * i + 1) * Real.pi / (2 * nn + 2)) / 2 = ((j : ℝ) - i) * Real.pi / (2 * nn + 2) := by ring
          rw [this]; apply div_le_div_of_nonneg_right _ hM.le; nlinarith)
        (by
          have : ((2 * j + 1) * Real.pi / (2 * nn + 2) - (2 * i + 1) * Real.pi / (2 * nn + 2)) / 2 = ((j : ℝ) - i) * Real.pi / (2 * nn + 2) := by ring
          rw [this, le_sub_iff_add_le, ← add_div, div_le_iff₀ hM]; nlinarith)
        (by
          have : ((2 * i + 1) * Real.pi / (2 * nn + 2) + (2 * j + 1) * Real.pi / (2 * nn + 2)) / 2 = ((j : ℝ) + i + 1) * Real.pi / (2 * nn + 2) := by ring
          rw [this]; apply div_le_div_of_nonneg_right _ hM.le; nlinarith)
        (by
          have : ((2 * i + 1) * Real.pi / (2 * nn + 2) + (2 * j + 1) * Real.pi / (2 * nn + 2)) / 2 = ((j : ℝ) + i + 1) * Real.pi / (2 * nn + 2) := by ring
          rw [this, le_sub_iff_add_le, ← add_div, div_le_iff₀ hM]; nlinarith)
      have e : 2 * (2 / Real.pi * (Real.pi / (2 * (nn : ℝ) + 2))) ^ 2 = 2 / ((nn : ℝ) + 1) ^ 2 := by
        field_simp
      rw [e] at key
      simp only [gridPoint]
      linarith
    · intro j hj
      simp only [gridPoint]
      constructor
      · linarith [Real.cos_le_one ((2 * (j : ℝ) + 1) * Real.pi / (2 * nn + 2))]
      · linarith [Real.neg_one_le_cos ((2 * (j : ℝ) + 1) * Real.pi / (2 * nn + 2))]
  | chebyshevGaussLobatto =>
    obtain ⟨xx, e1, e2, e3, -⟩ := C52_lobatto_points h1
    refine ⟨xx, e1, ⟨e2, fun i hi => e3 i (by omega)⟩, ?_, ?_⟩
    · intro i j hij hj
      have h3 : (i : ℝ) + 1 ≤ j := by exact_mod_cast hij
      have hj' : (j : ℝ) ≤ nn := by exact_mod_cast hj
      have hi0 : (0 : ℝ) ≤ i := Nat.cast_nonneg i
      have hM : (0 : ℝ) < 2 * nn := by linarith
      have key := cos_gap (δ := Real.pi / (2 * nn)) (a := i * Real.pi / nn) (b := j * Real.pi / nn)
        (by positivity)
        (by
          have : (j * Real.pi / nn - i * Real.pi / nn) / 2 = ((j : ℝ) - i) * Real.pi / (2 * nn) := by field_simp
          rw [this]; apply div_le_div_of_nonneg_right _ hM.le; nlinarith)
        (by
          have : (j * Real.pi / nn - i * Real.pi / nn) / 2 = ((j : ℝ) - i) * Real.pi / (2 * nn) := by field_simp
          rw [this, le_sub_iff_add_le, ← add_div, div_le_iff₀ hM]; nlinarith)
        (by
          have : (i * Real.pi / nn + j * Real.pi / nn) / 2 = ((j : ℝ) + i) * Real.pi / (2 * nn) := by field_simp; ring
          rw [this]; apply div_le_div_of_nonneg_right _ hM.le; nlinarith)
        (by
          have : (i * Real.pi / nn + j * Real.pi / nn) / 2 = ((j : ℝ) + i) * Real.pi / (2 * nn) := by field_simp; ring
          rw [this, le_sub_iff_add_le, ← add_div, div_le_iff₀ hM]; nlinarith)
      have e : 2 * (2 / Real.pi * (Real.pi / (2 * (nn : ℝ)))) ^ 2 = 2 / (nn : ℝ) ^ 2 := by
        field_simp
      rw [e] at key
      have h6 : 2 / ((nn : ℝ) + 1) ^ 2 ≤ 2 / (nn : ℝ) ^ 2 := by
        apply div_le_div_of_nonneg_left (by norm_num) (by positivity)
        nlinarith
      simp only [gridPoint]
      linarith
    · intro j hj
      simp only [gridPoint]
      constructor
      · linarith [Real.cos_le_one (j * Real.pi / nn)]
      · linarith [Real.neg_one_le_cos (j * Real.pi / nn)]

/-! ## Weights -/

theorem negOnePowN_small {n : Nat} (h : n < 2147483648) : (negOnePowN (BitVec.ofNat 32 n) : ℝ) = (-1) ^ n := by
  rw [C30_neg_one_pow]
  have : (BitVec.ofNat 32 n).toInt = (n : Int) := by
    rw [BitVec.toInt_ofNat']
    exact Int.bmod_eq_of_le (by omega) (by omega)
  rw [this, zpow_natCast]

theorem prodLoop {body : Nat → ℝ → Res ℝ} {n : Nat} {f : Nat → ℝ} (hb : ∀ k s, k < n → body k s = ok (s * f k)) :
    forRange 0 n 1 body = ok (∏ k ∈ range n, f k) := by
  obtain ⟨s, h1, h2⟩ := forRange_spec (f := body) (lo := 0) (hi := n) (fun t s => s = ∏ k ∈ range t, f k) (s := (1 : ℝ))
    (by omega) (by simp) (by
      rintro k s - hk rfl
      exact ⟨_, hb k _ hk, by rw [prod_range_succ]⟩)
  rw [h1, h2]

theorem erase_eq_filter (n j : Nat) : (range n).erase j = (range n).filter (· ≠ j) := by
  ext k; simp only [mem_erase, mem_filter, mem_range]; tauto

theorem diffProd_spec {xx : List ℝ} {n : Nat} {X : Nat → ℝ} (hx : IsVec xx n X) {j : Nat} (hj : j < n) :
    Interp.diffProd xx n j = ok (∏ k ∈ (range n).erase j, (X j - X k)) := by
  unfold Interp.diffProd
  rw [prodLoop (f := fun k => if k ≠ j then X j - X k else 1), erase_eq_filter, prod_filter]
  intro k r hk
  by_cases h : k = j
  · rw [if_neg (not_not.2 h), if_neg (not_not.2 h), mul_one]
  · rw [if_pos h, if_pos h, hx.vget hj, ok_bind, hx.vget hk, ok_bind]

theorem lambdaPlain_spec {xx : List ℝ} {n : Nat} {X : Nat → ℝ} (hx : IsVec xx n X) :
    ∃ l, Interp.lambdaPlain xx n = ok l ∧ IsVec l n (fun j => Lagrange.nodalWeight (range n) X j) := by
  obtain ⟨l, h1, h2⟩ := fillVec (lo := 0) (hi := n) (isVec_replicate n (0 : ℝ)) (le_refl n)
    (g := fun j => Lagrange.nodalWeight (range n) X j)
    (body := fun j lambda => do
      let prod ← Interp.diffProd xx n j
      vset lambda j (1 / prod))
    (by
      intro k l f' _ hk _ _
      simp only [diffProd_spec hx hk, ok_bind, Lagrange.nodalWeight, prod_inv_distrib, one_div])
  exact ⟨l, h1, h2.congr (fun i hi => by rw [if_pos ⟨by omega, hi⟩])⟩

/-- the sum of the logarithms of the distances to the other nodes -/
noncomputable def etaOf (n : Nat) (X : Nat → ℝ) (j : Nat) : ℝ := ∑ k ∈ range n with k ≠ j, Real.log |X j - X k|

theorem etaLoop_spec {xx : List ℝ} {n : Nat} {X : Nat → ℝ} (hx : IsVec xx n X) :
    ∃ l, Interp.etaLoop xx n = ok l ∧ IsVec l n (etaOf n X) := by
  unfold Interp.etaLoop
  obtain ⟨l, h1, h2⟩ := forRange_spec (lo := 0) (hi := n) (s := List.replicate n (0 : ℝ))
    (f := fun j eta =>
      forRange 0 n eta fun k eta =>
        if k ≠ j then do
          let xj ← vget xx j
          let xk ← vget xx k
          let e ← vget eta j
          vset eta j (e + Real.log |xj - xk|)
        else ok eta)
    (fun t l => IsVec l n (fun j => if j < t then etaOf n X j else 0)) (by omega)
    ((isVec_replicate n 0).congr (fun i _ => by rw [if_neg (by omega)])) (by
      rintro j l - hj hl
      obtain ⟨l', k1, k2⟩ := forRange_spec (lo := 0) (hi := n) (s := l)
        (f := fun k eta =>
          if k ≠ j then do
            let xj ← vget xx j
            let xk ← vget xx k
            let e ← vget eta j
            vset eta j (e + Real.log |xj - xk|)
          else ok eta)
        (fun t l => IsVec l n (fun i => if i = j then ∑ k ∈ range t with k ≠ j, Real.log |X j - X k| else
          if i < j then etaOf n X i else 0)) (by omega)
        (hl.congr (fun i _ => by
          by_cases hij : i = j
          · rw [if_pos hij, if_neg (by omega)]; simp
          · rw [if_neg hij]))
        (by
          rintro k l - hk hl
          by_cases hkj : k = j
          · refine ⟨l, by rw [if_neg (not_not.2 hkj)], hl.congr (fun i _ => ?_)⟩
            rw [sum_filter, sum_filter, sum_range_succ, if_neg (not_not.2 hkj), add_zero]
          · obtain ⟨l', v1, v2⟩ := hl.vset hj (∑ k ∈ range k with k ≠ j, Real.log |X j - X k| + Real.log |X j - X k|)
            refine ⟨l', ?_, v2.congr (fun i _ => ?_)⟩
            · rw [if_pos hkj, hx.vget hj, ok_bind, hx.vget hk, ok_bind, hl.vget hj, ok_bind, if_pos rfl, v1]
            · by_cases hij : i = j
              · rw [if_pos hij, if_pos hij, sum_filter, sum_filter, sum_range_succ, if_pos hkj]
              · rw [if_neg hij, if_neg hij, if_neg hij])
      refine ⟨l', k1, k2.congr (fun i _ => ?_)⟩
      by_cases hij : i = j
      · subst hij
        rw [if_pos rfl, if_pos (by omega), etaOf]
      · rw [if_neg hij]
        by_cases hlt : i < j
        · rw [if_pos hlt, if_pos (by omega)]
        · rw [if_neg hlt, if_neg (by omega)])
  exact ⟨l, h1, h2.congr (fun i hi => by rw [if_pos hi])⟩

theorem sign_prod (j : Nat) : ∀ n, j ≤ n → ∏ k ∈ range (n + 1), (if k ≠ j then (if k < j then (1 : ℝ) else -1) else 1) = (-1) ^ (j + n) := by
  intro n hn
  induction n, hn using Nat.le_induction with
  | base =>
    rw [prod_eq_one, ← two_mul, pow_mul]
    · norm_num
    · intro k hk
      have := mem_range.1 hk
      by_cases h : k = j
      · rw [if_neg (not_not.2 h)]
      · rw [if_pos h, if_pos (by omega)]
  | succ n hn ih =>
    rw [prod_range_succ, ih, if_pos (by omega), if_neg (by omega), ← add_assoc, pow_succ]

/-- the weights in terms of the sums of logarithms, for increasing nodes -/
theorem nodalWeight_eta {n : Nat} {X : Nat → ℝ} (hX : ∀ i j, i < j → j ≤ n → X i < X j) {j : Nat} (hj : j ≤ n) :
    Lagrange.nodalWeight (range (n + 1)) X j = (-1) ^ (j + n) * Real.exp (-etaOf (n + 1) X j) := by
  rw [Lagrange.nodalWeight, etaOf, ← sum_neg_distrib, Real.exp_sum, ← sign_prod j n hj, erase_eq_filter, prod_filter, prod_filter, ← prod_mul_distrib]
  refine prod_congr rfl fun k hk => ?_
  have hk' := mem_range.1 hk
  by_cases h : k = j
  · rw [if_neg (not_not.2 h), if_neg (not_not.2 h), if_neg (not_not.2 h), one_mul]
  · rw [if_pos h, if_pos h, if_pos h, Real.exp_neg]
    by_cases hlt : k < j
    · have := hX k j hlt hj
      rw [if_pos hlt, one_mul, abs_of_pos (by linarith), Real.exp_log (by linarith)]
    · have := hX j k (by omega) (by omega)
      rw [if_neg hlt, abs_of_neg (by linarith), Real.exp_log (by linarith), neg_one_mul, ← inv_neg, neg_neg]

theorem lambdaEta_spec {eta : List ℝ} {nn cutoff : Nat} {E : Nat → ℝ} (h1 : 1 ≤ nn) (h2 : nn ≤ 2048) (he : IsVec eta (nn + 1) E) :
    ∃ l c, c ≠ 0 ∧ Interp.lambdaEta eta nn (nn + 1) cutoff = ok l ∧
      IsVec l (nn + 1) (fun j => c * ((-1) ^ (j + nn) * Real.exp (-E j))) := by
  have hnn : (nn : ℝ) ≠ 0 := by exact_mod_cast (by omega : nn ≠ 0)
  have two : ∀ y : ℝ, (2 : ℝ) ^ y ≠ 0 := fun y => (Real.rpow_pos_of_pos (by norm_num) y).ne'
  obtain ⟨c, hc0, hc⟩ : ∃ c : ℝ, c ≠ 0 ∧ ∀ j l f, j < nn + 1 → IsVec l (nn + 1) f → ∃ l', (do
      let aj : ℝ := negOnePowN (BitVec.ofNat 32 (j + nn))
      let e ← vget eta j
      let mj := -e
      if nn > cutoff then do
        let bj := Real.exp (mj / 3)
        let lambda ← vset l j (aj * bj / (Interp.factors nn cutoff).1)
        let l ← vget lambda j
        let lambda ← vset lambda j (l * (bj / (Interp.factors nn cutoff).2.1))
        let l ← vget lambda j
        vset lambda j (l * (bj / (Interp.factors nn cutoff).2.2))
      else vset l j (aj * Real.exp mj / (Interp.factors nn cutoff).1)) = ok l' ∧
      IsVec l' (nn + 1) (fun i => if i = j then c * ((-1) ^ (j + nn) * Real.exp (-E j)) else f i) := by
    by_cases hc : nn > cutoff
    · have hf1 : (Interp.factors nn cutoff).1 ≠ 0 := by rw [Interp.factors, if_pos hc]; exact two _
      have hf2 : (Interp.factors nn cutoff).2.1 ≠ 0 := by rw [Interp.factors, if_pos hc]; exact two _
      have hf3 : (Interp.factors nn cutoff).2.2 ≠ 0 := by rw [Interp.factors, if_pos hc]; exact div_ne_zero (two _) hnn
      refine ⟨((Interp.factors nn cutoff).1 * (Interp.factors nn cutoff).2.1 * (Interp.factors nn cutoff).2.2)⁻¹,
        inv_ne_zero (mul_ne_zero (mul_ne_zero hf1 hf2) hf3), ?_⟩
      intro j l f hj hl
      obtain ⟨l1, a1, a2⟩ := hl.vset hj ((-1) ^ (j + nn) * Real.exp (-E j / 3) / (Interp.factors nn cutoff).1)
      obtain ⟨l2, b1, b2⟩ := a2.vset hj ((-1) ^ (j + nn) * Real.exp (-E j / 3) / (Interp.factors nn cutoff).1 *
        (Real.exp (-E j / 3) / (Interp.factors nn cutoff).2.1))
      obtain ⟨l3, c1, c2⟩ := b2.vset hj ((-1) ^ (j + nn) * Real.exp (-E j / 3) / (Interp.factors nn cutoff).1 *
        (Real.exp (-E j / 3) / (Interp.factors nn cutoff).2.1) * (Real.exp (-E j / 3) / (Interp.factors nn cutoff).2.2))
      refine ⟨l3, ?_, c2.congr (fun i _ => ?_)⟩
      · simp only [negOnePowN_small (show j + nn < 2147483648 by omega), he.vget hj, ok_bind, if_pos hc, a1, a2.vget hj, if_true, b1, b2.vget hj, c1]
      · have e3 : Real.exp (-E j) = Real.exp (-E j / 3) * Real.exp (-E j / 3) * Real.exp (-E j / 3) := by
          rw [← Real.exp_add, ← Real.exp_add]; congr 1; ring
        by_cases hij : i = j
        · rw [if_pos hij, if_pos hij, e3]
          field_simp
        · simp only [if_neg hij]
    · have hf1 : (Interp.factors nn cutoff).1 ≠ 0 := by rw [Interp.factors, if_neg hc]; exact div_ne_zero (two _) hnn
      refine ⟨((Interp.factors nn cutoff).1)⁻¹, inv_ne_zero hf1, ?_⟩
      intro j l f hj hl
      obtain ⟨l1, a1, a2⟩ := hl.vset hj ((-1) ^ (j + nn) * Real.exp (-E j) / (Interp.factors nn cutoff).1)
      refine ⟨l1, ?_, a2.congr (fun i _ => ?_)⟩
      · simp only [negOnePowN_small (show j + nn < 2147483648 by omega), he.vget hj, ok_bind, if_neg hc, a1]
      · by_cases hij : i = j
        · rw [if_pos hij, if_pos hij]
          field_simp
        · simp only [if_neg hij]
  obtain ⟨l, e1, e2⟩ := forRange_spec (lo := 0) (hi := nn + 1) (s := List.replicate (nn + 1) (0 : ℝ))
    (f := fun j l => do
      let aj : ℝ := negOnePowN (BitVec.ofNat 32 (j + nn))
      let e ← vget eta j
      let mj := -e
      if nn > cutoff then do
        let bj := Real.exp (mj / 3)
        let lambda ← vset l j (aj * bj / (Interp.factors nn cutoff).1)
        let l ← vget lambda j
        let lambda ← vset lambda j (l * (bj / (Interp.factors nn cutoff).2.1))
        let l ← vget lambda j
        vset lambda j (l * (bj / (Interp.factors nn cutoff).2.2))
      else vset l j (aj * Real.exp mj / (Interp.factors nn cutoff).1))
    (fun t l => IsVec l (nn + 1) (fun j => if j < t then c * ((-1) ^ (j + nn) * Real.exp (-E j)) else 0)) (by omega)
    ((isVec_replicate (nn + 1) 0).congr (fun i _ => by rw [if_neg (by omega)])) (by
      rintro j l - hj hl
      obtain ⟨l', k1, k2⟩ := hc j l _ hj hl
      refine ⟨l', k1, k2.congr (fun i _ => ?_)⟩
      by_cases hij : i = j
      · subst hij; rw [if_pos rfl, if_pos (by omega)]
      · rw [if_neg hij]
        by_cases hlt : i < j
        · rw [if_pos hlt, if_pos (by omega)]
        · rw [if_neg hlt, if_neg (by omega)])
  exact ⟨l, c, hc0, e1, e2.congr (fun i hi => by rw [if_pos hi])⟩

theorem weights_spec {par : InterpParams} {nn : Nat} {xx : List ℝ} {X : Nat → ℝ} (h1 : 1 ≤ nn) (h2 : nn ≤ 2048) (hx : IsVec xx (nn + 1) X)
    (hX : ∀ i j, i < j → j ≤ nn → X i < X j) :
    ∃ eta lambda W, Interp.weights par nn (nn + 1) xx = ok (eta, lambda) ∧ IsVec lambda (nn + 1) W ∧ Bary nn X W ∧
      (par.noEtaNormalization = false → ∃ E : Nat → ℝ, IsVec eta (nn + 1) E ∧
        ∀ k j, k ≤ nn → j ≤ nn → (-1) ^ (k + j) * Real.exp (E k - E j) = W j / W k) := by
  have hinj : ∀ i j, i ≤ nn → j ≤ nn → X i = X j → i = j := by
    intro i j hi hj he
    rcases lt_trichotomy i j with h | h | h
    · have := hX i j h hj; linarith
    · exact h
    · have := hX j i h hi; linarith
  unfold Interp.weights
  by_cases hp : par.noEtaNormalization = true
  · obtain ⟨l, e1, e2⟩ := lambdaPlain_spec hx
    refine ⟨[], l, _, by rw [if_pos hp, e1]; rfl, e2, ⟨hinj, 1, one_ne_zero, fun j _ => by rw [one_mul]⟩, ?_⟩
    intro h; rw [hp] at h; cases h
  · obtain ⟨eta, e1, e2⟩ := etaLoop_spec hx
    obtain ⟨l, c, hc, l1, l2⟩ := lambdaEta_spec (cutoff := par.etaCutoff) h1 h2 e2
    refine ⟨eta, l, _, by rw [if_neg hp, e1, ok_bind, l1]; rfl, l2, ⟨hinj, c, hc, fun j hj => by rw [nodalWeight_eta hX (by omega)]⟩, ?_⟩
    intro _
    refine ⟨_, e2, fun k j hk hj => ?_⟩
    have hs : ∀ m : Nat, ((-1 : ℝ) ^ m) ≠ 0 := fun m => pow_ne_zero _ (by norm_num)
    have hsq : ∀ m : Nat, ((-1 : ℝ) ^ m) * (-1) ^ m = 1 := fun m => by rw [← mul_pow]; norm_num
    rw [eq_div_iff (mul_ne_zero hc (mul_ne_zero (hs _) (Real.exp_ne_zero _))), sub_eq_add_neg, Real.exp_add, Real.exp_neg, Real.exp_neg,
      pow_add, pow_add, pow_add]
    have ek := Real.exp_ne_zero (etaOf (nn + 1) X k)
    field_simp
    have := hsq k
    linear_combination this

namespace Interp

/-- **C34** For a degree between 1 and 2048 and valid parameters, `new` gives an interpolator with the nodes of the chosen grid
and barycentric weights of these nodes (up to a common factor). -/
theorem C34_new {nn : Nat} {params : Option InterpParams} (h1 : 1 ≤ nn) (h2 : nn ≤ 2048)
    (hv1 : 2 ≤ (params.getD InterpParams.new).lebesgueEstimateNstation) (hv2 : 2 ≤ (params.getD InterpParams.new).errorEstimateNstation) :
    ∃ s W, new nn params = ok s ∧ s.nn = nn ∧ s.Good (gridPoint (params.getD InterpParams.new).gridType nn) W ∧
      s.dd1.nrow = 0 ∧ s.dd2.nrow = 0 := by
  obtain ⟨xx, g1, g2, g3, g4⟩ := grid_spec (params.getD InterpParams.new).gridType h1 h2
  have hX : ∀ i j, i < j → j ≤ nn → gridPoint (params.getD InterpParams.new).gridType nn i < gridPoint (params.getD InterpParams.new).gridType nn j := by
    intro i j hij hj
    have := g3 i j hij hj
    linarith [dxEps_pos]
  obtain ⟨eta, l, W, w1, w2, w3, w4⟩ := weights_spec (par := params.getD InterpParams.new) h1 h2 g2 hX
  refine ⟨⟨nn, params.getD InterpParams.new, nn + 1, xx, eta, l, NumMatrix.new 0 0, NumMatrix.new 0 0⟩, W, ?_, rfl, ?_, rfl, rfl⟩
  · have hval : (params.getD InterpParams.new).validate = ok () := by
      rw [InterpParams.validate, if_neg (by omega), if_neg (by omega)]
    simp only [new]
    rw [if_neg (by omega), hval, ok_bind, g1, ok_bind, w1]
    rfl
  · exact ⟨h1, rfl, g2, w2, w3, g3, w4, h2⟩

/-- **C34** Every other degree is an error, and so are wrong numbers of stations. -/
theorem C34_new_error {nn : Nat} {params : Option InterpParams}
    (h : nn < 1 ∨ nn > 2048 ∨ (params.getD InterpParams.new).lebesgueEstimateNstation < 2 ∨
      (params.getD InterpParams.new).errorEstimateNstation < 2) : ∃ m, new nn params = err m := by
  simp only [new]
  by_cases hn : nn < 1 ∨ nn > 2048
  · exact ⟨_, by rw [if_pos hn]⟩
  · rw [if_neg hn, InterpParams.validate]
    by_cases h1 : (params.getD InterpParams.new).lebesgueEstimateNstation < 2
    · exact ⟨_, by rw [if_pos h1]; rfl⟩
    · rw [if_neg h1, if_pos (by tauto)]
      exact ⟨_, rfl⟩

/-- with a uniform or Gauss-Lobatto grid the ends of the interval are nodes -/
theorem endsOk_grid {nn : Nat} {g : InterpGrid} (h1 : 1 ≤ nn) (hg : g ≠ .chebyshevGauss) :
    gridPoint g nn 0 = -1 ∧ gridPoint g nn nn = 1 := by
  have hnn : (nn : ℝ) ≠ 0 := by exact_mod_cast (by omega : nn ≠ 0)
  cases g with
  | uniform => simp only [gridPoint]; constructor <;> field_simp <;> norm_num
  | chebyshevGauss => exact absurd rfl hg
  | chebyshevGaussLobatto =>
    simp only [gridPoint]
    constructor
    · norm_num
    · rw [mul_div_cancel_left₀ _ hnn, Real.cos_pi, neg_neg]

/-! ## Differentiation matrices -/

variable {s : Interp} {X W : Nat → ℝ}

theorem ddRow_spec {n k : Nat} (hk : k < n) {entry : Nat → Res ℝ} {v : Nat → ℝ} (he : ∀ j, j < n → j ≠ k → entry j = ok (v j))
    {dd : NumMatrix ℝ} {f : Nat → Nat → ℝ} (hd : IsDense dd n n f) :
    ∃ dd', ddRow n k entry dd = ok dd' ∧
      IsDense dd' n n (fun r c => if r = k then (if c = k then -∑ j ∈ range n with j ≠ k, v j else v c) else f r c) := by
  obtain ⟨st, h1, h2, h3⟩ := forRange_spec (lo := 0) (hi := n) (s := ((0 : ℝ), dd))
    (f := fun j st =>
      if k ≠ j then do
        let v ← entry j
        let dd ← st.2.set k j v
        ok (st.1 + v, dd)
      else ok st)
    (fun t st => st.1 = ∑ j ∈ range t with j ≠ k, v j ∧
      IsDense st.2 n n (fun r c => if r = k ∧ c < t ∧ c ≠ k then v c else f r c)) (by omega)
    ⟨by simp, hd.congr (fun r c _ _ => by rw [if_neg (by omega)])⟩ (by
      rintro j ⟨a, dd⟩ - hj ⟨ha, hdd⟩
      dsimp only at ha hdd ⊢
      by_cases hkj : k = j
      · refine ⟨(a, dd), by rw [if_neg (not_not.2 hkj)], ?_, hdd.congr (fun r c _ _ => ?_)⟩
        · rw [ha, sum_filter, sum_filter, sum_range_succ, if_neg (not_not.2 hkj.symm), add_zero]
        · by_cases hc : r = k ∧ c < j ∧ c ≠ k
          · rw [if_pos hc, if_pos (by omega)]
          · rw [if_neg hc, if_neg (by omega)]
      · obtain ⟨dd', e1, e2⟩ := hdd.set hk hj (v j)
        refine ⟨(a + v j, dd'), by rw [if_pos hkj, he j hj (Ne.symm hkj), ok_bind, e1]; rfl, ?_, e2.congr (fun r c _ _ => ?_)⟩
        · dsimp only
          rw [ha, sum_filter, sum_filter, sum_range_succ, if_pos (Ne.symm hkj)]
        · by_cases hrc : r = k ∧ c = j
          · rw [if_pos hrc, if_pos (by omega), hrc.2]
          · rw [if_neg hrc]
            by_cases hc : r = k ∧ c < j ∧ c ≠ k
            · rw [if_pos hc, if_pos (by omega)]
            · rw [if_neg hc, if_neg (by omega)])
  obtain ⟨dd', e1, e2⟩ := h3.set hk hk (-st.1)
  refine ⟨dd', ?_, e2.congr (fun r c _ hc => ?_)⟩
  · unfold ddRow
    rw [h1, ok_bind, e1]
  · rw [h2]
    by_cases hr : r = k
    · by_cases hck : c = k
      · rw [if_pos ⟨hr, hck⟩, if_pos hr, if_pos hck]
      · rw [if_neg (by tauto), if_pos hr, if_neg hck, if_pos ⟨hr, hc, hck⟩]
    · rw [if_neg (by tauto), if_neg hr, if_neg (by tauto)]

theorem ddLoop_spec {n : Nat} {entry : Nat → Nat → Res ℝ} {v : Nat → Nat → ℝ} (he : ∀ k j, k < n → j < n → j ≠ k → entry k j = ok (v k j)) :
    ∃ dd, forRange 0 n (NumMatrix.new n n) (fun k dd => ddRow n k (entry k) dd) = ok dd ∧
      IsDense dd n n (fun k j => if j = k then -∑ i ∈ range n with i ≠ k, v k i else v k j) := by
  obtain ⟨dd, h1, h2⟩ := forRange_spec (lo := 0) (hi := n) (s := (NumMatrix.new n n : NumMatrix ℝ))
    (f := fun k dd => ddRow n k (entry k) dd)
    (fun t dd => IsDense dd n n (fun k j => if k < t then (if j = k then -∑ i ∈ range n with i ≠ k, v k i else v k j) else 0)) (by omega)
    ((isDense_new n n).congr (fun r c _ _ => by rw [if_neg (by omega)])) (by
      rintro k dd - hk hd
      obtain ⟨dd', e1, e2⟩ := ddRow_spec hk (he := fun j hj hjk => he k j hk hj hjk) hd
      refine ⟨dd', e1, e2.congr (fun r c _ _ => ?_)⟩
      by_cases hr : r = k
      · subst hr; rw [if_pos rfl, if_pos (show r < r + 1 by omega)]
      · rw [if_neg hr]
        by_cases hlt : r < k
        · rw [if_pos hlt, if_pos (show r < k + 1 by omega)]
        · rw [if_neg hlt, if_neg (show ¬ r < k + 1 by omega)])
  exact ⟨dd, h1, h2.congr (fun r c hr _ => by rw [if_pos hr])⟩

theorem Good.with_dd (h : s.Good X W) (a b : NumMatrix ℝ) : ({ s with dd1 := a, dd2 := b } : Interp).Good X W :=
  ⟨h.pos, h.npoint, h.xx, h.lambda, h.bary, h.sep, h.eta, h.bound⟩

theorem dd1Entry_spec (h : s.Good X W) {k j : Nat} (hk : k < s.nn + 1) (hj : j < s.nn + 1) : s.dd1Entry k j = ok (bd X W k j) := by
  unfold dd1Entry
  rw [h.xx.vget hk, ok_bind, h.xx.vget hj, ok_bind]
  by_cases hp : s.params.noEtaNormalization = true
  · rw [if_pos hp, h.lambda.vget hj, ok_bind, h.lambda.vget hk, ok_bind, bd]
  · obtain ⟨E, e1, e2⟩ := h.eta (by simpa using hp)
    have hb := h.bound
    rw [if_neg hp, e1.vget hk, ok_bind, e1.vget hj, ok_bind, negOnePowN_small (by omega), e2 k j (by omega) (by omega), bd]

/-- the first differentiation matrix -/
noncomputable def D1 (N : Nat) (X W : Nat → ℝ) (k j : Nat) : ℝ := if j = k then bdd N X W k else bd X W k j

/-- the entries of the second differentiation matrix outside of the diagonal -/
noncomputable def d2 (N : Nat) (X W : Nat → ℝ) (k j : Nat) : ℝ := 2 * bd X W k j * (bdd N X W k - 1 / (X k - X j))

/-- the second differentiation matrix -/
noncomputable def D2 (N : Nat) (X W : Nat → ℝ) (k j : Nat) : ℝ :=
  if j = k then -∑ i ∈ range (N + 1) with i ≠ k, d2 N X W k i else d2 N X W k j

/-- The states reached by the calls of `calc_dd1_matrix` and `calc_dd2_matrix`: each matrix is either not computed or equal to
the differentiation matrix. -/
structure Inv (s : Interp) (X W : Nat → ℝ) : Prop where
  good : s.Good X W
  dd1 : s.dd1.nrow = 0 ∨ IsDense s.dd1 (s.nn + 1) (s.nn + 1) (D1 s.nn X W)
  dd2 : s.dd2.nrow = 0 ∨ IsDense s.dd2 (s.nn + 1) (s.nn + 1) (D2 s.nn X W)

theorem calcDd1_spec (h : s.Inv X W) :
    ∃ s', s.calcDd1 = ok s' ∧ s'.nn = s.nn ∧ s'.Inv X W ∧ IsDense s'.dd1 (s.nn + 1) (s.nn + 1) (D1 s.nn X W) ∧ s'.dd2 = s.dd2 := by
  unfold calcDd1
  by_cases hn : s.dd1.nrow = s.npoint
  · refine ⟨s, by rw [if_pos hn], rfl, h, ?_, rfl⟩
    rcases h.dd1 with h0 | h0
    · rw [h.good.npoint] at hn; omega
    · exact h0
  · obtain ⟨dd, e1, e2⟩ := ddLoop_spec (n := s.nn + 1) (entry := s.dd1Entry) (v := bd X W)
      (fun k j hk hj _ => dd1Entry_spec h.good hk hj)
    have e3 : IsDense dd (s.nn + 1) (s.nn + 1) (D1 s.nn X W) := e2.congr (fun k j _ _ => by rw [D1, bdd])
    exact ⟨{ s with dd1 := dd }, by rw [if_neg hn, h.good.npoint, e1]; rfl, rfl, ⟨h.good.with_dd dd s.dd2, Or.inr e3, h.dd2⟩, e3, rfl⟩

theorem calcDd2_spec (h : s.Inv X W) :
    ∃ s', s.calcDd2 = ok s' ∧ s'.nn = s.nn ∧ s'.Inv X W ∧ IsDense s'.dd1 (s.nn + 1) (s.nn + 1) (D1 s.nn X W) ∧
      IsDense s'.dd2 (s.nn + 1) (s.nn + 1) (D2 s.nn X W) := by
  obtain ⟨t, t1, t2, t3, t4, t5⟩ := calcDd1_spec h
  unfold calcDd2
  rw [t1, ok_bind]
  by_cases hn : t.dd2.nrow = t.npoint
  · refine ⟨t, by rw [if_pos hn], t2, t3, t4, ?_⟩
    rcases t3.dd2 with h0 | h0
    · rw [t3.good.npoint] at hn; omega
    · rw [← t2]; exact h0
  · obtain ⟨dd, e1, e2⟩ := ddLoop_spec (n := t.nn + 1) (entry := t.dd2Entry) (v := d2 t.nn X W) (by
      intro k j hk hj hjk
      unfold dd2Entry
      rw [← t2] at t4
      rw [t4.get k j hk hj, ok_bind, t4.get k k hk hk, ok_bind, t3.good.xx.vget hk, ok_bind, t3.good.xx.vget hj, ok_bind, d2, D1, D1,
        if_neg hjk, if_pos rfl])
    have e3 : IsDense dd (t.nn + 1) (t.nn + 1) (D2 t.nn X W) := e2.congr (fun k j _ _ => by rw [D2])
    refine ⟨{ t with dd2 := dd }, by rw [if_neg hn, t3.good.npoint, e1]; rfl, t2, ⟨t3.good.with_dd t.dd1 dd, t3.dd1, Or.inr e3⟩, t4, ?_⟩
    rw [← t2]; exact e3

theorem sum_split {n k : Nat} (hk : k < n) (f : Nat → ℝ) : ∑ j ∈ range n, f j = ∑ j ∈ range n with j ≠ k, f j + f k := by
  rw [← erase_eq_filter, sum_erase_add _ _ (mem_range.2 hk)]

theorem D1_apply (h : s.Good X W) {p : Polynomial ℝ} (hp : p.degree ≤ (s.nn : WithBot ℕ)) {k : Nat} (hk : k ≤ s.nn) :
    ∑ j ∈ range (s.nn + 1), D1 s.nn X W k j * p.eval (X j) = p.derivative.eval (X k) := by
  rw [h.bary.deriv1_matrix hp h.pos hk, sum_split (show k < s.nn + 1 by omega)]
  congr 1
  · refine sum_congr rfl fun j hj => ?_
    rw [D1, if_neg (mem_filter.1 hj).2]
  · rw [D1, if_pos rfl]

theorem D2_apply (h : s.Good X W) {p : Polynomial ℝ} (hp : p.degree ≤ (s.nn : WithBot ℕ)) {k : Nat} (hk : k ≤ s.nn) :
    ∑ j ∈ range (s.nn + 1), D2 s.nn X W k j * p.eval (X j) = p.derivative.derivative.eval (X k) := by
  rw [h.bary.deriv2_node hp h.pos hk, sum_split (show k < s.nn + 1 by omega), D2, if_pos rfl, neg_mul, ← sub_eq_add_neg, sum_mul,
    ← sum_sub_distrib, mul_sum]
  refine sum_congr rfl fun j hj => ?_
  rw [D2, if_neg (mem_filter.1 hj).2, d2]
  ring

/-- a history of calls: `false` stands for `calc_dd1_matrix`, `true` for `calc_dd2_matrix` -/
noncomputable def run : List Bool → Interp → Res Interp
  | [], s => ok s
  | c :: cs, s => do
    let s ← if c then s.calcDd2 else s.calcDd1
    run cs s

/-- The matrix `D` differentiates polynomials exactly: applied to the values at the nodes it gives `der p` at the nodes. -/
def Differentiates (n : Nat) (X : Nat → ℝ) (D : NumMatrix ℝ) (der : Polynomial ℝ → Polynomial ℝ) : Prop :=
  ∃ d, IsDense D (n + 1) (n + 1) d ∧ ∀ p : Polynomial ℝ, p.degree ≤ (n : WithBot ℕ) →
    ∀ k, k ≤ n → ∑ j ∈ range (n + 1), d k j * p.eval (X j) = (der p).eval (X k)

theorem run_spec (cs : List Bool) : ∀ {s : Interp}, s.Inv X W → ∃ s', run cs s = ok s' ∧ s'.nn = s.nn ∧ s'.Inv X W ∧
    (s'.dd1.nrow = 0 ↔ s.dd1.nrow = 0 ∧ cs = []) ∧ (s'.dd2.nrow = 0 ↔ s.dd2.nrow = 0 ∧ true ∉ cs) := by
  induction cs with
  | nil => intro s h; exact ⟨s, rfl, rfl, h, by simp, by simp⟩
  | cons c cs ih =>
    intro s h
    cases c with
    | false =>
      obtain ⟨t, t1, t2, t3, t4, t5⟩ := calcDd1_spec h
      obtain ⟨s', e1, e2, e3, e4, e5⟩ := ih t3
      refine ⟨s', by simp only [run]; rw [if_neg (by simp), t1, ok_bind, e1], by rw [e2, t2], e3, ?_, ?_⟩
      · rw [e4, t4.nrow]; simp
      · rw [e5, t5]; simp
    | true =>
      obtain ⟨t, t1, t2, t3, t4, t5⟩ := calcDd2_spec h
      obtain ⟨s', e1, e2, e3, e4, e5⟩ := ih t3
      refine ⟨s', by simp only [run]; rw [if_pos trivial, t1, ok_bind, e1], by rw [e2, t2], e3, ?_, ?_⟩
      · rw [e4, t4.nrow]; simp
      · rw [e5, t5.nrow]; simp

/-- **C34** After any history of calls of `calc_dd1_matrix` and `calc_dd2_matrix` on a new interpolator, the matrices that were
asked for differentiate every polynomial of degree at most `N` exactly at the nodes (once and twice), and getting a
matrix that was not computed is an error. -/
theorem C34_matrices {nn : Nat} {params : Option InterpParams} (h1 : 1 ≤ nn) (h2 : nn ≤ 2048)
    (hv1 : 2 ≤ (params.getD InterpParams.new).lebesgueEstimateNstation) (hv2 : 2 ≤ (params.getD InterpParams.new).errorEstimateNstation)
    (cs : List Bool) :
    ∃ s s', new nn params = ok s ∧ run cs s = ok s' ∧
      (cs = [] → ∃ m, s'.getDd1 = err m) ∧
      (cs ≠ [] → ∃ D, s'.getDd1 = ok D ∧ Differentiates nn (gridPoint (params.getD InterpParams.new).gridType nn) D (fun p => p.derivative)) ∧
      (true ∉ cs → ∃ m, s'.getDd2 = err m) ∧
      (true ∈ cs → ∃ D, s'.getDd2 = ok D ∧
        Differentiates nn (gridPoint (params.getD InterpParams.new).gridType nn) D (fun p => p.derivative.derivative)) := by
  obtain ⟨s, W, n1, n2, n3, n4, n5⟩ := C34_new h1 h2 hv1 hv2
  obtain ⟨s', e1, e2, e3, e4, e5⟩ := run_spec cs (s := s) ⟨n3, Or.inl n4, Or.inl n5⟩
  have hn : s'.nn = nn := by rw [e2, n2]
  refine ⟨s, s', n1, e1, ?_, ?_, ?_, ?_⟩
  · intro h; exact ⟨_, by rw [getDd1, if_pos (e4.2 ⟨n4, h⟩)]⟩
  · intro h
    have h0 : ¬ s'.dd1.nrow = 0 := fun h' => h (e4.1 h').2
    refine ⟨s'.dd1, by rw [getDd1, if_neg h0], ?_⟩
    rw [← hn]
    exact ⟨_, e3.dd1.resolve_left h0, fun p hp k hk => by rw [hn]; rw [← hn]; exact D1_apply (by rw [hn]; exact e3.good) hp hk⟩
  · intro h; exact ⟨_, by rw [getDd2, if_pos (e5.2 ⟨n5, h⟩)]⟩
  · intro h
    have h0 : ¬ s'.dd2.nrow = 0 := fun h' => (e5.1 h').2 h
    refine ⟨s'.dd2, by rw [getDd2, if_neg h0], ?_⟩
    rw [← hn]
    exact ⟨_, e3.dd2.resolve_left h0, fun p hp k hk => by rw [hn]; rw [← hn]; exact D2_apply (by rw [hn]; exact e3.good) hp hk⟩

/-- the values of a polynomial at the nodes of a grid -/
noncomputable def samples (g : InterpGrid) (nn : Nat) (p : Polynomial ℝ) : List ℝ :=
  (List.range (nn + 1)).map fun j => p.eval (gridPoint g nn j)

/-- **C34** A new interpolator reproduces every polynomial `p` of degree at most `N` from its values at the nodes, together with
the first and second derivatives, at every node and at every point of `[-1, 1]` at a distance of at least `DX_EPSILON` of the nodes
(the derivatives at the ends -1, 1: for the grids that have them as nodes). -/
theorem C34_exact {nn : Nat} {params : Option InterpParams} (h1 : 1 ≤ nn) (h2 : nn ≤ 2048)
    (hv1 : 2 ≤ (params.getD InterpParams.new).lebesgueEstimateNstation) (hv2 : 2 ≤ (params.getD InterpParams.new).errorEstimateNstation)
    {p : Polynomial ℝ} (hp : p.degree ≤ (nn : WithBot ℕ)) :
    ∃ s, new nn params = ok s ∧ ∀ x, -1 ≤ x → x ≤ 1 →
      (∀ j, j ≤ nn → x = gridPoint (params.getD InterpParams.new).gridType nn j ∨
        dxEps ≤ |x - gridPoint (params.getD InterpParams.new).gridType nn j|) →
      s.eval x (samples (params.getD InterpParams.new).gridType nn p) = ok (fin (p.eval x)) ∧
      ((params.getD InterpParams.new).gridType ≠ .chebyshevGauss ∨ (x ≠ -1 ∧ x ≠ 1) →
        s.evalDeriv1 x (samples (params.getD InterpParams.new).gridType nn p) = ok (fin (p.derivative.eval x)) ∧
        s.evalDeriv2 x (samples (params.getD InterpParams.new).gridType nn p) = ok (fin (p.derivative.derivative.eval x))) := by
  obtain ⟨s, W, n1, n2, n3, -, -⟩ := C34_new h1 h2 hv1 hv2
  subst n2
  refine ⟨s, n1, fun x hx1 hx2 hc => ?_⟩
  have hu : IsVec (samples (params.getD InterpParams.new).gridType s.nn p) (s.nn + 1)
    (fun j => p.eval (gridPoint (params.getD InterpParams.new).gridType s.nn j)) := isVec_map_range _ _
  refine ⟨C34_eval n3 ⟨hx1, hx2⟩ hc hp hu, fun hg => ?_⟩
  have he : s.EndsOk (gridPoint (params.getD InterpParams.new).gridType s.nn) x := by
    rcases hg with hg | hg
    · exact ⟨fun _ => (endsOk_grid h1 hg).1, fun _ => (endsOk_grid h1 hg).2⟩
    · exact ⟨fun h => absurd h hg.1, fun h => absurd h hg.2⟩
  exact ⟨C34_deriv1 n3 ⟨hx1, hx2⟩ hc he hp hu, C34_deriv2 n3 ⟨hx1, hx2⟩ hc he hp hu⟩

/-- **C34** A new interpolator takes the data at the nodes, whatever the data. -/
theorem C34_nodes {nn : Nat} {params : Option InterpParams} (h1 : 1 ≤ nn) (h2 : nn ≤ 2048)
    (hv1 : 2 ≤ (params.getD InterpParams.new).lebesgueEstimateNstation) (hv2 : 2 ≤ (params.getD InterpParams.new).errorEstimateNstation) :
    ∃ s, new nn params = ok s ∧ ∀ uu : List ℝ, uu.length = nn + 1 → ∀ k (hk : k < uu.length),
      s.eval (gridPoint (params.getD InterpParams.new).gridType nn k) uu = ok (fin uu[k]) := by
  obtain ⟨s, W, n1, n2, n3, -, -⟩ := C34_new h1 h2 hv1 hv2
  obtain ⟨-, -, -, -, hin⟩ := grid_spec (params.getD InterpParams.new).gridType h1 h2
  subst n2
  refine ⟨s, n1, fun uu hl k hk => ?_⟩
  have hu : IsVec uu (s.nn + 1) (fun i => uu.getD i 0) := ⟨hl, fun i hi => by
    rw [List.getD_eq_getElem?_getD, List.getElem?_eq_getElem (by omega)]; rfl⟩
  rw [C34_data n3 hin hu (by omega), List.getD_eq_getElem?_getD, List.getElem?_eq_getElem hk]; rfl

/-- **C34** A point outside of `[-1, 1]`, a wrong length of the data or a wrong index is an error. -/
theorem C34_errors (s : Interp) (x : ℝ) (uu : List ℝ) :
    (x < -1 ∨ x > 1 ∨ uu.length ≠ s.npoint →
      (∃ m, s.eval x uu = err m) ∧ (∃ m, s.evalDeriv1 x uu = err m) ∧ ∃ m, s.evalDeriv2 x uu = err m) ∧
    ∀ j, j > s.nn ∨ x < -1 ∨ x > 1 → ∃ m, s.psi j x = err m := by
  constructor
  · intro h
    unfold eval evalDeriv1 evalDeriv2
    by_cases hx : x < -1 ∨ x > 1
    · exact ⟨⟨_, by rw [if_pos hx]⟩, ⟨_, by rw [if_pos hx]⟩, ⟨_, by rw [if_pos hx]⟩⟩
    · have hl : uu.length ≠ s.npoint := by tauto
      exact ⟨⟨_, by rw [if_neg hx, if_pos hl]⟩, ⟨_, by rw [if_neg hx, if_pos hl]⟩, ⟨_, by rw [if_neg hx, if_pos hl]⟩⟩
  · intro j h
    unfold psi
    by_cases hj : j > s.nn
    · exact ⟨_, by rw [if_pos hj]⟩
    · exact ⟨_, by rw [if_neg hj, if_pos (by tauto)]⟩

/-- **C34** The derivative at the ends: for every grid, `eval_deriv1` at -1 is the derivative at the *first node*. -/
theorem deriv1_end (h : s.Good X W) {p : Polynomial ℝ} (hp : p.degree ≤ (s.nn : WithBot ℕ)) {uu : List ℝ}
    (hu : IsVec uu (s.nn + 1) fun j => p.eval (X j)) : s.evalDeriv1 (-1) uu = ok (fin (p.derivative.eval (X 0))) := by
  unfold evalDeriv1 atNode
  rw [if_neg (by norm_num), if_neg (by rw [hu.len, h.npoint]; exact not_not.2 rfl), if_pos rfl, ok_bind]
  dsimp only
  rw [deriv1Node_spec h hu (by omega), h.bary.deriv1_node hp h.pos (by omega)]

/-- parameters with the Chebyshev-Gauss grid -/
def gaussParams : InterpParams := ⟨.chebyshevGauss, false, 700, 10000, 1000⟩

/-- **C34** On a Chebyshev-Gauss grid, where -1 is not a node, the derivative returned at `x = -1` is not the derivative of the
interpolating polynomial: with `N = 2` and the data of `x²` it is -√3 instead of -2. -/
theorem C34_gauss_ends_counterexample :
    ∃ s, new 2 (some gaussParams) = ok s ∧
      s.evalDeriv1 (-1) (samples .chebyshevGauss 2 (Polynomial.X ^ 2)) = ok (fin (-Real.sqrt 3)) ∧
      (Polynomial.derivative (Polynomial.X ^ 2 : Polynomial ℝ)).eval (-1) = -2 ∧ -Real.sqrt 3 ≠ -2 := by
  obtain ⟨s, W, n1, n2, n3, -, -⟩ := C34_new (nn := 2) (params := some gaussParams) (by norm_num) (by norm_num)
    (by simp [gaussParams]) (by simp [gaussParams])
  refine ⟨s, n1, ?_, ?_, ?_⟩
  · have hu : IsVec (samples .chebyshevGauss 2 (Polynomial.X ^ 2)) (s.nn + 1)
      (fun j => (Polynomial.X ^ 2 : Polynomial ℝ).eval (gridPoint .chebyshevGauss 2 j)) := by rw [n2]; exact isVec_map_range _ _
    have := deriv1_end (p := Polynomial.X ^ 2) n3 (by rw [n2, Polynomial.degree_X_pow]) hu
    rw [this]
    congr 2
    have e : gridPoint .chebyshevGauss 2 0 = -(Real.sqrt 3 / 2) := by
      simp only [gridPoint]
      rw [← Real.cos_pi_div_six]; congr 2; push_cast; ring
    simp only [Option.getD_some, gaussParams, Polynomial.derivative_X_pow, Polynomial.eval_mul, Polynomial.eval_C, Polynomial.eval_pow,
      Polynomial.eval_X, e]
    norm_num
    ring
  · simp; norm_num
  · intro h
    have h2 : Real.sqrt 3 = 2 := by linarith
    have := Real.sq_sqrt (show (0 : ℝ) ≤ 3 by norm_num)
    rw [h2] at this
    norm_num at this

/-- the cubic `x³` with 6 points of the default grid, at the node number 2 and at the ends -/
example : ∃ s, new 5 none = ok s ∧
    s.evalDeriv2 1 (samples .chebyshevGaussLobatto 5 (Polynomial.X ^ 3)) = ok (fin 6) := by
  obtain ⟨s, h, h'⟩ := C34_exact (nn := 5) (params := none) (p := Polynomial.X ^ 3) (by norm_num) (by norm_num)
    (by simp [InterpParams.new]) (by simp [InterpParams.new]) (by rw [Polynomial.degree_X_pow]; norm_cast)
  obtain ⟨g, W, n1, n2, n3, -, -⟩ := C34_new (nn := 5) (params := none) (by norm_num) (by norm_num)
    (by simp [InterpParams.new]) (by simp [InterpParams.new])
  have hc := n3.clear_node (k := 5) (by omega)
  have e1 : gridPoint InterpGrid.chebyshevGaussLobatto 5 5 = 1 := (endsOk_grid (nn := 5) (by norm_num) (by decide)).2
  simp only [Option.getD_none, InterpParams.new] at hc
  rw [e1] at hc
  have := (h' 1 (by norm_num) (by norm_num) (fun j hj => hc j (by omega))).2 (Or.inl (by decide))
  refine ⟨s, h, ?_⟩
  have h6 := this.2
  simp only [Option.getD_none, InterpParams.new] at h6
  rw [h6]
  congr 2
  simp
  norm_num

end Interp

end Russell.Lab
