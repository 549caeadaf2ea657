import Verif.Lab.Chebyshev
import Mathlib.Analysis.SpecialFunctions.Trigonometric.Basic

/-!
# Chebyshev-Gauss and Chebyshev-Gauss-Lobatto points (property C52)

Models of `chebyshev_gauss_points` and `chebyshev_lobatto_points` (/repo/russell_lab/src/math/chebyshev.rs).
-/

namespace Russell.Lab

open Russell Russell.Res Polynomial Polynomial.Chebyshev

noncomputable section

/-- number of mirrored pairs (/repo/russell_lab/src/math/chebyshev.rs:233-239 and 319-325) -/
def halfCount (nn : Nat) : Nat := if nn &&& 1 = 0 then nn / 2 else (nn + 3) / 2 - 1

/-- `chebyshev_gauss_points` (/repo/russell_lab/src/math/chebyshev.rs:229-245) -/
def chebyshevGaussPoints (nn : Nat) : Res (List ℝ) :=
  let nf : ℝ := nn
  let d := 2 * nf + 2
  forRange 0 (halfCount nn) (List.replicate (nn + 1) (0 : ℝ)) fun i xx => do
    let k ← subUsize nn i
    let xx ← vset xx k (Real.cos (((2 * i + 1 : Nat) : ℝ) * Real.pi / d))
    let y ← vget xx k
    vset xx i (-y)

/-- `chebyshev_lobatto_points` (/repo/russell_lab/src/math/chebyshev.rs:310-331) -/
def chebyshevLobattoPoints (nn : Nat) : Res (List ℝ) := do
  let xx := List.replicate (nn + 1) (0 : ℝ)
  let xx ← vset xx 0 (-1)
  let xx ← vset xx nn 1
  if nn < 3 then ok xx
  else do
    let nf : ℝ := nn
    let d := 2 * nf
    forRange 1 (halfCount nn) xx fun i xx => do
      let k ← subUsize nn i
      let xx ← vset xx k (Real.sin (Real.pi * (nf - 2 * (i : ℝ)) / d))
      let y ← vget xx k
      vset xx i (-y)

theorem halfCount_spec (nn : Nat) : 2 * halfCount nn = nn ∨ 2 * halfCount nn = nn + 1 := by
  unfold halfCount
  rw [Nat.and_one_is_mod]
  split <;> omega

/-- The mirrored filling loop shared by both functions. -/
theorem mirrorLoop {nn lo L : Nat} (hL : 2 * L = nn ∨ 2 * L = nn + 1) (hlo : lo ≤ L) (g : Nat → ℝ) {body : Nat → List ℝ → Res (List ℝ)}
    (hb : ∀ i xx, body i xx = (do
      let k ← subUsize nn i
      let xx ← vset xx k (g i)
      let y ← vget xx k
      vset xx i (-y)))
    {xx : List ℝ} {f : Nat → ℝ} (h : IsVec xx (nn + 1) f) :
    ∃ xx', forRange lo L xx body = ok xx' ∧ IsVec xx' (nn + 1) (fun k =>
      if lo ≤ k ∧ k < L then -g k else if lo ≤ nn - k ∧ nn - k < L then g (nn - k) else f k) := by
  obtain ⟨xx', e, hv⟩ := forRange_spec (f := body)
    (fun t xx => IsVec xx (nn + 1) (fun k =>
      if lo ≤ k ∧ k < t then -g k else if lo ≤ nn - k ∧ nn - k < t then g (nn - k) else f k)) hlo (s := xx)
    (h.congr (fun k _ => by rw [if_neg (by omega), if_neg (by omega)]))
    (by
      intro i xx h1 h2 hI
      obtain ⟨x1, e1, v1⟩ := hI.vset (i := nn - i) (by omega) (g i)
      obtain ⟨x2, e2, v2⟩ := v1.vset (i := i) (by omega) (-g i)
      refine ⟨x2, ?_, v2.congr ?_⟩
      · have hle : i ≤ nn := by omega
        have e3 : vget x1 (nn - i) = ok (g i) := by rw [v1.vget (i := nn - i) (by omega), if_pos rfl]
        simp only [hb, subUsize, if_pos hle, ok_bind, e1, e3, e2]
      · intro k hk
        by_cases hki : k = i
        · subst hki; rw [if_pos rfl, if_pos (by omega)]
        · rw [if_neg hki]
          by_cases hkn : k = nn - i
          · have h3 : nn - k = i := by omega
            rw [if_pos hkn, if_neg (by omega), if_pos (by omega), h3]
          · rw [if_neg hkn]
            by_cases h3 : lo ≤ k ∧ k < i
            · rw [if_pos h3, if_pos (by omega)]
            · rw [if_neg h3, if_neg (show ¬(lo ≤ k ∧ k < i + 1) by omega)]
              by_cases h4 : lo ≤ nn - k ∧ nn - k < i
              · rw [if_pos h4, if_pos (by omega)]
              · rw [if_neg h4, if_neg (by omega)])
  exact ⟨xx', e, hv⟩

/-- the documented points -/
def cgPoint (nn j : Nat) : ℝ := -Real.cos ((2 * j + 1) * Real.pi / (2 * nn + 2))
/-- the documented points -/
def cglPoint (nn j : Nat) : ℝ := -Real.cos (j * Real.pi / nn)

theorem C52_gauss_aux (nn : Nat) :
    ∃ xx, chebyshevGaussPoints nn = ok xx ∧ IsVec xx (nn + 1) (cgPoint nn) := by
  have hpos : (0 : ℝ) < 2 * nn + 2 := by positivity
  obtain ⟨xx, e, hv⟩ := mirrorLoop (lo := 0) (halfCount_spec nn) (Nat.zero_le _)
    (fun i => Real.cos (((2 * i + 1 : Nat) : ℝ) * Real.pi / (2 * (nn : ℝ) + 2))) (fun _ _ => rfl)
    (isVec_replicate (nn + 1) (0 : ℝ))
  refine ⟨xx, e, hv.congr ?_⟩
  intro k hk
  unfold cgPoint
  by_cases h1 : 0 ≤ k ∧ k < halfCount nn
  · rw [if_pos h1]; push_cast; rfl
  · rw [if_neg h1]
    by_cases h2 : 0 ≤ nn - k ∧ nn - k < halfCount nn
    · rw [if_pos h2]
      have hkn : k ≤ nn := by omega
      push_cast [Nat.cast_sub hkn]
      rw [← Real.cos_pi_sub]
      congr 1
      field_simp
      ring
    · rw [if_neg h2]
      have h3 : nn = 2 * k := by have := halfCount_spec nn; omega
      have h4 : ((2 * (k : ℝ) + 1) * Real.pi / (2 * nn + 2)) = Real.pi / 2 := by
        rw [h3]; push_cast; field_simp
      rw [h4, Real.cos_pi_div_two, neg_zero]

/-- **C52** `chebyshev_gauss_points(N)` succeeds and returns the `N+1` points `-cos((2j+1)π/(2N+2))`; they are strictly
increasing, symmetric, inside (-1,1), and are exactly the real roots of the Chebyshev polynomial `T_{N+1}`. -/
theorem C52_gauss_points (nn : Nat) :
    ∃ xx, chebyshevGaussPoints nn = ok xx ∧ xx.length = nn + 1 ∧
      (∀ j : Nat, j ≤ nn → xx[j]? = some (-Real.cos ((2 * j + 1) * Real.pi / (2 * nn + 2)))) ∧
      (∀ (i j : Nat) (x y : ℝ), i < j → xx[i]? = some x → xx[j]? = some y → x < y) ∧
      (∀ (i : Nat) (x y : ℝ), i ≤ nn → xx[i]? = some x → xx[nn - i]? = some y → x = -y) ∧
      (∀ x, x ∈ xx ↔ (T ℝ ((nn + 1 : Nat) : ℤ)).eval x = 0) := by
  obtain ⟨xx, e, hv⟩ := C52_gauss_aux nn
  have hpos : (0 : ℝ) < 2 * nn + 2 := by positivity
  have hpi := Real.pi_pos
  have hang : ∀ j : Nat, j ≤ nn → 0 < ((2 * (j : ℝ) + 1) * Real.pi / (2 * nn + 2)) ∧
      ((2 * (j : ℝ) + 1) * Real.pi / (2 * nn + 2)) < Real.pi := by
    intro j hj
    have hj' : (j : ℝ) ≤ nn := by exact_mod_cast hj
    refine ⟨by positivity, ?_⟩
    rw [div_lt_iff₀ hpos]
    nlinarith
  have hmono : ∀ i j, i < j → j ≤ nn → cgPoint nn i < cgPoint nn j := by
    intro i j hij hj
    unfold cgPoint
    rw [neg_lt_neg_iff]
    apply Real.cos_lt_cos_of_nonneg_of_le_pi (hang i (by omega)).1.le (hang j hj).2.le
    have : (i : ℝ) < j := by exact_mod_cast hij
    rw [div_lt_div_iff_of_pos_right hpos]
    nlinarith
  have hroot : ∀ j, j ≤ nn → (T ℝ ((nn + 1 : Nat) : ℤ)).eval (cgPoint nn j) = 0 := by
    intro j hj
    unfold cgPoint
    rw [T_eval_neg, T_real_cos]
    have : ((((nn + 1 : Nat) : ℤ) : ℝ)) * ((2 * (j : ℝ) + 1) * Real.pi / (2 * nn + 2)) = (j : ℝ) * Real.pi + Real.pi / 2 := by
      push_cast; field_simp
    rw [this, Real.cos_add_pi_div_two, Real.sin_nat_mul_pi]; simp
  have hmem : ∀ x, x ∈ xx ↔ ∃ j, j ≤ nn ∧ x = cgPoint nn j := by
    intro x
    rw [List.mem_iff_getElem?]
    constructor
    · rintro ⟨j, hj⟩
      have hlt : j < nn + 1 := by
        rw [← hv.len]; exact (List.getElem?_eq_some_iff.1 hj).1
      rw [hv.get j hlt] at hj
      exact ⟨j, by omega, (Option.some.inj hj).symm⟩
    · rintro ⟨j, hj, rfl⟩
      exact ⟨j, hv.get j (by omega)⟩
  refine ⟨xx, e, hv.len, fun j hj => hv.get j (by omega), ?_, ?_, ?_⟩
  · intro i j x y hij hx hy
    have hj : j < nn + 1 := by
      rw [← hv.len]; exact (List.getElem?_eq_some_iff.1 hy).1
    rw [hv.get i (by omega)] at hx
    rw [hv.get j hj] at hy
    cases hx; cases hy
    exact hmono i j hij (by omega)
  · intro i x y hi hx hy
    rw [hv.get i (by omega)] at hx
    rw [hv.get (nn - i) (by omega)] at hy
    cases hx; cases hy
    unfold cgPoint
    rw [neg_neg, ← Real.cos_pi_sub]
    congr 1
    push_cast [Nat.cast_sub hi]
    field_simp
    ring
  · intro x
    constructor
    · intro hx
      obtain ⟨j, hj, rfl⟩ := (hmem x).1 hx
      exact hroot j hj
    · intro hx
      -- count the roots
      have hne : T ℝ ((nn + 1 : Nat) : ℤ) ≠ 0 := T_ne_zero _ _
      have hinj : Set.InjOn (cgPoint nn) (Finset.range (nn + 1)) := by
        intro i hi j hj hij
        simp only [Finset.coe_range, Set.mem_Iio] at hi hj
        rcases lt_trichotomy i j with h | h | h
        · exact absurd hij (hmono i j h (by omega)).ne
        · exact h
        · exact absurd hij (hmono j i h (by omega)).ne'
      have hsub : (Finset.range (nn + 1)).image (cgPoint nn) ⊆ (T ℝ ((nn + 1 : Nat) : ℤ)).roots.toFinset := by
        intro y hy
        obtain ⟨j, hj, rfl⟩ := Finset.mem_image.1 hy
        rw [Multiset.mem_toFinset, mem_roots hne]
        exact hroot j (by have := Finset.mem_range.1 hj; omega)
      have hcard : (T ℝ ((nn + 1 : Nat) : ℤ)).roots.toFinset.card ≤ ((Finset.range (nn + 1)).image (cgPoint nn)).card := by
        rw [Finset.card_image_of_injOn hinj, Finset.card_range]
        refine le_trans (Multiset.toFinset_card_le _) (le_trans (card_roots' _) ?_)
        rw [natDegree_T]; omega
      have heq := Finset.eq_of_subset_of_card_le hsub hcard
      have hxr : x ∈ (T ℝ ((nn + 1 : Nat) : ℤ)).roots.toFinset := by
        rw [Multiset.mem_toFinset, mem_roots hne]; exact hx
      rw [← heq] at hxr
      obtain ⟨j, hj, rfl⟩ := Finset.mem_image.1 hxr
      exact (hmem _).2 ⟨j, by have := Finset.mem_range.1 hj; omega, rfl⟩

/-- **C52** `chebyshev_lobatto_points(N)` for `N ≥ 1` succeeds and returns the `N+1` points `-cos(jπ/N)`: the first is -1, the last
is 1, they are strictly increasing, and the interior ones are roots of the derivative of `T_N` (where `|T_N| = 1`). -/
theorem C52_lobatto_points {nn : Nat} (hn : 1 ≤ nn) :
    ∃ xx, chebyshevLobattoPoints nn = ok xx ∧ xx.length = nn + 1 ∧
      (∀ j : Nat, j ≤ nn → xx[j]? = some (-Real.cos (j * Real.pi / nn))) ∧ xx[(0 : Nat)]? = some (-1) ∧ xx[nn]? = some 1 ∧
      (∀ (i j : Nat) (x y : ℝ), i < j → xx[i]? = some x → xx[j]? = some y → x < y) ∧
      (∀ (j : Nat) (x : ℝ), xx[j]? = some x → ((T ℝ (nn : ℤ)).eval x) ^ 2 = 1) ∧
      (∀ (j : Nat) (x : ℝ), 0 < j → j < nn → xx[j]? = some x → (derivative (T ℝ (nn : ℤ))).eval x = 0) := by
  have hnn : (0 : ℝ) < nn := by exact_mod_cast hn
  have hpi := Real.pi_pos
  obtain ⟨xx, e, hv⟩ : ∃ xx, chebyshevLobattoPoints nn = ok xx ∧ IsVec xx (nn + 1) (cglPoint nn) := by
    obtain ⟨x1, e1, v1⟩ := (isVec_replicate (nn + 1) (0 : ℝ)).vset (i := 0) (by omega) (-1)
    obtain ⟨x2, e2, v2⟩ := v1.vset (i := nn) (by omega) 1
    have h0 : cglPoint nn 0 = -1 := by simp [cglPoint]
    have hN : cglPoint nn nn = 1 := by
      unfold cglPoint
      rw [mul_div_assoc, mul_div_cancel₀ _ hnn.ne', Real.cos_pi, neg_neg]
    by_cases h3 : nn < 3
    · refine ⟨x2, by simp only [chebyshevLobattoPoints, e1, ok_bind, e2, if_pos h3], v2.congr ?_⟩
      intro k hk
      by_cases hkn : k = nn
      · rw [if_pos hkn, hkn, hN]
      · rw [if_neg hkn]
        by_cases hk0 : k = 0
        · rw [if_pos hk0, hk0, h0]
        · rw [if_neg hk0]
          have h1 : k = 1 := by omega
          have h2 : nn = 2 := by omega
          subst h1; subst h2
          simp [cglPoint]
    · obtain ⟨xx, e, hv⟩ := mirrorLoop (lo := 1) (L := halfCount nn) (halfCount_spec nn)
        (by have := halfCount_spec nn; omega)
        (fun i => Real.sin (Real.pi * ((nn : ℝ) - 2 * (i : ℝ)) / (2 * nn)))
        (fun _ _ => rfl) v2
      refine ⟨xx, by simp only [chebyshevLobattoPoints, e1, ok_bind, e2, if_neg h3]; exact e, hv.congr ?_⟩
      have hg : ∀ i : Nat, Real.sin (Real.pi * ((nn : ℝ) - 2 * (i : ℝ)) / (2 * nn)) = Real.cos (i * Real.pi / nn) := by
        intro i
        rw [← Real.sin_pi_div_two_sub]
        congr 1
        field_simp
      intro k hk
      by_cases h1 : 1 ≤ k ∧ k < halfCount nn
      · rw [if_pos h1, hg]; rfl
      · rw [if_neg h1]
        by_cases h2 : 1 ≤ nn - k ∧ nn - k < halfCount nn
        · rw [if_pos h2, hg]
          unfold cglPoint
          have hkn : k ≤ nn := by omega
          push_cast [Nat.cast_sub hkn]
          rw [← Real.cos_pi_sub]
          congr 1
          field_simp
        · rw [if_neg h2]
          by_cases hkn : k = nn
          · rw [if_pos hkn, hkn, hN]
          · rw [if_neg hkn]
            by_cases hk0 : k = 0
            · rw [if_pos hk0, hk0, h0]
            · rw [if_neg hk0]
              have h4 : nn = 2 * k := by have := halfCount_spec nn; omega
              unfold cglPoint
              have hk' : (k : ℝ) ≠ 0 := by exact_mod_cast hk0
              have : (k : ℝ) * Real.pi / nn = Real.pi / 2 := by
                rw [h4]; push_cast; field_simp
              rw [this, Real.cos_pi_div_two, neg_zero]
  have hang : ∀ j : Nat, j ≤ nn → 0 ≤ (j : ℝ) * Real.pi / nn ∧ (j : ℝ) * Real.pi / nn ≤ Real.pi := by
    intro j hj
    have hj' : (j : ℝ) ≤ nn := by exact_mod_cast hj
    refine ⟨by positivity, ?_⟩
    rw [div_le_iff₀ hnn]
    nlinarith
  have hlt : ∀ {j : Nat} {x : ℝ}, xx[j]? = some x → j < nn + 1 ∧ x = cglPoint nn j := by
    intro j x hx
    have hj : j < nn + 1 := by
      rw [← hv.len]; exact (List.getElem?_eq_some_iff.1 hx).1
    rw [hv.get j hj] at hx
    exact ⟨hj, (Option.some.inj hx).symm⟩
  have hnang : ∀ j : Nat, (((nn : ℤ) : ℝ)) * ((j : ℝ) * Real.pi / nn) = j * Real.pi := by
    intro j; push_cast; field_simp
  refine ⟨xx, e, hv.len, fun j hj => hv.get j (by omega), ?_, ?_, ?_, ?_, ?_⟩
  · rw [hv.get 0 (by omega)]; simp [cglPoint]
  · rw [hv.get nn (by omega)]
    unfold cglPoint
    rw [mul_div_assoc, mul_div_cancel₀ _ hnn.ne', Real.cos_pi, neg_neg]
  · intro i j x y hij hx hy
    obtain ⟨_, rfl⟩ := hlt hx
    obtain ⟨hj, rfl⟩ := hlt hy
    unfold cglPoint
    rw [neg_lt_neg_iff]
    apply Real.cos_lt_cos_of_nonneg_of_le_pi (hang i (by omega)).1 (hang j (by omega)).2
    have : (i : ℝ) < j := by exact_mod_cast hij
    rw [div_lt_div_iff_of_pos_right hnn]
    nlinarith
  · intro j x hx
    obtain ⟨hj, rfl⟩ := hlt hx
    unfold cglPoint
    rw [T_eval_neg, T_real_cos, hnang, mul_pow]
    have h1 : Real.cos (j * Real.pi) ^ 2 = 1 := by
      have := Real.sin_sq_add_cos_sq (j * Real.pi)
      rw [Real.sin_nat_mul_pi] at this; linarith
    rw [h1, mul_one]
    rcases Nat.even_or_odd nn with he | ho
    · rw [negOnePow_even he]; norm_num
    · rw [negOnePow_odd (Nat.not_even_iff_odd.2 ho)]; norm_num
  · intro j x h0 hj hx
    obtain ⟨_, rfl⟩ := hlt hx
    unfold cglPoint
    rw [deriv_eval_neg (T_neg nn)]
    have e := T_deriv_mul_sin nn ((j : ℝ) * Real.pi / nn)
    have h1 : (nn : ℝ) * ((j : ℝ) * Real.pi / nn) = j * Real.pi := by field_simp
    rw [h1, Real.sin_nat_mul_pi, mul_zero] at e
    have hs : Real.sin ((j : ℝ) * Real.pi / nn) ≠ 0 := by
      apply ne_of_gt
      apply Real.sin_pos_of_pos_of_lt_pi
      · have : (0 : ℝ) < j := by exact_mod_cast h0
        positivity
      · have : (j : ℝ) < nn := by exact_mod_cast hj
        rw [div_lt_iff₀ hnn]; nlinarith
    rcases mul_eq_zero.1 e with h | h
    · rw [h, mul_zero]
    · exact absurd h hs

/-- for `N = 0` the single Lobatto point is 1 (the last assignment wins) -/
example : chebyshevLobattoPoints 0 = ok [1] := by simp [chebyshevLobattoPoints, vset]

/-- `N = 2`: the middle point is 0 -/
example : ∃ xx, chebyshevGaussPoints 2 = ok xx ∧ xx[1]? = some 0 := by
  obtain ⟨xx, e, _, h, _⟩ := C52_gauss_points 2
  refine ⟨xx, e, ?_⟩
  rw [h 1 (by omega)]
  have : (2 * ((1 : Nat) : ℝ) + 1) * Real.pi / (2 * ((2 : Nat) : ℝ) + 2) = Real.pi / 2 := by push_cast; ring
  rw [this, Real.cos_pi_div_two, neg_zero]

end

end Russell.Lab
