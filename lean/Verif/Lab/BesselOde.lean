import Verif.Lab.BesselPos
import Mathlib.Analysis.Calculus.SmoothSeries
import Mathlib.Analysis.Calculus.Deriv.MeanValue
import Mathlib.Analysis.SpecialFunctions.Sqrt
import Mathlib.Analysis.SpecialFunctions.Trigonometric.Deriv

/-!
# The differential equations of `J₀` and `J₁` and a stability estimate (background of property C117)

`J₀' = -J₁` and `J₁' = J₀ - J₁ / x`. The errors of approximations to `√x J₀` and `√x J₁` are bounded by the residuals of the approximations in these
equations, for all `x ≥ 2`. Nothing here refers to the code.
-/

namespace Russell.Lab

open Nat (factorial)
open scoped Nat
open Real Set

theorem besTerm_zero_deriv (m : ℕ) (x : ℝ) : HasDerivAt (fun x => besTerm (-1) 0 (x / 2) (m + 1)) (-besTerm (-1) 1 (x / 2) m) x := by
  have h := ((((hasDerivAt_id x).div_const 2).pow (2 * (m + 1) + 0)).const_mul ((-1 : ℝ) ^ (m + 1))).div_const ((((m + 1)! : ℕ) : ℝ) * ((m + 1 + 0)! : ℝ))
  refine HasDerivAt.congr_deriv (f := fun x => besTerm (-1) 0 (x / 2) (m + 1)) h ?_
  have hm : ((m ! : ℕ) : ℝ) ≠ 0 := by positivity
  have hm1 : ((m : ℝ) + 1) ≠ 0 := by positivity
  simp only [besTerm, add_zero, Nat.factorial_succ, id_eq, show 2 * (m + 1) - 1 = 2 * m + 1 by omega]
  push_cast
  field_simp
  ring

theorem mul_besTerm_one_deriv (m : ℕ) (x : ℝ) : HasDerivAt (fun x => x * besTerm (-1) 1 (x / 2) m) (x * besTerm (-1) 0 (x / 2) m) x := by
  have h := (hasDerivAt_id x).mul (((((hasDerivAt_id x).div_const 2).pow (2 * m + 1)).const_mul ((-1 : ℝ) ^ m)).div_const (((m ! : ℕ) : ℝ) * ((m + 1)! : ℝ)))
  refine HasDerivAt.congr_deriv (f := fun x => x * besTerm (-1) 1 (x / 2) m) h ?_
  have hm : ((m ! : ℕ) : ℝ) ≠ 0 := by positivity
  have hm1 : ((m : ℝ) + 1) ≠ 0 := by positivity
  simp only [besTerm, add_zero, Nat.factorial_succ, id_eq, Nat.add_sub_cancel, Pi.pow_apply, pow_succ]
  push_cast
  field_simp
  ring

theorem besTerm_bound_ball (n : ℕ) {x R : ℝ} (hx : x ∈ Ioo (-R) R) (m : ℕ) :
    |besTerm (-1) n (x / 2) m| ≤ |R / 2| ^ n / (n ! : ℝ) * ((|(-1 : ℝ)| * (R / 2) ^ 2) ^ m / (m ! : ℝ)) := by
  refine (besTerm_abs_le (-1) n (x / 2) m).trans ?_
  have h2 : |x / 2| ≤ |R / 2| := by
    rw [abs_div, abs_div]
    have := (abs_lt.2 hx).le.trans (le_abs_self R)
    gcongr
  have h3 : (x / 2) ^ 2 ≤ (R / 2) ^ 2 := sq_le_sq.2 h2
  gcongr

theorem besselJ_zero_deriv (x : ℝ) : HasDerivAt (besselJ 0) (-besselJ 1 x) x := by
  obtain ⟨R, hR⟩ : ∃ R, |x| < R := exists_gt _
  have hx := abs_lt.1 hR
  have h0 : (0 : ℝ) ∈ Ioo (-R) R := by have := (abs_nonneg x).trans_lt hR; constructor <;> linarith
  have h := hasDerivAt_tsum_of_isPreconnected (u := fun m => |R / 2| ^ 1 / (1 ! : ℝ) * ((|(-1 : ℝ)| * (R / 2) ^ 2) ^ m / (m ! : ℝ)))
    ((Real.summable_pow_div_factorial _).mul_left _) isOpen_Ioo isPreconnected_Ioo (g := fun m x => besTerm (-1) 0 (x / 2) (m + 1))
    (g' := fun m x => -besTerm (-1) 1 (x / 2) m) (fun m y _ => besTerm_zero_deriv m y)
    (fun m y hy => by rw [norm_neg]; exact besTerm_bound_ball 1 hy m) h0 ((summable_nat_add_iff 1).2 (besTerm_summable (-1) 0 (0 / 2))) (show x ∈ Ioo (-R) R from hx)
  have e : besselJ 0 = fun x => 1 + ∑' m, besTerm (-1) 0 (x / 2) (m + 1) := by
    funext y
    rw [besselJ, bes, (besTerm_summable (-1) 0 (y / 2)).tsum_eq_zero_add]
    simp [besTerm]
  rw [e]
  refine (h.const_add 1).congr_deriv ?_
  rw [tsum_neg]
  rfl

theorem mul_besselJ_one_deriv (x : ℝ) : HasDerivAt (fun x => x * besselJ 1 x) (x * besselJ 0 x) x := by
  obtain ⟨R, hR⟩ : ∃ R, |x| < R := exists_gt _
  have hx := abs_lt.1 hR
  have h0 : (0 : ℝ) ∈ Ioo (-R) R := by have := (abs_nonneg x).trans_lt hR; constructor <;> linarith
  have h := hasDerivAt_tsum_of_isPreconnected (u := fun m => |R| * (|R / 2| ^ 0 / (0 ! : ℝ) * ((|(-1 : ℝ)| * (R / 2) ^ 2) ^ m / (m ! : ℝ))))
    (((Real.summable_pow_div_factorial _).mul_left _).mul_left _) isOpen_Ioo isPreconnected_Ioo (g := fun m x => x * besTerm (-1) 1 (x / 2) m)
    (g' := fun m x => x * besTerm (-1) 0 (x / 2) m) (fun m y _ => mul_besTerm_one_deriv m y)
    (fun m y hy => by
      rw [norm_mul]
      have h1 := besTerm_bound_ball 0 hy m
      have h2 : |y| ≤ |R| := (abs_lt.2 hy).le.trans (le_abs_self R)
      simp only [Real.norm_eq_abs]
      gcongr) h0 ((besTerm_summable (-1) 1 (0 / 2)).mul_left 0) (show x ∈ Ioo (-R) R from hx)
  simp only [tsum_mul_left] at h
  exact h

theorem besselJ_one_deriv {x : ℝ} (hx : 0 < x) : HasDerivAt (besselJ 1) (besselJ 0 x - besselJ 1 x / x) x := by
  have h := (mul_besselJ_one_deriv x).div (hasDerivAt_id x) hx.ne'
  have h2 : HasDerivAt (besselJ 1) _ x := h.congr_of_eventuallyEq (by
    filter_upwards [lt_mem_nhds hx] with y hy
    simp only [Pi.div_apply, id_eq]
    field_simp)
  refine h2.congr_deriv ?_
  simp only [id_eq]
  field_simp

/-- two functions that satisfy the equations of the Bessel functions of the orders 0 and 1 -/
structure BessPair (f : ℕ → ℝ → ℝ) : Prop where
  zero : ∀ x, 0 < x → HasDerivAt (f 0) (-f 1 x) x
  one : ∀ x, 0 < x → HasDerivAt (f 1) (f 0 x - f 1 x / x) x

theorem besselJ_pair : BessPair besselJ := ⟨fun x _ => besselJ_zero_deriv x, fun _ hx => besselJ_one_deriv hx⟩

/-- `√x f₀` and `√x f₁` times a constant -/
noncomputable def bessW (f : ℕ → ℝ → ℝ) (n : ℕ) (κ x : ℝ) : ℝ := κ * (√x * f n x)

theorem bessW_zero_deriv {f : ℕ → ℝ → ℝ} (hf : BessPair f) (κ : ℝ) {x : ℝ} (hx : 0 < x) : HasDerivAt (bessW f 0 κ) (bessW f 0 κ x / (2 * x) - bessW f 1 κ x) x := by
  have h := ((hasDerivAt_sqrt hx.ne').mul (hf.zero x hx)).const_mul κ
  refine HasDerivAt.congr_deriv (f := bessW f 0 κ) h ?_
  have hs := sqrt_pos.2 hx
  have e : x = √x * √x := (mul_self_sqrt hx.le).symm
  unfold bessW
  generalize f 0 x = A
  generalize f 1 x = B
  generalize √x = s at *
  rw [e]
  field_simp
  ring

theorem bessW_one_deriv {f : ℕ → ℝ → ℝ} (hf : BessPair f) (κ : ℝ) {x : ℝ} (hx : 0 < x) : HasDerivAt (bessW f 1 κ) (bessW f 0 κ x - bessW f 1 κ x / (2 * x)) x := by
  have h := ((hasDerivAt_sqrt hx.ne').mul (hf.one x hx)).const_mul κ
  refine HasDerivAt.congr_deriv (f := bessW f 1 κ) h ?_
  have hs := sqrt_pos.2 hx
  have e : x = √x * √x := (mul_self_sqrt hx.le).symm
  unfold bessW
  generalize f 0 x = A
  generalize f 1 x = B
  generalize √x = s at *
  rw [e]
  field_simp
  ring

/-- the quadratic form used as the energy -/
noncomputable def besEn (e f y : ℝ) : ℝ := e ^ 2 + f ^ 2 - e * f * y

theorem besEn_ge {e f y : ℝ} (h0 : 0 ≤ y) (h1 : y ≤ 1 / 2) : 3 / 4 * (e ^ 2 + f ^ 2) ≤ besEn e f y := by
  unfold besEn
  nlinarith [sq_nonneg (e - f), sq_nonneg (e + f), mul_nonneg h0 (sq_nonneg (e - f)), mul_nonneg (sub_nonneg.2 h1) (sq_nonneg (e - f)), mul_nonneg (sub_nonneg.2 h1) (sq_nonneg (e + f))]

theorem besEn_nonneg {e f y : ℝ} (h0 : 0 ≤ y) (h1 : y ≤ 1 / 2) : 0 ≤ besEn e f y :=
  le_trans (by positivity) (besEn_ge h0 h1)

theorem besEn_le {e f y : ℝ} (h0 : 0 ≤ y) (h1 : y ≤ 1 / 2) : besEn e f y ≤ 5 / 4 * (e ^ 2 + f ^ 2) := by
  unfold besEn
  nlinarith [sq_nonneg (e - f), sq_nonneg (e + f), mul_nonneg h0 (sq_nonneg (e + f)), mul_nonneg (sub_nonneg.2 h1) (sq_nonneg (e - f)), mul_nonneg (sub_nonneg.2 h1) (sq_nonneg (e + f))]

/-- a jump changes the energy by a percent and a hundred times the energy of the jump -/
theorem besEn_jump {e f p q y : ℝ} (h0 : 0 ≤ y) (h1 : y ≤ 1 / 2) : besEn (e + p) (f + q) y ≤ 101 / 100 * besEn e f y + 101 * besEn p q y := by
  have := besEn_nonneg (e := e / 10 - 10 * p) (f := f / 10 - 10 * q) h0 h1
  unfold besEn at *
  nlinarith

theorem besEn_rate {e f ρ σ y m : ℝ} (h0 : 0 < y) (h1 : y ≤ 1 / 2) (hm : 5 / 4 * (ρ ^ 2 + σ ^ 2) ≤ m * y ^ 4) :
    e * f * y ^ 2 + 2 * e * ρ + 2 * f * σ - (ρ * f + σ * e) * y ≤ 5 / 3 * y ^ 2 * (besEn e f y + 3 / 5 * m) := by
  have a1 := besEn_nonneg (e := y * e - ρ / y) (f := y * f - σ / y) h0.le h1
  have a2 := besEn_le (e := ρ / y) (f := σ / y) h0.le h1
  have a3 := besEn_ge (e := e) (f := f) h0.le h1
  have e1 : besEn (y * e - ρ / y) (y * f - σ / y) y = y ^ 2 * besEn e f y + besEn (ρ / y) (σ / y) y - (2 * e * ρ + 2 * f * σ - (ρ * f + σ * e) * y) := by
    unfold besEn; field_simp; ring
  have e2 : (ρ / y) ^ 2 + (σ / y) ^ 2 = (ρ ^ 2 + σ ^ 2) / y ^ 2 := by rw [div_pow, div_pow, add_div]
  have e3 : 5 / 4 * ((ρ ^ 2 + σ ^ 2) / y ^ 2) ≤ m * y ^ 2 := by
    rw [← mul_div_assoc, div_le_iff₀ (by positivity)]
    linarith [show m * y ^ 2 * y ^ 2 = m * y ^ 4 by ring]
  have e4 : e * f ≤ 2 / 3 * besEn e f y := by nlinarith [sq_nonneg (e - f)]
  have e5 : e * f * y ^ 2 ≤ 2 / 3 * besEn e f y * y ^ 2 := mul_le_mul_of_nonneg_right e4 (by positivity)
  rw [e1] at a1
  rw [e2] at a2
  linarith

/-- growth of the energy of the errors -/
theorem besEn_step {e f ρ σ : ℝ → ℝ} {x₀ x₁ m : ℝ} (h2 : 2 ≤ x₀) (h01 : x₀ ≤ x₁)
    (he : ∀ x ∈ Icc x₀ x₁, HasDerivAt e (e x / (2 * x) - f x + ρ x) x) (hf : ∀ x ∈ Icc x₀ x₁, HasDerivAt f (e x - f x / (2 * x) + σ x) x)
    (hm : ∀ x ∈ Icc x₀ x₁, 5 / 4 * (ρ x ^ 2 + σ x ^ 2) ≤ m * (1 / x) ^ 4) :
    besEn (e x₁) (f x₁) (1 / x₁) + 3 / 5 * m ≤ (besEn (e x₀) (f x₀) (1 / x₀) + 3 / 5 * m) * exp (5 / 3 * (1 / x₀ - 1 / x₁)) := by
  have hpos : ∀ x ∈ Icc x₀ x₁, 0 < x := fun x hx => by linarith [hx.1]
  have hd : ∀ x ∈ Icc x₀ x₁, HasDerivAt (fun x => (besEn (e x) (f x) (1 / x) + 3 / 5 * m) * exp (5 / 3 * (1 / x)))
      ((e x * f x * (1 / x) ^ 2 + 2 * e x * ρ x + 2 * f x * σ x - (ρ x * f x + σ x * e x) * (1 / x) - 5 / 3 * (1 / x) ^ 2 * (besEn (e x) (f x) (1 / x) + 3 / 5 * m)) * exp (5 / 3 * (1 / x))) x := by
    intro x hx
    have hx0 := hpos x hx
    have hi : HasDerivAt (fun x : ℝ => 1 / x) (-(1 / x ^ 2)) x := by
      have := hasDerivAt_inv hx0.ne'
      simp only [one_div]
      exact this
    have hE := ((((he x hx).pow 2).add ((hf x hx).pow 2)).sub (((he x hx).mul (hf x hx)).mul hi)).add_const (3 / 5 * m)
    have hG := hE.mul ((hi.const_mul (5 / 3)).exp)
    refine HasDerivAt.congr_deriv (f := fun x => (besEn (e x) (f x) (1 / x) + 3 / 5 * m) * exp (5 / 3 * (1 / x))) hG ?_
    simp only [Pi.add_apply, Pi.sub_apply, Pi.mul_apply, Pi.pow_apply]
    unfold besEn
    push_cast
    field_simp
    ring
  have hanti : AntitoneOn (fun x => (besEn (e x) (f x) (1 / x) + 3 / 5 * m) * exp (5 / 3 * (1 / x))) (Icc x₀ x₁) := by
    refine antitoneOn_of_deriv_nonpos (convex_Icc _ _) (fun x hx => (hd x hx).continuousAt.continuousWithinAt) (fun x hx => ?_) (fun x hx => ?_)
    · rw [interior_Icc] at hx
      exact (hd x ⟨hx.1.le, hx.2.le⟩).differentiableAt.differentiableWithinAt
    · rw [interior_Icc] at hx
      have hx' : x ∈ Icc x₀ x₁ := ⟨hx.1.le, hx.2.le⟩
      have hx0 := hpos x hx'
      rw [(hd x hx').deriv]
      refine mul_nonpos_of_nonpos_of_nonneg ?_ (exp_pos _).le
      have := besEn_rate (e := e x) (f := f x) (one_div_pos.2 hx0) (one_div_le_one_div_of_le (by norm_num) (by linarith [hx'.1])) (hm x hx')
      linarith
  have h := hanti (left_mem_Icc.2 h01) (right_mem_Icc.2 h01) h01
  simp only at h
  rw [mul_sub, exp_sub, mul_div_assoc', le_div_iff₀ (exp_pos _)]
  exact h

/-- the form of the approximations for `√x J₀` (`u cc - v ss`, `v = g / x`) and `√x J₁` with functions of `1 / x²`; the phase `ph` is zero for them
and `π/2` for `Y₀` and `Y₁` -/
noncomputable def asyA (ph : ℝ) (u g : ℝ → ℝ) (x : ℝ) : ℝ := u (1 / x ^ 2) * (sin (x - ph) + cos (x - ph)) - g (1 / x ^ 2) / x * (sin (x - ph) - cos (x - ph))
noncomputable def asyB (ph : ℝ) (u g : ℝ → ℝ) (x : ℝ) : ℝ := u (1 / x ^ 2) * (sin (x - ph) - cos (x - ph)) + g (1 / x ^ 2) / x * (sin (x - ph) + cos (x - ph))

theorem sq_inv_deriv {x : ℝ} (hx : 0 < x) : HasDerivAt (fun x : ℝ => 1 / x ^ 2) (-2 * (1 / x ^ 2) * (1 / x)) x := by
  have := ((hasDerivAt_id x).pow 2).inv (pow_ne_zero 2 hx.ne')
  refine (this.congr_of_eventuallyEq (Filter.Eventually.of_forall fun y => by simp)).congr_deriv ?_
  simp only [id_eq, Pi.pow_apply]
  push_cast
  field_simp

theorem asyA_deriv (ph : ℝ) {u g : ℝ → ℝ} {u' g' x : ℝ} (u1 g1 : ℝ → ℝ) (hx : 0 < x) (hu : HasDerivAt u u' (1 / x ^ 2)) (hg : HasDerivAt g g' (1 / x ^ 2)) :
    HasDerivAt (asyA ph u g) (asyA ph u g x / (2 * x) - asyB ph u1 g1 x +
      ((1 / x * (-2 * (1 / x ^ 2) * u' - g (1 / x ^ 2) - u (1 / x ^ 2) / 2 + g1 (1 / x ^ 2))) * (sin (x - ph) + cos (x - ph)) +
        (u1 (1 / x ^ 2) - u (1 / x ^ 2) + 1 / x ^ 2 * (3 / 2 * g (1 / x ^ 2) + 2 * (1 / x ^ 2) * g')) * (sin (x - ph) - cos (x - ph)))) x := by
  have ht := sq_inv_deriv hx
  have hi := (hasDerivAt_id x).sub_const ph
  have hs := hi.sin
  have hc := hi.cos
  have hu' := hu.comp x ht
  have hg' := (hg.comp x ht).div (hasDerivAt_id x) hx.ne'
  have h := (hu'.mul (hs.add hc)).sub (hg'.mul (hs.sub hc))
  refine HasDerivAt.congr_deriv (f := asyA ph u g) h ?_
  simp only [asyA, asyB, Function.comp, id_eq, Pi.add_apply, Pi.sub_apply, Pi.div_apply]
  field_simp
  ring

theorem asyB_deriv (ph : ℝ) {u g : ℝ → ℝ} {u' g' x : ℝ} (u0 g0 : ℝ → ℝ) (hx : 0 < x) (hu : HasDerivAt u u' (1 / x ^ 2)) (hg : HasDerivAt g g' (1 / x ^ 2)) :
    HasDerivAt (asyB ph u g) (asyA ph u0 g0 x - asyB ph u g x / (2 * x) +
      ((u (1 / x ^ 2) - u0 (1 / x ^ 2) - 1 / x ^ 2 * (1 / 2 * g (1 / x ^ 2) + 2 * (1 / x ^ 2) * g')) * (sin (x - ph) + cos (x - ph)) +
        (1 / x * (-2 * (1 / x ^ 2) * u' - g (1 / x ^ 2) + g0 (1 / x ^ 2) + u (1 / x ^ 2) / 2)) * (sin (x - ph) - cos (x - ph)))) x := by
  have ht := sq_inv_deriv hx
  have hi := (hasDerivAt_id x).sub_const ph
  have hs := hi.sin
  have hc := hi.cos
  have hu' := hu.comp x ht
  have hg' := (hg.comp x ht).div (hasDerivAt_id x) hx.ne'
  have h := (hu'.mul (hs.sub hc)).add (hg'.mul (hs.add hc))
  refine HasDerivAt.congr_deriv (f := asyB ph u g) h ?_
  simp only [asyA, asyB, Function.comp, id_eq, Pi.add_apply, Pi.sub_apply, Pi.div_apply]
  field_simp
  ring

theorem comb_sq_le (a b y : ℝ) : (a * (sin y + cos y) + b * (sin y - cos y)) ^ 2 ≤ 2 * (a ^ 2 + b ^ 2) := by
  have h := sin_sq_add_cos_sq y
  have e : 2 * (a ^ 2 + b ^ 2) - (a * (sin y + cos y) + b * (sin y - cos y)) ^ 2 = (a * (sin y - cos y) - b * (sin y + cos y)) ^ 2 + 2 * (a ^ 2 + b ^ 2) * (1 - (sin y ^ 2 + cos y ^ 2)) := by ring
  rw [h] at e
  nlinarith [sq_nonneg (a * (sin y - cos y) - b * (sin y + cos y))]

end Russell.Lab
