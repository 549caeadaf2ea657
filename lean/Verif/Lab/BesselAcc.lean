import Verif.Lab.BesselAsy
import Mathlib.Analysis.SpecialFunctions.Trigonometric.Series
import Mathlib.Analysis.Real.Pi.Bounds

/-!
# Accuracy of the approximations to `√(π x) J₀` and `√(π x) J₁` for `x ≥ 2` (background of properties C117 and C118)

The values at 2, the jumps between the branches and the growth of the energy in between. The last two are the same for `Y₀` and `Y₁`,
so they are about any pair of functions with these derivatives.
-/

namespace Russell.Lab

open Real Set
open scoped Nat

/-- a series whose terms are at least halved from `M` on -/
theorem half_tail {a : ℕ → ℝ} (M : ℕ) (h : ∀ m, |a (m + M + 1)| ≤ |a (m + M)| / 2) : |∑' m, a (m + M)| ≤ 2 * |a M| := by
  have hb : ∀ m, |a (m + M)| ≤ |a M| * (1 / 2) ^ m := by
    intro m
    induction m with
    | zero => simp
    | succ m ih =>
      rw [show m + 1 + M = m + M + 1 by ring, pow_succ]
      have := h m
      linarith
  have hg : Summable (fun m : ℕ => |a M| * (1 / 2 : ℝ) ^ m) := summable_geometric_two.mul_left _
  have := tsum_of_norm_bounded (f := fun m => a (m + M)) hg.hasSum hb
  rw [Real.norm_eq_abs, tsum_mul_left, tsum_geometric_two] at this
  linarith

theorem cos_half (n : ℕ) (hn : 1 ≤ n) :
    |(-1 : ℝ) ^ (n + 1) * 2 ^ (2 * (n + 1)) / ((2 * (n + 1))! : ℝ)| ≤ |(-1 : ℝ) ^ n * 2 ^ (2 * n) / ((2 * n)! : ℝ)| / 2 := by
  simp only [abs_div, abs_mul, abs_pow, abs_neg, abs_one, one_pow, one_mul, Nat.abs_ofNat, Nat.abs_cast]
  rw [show 2 * (n + 1) = 2 * n + 1 + 1 by ring, Nat.factorial_succ, Nat.factorial_succ, pow_succ, pow_succ, div_div,
    div_le_div_iff₀ (by positivity) (by positivity)]
  push_cast
  have h3 : (1 : ℝ) ≤ n := by exact_mod_cast hn
  have h1 : (0 : ℝ) < ((2 * n)! : ℕ) := by positivity
  have h2 : (0 : ℝ) < 2 ^ (2 * n) := by positivity
  generalize ((((2 * n)! : ℕ)) : ℝ) = A at *
  generalize (2 : ℝ) ^ (2 * n) = B at *
  have h4 : (8 : ℝ) ≤ (2 * n + 1 + 1) * (2 * n + 1) := by nlinarith
  calc B * 2 * 2 * (A * 2) = 8 * (A * B) := by ring
    _ ≤ (2 * n + 1 + 1) * (2 * n + 1) * (A * B) := by gcongr
    _ = _ := by ring

theorem cos_two_near : |cos 2 - (-416146836547142386997568) / 10 ^ 24| ≤ 1 / 10 ^ 20 := by
  have hs := Real.hasSum_cos 2
  rw [← hs.tsum_eq, ← hs.summable.sum_add_tsum_nat_add 14]
  have ht := half_tail (a := fun n : ℕ => (-1 : ℝ) ^ n * 2 ^ (2 * n) / ((2 * n)! : ℝ)) 14 (fun m => cos_half (m + 14) (by omega))
  have e : 2 * |(fun n : ℕ => (-1 : ℝ) ^ n * 2 ^ (2 * n) / ((2 * n)! : ℝ)) 14| ≤ 5 / 10 ^ 21 := by
    norm_num [Nat.factorial]
  have e2 : |∑ i ∈ Finset.range 14, (-1 : ℝ) ^ i * 2 ^ (2 * i) / ((2 * i)! : ℝ) - (-416146836547142386997568) / 10 ^ 24| ≤ 4 / 10 ^ 21 := by
    norm_num [Finset.sum_range_succ, Nat.factorial, abs_le]
  have h1 := abs_le.1 (ht.trans e)
  have h2 := abs_le.1 e2
  rw [abs_le]
  constructor <;> linarith [h1.1, h1.2, h2.1, h2.2]

theorem sin_half (n : ℕ) (hn : 1 ≤ n) :
    |(-1 : ℝ) ^ (n + 1) * 2 ^ (2 * (n + 1) + 1) / ((2 * (n + 1) + 1)! : ℝ)| ≤ |(-1 : ℝ) ^ n * 2 ^ (2 * n + 1) / ((2 * n + 1)! : ℝ)| / 2 := by
  simp only [abs_div, abs_mul, abs_pow, abs_neg, abs_one, one_pow, one_mul, Nat.abs_ofNat, Nat.abs_cast]
  rw [show 2 * (n + 1) + 1 = 2 * n + 1 + 1 + 1 by ring, Nat.factorial_succ, Nat.factorial_succ, pow_succ, pow_succ, div_div,
    div_le_div_iff₀ (by positivity) (by positivity)]
  push_cast
  have h3 : (1 : ℝ) ≤ n := by exact_mod_cast hn
  have h1 : (0 : ℝ) < ((2 * n + 1)! : ℕ) := by positivity
  have h2 : (0 : ℝ) < 2 ^ (2 * n + 1) := by positivity
  generalize ((((2 * n + 1)! : ℕ)) : ℝ) = A at *
  generalize (2 : ℝ) ^ (2 * n + 1) = B at *
  have h4 : (8 : ℝ) ≤ (2 * n + 1 + 1 + 1) * (2 * n + 1 + 1) := by nlinarith
  calc B * 2 * 2 * (A * 2) = 8 * (A * B) := by ring
    _ ≤ (2 * n + 1 + 1 + 1) * (2 * n + 1 + 1) * (A * B) := by gcongr
    _ = _ := by ring

theorem sin_two_near : |sin 2 - 909297426825681695396020 / 10 ^ 24| ≤ 1 / 10 ^ 20 := by
  have hs := Real.hasSum_sin 2
  rw [← hs.tsum_eq, ← hs.summable.sum_add_tsum_nat_add 14]
  have ht := half_tail (a := fun n : ℕ => (-1 : ℝ) ^ n * 2 ^ (2 * n + 1) / ((2 * n + 1)! : ℝ)) 14 (fun m => sin_half (m + 14) (by omega))
  have e : 2 * |(fun n : ℕ => (-1 : ℝ) ^ n * 2 ^ (2 * n + 1) / ((2 * n + 1)! : ℝ)) 14| ≤ 5 / 10 ^ 21 := by
    norm_num [Nat.factorial]
  have e2 : |∑ i ∈ Finset.range 14, (-1 : ℝ) ^ i * 2 ^ (2 * i + 1) / ((2 * i + 1)! : ℝ) - 909297426825681695396020 / 10 ^ 24| ≤ 4 / 10 ^ 21 := by
    norm_num [Finset.sum_range_succ, Nat.factorial, abs_le]
  have h1 := abs_le.1 (ht.trans e)
  have h2 := abs_le.1 e2
  rw [abs_le]
  constructor <;> linarith [h1.1, h1.2, h2.1, h2.2]

theorem besselJ_0_two_near : |besselJ 0 2 - 223890779141235668051827 / 10 ^ 24| ≤ 1 / 10 ^ 20 := by
  unfold besselJ bes
  have hs := besTerm_summable (-1) 0 (2 / 2)
  rw [← hs.sum_add_tsum_nat_add 14]
  have ht := bes_tail (σ := -1) (by simp) 0 14 (h := 2 / 2) (by norm_num)
  have e : |besTerm (-1) 0 (2 / 2) 14| ≤ 2 / 10 ^ 21 := by unfold besTerm; norm_num [Nat.factorial]
  have e2 : |∑ i ∈ Finset.range 14, besTerm (-1) 0 (2 / 2) i - 223890779141235668051827 / 10 ^ 24| ≤ 4 / 10 ^ 21 := by
    simp only [Finset.sum_range_succ, Finset.sum_range_zero, besTerm, Nat.factorial]
    norm_num [abs_le]
  have h1 := abs_le.1 ht
  have h2 := abs_le.1 e2
  rw [abs_le]
  constructor <;> linarith [h1.1, h1.2, h2.1, h2.2]

theorem besselJ_1_two_near : |besselJ 1 2 - 576724807756873387202448 / 10 ^ 24| ≤ 1 / 10 ^ 20 := by
  unfold besselJ bes
  have hs := besTerm_summable (-1) 1 (2 / 2)
  rw [← hs.sum_add_tsum_nat_add 14]
  have ht := bes_tail (σ := -1) (by simp) 1 14 (h := 2 / 2) (by norm_num)
  have e : |besTerm (-1) 1 (2 / 2) 14| ≤ 2 / 10 ^ 21 := by unfold besTerm; norm_num [Nat.factorial]
  have e2 : |∑ i ∈ Finset.range 14, besTerm (-1) 1 (2 / 2) i - 576724807756873387202448 / 10 ^ 24| ≤ 4 / 10 ^ 21 := by
    simp only [Finset.sum_range_succ, Finset.sum_range_zero, besTerm, Nat.factorial]
    norm_num [abs_le]
  have h1 := abs_le.1 ht
  have h2 := abs_le.1 e2
  rw [abs_le]
  constructor <;> linarith [h1.1, h1.2, h2.1, h2.2]

theorem sqrt_two_pi_near : |√π * √2 - 2506628274631000502415765 / 10 ^ 24| ≤ 1 / 10 ^ 19 := by
  have h1 := pi_gt_d20
  have h2 := pi_lt_d20
  have hp : 0 < √π * √2 := mul_pos (sqrt_pos.2 pi_pos) (sqrt_pos.2 two_pos)
  have hs : (√π * √2) * (√π * √2) = 2 * π := by
    rw [show (√π * √2) * (√π * √2) = (√π * √π) * (√2 * √2) by ring, mul_self_sqrt pi_pos.le, mul_self_sqrt two_pos.le]; ring
  generalize √π * √2 = k at *
  rw [abs_le]
  constructor
  · by_contra hc
    nlinarith
  · by_contra hc
    nlinarith

theorem mul_near {a b a' b' δ ε : ℝ} (ha : |a - a'| ≤ δ) (hb : |b - b'| ≤ ε) : |a * b - a' * b'| ≤ δ * (|b'| + ε) + |a'| * ε := by
  have h : a * b - a' * b' = (a - a') * b + a' * (b - b') := by ring
  have h2 : |b| ≤ |b'| + ε := by
    have := abs_add_le b' (b - b')
    rw [add_sub_cancel] at this
    linarith
  rw [h]
  refine (abs_add_le _ _).trans ?_
  rw [abs_mul, abs_mul]
  have h3 : 0 ≤ δ := (abs_nonneg _).trans ha
  have := abs_nonneg b
  gcongr

theorem bU02_at : |rfEval bU02 (1 / 4) - 986215821218892806711463 / 10 ^ 24| ≤ 1 / 10 ^ 20 := by
  simp only [rfEval, bU02, polyEval]
  push_cast
  rw [abs_le]
  constructor <;> norm_num

theorem bG02_at : |rfEval bG02 (1 / 4) - (-112955399358650109759609) / 10 ^ 24| ≤ 1 / 10 ^ 20 := by
  simp only [rfEval, bG02, polyEval]
  push_cast
  rw [abs_le]
  constructor <;> norm_num

theorem bU12_at : |rfEval bU12 (1 / 4) - 1024207930477063322529722 / 10 ^ 24| ≤ 1 / 10 ^ 20 := by
  simp only [rfEval, bU12, polyEval]
  push_cast
  rw [abs_le]
  constructor <;> norm_num

theorem bG12_at : |rfEval bG12 (1 / 4) - 357311480872276868842055 / 10 ^ 24| ≤ 1 / 10 ^ 20 := by
  simp only [rfEval, bG12, polyEval]
  push_cast
  rw [abs_le]
  constructor <;> norm_num

/-- the errors at 2 -/
theorem asy_two : |asyA 0 (rfEval bU02) (rfEval bG02) 2 - bessW besselJ 0 (√π) 2| ≤ 1 / 10 ^ 15 ∧ |asyB 0 (rfEval bU12) (rfEval bG12) 2 - bessW besselJ 1 (√π) 2| ≤ 1 / 10 ^ 15 := by
  have hc := abs_le.1 cos_two_near
  have hs := abs_le.1 sin_two_near
  have hP : |sin 2 + cos 2 - 493150590278539308398452 / 10 ^ 24| ≤ 3 / 10 ^ 20 := by rw [abs_le]; constructor <;> linarith [hc.1, hc.2, hs.1, hs.2]
  have hD : |sin 2 - cos 2 - 1325444263372824082393588 / 10 ^ 24| ≤ 3 / 10 ^ 20 := by rw [abs_le]; constructor <;> linarith [hc.1, hc.2, hs.1, hs.2]
  have k0 := mul_near sqrt_two_pi_near besselJ_0_two_near
  have k1 := mul_near sqrt_two_pi_near besselJ_1_two_near
  have a1 := mul_near bU02_at hP
  have a2 := mul_near bG02_at hD
  have b1 := mul_near bU12_at hD
  have b2 := mul_near bG12_at hP
  simp only [asyA, asyB, bessW, sub_zero, ← mul_assoc]
  rw [show (1 : ℝ) / 2 ^ 2 = 1 / 4 by norm_num, show ∀ a b : ℝ, a / 2 * b = a * b / 2 by intro a b; ring, show ∀ a b : ℝ, a / 2 * b = a * b / 2 by intro a b; ring]
  generalize rfEval bU02 (1 / 4) * (sin 2 + cos 2) = v1 at *
  generalize rfEval bG02 (1 / 4) * (sin 2 - cos 2) = v2 at *
  generalize rfEval bU12 (1 / 4) * (sin 2 - cos 2) = v3 at *
  generalize rfEval bG12 (1 / 4) * (sin 2 + cos 2) = v4 at *
  generalize √π * √2 * besselJ 0 2 = v5 at *
  generalize √π * √2 * besselJ 1 2 = v6 at *
  rw [abs_le] at a1 a2 b1 b2 k0 k1
  rw [abs_le, abs_le]
  norm_num [abs_div] at a1 a2 b1 b2 k0 k1 ⊢
  refine ⟨⟨?_, ?_⟩, ?_, ?_⟩ <;> linarith [a1.1, a1.2, a2.1, a2.2, b1.1, b1.2, b2.1, b2.2, k0.1, k0.2, k1.1, k1.2]

/-- growth of the energy within a branch -/
theorem asy_step {f : ℕ → ℝ → ℝ} {ph : ℝ} (hf : BessPair f) {U0 G0 U1 G1 : RF} {κ x₀ x₁ m : ℝ} (h2 : 2 ≤ x₀) (h01 : x₀ ≤ x₁)
    (hpos : ∀ x ∈ Icc x₀ x₁, 0 < polyEval U0.2 (1 / x ^ 2) ∧ 0 < polyEval G0.2 (1 / x ^ 2) ∧ 0 < polyEval U1.2 (1 / x ^ 2) ∧ 0 < polyEval G1.2 (1 / x ^ 2))
    (hm : ∀ x ∈ Icc x₀ x₁, ∀ t, t = 1 / x ^ 2 → 5 / 2 * (t * ((-2 * t * rfD U0 t - rfEval G0 t - rfEval U0 t / 2 + rfEval G1 t) ^ 2 + (-2 * t * rfD U1 t - rfEval G1 t + rfEval G0 t + rfEval U1 t / 2) ^ 2)
      + (rfEval U1 t - rfEval U0 t + t * (3 / 2 * rfEval G0 t + 2 * t * rfD G0 t)) ^ 2 + (rfEval U1 t - rfEval U0 t - t * (1 / 2 * rfEval G1 t + 2 * t * rfD G1 t)) ^ 2) ≤ m * t ^ 2) :
    besEn (asyA ph (rfEval U0) (rfEval G0) x₁ - bessW f 0 κ x₁) (asyB ph (rfEval U1) (rfEval G1) x₁ - bessW f 1 κ x₁) (1 / x₁) + 3 / 5 * m ≤
      (besEn (asyA ph (rfEval U0) (rfEval G0) x₀ - bessW f 0 κ x₀) (asyB ph (rfEval U1) (rfEval G1) x₀ - bessW f 1 κ x₀) (1 / x₀) + 3 / 5 * m) * exp (5 / 3 * (1 / x₀ - 1 / x₁)) := by
  have hx0 : ∀ x ∈ Icc x₀ x₁, 0 < x := fun x hx => by linarith [hx.1]
  refine besEn_step (e := fun x => asyA ph (rfEval U0) (rfEval G0) x - bessW f 0 κ x) (f := fun x => asyB ph (rfEval U1) (rfEval G1) x - bessW f 1 κ x) h2 h01
    (fun x hx => ?_) (fun x hx => ?_) (fun x hx => ?_)
    (ρ := fun x => (1 / x * (-2 * (1 / x ^ 2) * rfD U0 (1 / x ^ 2) - rfEval G0 (1 / x ^ 2) - rfEval U0 (1 / x ^ 2) / 2 + rfEval G1 (1 / x ^ 2))) * (sin (x - ph) + cos (x - ph)) +
        (rfEval U1 (1 / x ^ 2) - rfEval U0 (1 / x ^ 2) + 1 / x ^ 2 * (3 / 2 * rfEval G0 (1 / x ^ 2) + 2 * (1 / x ^ 2) * rfD G0 (1 / x ^ 2))) * (sin (x - ph) - cos (x - ph)))
    (σ := fun x => (rfEval U1 (1 / x ^ 2) - rfEval U0 (1 / x ^ 2) - 1 / x ^ 2 * (1 / 2 * rfEval G1 (1 / x ^ 2) + 2 * (1 / x ^ 2) * rfD G1 (1 / x ^ 2))) * (sin (x - ph) + cos (x - ph)) +
        (1 / x * (-2 * (1 / x ^ 2) * rfD U1 (1 / x ^ 2) - rfEval G1 (1 / x ^ 2) + rfEval G0 (1 / x ^ 2) + rfEval U1 (1 / x ^ 2) / 2)) * (sin (x - ph) - cos (x - ph)))
  · obtain ⟨p1, p2, p3, p4⟩ := hpos x hx
    refine ((asyA_deriv ph (rfEval U1) (rfEval G1) (hx0 x hx) (rfD_deriv U0 p1) (rfD_deriv G0 p2)).sub (bessW_zero_deriv hf κ (hx0 x hx))).congr_deriv ?_
    ring
  · obtain ⟨p1, p2, p3, p4⟩ := hpos x hx
    refine ((asyB_deriv ph (rfEval U0) (rfEval G0) (hx0 x hx) (rfD_deriv U1 p3) (rfD_deriv G1 p4)).sub (bessW_one_deriv hf κ (hx0 x hx))).congr_deriv ?_
    ring
  · have h := hm x hx _ rfl
    generalize hk1 : -2 * (1 / x ^ 2) * rfD U0 (1 / x ^ 2) - rfEval G0 (1 / x ^ 2) - rfEval U0 (1 / x ^ 2) / 2 + rfEval G1 (1 / x ^ 2) = k1 at *
    generalize hk4 : -2 * (1 / x ^ 2) * rfD U1 (1 / x ^ 2) - rfEval G1 (1 / x ^ 2) + rfEval G0 (1 / x ^ 2) + rfEval U1 (1 / x ^ 2) / 2 = k4 at *
    generalize hk2 : rfEval U1 (1 / x ^ 2) - rfEval U0 (1 / x ^ 2) + 1 / x ^ 2 * (3 / 2 * rfEval G0 (1 / x ^ 2) + 2 * (1 / x ^ 2) * rfD G0 (1 / x ^ 2)) = k2 at *
    generalize hk3 : rfEval U1 (1 / x ^ 2) - rfEval U0 (1 / x ^ 2) - 1 / x ^ 2 * (1 / 2 * rfEval G1 (1 / x ^ 2) + 2 * (1 / x ^ 2) * rfD G1 (1 / x ^ 2)) = k3 at *
    have c1 := comb_sq_le (1 / x * k1) k2 (x - ph)
    have c2 := comb_sq_le k3 (1 / x * k4) (x - ph)
    have e1 : (1 / x * k1) ^ 2 + k2 ^ 2 + (k3 ^ 2 + (1 / x * k4) ^ 2) = 1 / x ^ 2 * (k1 ^ 2 + k4 ^ 2) + k2 ^ 2 + k3 ^ 2 := by ring
    have e2 : m * (1 / x) ^ 4 = m * (1 / x ^ 2) ^ 2 := by ring
    rw [e2]
    linarith

theorem res_const {k1 k2 k3 k4 a1 a2 a3 a4 t τ m : ℝ} (ht : 0 < t) (hτ : 1 ≤ τ * t) (h1 : |k1| ≤ a1) (h2 : |k2| ≤ a2) (h3 : |k3| ≤ a3) (h4 : |k4| ≤ a4)
    (hm : 5 / 2 * (τ * (a1 ^ 2 + a4 ^ 2) + τ ^ 2 * (a2 ^ 2 + a3 ^ 2)) ≤ m) : 5 / 2 * (t * (k1 ^ 2 + k4 ^ 2) + k2 ^ 2 + k3 ^ 2) ≤ m * t ^ 2 := by
  have s1 := sq_le_sq' (abs_le.1 h1).1 (abs_le.1 h1).2
  have s2 := sq_le_sq' (abs_le.1 h2).1 (abs_le.1 h2).2
  have s3 := sq_le_sq' (abs_le.1 h3).1 (abs_le.1 h3).2
  have s4 := sq_le_sq' (abs_le.1 h4).1 (abs_le.1 h4).2
  have hτ2 : 1 ≤ (τ * t) ^ 2 := one_le_pow₀ hτ
  calc 5 / 2 * (t * (k1 ^ 2 + k4 ^ 2) + k2 ^ 2 + k3 ^ 2) ≤ 5 / 2 * (t * (a1 ^ 2 + a4 ^ 2) * 1 + (a2 ^ 2 + a3 ^ 2) * 1) := by nlinarith [mul_le_mul_of_nonneg_left s1 ht.le, mul_le_mul_of_nonneg_left s4 ht.le]
    _ ≤ 5 / 2 * (t * (a1 ^ 2 + a4 ^ 2) * (τ * t) + (a2 ^ 2 + a3 ^ 2) * (τ * t) ^ 2) := by gcongr
    _ = 5 / 2 * (τ * (a1 ^ 2 + a4 ^ 2) + τ ^ 2 * (a2 ^ 2 + a3 ^ 2)) * t ^ 2 := by ring
    _ ≤ m * t ^ 2 := by gcongr

theorem res_lin {k1 k2 k3 k4 a1 a2 a3 a4 t θ m : ℝ} (ht : 0 ≤ t) (hθ : t ≤ θ) (h1 : |k1| ≤ a1 * t) (h2 : |k2| ≤ a2 * t) (h3 : |k3| ≤ a3 * t) (h4 : |k4| ≤ a4 * t)
    (hm : 5 / 2 * (θ * (a1 ^ 2 + a4 ^ 2) + (a2 ^ 2 + a3 ^ 2)) ≤ m) : 5 / 2 * (t * (k1 ^ 2 + k4 ^ 2) + k2 ^ 2 + k3 ^ 2) ≤ m * t ^ 2 := by
  have s1 := sq_le_sq' (abs_le.1 h1).1 (abs_le.1 h1).2
  have s2 := sq_le_sq' (abs_le.1 h2).1 (abs_le.1 h2).2
  have s3 := sq_le_sq' (abs_le.1 h3).1 (abs_le.1 h3).2
  have s4 := sq_le_sq' (abs_le.1 h4).1 (abs_le.1 h4).2
  calc 5 / 2 * (t * (k1 ^ 2 + k4 ^ 2) + k2 ^ 2 + k3 ^ 2) ≤ 5 / 2 * (t * (((a1 * t) ^ 2) + (a4 * t) ^ 2) + (a2 * t) ^ 2 + (a3 * t) ^ 2) := by gcongr
    _ = 5 / 2 * (t * (a1 ^ 2 + a4 ^ 2) + (a2 ^ 2 + a3 ^ 2)) * t ^ 2 := by ring
    _ ≤ 5 / 2 * (θ * (a1 ^ 2 + a4 ^ 2) + (a2 ^ 2 + a3 ^ 2)) * t ^ 2 := by gcongr
    _ ≤ m * t ^ 2 := by gcongr

theorem exp_le_of {y K : ℝ} (hK : 0 < K) (h : 1 ≤ K * (1 - y)) : exp y ≤ K := by
  have h1 := add_one_le_exp (-y)
  have h2 : 1 ≤ K * exp (-y) := h.trans (by gcongr; linarith)
  rwa [exp_neg, ← div_eq_mul_inv, le_div_iff₀ (exp_pos y), one_mul] at h2

/-- energy of the errors in the branches -/
noncomputable def asyEn (f : ℕ → ℝ → ℝ) (ph : ℝ) (U0 G0 U1 G1 : RF) (x : ℝ) : ℝ :=
  besEn (asyA ph (rfEval U0) (rfEval G0) x - bessW f 0 (√π) x) (asyB ph (rfEval U1) (rfEval G1) x - bessW f 1 (√π) x) (1 / x)

theorem one_div_sq_bounds {x a b : ℝ} (ha : 0 < a) (h1 : a ≤ x) (h2 : x ≤ b) : 1 / b ^ 2 ≤ 1 / x ^ 2 ∧ 1 / x ^ 2 ≤ 1 / a ^ 2 := by
  have hx : 0 < x := ha.trans_le h1
  constructor
  · exact one_div_le_one_div_of_le (by positivity) (by gcongr)
  · exact one_div_le_one_div_of_le (by positivity) (by gcongr)

/-- a jump of the functions -/
theorem asy_jump {f : ℕ → ℝ → ℝ} {ph : ℝ} {U0 G0 U1 G1 V0 H0 V1 H1 : RF} {x t : ℝ} (hx : 2 ≤ x) (ht : t = 1 / x ^ 2) (h1 : |rfEval V0 t - rfEval U0 t| ≤ 2 / 10 ^ 17) (h2 : |rfEval H0 t - rfEval G0 t| ≤ 2 / 10 ^ 17)
    (h3 : |rfEval V1 t - rfEval U1 t| ≤ 2 / 10 ^ 17) (h4 : |rfEval H1 t - rfEval G1 t| ≤ 2 / 10 ^ 17) :
    asyEn f ph V0 H0 V1 H1 x ≤ 101 / 100 * asyEn f ph U0 G0 U1 G1 x + 1 / 10 ^ 30 := by
  have hx0 : 0 < x := by linarith
  have hy0 : 0 ≤ 1 / x := by positivity
  have hy1 : 1 / x ≤ 1 / 2 := one_div_le_one_div_of_le two_pos hx
  have h := besEn_jump (e := asyA ph (rfEval U0) (rfEval G0) x - bessW f 0 (√π) x) (f := asyB ph (rfEval U1) (rfEval G1) x - bessW f 1 (√π) x)
    (p := (rfEval V0 t - rfEval U0 t) * (sin (x - ph) + cos (x - ph)) + (-(1 / x * (rfEval H0 t - rfEval G0 t))) * (sin (x - ph) - cos (x - ph)))
    (q := (1 / x * (rfEval H1 t - rfEval G1 t)) * (sin (x - ph) + cos (x - ph)) + (rfEval V1 t - rfEval U1 t) * (sin (x - ph) - cos (x - ph))) hy0 hy1
  have hq := besEn_le (e := (rfEval V0 t - rfEval U0 t) * (sin (x - ph) + cos (x - ph)) + (-(1 / x * (rfEval H0 t - rfEval G0 t))) * (sin (x - ph) - cos (x - ph)))
    (f := (1 / x * (rfEval H1 t - rfEval G1 t)) * (sin (x - ph) + cos (x - ph)) + (rfEval V1 t - rfEval U1 t) * (sin (x - ph) - cos (x - ph))) hy0 hy1
  have c1 := comb_sq_le (rfEval V0 t - rfEval U0 t) (-(1 / x * (rfEval H0 t - rfEval G0 t))) (x - ph)
  have c2 := comb_sq_le (1 / x * (rfEval H1 t - rfEval G1 t)) (rfEval V1 t - rfEval U1 t) (x - ph)
  have e1 : asyA ph (rfEval U0) (rfEval G0) x - bessW f 0 (√π) x + ((rfEval V0 t - rfEval U0 t) * (sin (x - ph) + cos (x - ph)) + (-(1 / x * (rfEval H0 t - rfEval G0 t))) * (sin (x - ph) - cos (x - ph))) = asyA ph (rfEval V0) (rfEval H0) x - bessW f 0 (√π) x := by
    unfold asyA; rw [← ht]; ring
  have e2 : asyB ph (rfEval U1) (rfEval G1) x - bessW f 1 (√π) x + ((1 / x * (rfEval H1 t - rfEval G1 t)) * (sin (x - ph) + cos (x - ph)) + (rfEval V1 t - rfEval U1 t) * (sin (x - ph) - cos (x - ph))) = asyB ph (rfEval V1) (rfEval H1) x - bessW f 1 (√π) x := by
    unfold asyB; rw [← ht]; ring
  rw [e1, e2] at h
  have b1 : (rfEval V0 t - rfEval U0 t) ^ 2 ≤ (2 / 10 ^ 17) ^ 2 := sq_le_sq' (abs_le.1 h1).1 (abs_le.1 h1).2
  have b3 : (rfEval V1 t - rfEval U1 t) ^ 2 ≤ (2 / 10 ^ 17) ^ 2 := sq_le_sq' (abs_le.1 h3).1 (abs_le.1 h3).2
  have bb : ∀ z : ℝ, |z| ≤ 2 / 10 ^ 17 → (1 / x * z) ^ 2 ≤ (2 / 10 ^ 17) ^ 2 := by
    intro z hz
    have hz2 : |1 / x * z| ≤ 2 / 10 ^ 17 := by
      rw [abs_mul, abs_of_nonneg hy0]
      calc 1 / x * |z| ≤ 1 * |z| := by gcongr; linarith
        _ ≤ _ := by linarith
    exact sq_le_sq' (abs_le.1 hz2).1 (abs_le.1 hz2).2
  have b2 := bb _ h2
  have b4 := bb _ h4
  rw [neg_sq] at c1
  unfold asyEn
  refine h.trans ?_
  have : besEn ((rfEval V0 t - rfEval U0 t) * (sin (x - ph) + cos (x - ph)) + (-(1 / x * (rfEval H0 t - rfEval G0 t))) * (sin (x - ph) - cos (x - ph))) ((1 / x * (rfEval H1 t - rfEval G1 t)) * (sin (x - ph) + cos (x - ph)) + (rfEval V1 t - rfEval U1 t) * (sin (x - ph) - cos (x - ph))) (1 / x) ≤ 8 / 10 ^ 33 := by
    refine hq.trans ?_
    refine (mul_le_mul_of_nonneg_left (add_le_add c1 c2) (by norm_num)).trans ?_
    norm_num at b1 b2 b3 b4 ⊢
    linarith
  linarith

theorem asyEn2_le {f : ℕ → ℝ → ℝ} (ph : ℝ) (hf : BessPair f) {x : ℝ} (h1 : 2 ≤ x) (h2 : x ≤ 28571 / 10000) :
    asyEn f ph bU02 bG02 bU12 bG12 x + 3 / 5 * (52 / 10 ^ 29) ≤ (asyEn f ph bU02 bG02 bU12 bG12 (2) + 3 / 5 * (52 / 10 ^ 29)) * (4 / 3) := by
  have ht : ∀ y ∈ Icc (2 : ℝ) x, 501 / 4096 ≤ 1 / y ^ 2 ∧ 1 / y ^ 2 ≤ 1024 / 4096 := by
    intro y hy
    have := one_div_sq_bounds (by norm_num) hy.1 (hy.2.trans h2)
    constructor
    · refine le_trans ?_ this.1; norm_num
    · refine this.2.trans ?_; norm_num
  refine (asy_step hf (κ := √π) (by norm_num) h1 (fun y hy => bPos2 (ht y hy).1 (ht y hy).2) (fun y hy t e => ?_)).trans ?_
  · have hb := ht y hy
    rw [← e] at hb
    obtain ⟨r1, r2, r3, r4⟩ := bRes2 hb.1 hb.2
    exact res_const (τ := 4096 / 501) (by linarith [hb.1]) (by linarith [hb.1]) r1 r2 r3 r4 (by norm_num)
  · have hx : 0 < x := by linarith
    have he : exp (5 / 3 * (1 / (2) - 1 / x)) ≤ (4 / 3) := by
      refine exp_le_of (by norm_num) ?_
      have := one_div_le_one_div_of_le hx h2
      norm_num at this ⊢
      linarith
    have h0 : 0 ≤ asyEn f ph bU02 bG02 bU12 bG12 (2) := besEn_nonneg (by norm_num) (by norm_num)
    exact mul_le_mul_of_nonneg_left he (by positivity)

theorem asyEn3_le {f : ℕ → ℝ → ℝ} (ph : ℝ) (hf : BessPair f) {x : ℝ} (h1 : 28571 / 10000 ≤ x) (h2 : x ≤ 45454 / 10000) :
    asyEn f ph bU03 bG03 bU13 bG13 x + 3 / 5 * (215 / 10 ^ 29) ≤ (asyEn f ph bU03 bG03 bU13 bG13 (28571 / 10000) + 3 / 5 * (215 / 10 ^ 29)) * (128 / 100) := by
  have ht : ∀ y ∈ Icc (28571 / 10000 : ℝ) x, 198 / 4096 ≤ 1 / y ^ 2 ∧ 1 / y ^ 2 ≤ 502 / 4096 := by
    intro y hy
    have := one_div_sq_bounds (by norm_num) hy.1 (hy.2.trans h2)
    constructor
    · refine le_trans ?_ this.1; norm_num
    · refine this.2.trans ?_; norm_num
  refine (asy_step hf (κ := √π) (by norm_num) h1 (fun y hy => bPos3 (ht y hy).1 (ht y hy).2) (fun y hy t e => ?_)).trans ?_
  · have hb := ht y hy
    rw [← e] at hb
    obtain ⟨r1, r2, r3, r4⟩ := bRes3 hb.1 hb.2
    exact res_const (τ := 4096 / 198) (by linarith [hb.1]) (by linarith [hb.1]) r1 r2 r3 r4 (by norm_num)
  · have hx : 0 < x := by linarith
    have he : exp (5 / 3 * (1 / (28571 / 10000) - 1 / x)) ≤ (128 / 100) := by
      refine exp_le_of (by norm_num) ?_
      have := one_div_le_one_div_of_le hx h2
      norm_num at this ⊢
      linarith
    have h0 : 0 ≤ asyEn f ph bU03 bG03 bU13 bG13 (28571 / 10000) := besEn_nonneg (by norm_num) (by norm_num)
    exact mul_le_mul_of_nonneg_left he (by positivity)

theorem asyEn5_le {f : ℕ → ℝ → ℝ} (ph : ℝ) (hf : BessPair f) {x : ℝ} (h1 : 45454 / 10000 ≤ x) (h2 : x ≤ 8) :
    asyEn f ph bU05 bG05 bU15 bG15 x + 3 / 5 * (163 / 10 ^ 30) ≤ (asyEn f ph bU05 bG05 bU15 bG15 (45454 / 10000) + 3 / 5 * (163 / 10 ^ 30)) * (119 / 100) := by
  have ht : ∀ y ∈ Icc (45454 / 10000 : ℝ) x, 64 / 4096 ≤ 1 / y ^ 2 ∧ 1 / y ^ 2 ≤ 199 / 4096 := by
    intro y hy
    have := one_div_sq_bounds (by norm_num) hy.1 (hy.2.trans h2)
    constructor
    · refine le_trans ?_ this.1; norm_num
    · refine this.2.trans ?_; norm_num
  refine (asy_step hf (κ := √π) (by norm_num) h1 (fun y hy => bPos5 (ht y hy).1 (ht y hy).2) (fun y hy t e => ?_)).trans ?_
  · have hb := ht y hy
    rw [← e] at hb
    obtain ⟨r1, r2, r3, r4⟩ := bRes5 hb.1 hb.2
    exact res_const (τ := 4096 / 64) (by linarith [hb.1]) (by linarith [hb.1]) r1 r2 r3 r4 (by norm_num)
  · have hx : 0 < x := by linarith
    have he : exp (5 / 3 * (1 / (45454 / 10000) - 1 / x)) ≤ (119 / 100) := by
      refine exp_le_of (by norm_num) ?_
      have := one_div_le_one_div_of_le hx h2
      norm_num at this ⊢
      linarith
    have h0 : 0 ≤ asyEn f ph bU05 bG05 bU15 bG15 (45454 / 10000) := besEn_nonneg (by norm_num) (by norm_num)
    exact mul_le_mul_of_nonneg_left he (by positivity)

theorem asyEn8_le {f : ℕ → ℝ → ℝ} (ph : ℝ) (hf : BessPair f) {x : ℝ} (h1 : 8 ≤ x) : asyEn f ph bU08 bG08 bU18 bG18 x + 3 / 5 * (245 / 10 ^ 29) ≤ (asyEn f ph bU08 bG08 bU18 bG18 8 + 3 / 5 * (245 / 10 ^ 29)) * (1265 / 1000) := by
  have ht : ∀ y ∈ Icc (8 : ℝ) x, 0 ≤ 1 / y ^ 2 ∧ 1 / y ^ 2 ≤ 1 / 64 := by
    intro y hy
    have := (one_div_sq_bounds (by norm_num) hy.1 le_rfl).2
    exact ⟨by positivity, this.trans (by norm_num)⟩
  refine (asy_step hf (κ := √π) (by norm_num) h1 (fun y hy => bPos8 (by linarith [(ht y hy).1]) (by linarith [(ht y hy).2])) (fun y hy t e => ?_)).trans ?_
  · have hb := ht y hy
    rw [← e] at hb
    obtain ⟨r1, r2, r3, r4⟩ := bRes8 (t := t) (by linarith [hb.1]) (by linarith [hb.2])
    exact res_lin hb.1 hb.2 r1 r2 r3 r4 (by norm_num)
  · have hx : 0 < x := by linarith
    have he : exp (5 / 3 * (1 / 8 - 1 / x)) ≤ (1265 / 1000) := by
      refine exp_le_of (by norm_num) ?_
      have : 0 < 1 / x := by positivity
      linarith
    have h0 : 0 ≤ asyEn f ph bU08 bG08 bU18 bG18 8 := besEn_nonneg (by norm_num) (by norm_num)
    exact mul_le_mul_of_nonneg_left he (by positivity)

theorem bU0_jump23 : |rfEval bU03 (1 / (28571 / 10000) ^ 2) - rfEval bU02 (1 / (28571 / 10000) ^ 2)| ≤ 2 / 10 ^ 17 := by
  simp only [rfEval, bU02, bU03, polyEval]
  push_cast
  rw [abs_le]
  constructor <;> norm_num

theorem bG0_jump23 : |rfEval bG03 (1 / (28571 / 10000) ^ 2) - rfEval bG02 (1 / (28571 / 10000) ^ 2)| ≤ 2 / 10 ^ 17 := by
  simp only [rfEval, bG02, bG03, polyEval]
  push_cast
  rw [abs_le]
  constructor <;> norm_num

theorem bU1_jump23 : |rfEval bU13 (1 / (28571 / 10000) ^ 2) - rfEval bU12 (1 / (28571 / 10000) ^ 2)| ≤ 2 / 10 ^ 17 := by
  simp only [rfEval, bU12, bU13, polyEval]
  push_cast
  rw [abs_le]
  constructor <;> norm_num

theorem bG1_jump23 : |rfEval bG13 (1 / (28571 / 10000) ^ 2) - rfEval bG12 (1 / (28571 / 10000) ^ 2)| ≤ 2 / 10 ^ 17 := by
  simp only [rfEval, bG12, bG13, polyEval]
  push_cast
  rw [abs_le]
  constructor <;> norm_num

theorem asy_jump23 (f : ℕ → ℝ → ℝ) (ph : ℝ) : asyEn f ph bU03 bG03 bU13 bG13 (28571 / 10000) ≤ 101 / 100 * asyEn f ph bU02 bG02 bU12 bG12 (28571 / 10000) + 1 / 10 ^ 30 :=
  asy_jump (by norm_num) rfl bU0_jump23 bG0_jump23 bU1_jump23 bG1_jump23

theorem bU0_jump35 : |rfEval bU05 (1 / (45454 / 10000) ^ 2) - rfEval bU03 (1 / (45454 / 10000) ^ 2)| ≤ 2 / 10 ^ 17 := by
  simp only [rfEval, bU03, bU05, polyEval]
  push_cast
  rw [abs_le]
  constructor <;> norm_num

theorem bG0_jump35 : |rfEval bG05 (1 / (45454 / 10000) ^ 2) - rfEval bG03 (1 / (45454 / 10000) ^ 2)| ≤ 2 / 10 ^ 17 := by
  simp only [rfEval, bG03, bG05, polyEval]
  push_cast
  rw [abs_le]
  constructor <;> norm_num

theorem bU1_jump35 : |rfEval bU15 (1 / (45454 / 10000) ^ 2) - rfEval bU13 (1 / (45454 / 10000) ^ 2)| ≤ 2 / 10 ^ 17 := by
  simp only [rfEval, bU13, bU15, polyEval]
  push_cast
  rw [abs_le]
  constructor <;> norm_num

theorem bG1_jump35 : |rfEval bG15 (1 / (45454 / 10000) ^ 2) - rfEval bG13 (1 / (45454 / 10000) ^ 2)| ≤ 2 / 10 ^ 17 := by
  simp only [rfEval, bG13, bG15, polyEval]
  push_cast
  rw [abs_le]
  constructor <;> norm_num

theorem asy_jump35 (f : ℕ → ℝ → ℝ) (ph : ℝ) : asyEn f ph bU05 bG05 bU15 bG15 (45454 / 10000) ≤ 101 / 100 * asyEn f ph bU03 bG03 bU13 bG13 (45454 / 10000) + 1 / 10 ^ 30 :=
  asy_jump (by norm_num) rfl bU0_jump35 bG0_jump35 bU1_jump35 bG1_jump35

theorem bU0_jump58 : |rfEval bU08 (1 / (8) ^ 2) - rfEval bU05 (1 / (8) ^ 2)| ≤ 2 / 10 ^ 17 := by
  simp only [rfEval, bU05, bU08, polyEval]
  push_cast
  rw [abs_le]
  constructor <;> norm_num

theorem bG0_jump58 : |rfEval bG08 (1 / (8) ^ 2) - rfEval bG05 (1 / (8) ^ 2)| ≤ 2 / 10 ^ 17 := by
  simp only [rfEval, bG05, bG08, polyEval]
  push_cast
  rw [abs_le]
  constructor <;> norm_num

theorem bU1_jump58 : |rfEval bU18 (1 / (8) ^ 2) - rfEval bU15 (1 / (8) ^ 2)| ≤ 2 / 10 ^ 17 := by
  simp only [rfEval, bU15, bU18, polyEval]
  push_cast
  rw [abs_le]
  constructor <;> norm_num

theorem bG1_jump58 : |rfEval bG18 (1 / (8) ^ 2) - rfEval bG15 (1 / (8) ^ 2)| ≤ 2 / 10 ^ 17 := by
  simp only [rfEval, bG15, bG18, polyEval]
  push_cast
  rw [abs_le]
  constructor <;> norm_num

theorem asy_jump58 (f : ℕ → ℝ → ℝ) (ph : ℝ) : asyEn f ph bU08 bG08 bU18 bG18 (8) ≤ 101 / 100 * asyEn f ph bU05 bG05 bU15 bG15 (8) + 1 / 10 ^ 30 :=
  asy_jump (by norm_num) rfl bU0_jump58 bG0_jump58 bU1_jump58 bG1_jump58

theorem asyEn_two {f : ℕ → ℝ → ℝ} {ph : ℝ} (h2 : |asyA ph (rfEval bU02) (rfEval bG02) 2 - bessW f 0 (√π) 2| ≤ 1 / 10 ^ 15 ∧ |asyB ph (rfEval bU12) (rfEval bG12) 2 - bessW f 1 (√π) 2| ≤ 1 / 10 ^ 15) : asyEn f ph bU02 bG02 bU12 bG12 2 ≤ 4 / 10 ^ 30 := by
  have h := besEn_le (e := asyA ph (rfEval bU02) (rfEval bG02) 2 - bessW f 0 (√π) 2) (f := asyB ph (rfEval bU12) (rfEval bG12) 2 - bessW f 1 (√π) 2) (y := 1 / 2) (by norm_num) le_rfl
  have s1 := sq_le_sq' (abs_le.1 h2.1).1 (abs_le.1 h2.1).2
  have s2 := sq_le_sq' (abs_le.1 h2.2).1 (abs_le.1 h2.2).2
  refine h.trans ?_
  norm_num at s1 s2 ⊢
  linarith

theorem asyEn2_small {f : ℕ → ℝ → ℝ} {ph : ℝ} (hf : BessPair f) (hi : asyEn f ph bU02 bG02 bU12 bG12 2 ≤ 4 / 10 ^ 30) {x : ℝ} (h1 : 2 ≤ x) (h2 : x ≤ 28571 / 10000) : asyEn f ph bU02 bG02 bU12 bG12 x ≤ 110 / 10 ^ 30 := by
  have a1 := asyEn2_le ph hf h1 h2
  have a2 := hi
  linarith

theorem asyEn3_small {f : ℕ → ℝ → ℝ} {ph : ℝ} (hf : BessPair f) (hi : asyEn f ph bU02 bG02 bU12 bG12 2 ≤ 4 / 10 ^ 30) {x : ℝ} (h1 : 28571 / 10000 ≤ x) (h2 : x ≤ 45454 / 10000) : asyEn f ph bU03 bG03 bU13 bG13 x ≤ 506 / 10 ^ 30 := by
  have a1 := asyEn3_le ph hf h1 h2
  have a2 := asy_jump23 f ph
  have a3 := asyEn2_small hf hi (x := 28571 / 10000) (by norm_num) le_rfl
  linarith

theorem asyEn5_small {f : ℕ → ℝ → ℝ} {ph : ℝ} (hf : BessPair f) (hi : asyEn f ph bU02 bG02 bU12 bG12 2 ≤ 4 / 10 ^ 30) {x : ℝ} (h1 : 45454 / 10000 ≤ x) (h2 : x ≤ 8) : asyEn f ph bU05 bG05 bU15 bG15 x ≤ 630 / 10 ^ 30 := by
  have a1 := asyEn5_le ph hf h1 h2
  have a2 := asy_jump35 f ph
  have a3 := asyEn3_small hf hi (x := 45454 / 10000) (by norm_num) le_rfl
  linarith

theorem asyEn8_small {f : ℕ → ℝ → ℝ} {ph : ℝ} (hf : BessPair f) (hi : asyEn f ph bU02 bG02 bU12 bG12 2 ≤ 4 / 10 ^ 30) {x : ℝ} (h1 : 8 ≤ x) : asyEn f ph bU08 bG08 bU18 bG18 x ≤ 1198 / 10 ^ 30 := by
  have a1 := asyEn8_le ph hf h1
  have a2 := asy_jump58 f ph
  have a3 := asyEn5_small hf hi (x := 8) (by norm_num) le_rfl
  linarith

theorem besEn_abs {e f y E r η : ℝ} (h0 : 0 ≤ y) (hE : besEn e f y ≤ E) (hy : y ≤ r) (hη : 0 ≤ η) (h : E ≤ (1 - r ^ 2 / 4) * η ^ 2) (hr : r ≤ 1 / 2) : |e| ≤ η ∧ |f| ≤ η := by
  have h1 : (1 - r ^ 2 / 4) * e ^ 2 ≤ E := by
    have hy2 : y ^ 2 ≤ r ^ 2 := by gcongr
    refine le_trans ?_ hE
    unfold besEn
    nlinarith [sq_nonneg (f - e * y / 2), mul_le_mul_of_nonneg_right hy2 (sq_nonneg e)]
  have h2 : (1 - r ^ 2 / 4) * f ^ 2 ≤ E := by
    have hy2 : y ^ 2 ≤ r ^ 2 := by gcongr
    refine le_trans ?_ hE
    unfold besEn
    nlinarith [sq_nonneg (e - f * y / 2), mul_le_mul_of_nonneg_right hy2 (sq_nonneg f)]
  have hr0 : 0 ≤ r := h0.trans hy
  have hp : 0 < 1 - r ^ 2 / 4 := by nlinarith
  exact ⟨abs_le_of_sq_le_sq (le_of_mul_le_mul_left (h1.trans h) hp) hη, abs_le_of_sq_le_sq (le_of_mul_le_mul_left (h2.trans h) hp) hη⟩

/-- the errors in the branches -/
theorem asy_err {f : ℕ → ℝ → ℝ} {ph : ℝ} (hf : BessPair f) (hi : asyEn f ph bU02 bG02 bU12 bG12 2 ≤ 4 / 10 ^ 30) {x : ℝ} (h : 2 ≤ x) {U0 G0 U1 G1 : RF} (hb : (8 ≤ x ∧ U0 = bU08 ∧ G0 = bG08 ∧ U1 = bU18 ∧ G1 = bG18) ∨ (45454 / 10000 ≤ x ∧ x ≤ 8 ∧ U0 = bU05 ∧ G0 = bG05 ∧ U1 = bU15 ∧ G1 = bG15) ∨
      (28571 / 10000 ≤ x ∧ x ≤ 45454 / 10000 ∧ U0 = bU03 ∧ G0 = bG03 ∧ U1 = bU13 ∧ G1 = bG13) ∨ (x ≤ 28571 / 10000 ∧ U0 = bU02 ∧ G0 = bG02 ∧ U1 = bU12 ∧ G1 = bG12)) :
    |asyA ph (rfEval U0) (rfEval G0) x - bessW f 0 (√π) x| ≤ 35 / 10 ^ 15 ∧ |asyB ph (rfEval U1) (rfEval G1) x - bessW f 1 (√π) x| ≤ 35 / 10 ^ 15 := by
  have hy : 0 ≤ 1 / x := by positivity
  rcases hb with ⟨h1, rfl, rfl, rfl, rfl⟩ | ⟨h1, h2, rfl, rfl, rfl, rfl⟩ | ⟨h1, h2, rfl, rfl, rfl, rfl⟩ | ⟨h2, rfl, rfl, rfl, rfl⟩
  · exact besEn_abs hy (asyEn8_small hf hi h1) (one_div_le_one_div_of_le (by norm_num) h1) (by norm_num) (by norm_num) (by norm_num)
  · exact besEn_abs hy (asyEn5_small hf hi h1 h2) (one_div_le_one_div_of_le (by norm_num) h) (by norm_num) (by norm_num) (by norm_num)
  · exact besEn_abs hy (asyEn3_small hf hi h1 h2) (one_div_le_one_div_of_le (by norm_num) h) (by norm_num) (by norm_num) (by norm_num)
  · exact besEn_abs hy (asyEn2_small hf hi h h2) (one_div_le_one_div_of_le (by norm_num) h) (by norm_num) (by norm_num) (by norm_num)

end Russell.Lab
