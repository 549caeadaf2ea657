import Verif.Lab.BesselY01
import Verif.Lab.BesselJn
import Mathlib.Analysis.Calculus.Deriv.MeanValue

/-!
# The recurrences of `bessel_jn` and `bessel_yn` started with the computed values (property C118)

Joins the models of bessel_0.rs, bessel_1.rs (C117, C118) and bessel_n.rs (C110).
-/

namespace Russell.Lab

open Russell Real Set

/-- the number in a result -/
noncomputable def finVal : Res FArg → ℝ
  | .ok (.fin y) => y
  | _ => 0

/-- `bessel_j0(x)` (bessel_0.rs:62-142) -/
noncomputable def codeJ0 (x : ℝ) : ℝ := finVal (besselJ0F (.fin x))

/-- `bessel_j1(x)` (bessel_1.rs:58-143) -/
noncomputable def codeJ1 (x : ℝ) : ℝ := finVal (besselJ1F (.fin x))

/-- `bessel_y0(x)` (bessel_0.rs:178-251) -/
noncomputable def codeY0 (x : ℝ) : ℝ := finVal (besselY0F (.fin x))

/-- `bessel_y1(x)` (bessel_1.rs:181-254) -/
noncomputable def codeY1 (x : ℝ) : ℝ := finVal (besselY1F (.fin x))

/-- `f₀² + f₁²` does not increase -/
theorem BessPair.anti {f : ℕ → ℝ → ℝ} (hf : BessPair f) {a b : ℝ} (ha : 0 < a) (hab : a ≤ b) : f 0 b ^ 2 + f 1 b ^ 2 ≤ f 0 a ^ 2 + f 1 a ^ 2 := by
  have hd : ∀ x, 0 < x → HasDerivAt (fun x => f 0 x ^ 2 + f 1 x ^ 2) (-(2 * f 1 x ^ 2 / x)) x := by
    intro x hx
    refine (((hf.zero x hx).pow 2).add ((hf.one x hx).pow 2)).congr_deriv ?_
    field_simp
    ring
  have hpos : ∀ x ∈ Icc a b, 0 < x := fun x hx => lt_of_lt_of_le ha hx.1
  have := antitoneOn_of_deriv_nonpos (convex_Icc a b) (f := fun x => f 0 x ^ 2 + f 1 x ^ 2) (fun x hx => (hd x (hpos x hx)).continuousAt.continuousWithinAt)
    (fun x hx => (hd x (hpos x (interior_subset hx))).differentiableAt.differentiableWithinAt)
    (fun x hx => by
      have hx0 := hpos x (interior_subset hx)
      rw [(hd x hx0).deriv]
      have : 0 ≤ 2 * f 1 x ^ 2 / x := by positivity
      linarith)
  exact this (left_mem_Icc.2 hab) (right_mem_Icc.2 hab) hab

theorem bess_mid {f : ℕ → ℝ → ℝ} (hf : BessPair f) (h2 : |f 0 2| ≤ 6 / 10 ∧ |f 1 2| ≤ 6 / 10) {x : ℝ} (h : 2 ≤ x) (h8 : x ≤ 8) : |f 0 x| ≤ 4 / √x ∧ |f 1 x| ≤ 4 / √x := by
  have hs : 0 < √x := sqrt_pos.2 (by linarith)
  have h3 : √x ≤ 3 := by rw [sqrt_le_left (by norm_num)]; linarith
  have hb : 1 ≤ 4 / √x := by rw [le_div_iff₀ hs]; linarith
  have e := hf.anti two_pos h
  have s0 := pow_le_pow_left₀ (abs_nonneg _) h2.1 2
  have s1 := pow_le_pow_left₀ (abs_nonneg _) h2.2 2
  rw [sq_abs] at s0 s1
  constructor <;> refine le_trans (abs_le_one_iff_mul_self_le_one.2 ?_) hb <;> nlinarith [sq_nonneg (f 0 x), sq_nonneg (f 1 x)]

theorem besselJ_bound2 {x : ℝ} (h : 2 ≤ x) : |besselJ 0 x| ≤ 4 / √x ∧ |besselJ 1 x| ≤ 4 / √x := by
  by_cases h8 : 8 ≤ x
  · exact besselJ_bound h8
  · refine bess_mid besselJ_pair ?_ h (not_le.1 h8).le
    have a := abs_le.1 besselJ_0_two_near
    have b := abs_le.1 besselJ_1_two_near
    norm_num at a b
    constructor <;> rw [abs_le] <;> constructor <;> linarith [a.1, a.2, b.1, b.2]

theorem besselY_bound2 {x : ℝ} (h : 2 ≤ x) : |besselY 0 x| ≤ 4 / √x ∧ |besselY 1 x| ≤ 4 / √x := by
  by_cases h8 : 8 ≤ x
  · exact besselY_bound h8
  · refine bess_mid besselY_pair ?_ h (not_le.1 h8).le
    have a := abs_le.1 besselY_0_two_near
    have b := abs_le.1 besselY_1_two_near
    norm_num at a b
    constructor <;> rw [abs_le] <;> constructor <;> linarith [a.1, a.2, b.1, b.2]

/-- every solution of the recurrence is a combination of `Jₙ` and `Yₙ` -/
theorem recur_split {x : ℝ} (hx : 0 < x) {f : ℕ → ℝ} (hf : ∀ i, f (i + 2) = 2 * ((i : ℝ) + 1) / x * f (i + 1) - f i) (n : ℕ) :
    f n = π * x / 2 * ((f 1 * besselY 0 x - f 0 * besselY 1 x) * besselJ n x + (f 0 * besselJ 1 x - f 1 * besselJ 0 x) * besselY n x) := by
  have hw := besselY_wronskian hx
  have hpx : π * x ≠ 0 := by positivity
  rw [eq_div_iff hpx] at hw
  induction n using Nat.twoStepInduction with
  | zero => linear_combination (-f 0 / 2) * hw
  | one => linear_combination (-f 1 / 2) * hw
  | more n h1 h2 =>
    rw [hf n, besselJ_rec n hx.ne', show besselY (n + 2) x = 2 * ((n : ℝ) + 1) / x * besselY (n + 1) x - besselY n x from rfl]
    linear_combination 2 * ((n : ℝ) + 1) / x * h2 - h1

/-- errors of the two start values are not amplified beyond the size of the two solutions -/
theorem recur_err {x : ℝ} (h : 2 ≤ x) {f : ℕ → ℝ} (hf : ∀ i, f (i + 2) = 2 * ((i : ℝ) + 1) / x * f (i + 1) - f i) (h0 : |f 0| ≤ 2 / 10 ^ 14 / √x)
    (h1 : |f 1| ≤ 2 / 10 ^ 14 / √x) (n : ℕ) : |f n| ≤ 3 / 10 ^ 13 * (|besselJ n x| + |besselY n x|) := by
  have hx : 0 < x := by linarith
  have hs := sqrt_pos.2 hx
  obtain ⟨j0, j1⟩ := besselJ_bound2 h
  obtain ⟨y0, y1⟩ := besselY_bound2 h
  have key : ∀ a b c d : ℝ, |a| ≤ 2 / 10 ^ 14 / √x → |b| ≤ 4 / √x → |c| ≤ 2 / 10 ^ 14 / √x → |d| ≤ 4 / √x → π * x / 2 * |a * b - c * d| ≤ 3 / 10 ^ 13 := by
    intro a b c d ha hb hc hd
    have h3 : |a * b - c * d| ≤ 2 / 10 ^ 14 / √x * (4 / √x) + 2 / 10 ^ 14 / √x * (4 / √x) := by
      refine (abs_sub _ _).trans ?_
      rw [abs_mul, abs_mul]
      gcongr
    calc π * x / 2 * |a * b - c * d| ≤ π * x / 2 * (2 / 10 ^ 14 / √x * (4 / √x) + 2 / 10 ^ 14 / √x * (4 / √x)) := by gcongr
      _ = π * (8 / 10 ^ 14) * (x / (√x * √x)) := by field_simp; ring
      _ = π * (8 / 10 ^ 14) := by rw [mul_self_sqrt hx.le, div_self hx.ne', mul_one]
      _ ≤ 3 / 10 ^ 13 := by have := pi_lt_d2; norm_num; linarith
  have k1 := key _ _ _ _ h1 y0 h0 y1
  have k2 := key _ _ _ _ h0 j1 h1 j0
  have hp : 0 < π * x / 2 := by positivity
  rw [recur_split hx hf n, abs_mul, abs_of_pos hp]
  calc _ ≤ π * x / 2 * (|f 1 * besselY 0 x - f 0 * besselY 1 x| * |besselJ n x| + |f 0 * besselJ 1 x - f 1 * besselJ 0 x| * |besselY n x|) := by
        gcongr
        refine (abs_add_le _ _).trans ?_
        rw [abs_mul, abs_mul]
    _ = π * x / 2 * |f 1 * besselY 0 x - f 0 * besselY 1 x| * |besselJ n x| + π * x / 2 * |f 0 * besselJ 1 x - f 1 * besselJ 0 x| * |besselY n x| := by ring
    _ ≤ 3 / 10 ^ 13 * |besselJ n x| + 3 / 10 ^ 13 * |besselY n x| := by gcongr
    _ = _ := by ring

/-- the sequence of the forward recurrence -/
noncomputable def fwdSeq (x a b : ℝ) : ℕ → ℝ
  | 0 => a
  | 1 => b
  | n + 2 => 2 * ((n : ℝ) + 1) / x * fwdSeq x a b (n + 1) - fwdSeq x a b n

theorem codeJ_err {x : ℝ} (h : 2 ≤ x) : |codeJ0 x - besselJ 0 x| ≤ 2 / 10 ^ 14 / √x ∧ |codeJ1 x - besselJ 1 x| ≤ 2 / 10 ^ 14 / √x := by
  have ha : |x| = x := abs_of_pos (by linarith)
  obtain ⟨y, hy, _, h2⟩ := C117_j0_accurate x
  obtain ⟨z, hz, _, h3⟩ := C117_j1_accurate x
  rw [ha] at h2 h3
  simp only [codeJ0, codeJ1, hy, hz, finVal]
  exact ⟨h2 h, h3 h⟩

theorem codeY_err {x : ℝ} (h : 2 ≤ x) : |codeY0 x - besselY 0 x| ≤ 2 / 10 ^ 14 / √x ∧ |codeY1 x - besselY 1 x| ≤ 2 / 10 ^ 14 / √x := by
  obtain ⟨y, hy, _, h2⟩ := C118_y0_accurate (x := x) (by linarith)
  obtain ⟨z, hz, _, _, h3⟩ := C118_y1_accurate (x := x) (by linarith)
  simp only [codeY0, codeY1, hy, hz, finVal]
  exact ⟨h2 h, h3 h⟩

/-- `bessel_yn`, computed from `bessel_y0` and `bessel_y1`: for every order and every argument from 2 to `2³⁰²` the error is at most `3e-13` of
`|Jₙ(x)| + |Yₙ(x)|` -/
theorem C118_yn_accurate (n : ℤ) {x : ℝ} (h : 2 ≤ x) (hlt : x < 2 ^ 302) : ∃ y : ℝ, besselYn codeY0 codeY1 n x = some (y : EReal) ∧
    |y - (if n < 0 then (-1) ^ n.natAbs else 1) * besselY n.natAbs x| ≤ 3 / 10 ^ 13 * (|besselJ n.natAbs x| + |besselY n.natAbs x|) := by
  have hx : 0 < x := by linarith
  refine ⟨_, C110_yn_forward codeY0 codeY1 x hx hlt (fwdSeq x (codeY0 x) (codeY1 x)) rfl rfl (fun _ => rfl) n, ?_⟩
  rw [← mul_sub, abs_mul]
  have hs : |(if n < 0 then (-1) ^ n.natAbs else 1 : ℝ)| = 1 := by split_ifs <;> simp
  rw [hs, one_mul]
  obtain ⟨c0, c1⟩ := codeY_err h
  exact recur_err h (f := fun i => fwdSeq x (codeY0 x) (codeY1 x) i - besselY i x) (fun i => by simp only [fwdSeq, besselY]; ring) c0 c1 n.natAbs

/-- `bessel_jn` for orders up to the argument, computed from `bessel_j0` and `bessel_j1` -/
theorem C118_jn_accurate (n : ℤ) (hn : 2 ≤ n.natAbs) {x : ℝ} (hx : n.natAbs ≤ |x|) (hlt : |x| < 2 ^ 302) :
    |besselJn codeJ0 codeJ1 n x - besselJZ n x| ≤ 3 / 10 ^ 13 * (|besselJ n.natAbs (|x|)| + |besselY n.natAbs (|x|)|) := by
  have hn2 : (2 : ℝ) ≤ n.natAbs := by exact_mod_cast hn
  have h2 : 2 ≤ |x| := hn2.trans hx
  have hx0 : x ≠ 0 := by
    rintro rfl
    simp only [abs_zero] at h2
    linarith
  rw [besselJn_eq _ _ hn hx0, besselJZ_eq hx0, ← mul_sub, abs_mul, abs_jnSign, one_mul]
  unfold jnPositive
  rw [if_pos hx, if_neg (not_le.2 hlt)]
  have := fwdLoop_spec (f := fwdSeq |x| (codeJ0 |x|) (codeJ1 |x|)) (x := |x|) (fun _ => rfl) (n.natAbs - 1) 0
  simp only [zero_add, fwdSeq] at this
  rw [this, show 1 + (n.natAbs - 1) = n.natAbs by omega]
  obtain ⟨c0, c1⟩ := codeJ_err h2
  exact recur_err h2 (f := fun i => fwdSeq |x| (codeJ0 |x|) (codeJ1 |x|) i - besselJ i |x|) (fun i => by simp only [fwdSeq, besselJ_rec i (abs_ne_zero.2 hx0)]; ring) c0 c1 n.natAbs

example : ∃ y : ℝ, besselYn codeY0 codeY1 (-7) 3 = some (y : EReal) ∧ |y - (-1) ^ 7 * besselY 7 3| ≤ 3 / 10 ^ 13 * (|besselJ 7 3| + |besselY 7 3|) := by
  obtain ⟨y, h1, h2⟩ := C118_yn_accurate (-7) (x := 3) (by norm_num) (by
    calc (3 : ℝ) < 2 ^ 3 := by norm_num
      _ ≤ 2 ^ 302 := pow_le_pow_right₀ (by norm_num) (by norm_num))
  exact ⟨y, h1, by simpa using h2⟩

end Russell.Lab
