import Verif.Lab.BesselKSmall

/-!
# Modified Bessel functions `K₀`, `K₁` and `K_n` from the computed values (property C120)

/repo/russell_lab/src/math/bessel_mod.rs
-/

namespace Russell.Lab

open Russell Real Set

/-- C120: for every `x > 0` the result of `bessel_k0` has a relative error of at most `1.6 · 10⁻¹²` (`3 · 10⁻¹³` for `x > 1`), that of `bessel_k1`
of at most `1.2 · 10⁻¹²` (`6 · 10⁻¹³` for `x > 1`) -/
theorem C120_k01_accurate (x : ℝ) (hx : 0 < x) :
    (∃ y, besselK0F (.fin x) = .ok (.fin y) ∧ |y - besselK 0 x| ≤ (if x ≤ 1 then 16 / 10 ^ 13 else 3 / 10 ^ 13) * besselK 0 x) ∧
      ∃ y, besselK1F (.fin x) = .ok (.fin y) ∧ |y - besselK 1 x| ≤ (if x ≤ 1 then 12 / 10 ^ 13 else 6 / 10 ^ 13) * besselK 1 x := by
  have a : ¬ x < 0 := by linarith
  have b : x ≠ 0 := hx.ne'
  by_cases c : x ≤ 1
  · simp only [c, if_true]
    constructor
    · obtain ⟨y, e, h⟩ := besK0Small_acc hx c
      refine ⟨y, ?_, h⟩
      simp only [besselK0F, a, b, c, e, if_false, if_true]
      rfl
    · obtain ⟨y, e, h⟩ := besK1Small_acc hx c
      refine ⟨y, ?_, h⟩
      simp only [besselK1F, a, b, c, e, if_false, if_true]
      rfl
  · have hx1 : 1 ≤ x := (not_le.1 c).le
    simp only [c, if_false]
    constructor
    · obtain ⟨y, e, h⟩ := besK0Large_acc hx1
      refine ⟨y, ?_, h⟩
      simp only [besselK0F, a, b, c, e, if_false]
      rfl
    · obtain ⟨y, e, h⟩ := besK1Large_acc hx1
      refine ⟨y, ?_, h⟩
      simp only [besselK1F, a, b, c, e, if_false]
      rfl

/-- `bessel_k0(x)` -/
noncomputable def codeK0 (x : ℝ) : ℝ := finVal (besselK0F (.fin x))

/-- `bessel_k1(x)` -/
noncomputable def codeK1 (x : ℝ) : ℝ := finVal (besselK1F (.fin x))

/-- C120: `bessel_kn` with the computed values of the orders 0 and 1 returns `K_n(x)` with a relative error of at most `1.6 · 10⁻¹²` for every
order and every `x > 0` (`6 · 10⁻¹³` for `x > 1`) -/
theorem C120_kn_accurate (n : ℕ) (x : ℝ) (hx : 0 < x) :
    ∃ v : ℝ, besselKn codeK0 codeK1 n x = some (v : EReal) ∧ |v - besselK n x| ≤ (if x ≤ 1 then 16 / 10 ^ 13 else 6 / 10 ^ 13) * besselK n x := by
  obtain ⟨⟨y, e, h⟩, z, e1, h1⟩ := C120_k01_accurate x hx
  have ey : codeK0 x = y := by unfold codeK0; rw [e]; rfl
  have ez : codeK1 x = z := by unfold codeK1; rw [e1]; rfl
  have hp := besselK_pos hx 0
  have hq := besselK_pos hx 1
  exact C109_kn_stable codeK0 codeK1 x hx _ (by rw [ey]; exact h.trans (mul_le_mul_of_nonneg_right (by split_ifs <;> norm_num) hp.le))
    (by rw [ez]; exact h1.trans (mul_le_mul_of_nonneg_right (by split_ifs <;> norm_num) hq.le)) n

/-- C120: special values -/
theorem C120_special : besselK0F .nan = .ok .nan ∧ besselK1F .nan = .ok .nan ∧ (∀ x < 0, besselK0F (.fin x) = .ok .nan ∧ besselK1F (.fin x) = .ok .nan) ∧
    besselK0F (.fin 0) = .ok .posInf ∧ besselK1F (.fin 0) = .ok .posInf ∧ besselK0F .negZero = .ok .posInf ∧ besselK1F .negZero = .ok .posInf ∧
    besselK0F .negInf = .ok .nan ∧ besselK1F .negInf = .ok .nan ∧ besselK0F .posInf = .ok (.fin 0) ∧ besselK1F .posInf = .ok (.fin 0) := by
  refine ⟨rfl, rfl, fun x hx => ?_, ?_⟩
  · simp [besselK0F, besselK1F, hx]
  · simp [besselK0F, besselK1F]

example : ∃ v : ℝ, besselKn codeK0 codeK1 5 2 = some (v : EReal) ∧ |v - besselK 5 2| ≤ 6 / 10 ^ 13 * besselK 5 2 := by
  have := C120_kn_accurate 5 2 (by norm_num)
  rwa [if_neg (by norm_num)] at this

example : ∃ y, besselK0F (.fin (1 / 3)) = .ok (.fin y) ∧ |y - besselK 0 (1 / 3)| ≤ 16 / 10 ^ 13 * besselK 0 (1 / 3) := by
  have := (C120_k01_accurate (1 / 3) (by norm_num)).1
  rwa [if_pos (by norm_num)] at this

end Russell.Lab
