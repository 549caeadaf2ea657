import Verif.Lab.FloatMod
import Mathlib.Data.Complex.Basic

/-!
# Powers of the imaginary unit; examples for the bit-level functions (property C103)
-/

namespace Russell.Ieee

open Russell Russell.Res

/-- `i_pow_n`; `-n` overflows for the smallest `i32` (panic in debug builds)
(/repo/russell_lab/src/math/complex.rs:40-58) -/
noncomputable def iPowN (n : Int) : Res ℂ :=
  if n = 0 then ok ⟨1, 0⟩
  else if 0 < n then
    ok (if n % 4 = 1 then ⟨0, 1⟩ else if n % 4 = 2 then ⟨-1, 0⟩ else if n % 4 = 3 then ⟨0, -1⟩ else ⟨1, 0⟩)
  else if n = -2147483648 then Res.panic
  else
    ok (if -n % 4 = 1 then ⟨0, -1⟩ else if -n % 4 = 2 then ⟨-1, 0⟩ else if -n % 4 = 3 then ⟨0, 1⟩ else ⟨1, 0⟩)

/-- `x_times_i_pow_n`, with the exact power for `f64::powi` (/repo/russell_lab/src/math/complex.rs:97-117) -/
noncomputable def xTimesIPowN (x : ℝ) (n : Int) : Res ℂ :=
  if n = 0 then ok ⟨1, 0⟩
  else if 0 < n then
    ok (if n % 4 = 1 then ⟨0, x ^ n⟩ else if n % 4 = 2 then ⟨-x ^ n, 0⟩ else if n % 4 = 3 then ⟨0, -x ^ n⟩ else ⟨x ^ n, 0⟩)
  else if n = -2147483648 then Res.panic
  else
    ok (if -n % 4 = 1 then ⟨0, -x ^ n⟩ else if -n % 4 = 2 then ⟨-x ^ n, 0⟩ else if -n % 4 = 3 then ⟨0, x ^ n⟩ else ⟨x ^ n, 0⟩)

theorem I_zpow_mod (n : Int) : Complex.I ^ n = Complex.I ^ (n % 4) := by
  conv_lhs => rw [← Int.mul_ediv_add_emod n 4, zpow_add₀ Complex.I_ne_zero, zpow_mul]
  have : Complex.I ^ (4 : Int) = 1 := by
    have := Complex.I_pow_four
    exact_mod_cast this
  rw [this, one_zpow, one_mul]

theorem I_zpow_cases (n : Int) :
    (n % 4 = 0 ∧ Complex.I ^ n = ⟨1, 0⟩) ∨ (n % 4 = 1 ∧ Complex.I ^ n = ⟨0, 1⟩) ∨ (n % 4 = 2 ∧ Complex.I ^ n = ⟨-1, 0⟩) ∨
    (n % 4 = 3 ∧ Complex.I ^ n = ⟨0, -1⟩) := by
  rcases (by omega : n % 4 = 0 ∨ n % 4 = 1 ∨ n % 4 = 2 ∨ n % 4 = 3) with h | h | h | h
  · refine Or.inl ⟨h, ?_⟩
    rw [I_zpow_mod, h, zpow_zero]; rfl
  · refine Or.inr (Or.inl ⟨h, ?_⟩)
    rw [I_zpow_mod, h, zpow_one]; rfl
  · refine Or.inr (Or.inr (Or.inl ⟨h, ?_⟩))
    rw [I_zpow_mod, h]
    have : Complex.I ^ (2 : Int) = -1 := by have := Complex.I_sq; exact_mod_cast this
    rw [this]; apply Complex.ext <;> simp
  · refine Or.inr (Or.inr (Or.inr ⟨h, ?_⟩))
    rw [I_zpow_mod, h]
    have : Complex.I ^ (3 : Int) = -Complex.I := by have := Complex.I_pow_three; exact_mod_cast this
    rw [this]; apply Complex.ext <;> simp

/-- **`i_pow_n` is the power of the imaginary unit** for every `i32` but the smallest one -/
theorem C103_i_pow_n {n : Int} (hn : n ≠ -2147483648) : iPowN n = ok (Complex.I ^ n) := by
  unfold iPowN
  by_cases h0 : n = 0
  · rw [if_pos h0, h0, zpow_zero]; rfl
  · rw [if_neg h0]
    rcases I_zpow_cases n with ⟨a, e⟩ | ⟨a, e⟩ | ⟨a, e⟩ | ⟨a, e⟩ <;> rw [e]
    · by_cases hp : 0 < n
      · rw [if_pos hp]; simp [a]
      · rw [if_neg hp, if_neg hn]; simp [(by omega : -n % 4 = 0)]
    · by_cases hp : 0 < n
      · rw [if_pos hp]; simp [a]
      · rw [if_neg hp, if_neg hn]; simp [(by omega : -n % 4 = 3)]
    · by_cases hp : 0 < n
      · rw [if_pos hp]; simp [a]
      · rw [if_neg hp, if_neg hn]; simp [(by omega : -n % 4 = 2)]
    · by_cases hp : 0 < n
      · rw [if_pos hp]; simp [a]
      · rw [if_neg hp, if_neg hn]; simp [(by omega : -n % 4 = 1)]

/-- **`x_times_i_pow_n` is `(x i)^n`** for every `i32` but the smallest one; the base is nonzero if the exponent is negative -/
theorem C103_x_times_i_pow_n {x : ℝ} {n : Int} (_hx : x ≠ 0 ∨ 0 ≤ n) (hn : n ≠ -2147483648) : xTimesIPowN x n = ok (((x : ℂ) * Complex.I) ^ n) := by
  have hx : (((x : ℂ) * Complex.I) ^ n) = ((x ^ n : ℝ) : ℂ) * Complex.I ^ n := by
    rw [mul_zpow, Complex.ofReal_zpow]
  rw [hx]
  unfold xTimesIPowN
  by_cases h0 : n = 0
  · rw [if_pos h0, h0, zpow_zero, zpow_zero, mul_one]; rfl
  · rw [if_neg h0]
    generalize x ^ n = t
    have ext : ∀ a b c d : ℝ, a = t * c → b = t * d → (⟨a, b⟩ : ℂ) = (t : ℂ) * ⟨c, d⟩ := fun a b c d h1 h2 => by
      apply Complex.ext <;> simp [h1, h2]
    rcases I_zpow_cases n with ⟨a, e⟩ | ⟨a, e⟩ | ⟨a, e⟩ | ⟨a, e⟩ <;> rw [e]
    · by_cases hp : 0 < n
      · rw [if_pos hp]; simp [a, ext t 0 1 0]
      · rw [if_neg hp, if_neg hn]; simp [(by omega : -n % 4 = 0), ext t 0 1 0]
    · by_cases hp : 0 < n
      · rw [if_pos hp]; simp [a, ext 0 t 0 1]
      · rw [if_neg hp, if_neg hn]; simp [(by omega : -n % 4 = 3), ext 0 t 0 1]
    · by_cases hp : 0 < n
      · rw [if_pos hp]; simp [a, ext (-t) 0 (-1) 0]
      · rw [if_neg hp, if_neg hn]; simp [(by omega : -n % 4 = 2), ext (-t) 0 (-1) 0]
    · by_cases hp : 0 < n
      · rw [if_pos hp]; simp [a, ext 0 (-t) 0 (-1)]
      · rw [if_neg hp, if_neg hn]; simp [(by omega : -n % 4 = 1), ext 0 (-t) 0 (-1)]

/-- the smallest `i32` makes `-n` overflow -/
theorem C103_i_pow_n_counterexample : iPowN (-2147483648) = Res.panic := by
  unfold iPowN
  norm_num

/-! ## Examples -/

/-- `-2.5 = -2.0 - 0.5` -/
example : floatSplit 0xc004000000000000 = (0xc000000000000000, 0xbfe0000000000000) := by decide +kernel
example : IsSplit 0xc004000000000000 0xc000000000000000 0xbfe0000000000000 := by
  have h := C103_float_split (x := 0xc004000000000000) (by norm_num) (by decide +kernel)
  have e : floatSplit 0xc004000000000000 = (0xc000000000000000, 0xbfe0000000000000) := by decide +kernel
  rwa [e] at h

/-- `0.1` has an inexact binary representation, but the split of `3.1` is exact -/
example : floatSplit 0x4008cccccccccccd = (0x4008000000000000, 0x3fb999999999999a - 2 + 8) := by decide +kernel

/-- `3.0` is an integer, `3.1` and infinity are not; `-3.0` is a negative integer -/
example : floatIsInteger 0x4008000000000000 = true ∧ floatIsInteger 0x4008cccccccccccd = false ∧ floatIsInteger infBits = false ∧
    floatIsNegInteger 0xc008000000000000 = true ∧ floatIsNegInteger 0x4008000000000000 = false := by decide +kernel

/-- `8 = 0.5 * 2^4`; the smallest positive number is `0.5 * 2^-1073` -/
example : floatDecompose 0x4020000000000000 = (0x3fe0000000000000, 4) ∧ floatDecompose 1 = (0x3fe0000000000000, -1073) := by
  decide +kernel

/-- `3 * 2^-1074` has the pattern `3`; `3 * 2^-1075` is a tie and goes to the even pattern `2`; `3 * 2^-1077` becomes zero -/
example : floatCompose 0x4008000000000000 (-1074) = ok 3 ∧ floatCompose 0x4008000000000000 (-1075) = ok 2 ∧
    floatCompose 0x4008000000000000 (-1077) = ok 0 ∧ floatCompose 0xc008000000000000 5000 = ok (2 ^ 63 + infBits) := by decide +kernel

example : floatCompose 0x4008000000000000 7 = ok (sgn 0x4008000000000000 * 2 ^ 63 + rI (mag (ub 0x4008000000000000)) 7) :=
  C103_float_compose (by norm_num) (by decide +kernel) (by decide +kernel) (by norm_num) (by norm_num)

example : floatCompose (floatDecompose 12345).1 (floatDecompose 12345).2 = ok 12345 :=
  C103_compose_decompose (by norm_num) (by decide +kernel)

/-- `-7.5` modulo `2.0` is `-1.5` -/
example : ∃ r, modulo 0xc01e000000000000 0x4000000000000000 = ok r ∧ r = 0xbff8000000000000 := by
  obtain ⟨r, h1, h2, h3, h4, h5⟩ := C103_modulo (x := 0xc01e000000000000) (y := 0x4000000000000000) (by norm_num) (by decide +kernel)
    (by decide +kernel) (by decide +kernel)
  refine ⟨r, h1, ?_⟩
  have e : Int.tmod (val 0xc01e000000000000) (val 0x4000000000000000) = val 0xbff8000000000000 := by decide +kernel
  have hs : sgn r = sgn 0xbff8000000000000 := h4
  rw [e] at h5
  rw [val_split, val_split, hs] at h5
  have h0 : sgn 0xbff8000000000000 = 1 := by decide +kernel
  rw [h0, if_neg (by norm_num)] at h5
  have hm : mag (ub r) = mag (ub 0xbff8000000000000) := by omega
  rw [split_bits r, hs, mag_strictMono.injective hm, ← split_bits]

example : modulo 0x4014000000000000 infBits = ok 0x4014000000000000 :=
  (C103_modulo_special (by norm_num)).2.1 (by decide +kernel) (by decide +kernel)

example : rmag 5 1 = 2 := by decide +kernel
example (b : Nat) : |(mag (rmag 5 1) : Int) * 2 ^ 1 - (5 : Nat)| ≤ |(mag b : Int) * 2 ^ 1 - (5 : Nat)| :=
  (C103_round_nearest (n := 5) (k := 1) (by decide +kernel) b).1

example : iPowN 6 = ok (Complex.I ^ (6 : Int)) := C103_i_pow_n (by norm_num)
example : xTimesIPowN 2 (-3) = ok ((((2 : ℝ) : ℂ) * Complex.I) ^ (-3 : Int)) :=
  C103_x_times_i_pow_n (Or.inl (by norm_num)) (by norm_num)

end Russell.Ieee
