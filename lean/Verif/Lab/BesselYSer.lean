import Verif.Lab.BesselYOde
import Verif.Lab.Bessel01

/-!
# Values of `Y₀` and `Y₁` at 2 and their power series below 2 (background of property C118)
-/

set_option linter.unusedSimpArgs false

namespace Russell.Lab

open Nat (factorial)
open scoped Nat
open Real Set

theorem besTerm_quarter {n m : ℕ} {h : ℝ} (hm : 1 ≤ m) (hh : h ^ 2 ≤ 1) : |besTerm (-1) n h (m + 1)| ≤ |besTerm (-1) n h m| / 4 := by
  have e : besTerm (-1) n h (m + 1) = -(h ^ 2 / (((m : ℝ) + 1) * (m + n + 1))) * besTerm (-1) n h m := by
    have hm0 : ((m ! : ℕ) : ℝ) ≠ 0 := by positivity
    have hm2 : (((m + n)! : ℕ) : ℝ) ≠ 0 := by positivity
    have hm1 : ((m : ℝ) + 1) ≠ 0 := by positivity
    have hm3 : ((m : ℝ) + n + 1) ≠ 0 := by positivity
    unfold besTerm
    rw [show m + 1 + n = m + n + 1 by ring, show 2 * (m + 1) + n = 2 * m + n + 2 by ring, Nat.factorial_succ, Nat.factorial_succ]
    push_cast
    field_simp
    ring
  have h1 : (1 : ℝ) ≤ m := by exact_mod_cast hm
  have h2 : (0 : ℝ) ≤ n := by positivity
  have h4 : h ^ 2 / (((m : ℝ) + 1) * (m + n + 1)) ≤ 1 / 4 := by
    rw [div_le_iff₀ (by positivity)]
    nlinarith
  rw [e, abs_mul, abs_neg, abs_of_nonneg (by positivity)]
  nlinarith [abs_nonneg (besTerm (-1) n h m)]

/-- tail of a weighted series -/
theorem wTerm_tail {w : ℕ → ℝ} (h0 : ∀ m, 0 ≤ w m) (h1 : ∀ m, 1 ≤ m → w (m + 1) ≤ 2 * w m) {n M : ℕ} (hM : 1 ≤ M) {h : ℝ} (hh : h ^ 2 ≤ 1) :
    |∑' m, wTerm w n h (m + M)| ≤ 2 * |wTerm w n h M| := by
  refine half_tail M fun m => ?_
  unfold wTerm
  rw [abs_mul, abs_mul, abs_of_nonneg (h0 _), abs_of_nonneg (h0 _)]
  have a1 := besTerm_quarter (n := n) (show 1 ≤ m + M by omega) hh
  have a2 := h1 (m + M) (by omega)
  calc w (m + M + 1) * |besTerm (-1) n h (m + M + 1)| ≤ 2 * w (m + M) * (|besTerm (-1) n h (m + M)| / 4) := by gcongr; exact mul_nonneg (by norm_num) (h0 _)
    _ = _ := by ring

theorem hW_mono {m k : ℕ} (h : m ≤ k) : hW m ≤ hW k := by
  refine monotone_nat_of_le_succ (fun m => ?_) h
  rw [hW_succ]
  have : 0 ≤ 1 / ((m : ℝ) + 1) := by positivity
  linarith

theorem hW_one : hW 1 = 1 := by rw [show 1 = 0 + 1 by rfl, hW_succ, hW_zero]; norm_num

theorem hW_double (m : ℕ) (hm : 1 ≤ m) : hW (m + 1) ≤ 2 * hW m := by
  have h1 := hW_mono hm
  rw [hW_one] at h1
  rw [hW_succ]
  have : 1 / ((m : ℝ) + 1) ≤ 1 := by rw [div_le_one (by positivity)]; linarith [Nat.cast_nonneg (α := ℝ) m]
  linarith

theorem hA_nonneg (m : ℕ) : 0 ≤ hA m := by
  have := hW_nonneg m
  have := hW_nonneg (m + 1)
  unfold hA
  linarith

theorem hA_double (m : ℕ) (hm : 1 ≤ m) : hA (m + 1) ≤ 2 * hA m := by
  have := hW_double m hm
  have := hW_double (m + 1) (by omega)
  unfold hA
  linarith

theorem hW_2 : hW 2 = 3 / 2 := (hW_succ 1).trans (by rw [hW_one]; norm_num)

theorem hW_3 : hW 3 = 11 / 6 := (hW_succ 2).trans (by rw [hW_2]; norm_num)

theorem hW_4 : hW 4 = 25 / 12 := (hW_succ 3).trans (by rw [hW_3]; norm_num)

theorem hW_5 : hW 5 = 137 / 60 := (hW_succ 4).trans (by rw [hW_4]; norm_num)

theorem hW_6 : hW 6 = 49 / 20 := (hW_succ 5).trans (by rw [hW_5]; norm_num)

theorem hW_7 : hW 7 = 363 / 140 := (hW_succ 6).trans (by rw [hW_6]; norm_num)

theorem hW_8 : hW 8 = 761 / 280 := (hW_succ 7).trans (by rw [hW_7]; norm_num)

theorem hW_9 : hW 9 = 7129 / 2520 := (hW_succ 8).trans (by rw [hW_8]; norm_num)

theorem hW_10 : hW 10 = 7381 / 2520 := (hW_succ 9).trans (by rw [hW_9]; norm_num)

theorem hW_11 : hW 11 = 83711 / 27720 := (hW_succ 10).trans (by rw [hW_10]; norm_num)

theorem hW_12 : hW 12 = 86021 / 27720 := (hW_succ 11).trans (by rw [hW_11]; norm_num)

theorem hW_13 : hW 13 = 1145993 / 360360 := (hW_succ 12).trans (by rw [hW_12]; norm_num)

theorem hW_14 : hW 14 = 1171733 / 360360 := (hW_succ 13).trans (by rw [hW_13]; norm_num)

theorem hW_15 : hW 15 = 1195757 / 360360 := (hW_succ 14).trans (by rw [hW_14]; norm_num)

theorem yS0_two_near : |yS0 2 - (-672462966936363624928336) / 10 ^ 24| ≤ 1 / 10 ^ 20 := by
  have hs := wTerm_summable hW_bound 0 (2 / 2)
  have ht := abs_le.1 (wTerm_tail hW_nonneg hW_double (n := 0) (M := 14) (by norm_num) (h := 2 / 2) (by norm_num))
  have e : |wTerm hW 0 (2 / 2) 14| ≤ 1 / 10 ^ 21 := by
    simp only [wTerm, hW_14, besTerm]
    norm_num [Nat.factorial, abs_le]
  have e2 : yS0 2 = ∑ i ∈ Finset.range 14, wTerm hW 0 (2 / 2) i + ∑' m, wTerm hW 0 (2 / 2) (m + 14) := (hs.sum_add_tsum_nat_add 14).symm
  rw [e2]
  generalize (∑' m, wTerm hW 0 (2 / 2) (m + 14)) = t at *
  generalize |wTerm hW 0 (2 / 2) 14| = t' at *
  simp only [Finset.sum_range_succ, Finset.sum_range_zero, wTerm, Nat.reduceAdd, hW_zero, hW_one, hW_2, hW_3, hW_4, hW_5, hW_6, hW_7, hW_8, hW_9, hW_10, hW_11, hW_12, hW_13, hW_14, hW_15, besTerm, Nat.factorial]
  rw [abs_le]
  constructor <;> norm_num at e ht ⊢ <;> linarith [ht.1, ht.2]

theorem yS1_two_near : |yS1 2 - 1020743687023323705490 / 10 ^ 24| ≤ 1 / 10 ^ 20 := by
  have hs := wTerm_summable hA_bound 1 (2 / 2)
  have ht := abs_le.1 (wTerm_tail hA_nonneg hA_double (n := 1) (M := 14) (by norm_num) (h := 2 / 2) (by norm_num))
  have e : |wTerm hA 1 (2 / 2) 14| ≤ 1 / 10 ^ 21 := by
    simp only [wTerm, hA, Nat.reduceAdd, hW_14, hW_15, besTerm]
    norm_num [Nat.factorial, abs_le]
  have e2 : yS1 2 = ∑ i ∈ Finset.range 14, wTerm hA 1 (2 / 2) i + ∑' m, wTerm hA 1 (2 / 2) (m + 14) := (hs.sum_add_tsum_nat_add 14).symm
  rw [e2]
  generalize (∑' m, wTerm hA 1 (2 / 2) (m + 14)) = t at *
  generalize |wTerm hA 1 (2 / 2) 14| = t' at *
  simp only [Finset.sum_range_succ, Finset.sum_range_zero, wTerm, hA, Nat.reduceAdd, hW_zero, hW_one, hW_2, hW_3, hW_4, hW_5, hW_6, hW_7, hW_8, hW_9, hW_10, hW_11, hW_12, hW_13, hW_14, hW_15, besTerm, Nat.factorial]
  rw [abs_le]
  constructor <;> norm_num at e ht ⊢ <;> linarith [ht.1, ht.2]

/-- thirteen terms of the power series in `x²` -/
def bH0 : List ℤ := [0, -26676390041640346897612800000, 2500911566403782521651200000, -84907491451980270796800000, 1507590402201354240000000, -16523190808126842470400, 123119882846443929600, -664790228375961600, 2722028687769600, -8744784998400, 22634751744, -48217536, 86021]

theorem bH0_near {x : ℝ} (h : |x| ≤ 2) : |(polyEval bH0 (x ^ 2) / 106705560166561387590451200000) - yS0 x| ≤ 2 / 10 ^ 19 := by
  unfold yS0
  have hs := wTerm_summable hW_bound 0 (x / 2)
  rw [← hs.sum_add_tsum_nat_add 13]
  have hh : (x / 2) ^ 2 ≤ 1 := by
    rw [← sq_abs, abs_div, Nat.abs_ofNat]
    have := abs_nonneg x
    exact pow_le_one₀ (by positivity) (by linarith)
  have ht := wTerm_tail hW_nonneg hW_double (n := 0) (M := 13) (by norm_num) hh
  have e : |wTerm hW 0 (x / 2) 13| ≤ 1145993 / 360360 / 38775788043632640000 := by
    unfold wTerm besTerm
    rw [abs_mul, abs_div, abs_mul, abs_pow, abs_neg, abs_one, one_pow, one_mul, pow_add, pow_mul, abs_mul, abs_pow, abs_of_nonneg (sq_nonneg (x / 2)), hW_13]
    have := pow_le_one₀ (n := 13) (sq_nonneg (x / 2)) hh
    rw [abs_of_pos (a := ((Nat.factorial 13 : ℕ) : ℝ) * ((Nat.factorial (13 + 0) : ℕ) : ℝ)) (by positivity)]
    generalize ((x / 2) ^ 2) ^ 13 = y at *
    norm_num [Nat.factorial, abs_div] at this ⊢
    linarith
  have e2 : ∑ i ∈ Finset.range 13, wTerm hW 0 (x / 2) i = (polyEval bH0 (x ^ 2) / 106705560166561387590451200000) := by
    simp only [Finset.sum_range_succ, Finset.sum_range_zero, wTerm, Nat.reduceAdd, hW_zero, hW_one, hW_2, hW_3, hW_4, hW_5, hW_6, hW_7, hW_8, hW_9, hW_10, hW_11, hW_12, hW_13, hW_14, hW_15, besTerm, bH0, polyEval, Nat.factorial]
    push_cast
    norm_num only
    ring
  rw [e2, sub_add_cancel_left, abs_neg]
  refine ht.trans ?_
  linarith

/-- thirteen terms of the power series in `x²` -/
def bH1 : List ℤ := [9016619834074437251393126400000, -2817693698148261641060352000000, 156538538786014535614464000000, -3831932980699314153062400000, 53402470262937250430976000, -482388726293707987353600, 3059126551841026867200, -14382212358950092800, 52158460866969600, -150398894131200, 353148846336, -688432992, 1132133]

theorem bH1_near {x : ℝ} (h : |x| ≤ 2) : |x * (polyEval bH1 (x ^ 2) / 36066479336297749005572505600000) - yS1 x| ≤ |x| * (1 / 10 ^ 19) := by
  unfold yS1
  have hs := wTerm_summable hA_bound 1 (x / 2)
  rw [← hs.sum_add_tsum_nat_add 13]
  have hh : (x / 2) ^ 2 ≤ 1 := by
    rw [← sq_abs, abs_div, Nat.abs_ofNat]
    have := abs_nonneg x
    exact pow_le_one₀ (by positivity) (by linarith)
  have ht := wTerm_tail hA_nonneg hA_double (n := 1) (M := 13) (by norm_num) hh
  have e : |wTerm hA 1 (x / 2) 13| ≤ |x| / 2 * (1158863 / 360360 / 542861032610856960000) := by
    unfold wTerm besTerm
    rw [abs_mul, abs_div, abs_mul, abs_pow, abs_neg, abs_one, one_pow, one_mul, pow_add, pow_mul, abs_mul, abs_pow, abs_of_nonneg (sq_nonneg (x / 2)), hA]
    simp only [Nat.reduceAdd, hW_13, hW_14]
    have := pow_le_one₀ (n := 13) (sq_nonneg (x / 2)) hh
    rw [abs_of_pos (a := ((Nat.factorial 13 : ℕ) : ℝ) * ((Nat.factorial (13 + 1) : ℕ) : ℝ)) (by positivity)]
    generalize ((x / 2) ^ 2) ^ 13 = y at *
    norm_num [Nat.factorial, abs_div] at this ⊢
    nlinarith [abs_nonneg x]
  have e2 : ∑ i ∈ Finset.range 13, wTerm hA 1 (x / 2) i = x * (polyEval bH1 (x ^ 2) / 36066479336297749005572505600000) := by
    simp only [Finset.sum_range_succ, Finset.sum_range_zero, wTerm, hA, Nat.reduceAdd, hW_zero, hW_one, hW_2, hW_3, hW_4, hW_5, hW_6, hW_7, hW_8, hW_9, hW_10, hW_11, hW_12, hW_13, hW_14, hW_15, besTerm, bH1, polyEval, Nat.factorial]
    push_cast
    norm_num only
    ring
  rw [e2, sub_add_cancel_left, abs_neg]
  refine ht.trans ?_
  nlinarith [abs_nonneg x]

theorem two_div_pi_near : |2 / π - 636619772367581343076 / 10 ^ 21| ≤ 1 / 10 ^ 19 := by
  have h1 := pi_gt_d20
  have h2 := pi_lt_d20
  have hp := pi_pos
  rw [abs_le]
  constructor
  · rw [neg_le_sub_iff_le_add, ← sub_le_iff_le_add, le_div_iff₀ hp]
    norm_num at h1 h2 ⊢
    linarith
  · rw [sub_le_iff_le_add, div_le_iff₀ hp]
    norm_num at h1 h2 ⊢
    linarith

theorem yConst_near : |2 / π * (eulerMascheroniConstant - log 2) - (-73804295108687225274) / 10 ^ 21| ≤ 1 / 10 ^ 18 := by
  have h1 := abs_le.1 euler_near
  have h2 := abs_le.1 log_two_near
  have h3 : |eulerMascheroniConstant - log 2 - (-115931515658412448810720) / 10 ^ 24| ≤ 11 / 10 ^ 19 := by
    rw [abs_le]
    norm_num at h1 h2 ⊢
    constructor <;> linarith [h1.1, h1.2, h2.1, h2.2]
  have h := abs_le.1 (mul_near two_div_pi_near h3)
  generalize 2 / π * (eulerMascheroniConstant - log 2) = v at *
  rw [abs_le]
  norm_num [abs_div] at h ⊢
  constructor <;> linarith [h.1, h.2]

theorem besselY_0_two_near : |besselY 0 2 - 510375672649745119596607 / 10 ^ 24| ≤ 1 / 10 ^ 17 := by
  have h1 := abs_le.1 (mul_near euler_near besselJ_0_two_near)
  have h2 := abs_le.1 yS0_two_near
  have h3 : |eulerMascheroniConstant * besselJ 0 2 - yS0 2 - 801696231883694215425974 / 10 ^ 24| ≤ 1 / 10 ^ 18 := by
    generalize eulerMascheroniConstant * besselJ 0 2 = v at *
    rw [abs_le]
    norm_num [abs_div] at h1 h2 ⊢
    constructor <;> linarith [h1.1, h1.2, h2.1, h2.2]
  have h := abs_le.1 (mul_near two_div_pi_near h3)
  simp only [besselY, show (2 : ℝ) / 2 = 1 by norm_num, log_one, zero_add]
  generalize 2 / π * (eulerMascheroniConstant * besselJ 0 2 - yS0 2) = v at *
  rw [abs_le]
  norm_num [abs_div] at h ⊢
  constructor <;> linarith [h.1, h.2]

theorem besselY_1_two_near : |besselY 1 2 - (-107032431540937546888371) / 10 ^ 24| ≤ 1 / 10 ^ 17 := by
  have h1 := abs_le.1 (mul_near euler_near besselJ_1_two_near)
  have h2 := abs_le.1 yS1_two_near
  have h3 : |eulerMascheroniConstant * besselJ 1 2 - 1 / 2 - yS1 2 - (-168126150312430935227705) / 10 ^ 24| ≤ 1 / 10 ^ 18 := by
    generalize eulerMascheroniConstant * besselJ 1 2 = v at *
    rw [abs_le]
    norm_num [abs_div] at h1 h2 ⊢
    constructor <;> linarith [h1.1, h1.2, h2.1, h2.2]
  have h := abs_le.1 (mul_near two_div_pi_near h3)
  simp only [besselY, show (2 : ℝ) / 2 = 1 by norm_num, log_one, zero_add]
  generalize 2 / π * (eulerMascheroniConstant * besselJ 1 2 - 1 / 2 - yS1 2) = v at *
  rw [abs_le]
  norm_num [abs_div] at h ⊢
  constructor <;> linarith [h.1, h.2]

theorem sin_quarter (x : ℝ) : sin (x - π / 2) = -cos x ∧ cos (x - π / 2) = sin x := ⟨sin_sub_pi_div_two x, cos_sub_pi_div_two x⟩

/-- the errors at 2 -/
theorem asyY_two : |asyA (π / 2) (rfEval bU02) (rfEval bG02) 2 - bessW besselY 0 (√π) 2| ≤ 1 / 10 ^ 15 ∧ |asyB (π / 2) (rfEval bU12) (rfEval bG12) 2 - bessW besselY 1 (√π) 2| ≤ 1 / 10 ^ 15 := by
  have hc := abs_le.1 cos_two_near
  have hs := abs_le.1 sin_two_near
  have hP : |-cos 2 + sin 2 - 1325444263372824082393588 / 10 ^ 24| ≤ 3 / 10 ^ 20 := by rw [abs_le]; constructor <;> linarith [hc.1, hc.2, hs.1, hs.2]
  have hD : |-cos 2 - sin 2 - (-493150590278539308398452) / 10 ^ 24| ≤ 3 / 10 ^ 20 := by rw [abs_le]; constructor <;> linarith [hc.1, hc.2, hs.1, hs.2]
  have k0 := mul_near sqrt_two_pi_near besselY_0_two_near
  have k1 := mul_near sqrt_two_pi_near besselY_1_two_near
  have a1 := mul_near bU02_at hP
  have a2 := mul_near bG02_at hD
  have b1 := mul_near bU12_at hD
  have b2 := mul_near bG12_at hP
  simp only [asyA, asyB, bessW, (sin_quarter 2).1, (sin_quarter 2).2, ← mul_assoc]
  rw [show (1 : ℝ) / 2 ^ 2 = 1 / 4 by norm_num, show ∀ a b : ℝ, a / 2 * b = a * b / 2 by intro a b; ring, show ∀ a b : ℝ, a / 2 * b = a * b / 2 by intro a b; ring]
  generalize rfEval bU02 (1 / 4) * (-cos 2 + sin 2) = v1 at *
  generalize rfEval bG02 (1 / 4) * (-cos 2 - sin 2) = v2 at *
  generalize rfEval bU12 (1 / 4) * (-cos 2 - sin 2) = v3 at *
  generalize rfEval bG12 (1 / 4) * (-cos 2 + sin 2) = v4 at *
  generalize √π * √2 * besselY 0 2 = v5 at *
  generalize √π * √2 * besselY 1 2 = v6 at *
  rw [abs_le] at a1 a2 b1 b2 k0 k1
  rw [abs_le, abs_le]
  norm_num [abs_div] at a1 a2 b1 b2 k0 k1 ⊢
  refine ⟨⟨?_, ?_⟩, ?_, ?_⟩ <;> linarith [a1.1, a1.2, a2.1, a2.2, b1.1, b1.2, b2.1, b2.2, k0.1, k0.2, k1.1, k1.2]

theorem besselY_two : asyEn besselY (π / 2) bU02 bG02 bU12 bG12 2 ≤ 4 / 10 ^ 30 := asyEn_two asyY_two

end Russell.Lab
