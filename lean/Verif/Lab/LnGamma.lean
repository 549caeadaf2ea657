import Verif.Lab.Gamma
import Verif.Lab.LnGammaCore

/-!
Property C112: the logarithm of the Gamma function of russell_lab (ln_gamma.rs:223-402).

The model evaluates the code in real arithmetic.
-/

namespace Russell.Lab

open Real Set

/-- the last part of `sin_pi_times_neg_x_given_abs_x` (ln_gamma.rs:391-401) -/
noncomputable def sinPiCases (n : ℤ) (xx : ℝ) : ℝ :=
  if n = 0 then -sin (π * xx)
  else if n = 1 ∨ n = 2 then -cos (π * (0.5 - xx))
  else if n = 3 ∨ n = 4 then -sin (π * (1 - xx))
  else if n = 5 ∨ n = 6 then cos (π * (xx - 1.5))
  else -sin (π * (xx - 2))

/-- `sin_pi_times_neg_x_given_abs_x` (ln_gamma.rs:364-402); `modulo(xx, 2.0)` is the remainder, the parity of the integer `xx` is read from the last bit of
`xx + 2^52` by the code -/
noncomputable def sinPiNeg (a : ℝ) : ℝ :=
  if a < 0.25 then -sin (π * a)
  else if (⌊a⌋ : ℝ) ≠ a then
    let xx := a - 2 * ⌊a / 2⌋
    sinPiCases ⌊xx * 4⌋ xx
  else if 2 ^ 53 ≤ a then sinPiCases 0 0
  else sinPiCases (4 * (⌊a⌋ % 2)) ((⌊a⌋ % 2 : ℤ) : ℝ)

/-- `Y_MIN` (ln_gamma.rs:171) -/
noncomputable def lgYmin : ℝ := 1.461632144968362245

/-- `lgamma` for `0 < xx < 2` (ln_gamma.rs:269-317) -/
noncomputable def lgSmall (xx : ℝ) : ℝ :=
  if xx ≤ 0.9 then
    if lgYmin - 1 + 0.27 ≤ xx then -log xx + lgF0 (1 - xx)
    else if lgYmin - 1 - 0.27 ≤ xx then -log xx + lgF1 (xx - (lgTC - 1))
    else -log xx + lgF2 xx
  else
    if lgYmin + 0.27 ≤ xx then 0 + lgF0 (2 - xx)
    else if lgYmin - 0.27 ≤ xx then 0 + lgF1 (xx - lgTC)
    else 0 + lgF2 (xx - 1)

/-- `lgamma` for `2 ≤ xx < 8` (ln_gamma.rs:318-342) -/
noncomputable def lgMiddle (xx : ℝ) : ℝ :=
  let i : ℤ := ⌊xx⌋
  let y := xx - i
  let z : ℝ := 1
  let z := if 7 ≤ i then z * (y + 6) else z
  let z := if 6 ≤ i then z * (y + 5) else z
  let z := if 5 ≤ i then z * (y + 4) else z
  let z := if 4 ≤ i then z * (y + 3) else z
  if 3 ≤ i then lgCore y + log (z * (y + 2)) else lgCore y

/-- `lgamma` for `8 ≤ xx` (ln_gamma.rs:343-354) -/
noncomputable def lgLarge (xx : ℝ) : ℝ :=
  if xx < 2 ^ 58 then (xx - 0.5) * (log xx - 1) + (4.18938533204672725052e-01 + lgW8 (1 / xx))
  else xx * (log xx - 1)

/-- `lgamma` (ln_gamma.rs:268-354) -/
noncomputable def lgPos (xx : ℝ) : ℝ :=
  if xx < 2 then lgSmall xx else if xx < 8 then lgMiddle xx else lgLarge xx

/-- `ln_gamma` (ln_gamma.rs:223-361); `none` is NaN -/
noncomputable def lnGammaF : FArg → Option EReal × ℤ
  | .nan => (none, 1)
  | .posInf => (some ⊤, 1)
  | .negInf => (some ⊥, 1)
  | .negZero => (some ⊤, 1)
  | .fin x =>
    if x = 0 then (some ⊤, 1)
    else if |x| < 1 / 2 ^ 70 then (some ((-log |x| : ℝ) : EReal), if x < 0 then -1 else 1)
    else if x < 0 then
      if 2 ^ 52 ≤ |x| then (some ⊤, 1)
      else
        let t := sinPiNeg |x|
        if t = 0 then (some ⊤, 1)
        else
          let sign := if t < 0 then -1 else 1
          if |x| = 1 ∨ |x| = 2 then (some 0, sign)
          else (some ((log (π / abs (t * |x|)) - lgPos |x| : ℝ) : EReal), sign)
    else if |x| = 1 ∨ |x| = 2 then (some 0, 1)
    else (some ((lgPos |x| : ℝ) : EReal), 1)

/-! ### the sine -/

theorem sin_shift_two (a : ℝ) (m : ℤ) : sin (π * (a - 2 * m)) = sin (π * a) := by
  have := sin_sub_int_mul_two_pi (π * a) m
  rw [← this]; congr 1; ring

/-- **`sin_pi_times_neg_x_given_abs_x(a)` is `sin(-πa)`** for every `a ≥ 0` -/
theorem C112_sin_pi {a : ℝ} (_ : 0 ≤ a) : sinPiNeg a = sin (π * -a) := by
  have key : ∀ (n : ℤ) (xx : ℝ), sinPiCases n xx = -sin (π * xx) := by
    intro n xx
    unfold sinPiCases
    split_ifs
    · rfl
    · rw [show π * (0.5 - xx) = π / 2 - π * xx by norm_num; ring, cos_pi_div_two_sub]
    · rw [show π * (1 - xx) = π - π * xx by ring, sin_pi_sub]
    · have e : π * (xx - 1.5) = π * xx + π / 2 - 2 * π := by norm_num; ring
      rw [e, cos_sub_two_pi, cos_add_pi_div_two]
    · rw [show π * (xx - 2) = π * xx - 2 * π by ring, sin_sub_two_pi]
  rw [mul_neg, sin_neg]
  unfold sinPiNeg
  split_ifs with h1 h2 h3
  · rfl
  · rw [key, sin_shift_two]
  · push Not at h2
    rw [key, ← h2, mul_comm π (⌊a⌋ : ℝ), sin_int_mul_pi]
    simp
  · push Not at h2
    rw [key]
    conv_rhs => rw [← h2, mul_comm π (⌊a⌋ : ℝ), sin_int_mul_pi]
    rw [mul_comm, sin_int_mul_pi]

example : sinPiNeg 0.5 = -1 := by
  rw [C112_sin_pi (by norm_num), show π * -0.5 = -(π / 2) by norm_num; ring, sin_neg, sin_pi_div_two]

/-! ### accuracy for positive arguments -/

theorem log_Gamma_succ {s : ℝ} (h : 0 < s) : log (Gamma (s + 1)) = log s + log (Gamma s) := by
  rw [Gamma_add_one h.ne', log_mul h.ne' (Gamma_pos_of_pos h).ne']

theorem lgCore_acc' {s : ℝ} (h0 : 1 ≤ s) (h1 : s ≤ 2) : |lgCore (s - 1) - (log s + log (Gamma s))| ≤ 5 / 10 ^ 17 := by
  have := lgCore_accurate (y := s - 1) (by linarith) (by linarith)
  rwa [show 2 + (s - 1) = s + 1 by ring, log_Gamma_succ (by linarith)] at this

theorem abs_combine {a b c d e1 e2 : ℝ} (h1 : |a - b + c| ≤ e1) (h2 : |b - (c + d)| ≤ e2) : |a - d| ≤ e1 + e2 := by
  have p1 := abs_le.1 h1
  have p2 := abs_le.1 h2
  rw [abs_le]; constructor <;> linarith

theorem case0_acc {s : ℝ} (h0 : 17316 / 10000 ≤ s) (h1 : s ≤ 2) : |lgF0 (2 - s) - log (Gamma s)| ≤ 16 / 10 ^ 17 := by
  have e := ln0Err_bound (y := 2 - s) (by linarith) (by norm_num at *; linarith)
  rw [show 1 - (2 - s) = s - 1 by ring, show 2 - (2 - s) = s by ring] at e
  refine (abs_combine e (lgCore_acc' (by norm_num at h0; linarith) h1)).trans ?_
  norm_num

theorem case1_acc {s : ℝ} (h0 : 12316 / 10000 ≤ s) (h1 : s ≤ 17317 / 10000) : |lgF1 (s - lgTC) - log (Gamma s)| ≤ 16 / 10 ^ 17 := by
  have e := ln1Err_bound (y := s - lgTC) (by unfold lgTC; norm_num at *; linarith) (by unfold lgTC; norm_num at *; linarith)
  rw [show lgTC - 1 + (s - lgTC) = s - 1 by ring, show lgTC + (s - lgTC) = s by ring] at e
  refine (abs_combine e (lgCore_acc' (by norm_num at h0; linarith) (by norm_num at h1; linarith))).trans ?_
  norm_num

theorem case1x_acc {s : ℝ} (h0 : 11916 / 10000 ≤ s) (h1 : s ≤ 12316 / 10000) : |lgF1 (s - lgTC) - log (Gamma s)| ≤ 72 / 10 ^ 16 := by
  have e := ln1Err_bound_x (y := s - lgTC) (by unfold lgTC; norm_num at *; linarith) (by unfold lgTC; norm_num at *; linarith)
  rw [show lgTC - 1 + (s - lgTC) = s - 1 by ring, show lgTC + (s - lgTC) = s by ring] at e
  refine (abs_combine e (lgCore_acc' (by norm_num at h0; linarith) (by norm_num at h1; linarith))).trans ?_
  norm_num

theorem case2_acc {s : ℝ} (h0 : 9 / 10 ≤ s) (h1 : s ≤ 12317 / 10000) : |lgF2 (s - 1) - log (Gamma s)| ≤ 7 / 10 ^ 17 := by
  rcases le_total 1 s with h | h
  · have e := ln2Err_bound (y := s - 1) (by linarith) (by norm_num at *; linarith)
    rw [show 1 + (s - 1) = s by ring] at e
    refine (abs_combine e (lgCore_acc' h (by norm_num at h1; linarith))).trans ?_
    norm_num
  · have e := ln3Err_bound (y := s - 1) (by norm_num at *; linarith) (by linarith)
    have hs : 0 < s := by norm_num at h0; linarith
    have c := lgCore_accurate hs.le h
    rw [show 1 + (s - 1) = s by ring, show 2 + (s - 1) = s + 1 by ring] at e
    have e2 : log (Gamma (2 + s)) = log (s * (s + 1)) + log (Gamma s) := by
      rw [show 2 + s = s + 1 + 1 by ring, log_Gamma_succ (by linarith), log_Gamma_succ hs, log_mul hs.ne' (by linarith)]
      ring
    rw [e2] at c
    refine (abs_combine e c).trans ?_
    norm_num

/-- the arguments at which `ln_gamma` uses the polynomial of the minimum outside its domain -/
def LgGap (x : ℝ) : Prop := (11916 / 10000 ≤ x ∧ x < 12316 / 10000) ∨ (1916 / 10000 ≤ x ∧ x < 2316 / 10000)

theorem lgSmall_acc {x : ℝ} (h0 : 0 < x) (h2 : x < 2) : |lgSmall x - log (Gamma x)| ≤ 72 / 10 ^ 16 ∧ (¬ LgGap x → |lgSmall x - log (Gamma x)| ≤ 16 / 10 ^ 17) := by
  have mono : ∀ {v : ℝ}, |v| ≤ 16 / 10 ^ 17 → |v| ≤ 72 / 10 ^ 16 ∧ (¬ LgGap x → |v| ≤ 16 / 10 ^ 17) := fun hv => ⟨hv.trans (by norm_num), fun _ => hv⟩
  have l27 : (0.27 : ℝ) = 27 / 100 := by norm_num
  have l9 : (0.9 : ℝ) = 9 / 10 := by norm_num
  have ly : 1461632 / 1000000 ≤ lgYmin := by unfold lgYmin; norm_num
  have ly2 : lgYmin ≤ 1461633 / 1000000 := by unfold lgYmin; norm_num
  have hred : ∀ f : ℝ, -log x + f - log (Gamma x) = f - log (Gamma (x + 1)) := fun f => by rw [log_Gamma_succ h0]; ring
  unfold lgSmall
  rw [l27, l9]
  split_ifs with h9 ha hb ha hb
  · rw [hred]
    have := case0_acc (s := x + 1) (by linarith) (by linarith)
    rw [show 2 - (x + 1) = 1 - x by ring] at this
    exact mono this
  · rw [hred]
    rw [show x - (lgTC - 1) = x + 1 - lgTC by ring]
    rcases lt_or_ge (x + 1) (12316 / 10000) with hg | hg
    · refine ⟨case1x_acc (by linarith) hg.le, fun hn => absurd (Or.inr ⟨by linarith, by linarith⟩) hn⟩
    · exact mono (case1_acc hg (by linarith))
  · rw [hred]
    have := case2_acc (s := x + 1) (by linarith) (by linarith)
    rw [show x + 1 - 1 = x by ring] at this
    exact mono (this.trans (by norm_num))
  · rw [zero_add]
    exact mono (case0_acc (by linarith) h2.le)
  · rw [zero_add]
    rcases lt_or_ge x (12316 / 10000) with hg | hg
    · refine ⟨case1x_acc (by linarith) hg.le, fun hn => absurd (Or.inl ⟨by linarith, by linarith⟩) hn⟩
    · exact mono (case1_acc hg (by linarith))
  · rw [zero_add]
    exact mono ((case2_acc (by linarith) (by linarith)).trans (by norm_num))

theorem lgMiddle_acc {x : ℝ} (h0 : 2 ≤ x) (h1 : x < 8) : |lgMiddle x - log (Gamma x)| ≤ 16 / 10 ^ 17 := by
  obtain ⟨i, hi⟩ : ∃ i : ℤ, i = ⌊x⌋ := ⟨_, rfl⟩
  obtain ⟨y, hy⟩ : ∃ y, y = x - i := ⟨_, rfl⟩
  have f1 := Int.floor_le x
  have f2 := Int.lt_floor_add_one x
  rw [← hi] at f1 f2
  have hy0 : 0 ≤ y := by linarith
  have hy1 : y ≤ 1 := by linarith
  have hi1 : 2 ≤ i := by rw [hi]; exact Int.le_floor.2 (by exact_mod_cast h0)
  have hi2 : i < 8 := by
    have : (i : ℝ) < 8 := by linarith
    exact_mod_cast this
  have hx : x = i + y := by linarith
  have hc := lgCore_accurate hy0 hy1
  have hG : 0 < Gamma (2 + y) := Gamma_pos_of_pos (by linarith)
  have hstep : ∀ {k : ℝ} {z : ℝ}, 0 < z → 2 ≤ k → log (Gamma (k + y)) = log z + log (Gamma (2 + y)) →
      log (Gamma (k + 1 + y)) = log (z * (y + k)) + log (Gamma (2 + y)) := by
    intro k z hz hk h
    rw [show k + 1 + y = (k + y) + 1 by ring, log_Gamma_succ (by linarith), h, log_mul hz.ne' (by linarith), add_comm k y]
    ring
  suffices h : lgMiddle x - log (Gamma x) = lgCore y - log (Gamma (2 + y)) by
    rw [h]; exact hc.trans (by norm_num)
  have g2 : log (Gamma (2 + y)) = log 1 + log (Gamma (2 + y)) := by rw [log_one, zero_add]
  have g3 := hstep one_pos le_rfl g2
  have g4 := hstep (k := 2 + 1) (by positivity) (by norm_num) g3
  have g5 := hstep (k := 2 + 1 + 1) (by positivity) (by norm_num) g4
  have g6 := hstep (k := 2 + 1 + 1 + 1) (by positivity) (by norm_num) g5
  have g7 := hstep (k := 2 + 1 + 1 + 1 + 1) (by positivity) (by norm_num) g6
  unfold lgMiddle
  dsimp only
  rw [← hi, ← hy]
  norm_num at g3 g4 g5 g6 g7
  interval_cases i
  · rw [hx]; norm_num
  · rw [hx]; norm_num; rw [g3]; ring
  · rw [hx]; norm_num; rw [g4]
    ring_nf
  · rw [hx]; norm_num; rw [g5]
    ring_nf
  · rw [hx]; norm_num; rw [g6]
    ring_nf
  · rw [hx]; norm_num; rw [g7]
    ring_nf

/-- `log(2π)` -/
theorem log_two_pi_near : |log (2 * π) - 18378770664093454835606 / 10 ^ 22| ≤ 1 / 10 ^ 18 := by
  have p1 := Real.pi_gt_d20
  have p2 := Real.pi_lt_d20
  have hp := Real.pi_pos
  have l2 := log_two_near
  have hs := abs_log_sub_add_sum_range_le (x := 3105385374063061951636515 / 10 ^ 26) (by rw [abs_of_pos] <;> norm_num) 14
  have e : 3 * log (2 * π) = 8 * log 2 + log (1 - 3105385374063061951636515 / 10 ^ 26) + log (π ^ 3 / 32 / (1 - 3105385374063061951636515 / 10 ^ 26)) := by
    rw [log_div (by positivity) (by norm_num), log_div (by positivity) (by norm_num), log_pow, log_mul (by norm_num) hp.ne',
      show (32 : ℝ) = 2 ^ 5 by norm_num, log_pow]
    push_cast
    ring
  have ht := abs_log_le (t := π ^ 3 / 32 / (1 - 3105385374063061951636515 / 10 ^ 26)) (e := 1 / 10 ^ 19) (by norm_num) (by
    have c1 : (3.14159265358979323846 : ℝ) ^ 3 ≤ π ^ 3 := by gcongr
    have c2 : π ^ 3 ≤ (3.14159265358979323847 : ℝ) ^ 3 := by gcongr
    rw [abs_le, neg_le_sub_iff_le_add, sub_le_iff_le_add, div_div, div_le_iff₀ (by norm_num)]
    refine ⟨?_, ?_⟩
    · have : 1 - 1 / 10 ^ 19 ≤ π ^ 3 / (32 * (1 - 3105385374063061951636515 / 10 ^ 26)) := by
        rw [le_div_iff₀ (by norm_num)]
        norm_num at *
        linarith
      linarith
    · norm_num at *
      linarith)
  have hpow : |(3105385374063061951636515 : ℝ) / 10 ^ 26| ^ (14 + 1) / (1 - |(3105385374063061951636515 : ℝ) / 10 ^ 26|) ≤ 1 / 10 ^ 20 := by
    rw [abs_of_pos (by norm_num)]; norm_num
  have hsum : |(∑ i ∈ Finset.range 14, ((3105385374063061951636515 : ℝ) / 10 ^ 26) ^ (i + 1) / (i + 1)) - 315462452515260246558 / 10 ^ 22| ≤ 1 / 10 ^ 21 := by
    simp only [Finset.sum_range_succ, Finset.sum_range_zero, abs_le]
    norm_num
  have hs' := hs.trans hpow
  generalize (∑ i ∈ Finset.range 14, ((3105385374063061951636515 : ℝ) / 10 ^ 26) ^ (i + 1) / ((i : ℝ) + 1)) = S at *
  generalize log (π ^ 3 / 32 / (1 - 3105385374063061951636515 / 10 ^ 26)) = T at *
  generalize log (1 - 3105385374063061951636515 / 10 ^ 26) = V at *
  generalize log 2 = l at *
  generalize log (2 * π) = w at *
  obtain ⟨a1, a2⟩ := abs_le.1 l2
  obtain ⟨b1, b2⟩ := abs_le.1 ht
  obtain ⟨c1, c2⟩ := abs_le.1 hs'
  obtain ⟨d1, d2⟩ := abs_le.1 hsum
  clear hs hs' ht hsum l2 p1 p2 hp hpow
  rw [abs_le]
  norm_num at *
  constructor <;> linarith

theorem lgLarge_acc {x : ℝ} (h0 : 8 ≤ x) (h1 : x < 2 ^ 58) : |lgLarge x - log (Gamma x)| ≤ 16 / 10 ^ 17 := by
  have hw := lgW8_accurate h0
  have hp := log_two_pi_near
  unfold lgLarge
  rw [if_pos h1, one_div]
  unfold stirMu at hw
  generalize lgW8 x⁻¹ = w at *
  generalize log (2 * π) = l at *
  generalize log (Gamma x) = g at *
  obtain ⟨a1, a2⟩ := abs_le.1 hw
  obtain ⟨b1, b2⟩ := abs_le.1 hp
  have e : (x - 0.5) * (log x - 1) + (4.18938533204672725052e-01 + w) - g
      = (w - (g - ((x - 1 / 2) * log x - x + l / 2))) - (l / 2 - 18378770664093454835606 / (2 * 10 ^ 22)) + (4.18938533204672725052e-01 + 1 / 2 - 18378770664093454835606 / (2 * 10 ^ 22)) := by
    ring
  rw [e, abs_le]
  generalize w - (g - ((x - 1 / 2) * log x - x + l / 2)) = k at *
  clear hw hp e
  norm_num at *
  constructor <;> linarith

/-- for `x ≥ 2^58` the relative error is below `2^-57` -/
theorem lgHuge_acc {x : ℝ} (h : 2 ^ 58 ≤ x) : |lgLarge x - log (Gamma x)| ≤ 1 / 2 ^ 57 * log (Gamma x) := by
  have hx0 : 0 < x := lt_of_lt_of_le (by norm_num) h
  unfold lgLarge
  rw [if_neg (not_lt.2 h)]
  have h5 := stirMu_lt_5 hx0
  have h6 := stirMu_gt_6 hx0
  have hl : 4 ≤ log x := by
    rw [le_log_iff_exp_le hx0]
    have : exp 4 ≤ 2 ^ 58 := by
      have e1 := exp_one_lt_d9
      have : exp 4 = exp 1 ^ 4 := by rw [← exp_nat_mul]; norm_num
      rw [this]
      have : exp 1 ^ 4 ≤ 3 ^ 4 := by gcongr; linarith
      linarith
    linarith
  have hmu : |stirMu x| ≤ 1 := by
    have hi : x⁻¹ ≤ 1 := inv_le_one_of_one_le₀ (by linarith)
    have hi0 : 0 ≤ x⁻¹ := by positivity
    have hpw : ∀ k : ℕ, 0 ≤ x⁻¹ ^ k ∧ x⁻¹ ^ k ≤ 1 := fun k => ⟨by positivity, pow_le_one₀ hi0 hi⟩
    simp only [stirCoef, List.take_succ_cons, List.take_zero, invSum] at h5 h6
    have q := hpw (0 + 1)
    have q3 := hpw (0 + 2 + 1)
    have q5 := hpw (0 + 2 + 2 + 1)
    have q7 := hpw (0 + 2 + 2 + 2 + 1)
    have q9 := hpw (0 + 2 + 2 + 2 + 2 + 1)
    have q11 := hpw (0 + 2 + 2 + 2 + 2 + 2 + 1)
    rw [abs_le]
    constructor <;> linarith
  have hp := log_two_pi_near
  obtain ⟨b1, b2⟩ := abs_le.1 hp
  obtain ⟨m1, m2⟩ := abs_le.1 hmu
  unfold stirMu at m1 m2
  generalize log (Gamma x) = g at *
  generalize log (2 * π) = l at *
  norm_num at b1 b2
  have hxl : x * 3 ≤ x * (log x - 1) := by gcongr; linarith
  have hkey : log x ≤ x * (log x - 1) / 2 ^ 57 - log x / 2 ^ 57 := by
    have : (2 : ℝ) ^ 58 * (log x - 1) ≤ x * (log x - 1) := mul_le_mul_of_nonneg_right h (by linarith)
    norm_num at *
    linarith
  rw [abs_le]
  norm_num at *
  constructor <;> linarith

theorem lgPos_acc {x : ℝ} (h0 : 0 < x) (h1 : x < 2 ^ 58) : |lgPos x - log (Gamma x)| ≤ 72 / 10 ^ 16 ∧ (¬ LgGap x → |lgPos x - log (Gamma x)| ≤ 16 / 10 ^ 17) := by
  have mono : ∀ {v : ℝ}, |v| ≤ 16 / 10 ^ 17 → |v| ≤ 72 / 10 ^ 16 ∧ (¬ LgGap x → |v| ≤ 16 / 10 ^ 17) := fun hv => ⟨hv.trans (by norm_num), fun _ => hv⟩
  unfold lgPos
  split_ifs with h2 h8
  · exact lgSmall_acc h0 h2
  · exact mono (lgMiddle_acc (not_lt.1 h2) h8)
  · exact mono (lgLarge_acc (not_lt.1 h8) h1)

/-- the value at a negative argument -/
theorem log_abs_Gamma_neg {q : ℝ} (h0 : 0 < q) (hq : ∀ n : ℤ, q ≠ n) : log |Gamma (-q)| = log (π / abs (sin (π * -q) * q)) - log (Gamma q) := by
  have hs := sin_ne_zero_of hq
  have hG := Gamma_pos_of_pos h0
  have hg : |gaSign q| = 1 := by unfold gaSign; split <;> simp
  have hz : |gaZ q| = abs (sin (π * -q) * q) := by
    rw [gaZ_abs h0, mul_neg, sin_neg, abs_mul, abs_neg, abs_of_pos h0, mul_comm]
  have hzp : 0 < |gaZ q| := by
    rw [gaZ_abs h0]
    have := abs_pos.2 hs
    positivity
  rw [Gamma_neg_eq h0 hq, abs_mul, hg, one_mul, ← hz, abs_of_pos (by have := pi_pos; positivity), ← log_div (by have := pi_pos; positivity) hG.ne', div_div]

theorem sign_Gamma_neg {q : ℝ} (h0 : 0 < q) (hq : ∀ n : ℤ, q ≠ n) : (sin (π * -q) < 0 ↔ Gamma (-q) < 0) := by
  have hs := sin_ne_zero_of hq
  have hG := Gamma_pos_of_pos h0
  have e := sin_gaSign q
  have ha := abs_pos.2 hs
  have hzp : 0 < |gaZ q| := by rw [gaZ_abs h0]; positivity
  have hp := pi_pos
  have hv : 0 < π / (|gaZ q| * Gamma q) := by positivity
  rw [Gamma_neg_eq h0 hq, mul_neg, sin_neg, e, neg_mul, neg_neg]
  unfold gaSign
  split
  · simp only [neg_mul, one_mul, neg_lt_zero]
    exact ⟨fun _ => hv, fun _ => ha⟩
  · simp only [one_mul]
    exact ⟨fun h => absurd h (not_lt.2 ha.le), fun h => absurd h (not_lt.2 hv.le)⟩

theorem signCast {x : ℝ} (h : Gamma x ≠ 0) : SignType.sign (Gamma x) = (if Gamma x < 0 then -1 else 1 : SignType) := by
  split_ifs with hn
  · exact sign_neg hn
  · exact sign_pos (lt_of_le_of_ne (not_lt.1 hn) h.symm)

/-- **accuracy and sign of `ln_gamma`**: for `|x| < 2^58` (`x > -2^52`) apart from the nonpositive integers the result is `log |Γ(x)|` with an absolute error of at
most `1.6e-16` (of `7.2e-15` where the polynomial of the minimum is used outside its domain) and the sign is the one of `Γ(x)` -/
theorem C112_ln_gamma_accurate {x : ℝ} (hx : ∀ m : ℕ, x ≠ -m) (h1 : x < 2 ^ 58) (h2 : -2 ^ 52 < x) (ht : 1 / 2 ^ 70 ≤ |x|) :
    ∃ r : ℝ, lnGammaF (.fin x) = (some (r : EReal), if Gamma x < 0 then -1 else 1) ∧ abs (r - log |Gamma x|) ≤ 72 / 10 ^ 16
      ∧ (¬ LgGap |x| → abs (r - log |Gamma x|) ≤ 16 / 10 ^ 17) := by
  have hx0 : x ≠ 0 := by simpa using hx 0
  rw [lnGammaF, if_neg hx0, if_neg (not_lt.2 ht)]
  rcases lt_or_ge x 0 with hn | hn
  · have habs : |x| = -x := abs_of_neg hn
    obtain ⟨q, hq⟩ : ∃ q, q = -x := ⟨_, rfl⟩
    have hxq : x = -q := by linarith
    have hqi : ∀ n : ℤ, q ≠ n := by rw [hq]; exact not_int_of hx hn
    have hq0 : 0 < q := by linarith
    have hs : sin (π * -q) ≠ 0 := by rw [mul_neg, sin_neg]; exact neg_ne_zero.2 (sin_ne_zero_of hqi)
    rw [if_pos hn, if_neg (by rw [habs]; linarith)]
    dsimp only
    have hp := lgPos_acc hq0 (by linarith)
    rw [habs, ← hq, C112_sin_pi hq0.le, if_neg hs, if_neg (by
      rintro (h | h)
      · exact hqi 1 (by exact_mod_cast h)
      · exact hqi 2 (by exact_mod_cast h))]
    refine ⟨log (π / abs (sin (π * -q) * q)) - lgPos q, ?_, ?_⟩
    · rw [hxq]
      simp only [sign_Gamma_neg hq0 hqi]
    · have e : log (π / abs (sin (π * -q) * q)) - lgPos q - log |Gamma x| = -(lgPos q - log (Gamma q)) := by
        rw [hxq, log_abs_Gamma_neg hq0 hqi]; ring
      rw [e, abs_neg]
      exact hp
  · have hpos : 0 < x := lt_of_le_of_ne hn hx0.symm
    have hG := Gamma_pos_of_pos hpos
    have hp := lgPos_acc hpos h1
    rw [if_neg (not_lt.2 hn), abs_of_pos hpos, if_neg (not_lt.2 hG.le), abs_of_pos hG]
    split_ifs with h12
    · refine ⟨0, rfl, ?_⟩
      have : Gamma x = 1 := by
        rcases h12 with h | h
        · rw [h, Gamma_one]
        · rw [h, Gamma_two]
      rw [this]; norm_num
    · exact ⟨lgPos x, rfl, hp⟩

example : ∃ r : ℝ, lnGammaF (.fin (-5 / 2)) = (some (r : EReal), if Gamma (-5 / 2) < 0 then -1 else 1) ∧ abs (r - log |Gamma (-5 / 2)|) ≤ 16 / 10 ^ 17 := by
  have e : |(-5 / 2 : ℝ)| = 5 / 2 := by rw [abs_of_neg] <;> norm_num
  obtain ⟨r, h1, -, h2⟩ := C112_ln_gamma_accurate (x := -5 / 2) (fun m hm => by
    have h2 : (5 : ℝ) = 2 * m := by linarith
    have h3 : 5 = 2 * m := by exact_mod_cast h2
    omega) (by norm_num) (by norm_num) (by rw [e]; norm_num)
  exact ⟨r, h1, h2 (by rw [e]; rintro (h | h) <;> norm_num at h)⟩

/-- **tiny arguments**: below `2^-70` the result `-log |x|` is accurate to `2^-69` -/
theorem C112_ln_gamma_tiny {x : ℝ} (h0 : x ≠ 0) (h : |x| < 1 / 2 ^ 70) :
    ∃ r : ℝ, lnGammaF (.fin x) = (some (r : EReal), if Gamma x < 0 then -1 else 1) ∧ abs (r - log |Gamma x|) ≤ 1 / 2 ^ 69 := by
  have h9 : |x| < 1 / 10 ^ 9 := h.trans (by norm_num)
  have h' := abs_lt.1 (h9.trans (by norm_num : (1 : ℝ) / 10 ^ 9 < 1))
  have hG1 : Gamma (1 + x) = x * Gamma x := by rw [add_comm, Gamma_add_one h0]
  have hGp : 0 < Gamma (1 + x) := Gamma_pos_of_pos (by linarith)
  have ht := gaTiny h9 h0
  have g1 := one_half_lt_eulerMascheroniConstant
  have g2 := eulerMascheroniConstant_lt_two_thirds
  have hx2 : x ^ 2 ≤ 1 / 10 ^ 9 * |x| := by
    rw [← sq_abs, sq]
    exact mul_le_mul_of_nonneg_right h9.le (abs_nonneg x)
  generalize eulerMascheroniConstant = γ at *
  have hγ : |γ * x| ≤ 2 / 3 * |x| := by
    rw [abs_mul, abs_of_pos (by linarith : 0 < γ)]
    exact mul_le_mul_of_nonneg_right g2.le (abs_nonneg x)
  have l1 := abs_log_le (e := 3 * x ^ 2) (by norm_num at h9; nlinarith [abs_nonneg x]) ht
  have l2 := abs_log_le (t := 1 + γ * x) (e := 2 / 3 * |x|) (by norm_num at h9; linarith) (by rwa [add_sub_cancel_left])
  have hpos : 0 < 1 + γ * x := by
    have := (abs_le.1 hγ).1
    norm_num at h9
    linarith
  rw [log_mul hpos.ne' hGp.ne'] at l1
  have hsplit : log |Gamma x| = log (Gamma (1 + x)) - log |x| := by
    have : |Gamma x| = Gamma (1 + x) / |x| := by
      rw [eq_div_iff (abs_ne_zero.2 h0), ← abs_mul, mul_comm, ← hG1, abs_of_pos hGp]
    rw [this, log_div hGp.ne' (abs_ne_zero.2 h0)]
  refine ⟨-log |x|, ?_, ?_⟩
  · rw [lnGammaF, if_neg h0, if_pos h]
    have : (x < 0) ↔ (Gamma x < 0) := by
      rw [hG1] at hGp
      constructor
      · intro hx
        by_contra hg
        have := mul_nonpos_of_nonpos_of_nonneg hx.le (not_lt.1 hg)
        linarith
      · intro hg
        by_contra hx
        have : 0 < x := lt_of_le_of_ne (not_lt.1 hx) h0.symm
        nlinarith
    simp only [this]
  · rw [hsplit, show -log |x| - (log (Gamma (1 + x)) - log |x|) = -log (Gamma (1 + x)) by ring, abs_neg]
    have p1 := abs_le.1 l1
    have p2 := abs_le.1 l2
    rw [abs_le]
    norm_num at *
    constructor <;> linarith

example : (1e-30 : ℝ) ≠ 0 ∧ |(1e-30 : ℝ)| < 1 / 2 ^ 70 := by
  rw [abs_of_pos (by norm_num)]; norm_num

/-- **huge arguments**: from `2^58` on the relative error is below `2^-57` -/
theorem C112_ln_gamma_huge {x : ℝ} (h : 2 ^ 58 ≤ x) :
    ∃ r : ℝ, lnGammaF (.fin x) = (some (r : EReal), 1) ∧ |r - log (Gamma x)| ≤ 1 / 2 ^ 57 * log (Gamma x) := by
  have hx : 0 < x := lt_of_lt_of_le (by norm_num) h
  refine ⟨lgPos x, ?_, ?_⟩
  · rw [lnGammaF, if_neg hx.ne', abs_of_pos hx, if_neg (by norm_num at *; linarith), if_neg (by linarith), if_neg (by rintro (h' | h') <;> norm_num at * <;> linarith)]
  · rw [lgPos, if_neg (by norm_num at *; linarith), if_neg (by norm_num at *; linarith)]
    exact lgHuge_acc h

/-- **deviation**: the code compares with `Y_MIN - 0.27` where the comment (and the original) have `Y_MIN - 0.23`. At `x = 1.192` the polynomial of the minimum is wrong by
more than `4.8e-15`, 30 times the bound of the other arguments, while the polynomial meant for `x < 1.2316` is accurate to `7e-17` there -/
theorem C112_threshold_counterexample : (∃ r : ℝ, lnGammaF (.fin 1.192) = (some (r : EReal), 1) ∧ 48 / 10 ^ 16 ≤ r - log (Gamma 1.192))
    ∧ ∀ s : ℝ, 9 / 10 ≤ s → s ≤ 1.2317 → |lgF2 (s - 1) - log (Gamma s)| ≤ 7 / 10 ^ 17 := by
  refine ⟨⟨lgF1 (1192 / 1000 - lgTC), ?_, ?_⟩, fun s h1 h2 => case2_acc h1 (by norm_num at *; linarith)⟩
  · rw [lnGammaF, if_neg (by norm_num), abs_of_pos (by norm_num), if_neg (by norm_num), if_neg (by norm_num), if_neg (by norm_num), lgPos, if_pos (by norm_num), lgSmall,
      if_neg (by norm_num), if_neg (by unfold lgYmin; norm_num), if_pos (by unfold lgYmin; norm_num), zero_add]
    norm_num
  · have h1 := ln12_apart
    have h2 := case2_acc (s := 1.192) (by norm_num) (by norm_num)
    rw [show (1.192 - 1 : ℝ) = 192 / 1000 by norm_num] at h2
    have := (abs_le.1 h2).1
    generalize lgF1 (1192 / 1000 - lgTC) = a at *
    generalize lgF2 (192 / 1000) = b at *
    generalize log (Gamma 1.192) = c at *
    norm_num at *
    linarith

/-- **special cases**: exactly the documented ones -/
theorem C112_ln_gamma_special : lnGammaF .nan = (none, 1) ∧ lnGammaF .posInf = (some ⊤, 1) ∧ lnGammaF .negInf = (some ⊥, 1) ∧ lnGammaF .negZero = (some ⊤, 1)
    ∧ (∀ m : ℕ, lnGammaF (.fin (-m)) = (some ⊤, 1)) ∧ lnGammaF (.fin 1) = (some 0, 1) ∧ lnGammaF (.fin 2) = (some 0, 1) := by
  refine ⟨rfl, rfl, rfl, rfl, fun m => ?_, ?_, ?_⟩
  · rcases Nat.eq_zero_or_pos m with rfl | hm
    · simp [lnGammaF]
    · have hm1 : (1 : ℝ) ≤ m := by exact_mod_cast hm
      rw [lnGammaF, if_neg (by linarith), abs_neg, abs_of_pos (by linarith), if_neg (by norm_num; linarith), if_pos (by linarith)]
      by_cases h : (2 : ℝ) ^ 52 ≤ m
      · rw [if_pos h]
      · rw [if_neg h]
        dsimp only
        have hz : sinPiNeg (m : ℝ) = 0 := by rw [C112_sin_pi (by linarith), mul_neg, sin_neg, mul_comm, sin_nat_mul_pi, neg_zero]
        rw [if_pos hz]
  · rw [lnGammaF, if_neg (by norm_num), abs_one, if_neg (by norm_num), if_neg (by norm_num), if_pos (Or.inl rfl)]
  · rw [lnGammaF, if_neg (by norm_num), abs_two, if_neg (by norm_num), if_neg (by norm_num), if_pos (Or.inr rfl)]

end Russell.Lab
