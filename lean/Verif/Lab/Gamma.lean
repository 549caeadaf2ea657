import Verif.Lab.GammaStir
import Mathlib.NumberTheory.Harmonic.GammaDeriv
import Mathlib.Data.EReal.Operations
import Mathlib.Data.EReal.Inv

/-!
Property C111: the Gamma function of russell_lab (gamma.rs:65-210).

The model evaluates the code in real arithmetic, the constant `EULER` is the Euler-Mascheroni constant and `PI` is `π`.
-/

namespace Russell.Lab

open Real Set

/-- an argument: a number (with `+0`), `-0`, `NaN` or an infinity -/
inductive FArg where
  | nan
  | posInf
  | negInf
  | negZero
  | fin (x : ℝ)

/-- `stirling` (gamma.rs:65-84), a pair of factors -/
noncomputable def gaStirling (x : ℝ) : EReal × EReal :=
  if 200 < x then (⊤, 1)
  else if 143.01608 < x then
    ((x ^ (0.5 * x - 0.25) : ℝ), (2.506628274631000502417 * gsPoly (1 / x) * (x ^ (0.5 * x - 0.25) / exp x) : ℝ))
  else ((x ^ (x - 0.5) / exp x : ℝ), (2.506628274631000502417 * gsPoly (1 / x) * 1 : ℝ))

/-- the loop `while xx >= 3.0` (gamma.rs:173-176) -/
noncomputable def gaDown (xx z : ℝ) : ℝ × ℝ :=
  if 3 ≤ xx then gaDown (xx - 1) (z * (xx - 1)) else (xx, z)
termination_by ⌊xx⌋₊
decreasing_by
  rw [Nat.floor_sub_one]
  have : 0 < ⌊xx⌋₊ := Nat.floor_pos.2 (by linarith)
  omega

/-- a loop with a `return` in its body -/
inductive GaRet where
  | done (v : EReal)
  | go (xx z : ℝ)

/-- the loop `while xx < 0.0` (gamma.rs:178-187) -/
noncomputable def gaUpNeg (xx z : ℝ) : GaRet :=
  if xx < 0 then
    if -(1 / 10 ^ 9) < xx then
      if xx = 0 then .done ⊤ else .done (z / ((1 + eulerMascheroniConstant * xx) * xx) : ℝ)
    else gaUpNeg (xx + 1) (z / xx)
  else .go xx z
termination_by ⌊3 - xx⌋₊
decreasing_by
  rw [show 3 - (xx + 1) = 3 - xx - 1 by ring, Nat.floor_sub_one]
  have : 0 < ⌊3 - xx⌋₊ := Nat.floor_pos.2 (by linarith)
  omega

/-- the loop `while xx < 2.0` (gamma.rs:189-198) -/
noncomputable def gaUp (xx z : ℝ) : GaRet :=
  if xx < 2 then
    if xx < 1 / 10 ^ 9 then
      if xx = 0 then .done ⊤ else .done (z / ((1 + eulerMascheroniConstant * xx) * xx) : ℝ)
    else gaUp (xx + 1) (z / xx)
  else .go xx z
termination_by ⌊3 - xx⌋₊
decreasing_by
  rw [show 3 - (xx + 1) = 3 - xx - 1 by ring, Nat.floor_sub_one]
  have : 0 < ⌊3 - xx⌋₊ := Nat.floor_pos.2 (by linarith)
  omega

/-- the last part of `gamma` (gamma.rs:200-209) -/
noncomputable def gaTail (xx z : ℝ) : EReal :=
  if xx = 2 then (z : EReal) else (z * gaP (xx - 2) / gaQ (xx - 2) : ℝ)

/-- the reduction of the argument and the rest of `gamma` (gamma.rs:170-209), beginning with `xx` and `z` -/
noncomputable def gaReduce (xx z : ℝ) : EReal :=
  match gaUpNeg (gaDown xx z).1 (gaDown xx z).2 with
  | .done v => v
  | .go xx z =>
    match gaUp xx z with
    | .done v => v
    | .go xx z => gaTail xx z

/-- `sign_gam` (gamma.rs:142-146) -/
noncomputable def gaSign (q : ℝ) : ℝ := if ⌊q⌋ % 2 = 0 then -1 else 1

/-- `z` (gamma.rs:147-152) -/
noncomputable def gaZ (q : ℝ) : ℝ :=
  let z := q - ⌊q⌋
  let z := if 0.5 < z then q - (⌊q⌋ + 1) else z
  q * sin (π * z)

/-- `gamma` (gamma.rs:117-210); `none` is NaN -/
noncomputable def gammaF : FArg → Option EReal
  | .nan => none
  | .negInf => none
  | .posInf => some ⊤
  | .negZero => some ⊥
  | .fin x =>
    open Classical in
    if ∃ n : ℕ, x = -(n + 1) then none
    else if x = 0 then some ⊤
    else if 33 < |x| then
      if 0 ≤ x then some ((gaStirling x).1 * (gaStirling x).2)
      else
        let z := gaZ |x|
        if z = 0 then some ((gaSign |x| : EReal) * ⊤)
        else
          let d := (|z| : ℝ) * (gaStirling |x|).1 * (gaStirling |x|).2
          if d = ⊤ then some ((gaSign |x| : EReal) * (((π / |z| : ℝ) : EReal) / (gaStirling |x|).1 / (gaStirling |x|).2))
          else some ((gaSign |x| : EReal) * ((π : EReal) / d))
    else some (gaReduce x 1)

/-! ### the reduction -/

theorem gaDown_lt {xx : ℝ} (h : xx < 3) (z : ℝ) : gaDown xx z = (xx, z) := by
  rw [gaDown, if_neg (by linarith)]

theorem gaReduce_down {xx : ℝ} (h : 3 ≤ xx) (z : ℝ) : gaReduce xx z = gaReduce (xx - 1) (z * (xx - 1)) := by
  unfold gaReduce
  rw [gaDown, if_pos h]

theorem gaReduce_neg {xx : ℝ} (h : xx ≤ -(1 / 10 ^ 9)) (z : ℝ) : gaReduce xx z = gaReduce (xx + 1) (z / xx) := by
  have h0 : xx < 0 := by norm_num at h; linarith
  unfold gaReduce
  rw [gaDown_lt (by linarith), gaDown_lt (by linarith)]
  dsimp only
  rw [gaUpNeg, if_pos h0, if_neg (by linarith)]

theorem gaUpNeg_nonneg {xx : ℝ} (h : 0 ≤ xx) (z : ℝ) : gaUpNeg xx z = .go xx z := by
  rw [gaUpNeg, if_neg (by linarith)]

theorem gaReduce_up {xx : ℝ} (h : 1 / 10 ^ 9 ≤ xx) (h2 : xx < 2) (z : ℝ) : gaReduce xx z = gaReduce (xx + 1) (z / xx) := by
  have h0 : 0 < xx := by norm_num at h; linarith
  unfold gaReduce
  rw [gaDown_lt (by linarith), gaDown_lt (by linarith)]
  dsimp only
  rw [gaUpNeg_nonneg h0.le, gaUpNeg_nonneg (by linarith)]
  dsimp only
  rw [gaUp, if_pos h2, if_neg (by linarith)]

theorem gaReduce_tiny {xx : ℝ} (h : |xx| < 1 / 10 ^ 9) (h0 : xx ≠ 0) (z : ℝ) :
    gaReduce xx z = (z / ((1 + eulerMascheroniConstant * xx) * xx) : ℝ) := by
  have h' := abs_lt.1 h
  have h3 : xx < 1 := by norm_num at h'; linarith
  unfold gaReduce
  rw [gaDown_lt (by linarith)]
  dsimp only
  by_cases hn : xx < 0
  · rw [gaUpNeg, if_pos hn, if_pos h'.1, if_neg h0]
  · rw [gaUpNeg_nonneg (not_lt.1 hn)]
    dsimp only
    rw [gaUp, if_pos (by linarith), if_pos h'.2, if_neg h0]

theorem gaReduce_base {xx : ℝ} (h : 2 ≤ xx) (h3 : xx < 3) (z : ℝ) : gaReduce xx z = gaTail xx z := by
  unfold gaReduce
  rw [gaDown_lt h3]
  dsimp only
  rw [gaUpNeg_nonneg (by linarith)]
  dsimp only
  rw [gaUp, if_neg (by linarith)]

/-! ### the branch of tiny arguments -/

/-- the tangent of `log Γ` at 1 -/
theorem exp_le_Gamma_one_add {x : ℝ} (h : |x| < 1) : 1 - eulerMascheroniConstant * x ≤ Gamma (1 + x) := by
  have h' := abs_lt.1 h
  have hG : 0 < Gamma (1 + x) := Gamma_pos_of_pos (by linarith)
  have hc := convexOn_Gamma
  have hd := hasDerivAt_Gamma_one
  rcases lt_trichotomy x 0 with h0 | h0 | h0
  · have := hc.slope_le_of_hasDerivAt (x := 1 + x) (y := 1) (by simp; linarith) (by simp) (by linarith) hd
    rw [slope_def_field, Gamma_one, div_le_iff₀ (by linarith)] at this
    linarith
  · subst h0; simp
  · have := hc.le_slope_of_hasDerivAt (x := 1) (y := 1 + x) (by simp) (by simp; linarith) (by linarith) hd
    rw [slope_def_field, Gamma_one, le_div_iff₀ (by linarith)] at this
    linarith

theorem gaTiny {x : ℝ} (h : |x| < 1 / 10 ^ 9) (h0 : x ≠ 0) : |(1 + eulerMascheroniConstant * x) * Gamma (1 + x) - 1| ≤ 3 * x ^ 2 := by
  have h1 : |x| < 1 := h.trans (by norm_num)
  have h' := abs_lt.1 h1
  have g1 := one_half_lt_eulerMascheroniConstant
  have g2 := eulerMascheroniConstant_lt_two_thirds
  have e1 := exp_le_Gamma_one_add h1
  have e2 := exp_le_Gamma_one_add (x := -x) (by rwa [abs_neg])
  have hr := Gamma_mul_Gamma_one_sub x
  have hG : 0 < Gamma (1 + x) := Gamma_pos_of_pos (by linarith)
  have hG1 : Gamma (1 + x) = x * Gamma x := by rw [add_comm, Gamma_add_one h0]
  generalize eulerMascheroniConstant = γ at *
  have hx2 : x ^ 2 ≤ 1 / 10 ^ 9 := by
    rw [← sq_abs]
    have : |x| ^ 2 ≤ |x| * 1 := by rw [sq]; gcongr
    linarith
  have hx0 : 0 ≤ x ^ 2 := sq_nonneg x
  have hpos : 0 < 1 + γ * x := by
    have : |γ * x| < 1 := by
      rw [abs_mul, abs_of_pos (by linarith : 0 < γ)]
      nlinarith [abs_nonneg x]
    linarith [(abs_lt.1 this).1]
  have hs : π * x / sin (π * x) ≤ 1 + 3 * x ^ 2 := by
    have hxa : 0 < |x| := abs_pos.2 h0
    have e : π * x / sin (π * x) = π * |x| / sin (π * |x|) := by
      rcases abs_choice x with hc | hc
      · rw [hc]
      · rw [hc, mul_neg, sin_neg, neg_div_neg_eq]
    have p1 := pi_gt_three
    have p2 := pi_lt_d2
    have ht : π * |x| ≤ 1 := by
      norm_num at h p2
      nlinarith
    have hc := sin_gt_sub_cube (x := π * |x|) (by positivity)
    have hlow : 0 < π * |x| - (π * |x|) ^ 3 / 6 := by
      have : (π * |x|) ^ 3 ≤ π * |x| := by
        have h2 : (π * |x|) ^ 2 ≤ 1 := pow_le_one₀ (by positivity) ht
        have : 0 < π * |x| := by positivity
        nlinarith
      have : 0 < π * |x| := by positivity
      linarith
    rw [e, div_le_iff₀ (by linarith)]
    have h5 : π * |x| ≤ (1 + 3 * x ^ 2) * (π * |x| - (π * |x|) ^ 3 / 6) := by
      have hpi : π ^ 2 ≤ 10 := by norm_num at p2; nlinarith
      have e5 : (1 + 3 * x ^ 2) * (π * |x| - (π * |x|) ^ 3 / 6) - π * |x| = π * |x| * (x ^ 2 * (3 - π ^ 2 / 6 - 1 / 2 * (π ^ 2 * x ^ 2))) := by
        rw [← sq_abs x]; ring
      have h6 : 0 ≤ 3 - π ^ 2 / 6 - 1 / 2 * (π ^ 2 * x ^ 2) := by
        have : π ^ 2 * x ^ 2 ≤ 10 * (1 / 10 ^ 9) := by gcongr
        norm_num at this
        linarith
      have : 0 ≤ π * |x| * (x ^ 2 * (3 - π ^ 2 / 6 - 1 / 2 * (π ^ 2 * x ^ 2))) := by positivity
      linarith
    have : (1 + 3 * x ^ 2) * (π * |x| - (π * |x|) ^ 3 / 6) ≤ (1 + 3 * x ^ 2) * sin (π * |x|) := mul_le_mul_of_nonneg_left hc.le (by positivity)
    linarith
  rw [abs_le]
  constructor
  · have : (1 + γ * x) * (1 - γ * x) ≤ (1 + γ * x) * Gamma (1 + x) := mul_le_mul_of_nonneg_left e1 hpos.le
    have : γ ^ 2 * x ^ 2 ≤ 1 * x ^ 2 := by gcongr; nlinarith
    nlinarith
  · have h7 : (1 + γ * x) * Gamma (1 + x) ≤ Gamma (1 + -x) * Gamma (1 + x) := mul_le_mul_of_nonneg_right (by linarith) hG.le
    have h8 : Gamma (1 + -x) * Gamma (1 + x) = π * x / sin (π * x) := by
      rw [hG1, ← sub_eq_add_neg, show π * x / sin (π * x) = x * (π / sin (π * x)) by ring, ← hr]
      ring
    linarith

/-- relative error -/
def RelErr (r v e : ℝ) : Prop := |r - v| ≤ e * |v|

theorem RelErr.mul_left {r v e : ℝ} (h : RelErr r v e) (c : ℝ) : RelErr (c * r) (c * v) e := by
  unfold RelErr at *
  rw [← mul_sub, abs_mul, abs_mul]
  calc |c| * |r - v| ≤ |c| * (e * |v|) := by gcongr
    _ = _ := by ring

theorem Gamma_tiny_rel {x : ℝ} (h : |x| < 1 / 10 ^ 9) (h0 : x ≠ 0) : RelErr (1 / ((1 + eulerMascheroniConstant * x) * x)) (Gamma x) (21 / 10 ^ 17) := by
  have ht := gaTiny h h0
  have hG1 : Gamma (1 + x) = x * Gamma x := by rw [add_comm, Gamma_add_one h0]
  have g1 := one_half_lt_eulerMascheroniConstant
  have g2 := eulerMascheroniConstant_lt_two_thirds
  have hx2 : x ^ 2 ≤ 1 / 10 ^ 18 := by
    rw [← sq_abs]
    calc |x| ^ 2 ≤ (1 / 10 ^ 9) ^ 2 := by gcongr
      _ = _ := by norm_num
  generalize eulerMascheroniConstant = γ at *
  have hpos : 0 < 1 + γ * x := by
    have : |γ * x| < 1 := by
      rw [abs_mul, abs_of_pos (by linarith : 0 < γ)]
      norm_num at h
      nlinarith [abs_nonneg x]
    linarith [(abs_lt.1 this).1]
  rw [hG1] at ht
  set u := (1 + γ * x) * (x * Gamma x) with hu
  have hu' := abs_le.1 ht
  have hu1 : (1 : ℝ) / 2 < u := by norm_num at hx2; linarith
  have e : 1 / ((1 + γ * x) * x) = Gamma x / u := by
    have hne : Gamma x ≠ 0 := by rintro hz; rw [hu, hz] at hu1; norm_num at hu1
    rw [hu]; field_simp
  have e2 : Gamma x / u - Gamma x = (1 - u) / u * Gamma x := by field_simp
  unfold RelErr
  rw [e, e2, abs_mul]
  refine mul_le_mul_of_nonneg_right ?_ (abs_nonneg _)
  rw [abs_div, abs_of_pos (by linarith : 0 < u), div_le_iff₀ (by linarith), abs_sub_comm]
  norm_num at *
  linarith

/-- the reduction multiplies the start value by an approximation of `Γ` -/
theorem gaReduce_spec_pos (n : ℕ) {x : ℝ} (h0 : 0 < x) (hn : x < n + 3) : ∃ g, (∀ z, gaReduce x z = (z * g : ℝ)) ∧ RelErr g (Gamma x) (21 / 10 ^ 17) := by
  have base : ∀ {x : ℝ}, 2 ≤ x → x < 3 → ∃ g, (∀ z, gaReduce x z = (z * g : ℝ)) ∧ RelErr g (Gamma x) (21 / 10 ^ 17) := by
    intro x h2 h3
    by_cases he : x = 2
    · refine ⟨1, fun z => ?_, ?_⟩
      · rw [gaReduce_base h2 h3, gaTail, if_pos he, mul_one]
      · rw [he, Gamma_two]; unfold RelErr; norm_num
    · refine ⟨gaP (x - 2) / gaQ (x - 2), fun z => ?_, ?_⟩
      · rw [gaReduce_base h2 h3, gaTail, if_neg he, mul_div_assoc]
      · have := gaCore_accurate (y := x - 2) (by linarith) (by linarith)
        rw [show 2 + (x - 2) = x by ring] at this
        unfold RelErr
        rwa [abs_of_pos (Gamma_pos_of_pos (by linarith : 0 < x))]
  have up : ∀ {x : ℝ}, 1 / 10 ^ 9 ≤ x → x < 2 → (∃ g, (∀ z, gaReduce (x + 1) z = (z * g : ℝ)) ∧ RelErr g (Gamma (x + 1)) (21 / 10 ^ 17)) →
      ∃ g, (∀ z, gaReduce x z = (z * g : ℝ)) ∧ RelErr g (Gamma x) (21 / 10 ^ 17) := by
    rintro x h1 h2 ⟨g, hg, he⟩
    have hx0 : x ≠ 0 := by rintro rfl; norm_num at h1
    refine ⟨x⁻¹ * g, fun z => ?_, ?_⟩
    · rw [gaReduce_up h1 h2, hg]; congr 1; ring
    · have := he.mul_left x⁻¹
      rwa [Gamma_add_one hx0, inv_mul_cancel_left₀ hx0] at this
  have low : ∀ {x : ℝ}, 0 < x → x < 3 → ∃ g, (∀ z, gaReduce x z = (z * g : ℝ)) ∧ RelErr g (Gamma x) (21 / 10 ^ 17) := by
    intro x h0 h3
    by_cases h2 : 2 ≤ x
    · exact base h2 h3
    by_cases ht : x < 1 / 10 ^ 9
    · refine ⟨1 / ((1 + eulerMascheroniConstant * x) * x), fun z => ?_, Gamma_tiny_rel (by rwa [abs_of_pos h0]) h0.ne'⟩
      rw [gaReduce_tiny (by rwa [abs_of_pos h0]) h0.ne', mul_one_div]
    push Not at h2 ht
    by_cases h1 : 1 ≤ x
    · exact up ht h2 (base (by linarith) (by linarith))
    push Not at h1
    exact up ht h2 (up (by norm_num; linarith) (by linarith) (base (by linarith) (by linarith)))
  induction n generalizing x with
  | zero => exact low h0 (by simpa using hn)
  | succ n ih =>
    by_cases h3 : x < 3
    · exact low h0 h3
    push Not at h3
    obtain ⟨g, hg, he⟩ := ih (x := x - 1) (by linarith) (by push_cast at hn; linarith)
    refine ⟨(x - 1) * g, fun z => ?_, ?_⟩
    · rw [gaReduce_down h3, hg, mul_assoc]
    · have := he.mul_left (x - 1)
      rwa [← Gamma_add_one (by linarith : x - 1 ≠ 0), sub_add_cancel] at this

theorem gaReduce_spec (n : ℕ) {x : ℝ} (h : -(n : ℝ) ≤ x) (hx : ∀ m : ℕ, x ≠ -m) :
    ∃ g, (∀ z, gaReduce x z = (z * g : ℝ)) ∧ RelErr g (Gamma x) (21 / 10 ^ 17) := by
  induction n generalizing x with
  | zero =>
    have h0 : 0 < x := lt_of_le_of_ne (by simpa using h) (fun h' => hx 0 (by simp [← h']))
    exact gaReduce_spec_pos ⌈x⌉₊ h0 (by have := Nat.le_ceil x; linarith)
  | succ n ih =>
    have hx0 : x ≠ 0 := by simpa using hx 0
    by_cases h0 : 0 < x
    · exact gaReduce_spec_pos ⌈x⌉₊ h0 (by have := Nat.le_ceil x; linarith)
    push Not at h0
    by_cases ht : |x| < 1 / 10 ^ 9
    · exact ⟨1 / ((1 + eulerMascheroniConstant * x) * x), fun z => by rw [gaReduce_tiny ht hx0, mul_one_div], Gamma_tiny_rel ht hx0⟩
    rw [abs_of_nonpos h0] at ht
    obtain ⟨g, hg, he⟩ := ih (x := x + 1) (by push_cast at h; linarith) (fun m hm => hx (m + 1) (by push_cast; linarith))
    refine ⟨x⁻¹ * g, fun z => ?_, ?_⟩
    · rw [gaReduce_neg (by linarith), hg]; congr 1; ring
    · have := he.mul_left x⁻¹
      rwa [Gamma_add_one hx0, inv_mul_cancel_left₀ hx0] at this

/-! ### the branch of large arguments -/

theorem gaStirling_val {x : ℝ} (h0 : 0 < x) (h : x ≤ 200) :
    ∃ a b : ℝ, gaStirling x = (((a : ℝ) : EReal), ((b : ℝ) : EReal)) ∧ a * b = gsVal x := by
  unfold gaStirling
  rw [if_neg (by linarith)]
  by_cases h1 : 143.01608 < x
  · rw [if_pos h1]
    refine ⟨_, _, rfl, ?_⟩
    have : x ^ (x - 0.5) = x ^ (0.5 * x - 0.25) * x ^ (0.5 * x - 0.25) := by
      rw [← rpow_add h0]; congr 1; norm_num; ring
    rw [gsVal, this]
    ring
  · rw [if_neg h1]
    refine ⟨_, _, rfl, ?_⟩
    rw [gsVal]
    ring

/-- the remainder used by the reflection -/
theorem gaZ_spec (q : ℝ) : ∃ (m : ℤ) (u : ℝ), u = q - m ∧ |u| ≤ 1 / 2 ∧ gaZ q = q * sin (π * u) := by
  have h1 := Int.floor_le q
  have h2 := Int.lt_floor_add_one q
  unfold gaZ
  dsimp only
  by_cases h : 0.5 < q - ⌊q⌋
  · refine ⟨⌊q⌋ + 1, q - (⌊q⌋ + 1), by push_cast; ring, ?_, by rw [if_pos h]⟩
    have hh : (0.5 : ℝ) = 1 / 2 := by norm_num
    rw [hh] at h
    rw [abs_le]; constructor <;> linarith
  · refine ⟨⌊q⌋, q - ⌊q⌋, rfl, ?_, by rw [if_neg h]⟩
    have hh : (0.5 : ℝ) = 1 / 2 := by norm_num
    rw [hh] at h
    rw [abs_le]; constructor <;> linarith

theorem abs_sin_sub_int (q : ℝ) (m : ℤ) : |sin (π * (q - m))| = |sin (π * q)| := by
  rw [show π * (q - m) = π * q - m * π by ring, sin_sub_int_mul_pi, abs_mul]
  rcases Int.even_or_odd m with h | h
  · simp [h.neg_one_zpow]
  · simp [h.neg_one_zpow]

theorem gaZ_abs {q : ℝ} (hq : 0 < q) : |gaZ q| = q * |sin (π * q)| := by
  obtain ⟨m, u, hu, -, hz⟩ := gaZ_spec q
  rw [hz, abs_mul, abs_of_pos hq, hu, abs_sin_sub_int]

theorem sin_gaSign (q : ℝ) : sin (π * q) = -gaSign q * |sin (π * q)| := by
  have h1 := Int.floor_le q
  have h2 := Int.lt_floor_add_one q
  have hp := pi_pos
  have hf : 0 ≤ q - ⌊q⌋ := by linarith
  have hs : 0 ≤ sin (π * (q - ⌊q⌋)) := sin_nonneg_of_nonneg_of_le_pi (by positivity) (by nlinarith)
  rw [← abs_sin_sub_int q ⌊q⌋, abs_of_nonneg hs]
  rw [show π * (q - ⌊q⌋) = π * q - ⌊q⌋ * π by ring, sin_sub_int_mul_pi, gaSign]
  rcases Int.even_or_odd ⌊q⌋ with h | h
  · rw [if_pos (Int.even_iff.1 h), h.neg_one_zpow]; ring
  · rw [if_neg (by rw [Int.odd_iff.1 h]; norm_num), h.neg_one_zpow]; ring

theorem gaSign_sq (q : ℝ) : gaSign q * gaSign q = 1 := by
  unfold gaSign; split <;> norm_num

theorem sin_ne_zero_of {q : ℝ} (hq : ∀ n : ℤ, q ≠ n) : sin (π * q) ≠ 0 := by
  intro h
  obtain ⟨n, hn⟩ := sin_eq_zero_iff.1 h
  have := pi_pos
  exact hq n (by
    have : π * (n - q) = 0 := by linarith
    rcases mul_eq_zero.1 this with h' | h'
    · linarith
    · linarith)

theorem Gamma_neg_eq {q : ℝ} (h0 : 0 < q) (hq : ∀ n : ℤ, q ≠ n) : Gamma (-q) = gaSign q * (π / (|gaZ q| * Gamma q)) := by
  have hr := Gamma_mul_Gamma_one_sub (-q)
  rw [sub_neg_eq_add, add_comm 1 q, Gamma_add_one h0.ne', mul_neg, sin_neg] at hr
  have hs := sin_ne_zero_of hq
  have hG : 0 < Gamma q := Gamma_pos_of_pos h0
  have e := sin_gaSign q
  have ha : |sin (π * q)| ≠ 0 := abs_ne_zero.2 hs
  have hg := gaSign_sq q
  have hg0 : gaSign q ≠ 0 := by intro h; rw [h] at hg; norm_num at hg
  rw [gaZ_abs h0]
  rw [e, ← neg_mul, neg_neg] at hr
  have : Gamma (-q) = π / (gaSign q * |sin (π * q)|) / (q * Gamma q) := by
    rw [← hr]; field_simp
  rw [this]
  field_simp
  rw [sq, hg]

/-! ### properties -/

theorem gammaF_fin {x : ℝ} (hx : ∀ m : ℕ, x ≠ -m) (h : |x| ≤ 33) : gammaF (.fin x) = some (gaReduce x 1) := by
  have hx0 : x ≠ 0 := by simpa using hx 0
  rw [gammaF, if_neg (by rintro ⟨n, hn⟩; exact hx (n + 1) (by push_cast; linarith)), if_neg hx0, if_neg (by linarith)]

theorem not_int_of {x : ℝ} (hx : ∀ m : ℕ, x ≠ -m) (h : x < 0) (n : ℤ) : -x ≠ n := by
  intro hn
  have : (0 : ℝ) < n := by linarith
  have : 0 < n := by exact_mod_cast this
  refine hx n.toNat ?_
  have e : ((n.toNat : ℕ) : ℝ) = (n : ℝ) := by
    have := Int.toNat_of_nonneg (show 0 ≤ n by omega)
    exact_mod_cast this
  rw [e]; linarith

/-- **accuracy of `gamma`**: for `|x| ≤ 200` apart from `0` and the negative integers the result is a number with a relative error of at most
`2.1e-16` (below the spacing `2⁻⁵²` of the double precision numbers), rounding errors aside -/
theorem C111_gamma_accurate {x : ℝ} (hx : ∀ m : ℕ, x ≠ -m) (h : |x| ≤ 200) :
    ∃ r : ℝ, gammaF (.fin x) = some (r : EReal) ∧ |r - Gamma x| ≤ 21 / 10 ^ 17 * |Gamma x| := by
  by_cases h33 : |x| ≤ 33
  · obtain ⟨g, hg, he⟩ := gaReduce_spec 33 (x := x) (by push_cast; linarith [(abs_le.1 h33).1]) hx
    exact ⟨g, by rw [gammaF_fin hx h33, hg, one_mul], he⟩
  push Not at h33
  have hx0 : x ≠ 0 := by simpa using hx 0
  have hneg : ¬ ∃ n : ℕ, x = -(n + 1) := by rintro ⟨n, hn⟩; exact hx (n + 1) (by push_cast; linarith)
  by_cases hp : 0 ≤ x
  · rw [abs_of_nonneg hp] at h h33
    obtain ⟨a, b, hs, hab⟩ := gaStirling_val (by linarith) h
    refine ⟨gsVal x, ?_, ?_⟩
    · rw [gammaF, if_neg hneg, if_neg hx0, if_pos (by rwa [abs_of_nonneg hp]), if_pos hp, hs, ← hab, EReal.coe_mul]
    · rw [abs_of_pos (Gamma_pos_of_pos (by linarith : 0 < x))]
      refine (gsVal_accurate h33.le).trans ?_
      have := Gamma_pos_of_pos (by linarith : 0 < x)
      exact mul_le_mul_of_nonneg_right (by norm_num) this.le
  push Not at hp
  have habs : |x| = -x := abs_of_neg hp
  obtain ⟨q, hq⟩ : ∃ q, q = -x := ⟨_, rfl⟩
  have hxq : x = -q := by linarith
  have hqi : ∀ n : ℤ, q ≠ n := by rw [hq]; exact not_int_of hx hp
  rw [habs, ← hq] at h h33
  have hq0 : 0 < q := by linarith
  obtain ⟨a, b, hs, hab⟩ := gaStirling_val hq0 h
  have hG : 0 < Gamma q := Gamma_pos_of_pos hq0
  have hacc := gsVal_accurate h33.le
  have hv : 0 < gsVal q := by
    have := (abs_le.1 hacc).1
    norm_num at this
    linarith
  have hz : 0 < |gaZ q| := by
    rw [gaZ_abs hq0]
    have := abs_pos.2 (sin_ne_zero_of hqi)
    positivity
  have hd : ((|gaZ q| : ℝ) : EReal) * ((a : ℝ) : EReal) * ((b : ℝ) : EReal) = ((|gaZ q| * gsVal q : ℝ) : EReal) := by
    rw [← EReal.coe_mul, ← EReal.coe_mul, mul_assoc, hab]
  refine ⟨gaSign q * (π / (|gaZ q| * gsVal q)), ?_, ?_⟩
  · rw [gammaF, if_neg hneg, if_neg hx0, if_pos (by rw [habs, ← hq]; exact h33), if_neg (by linarith)]
    dsimp only
    rw [habs, ← hq, if_neg (abs_pos.1 hz), hs]
    dsimp only
    rw [hd, if_neg (EReal.coe_ne_top _), ← EReal.coe_div, ← EReal.coe_mul]
  · rw [hxq, Gamma_neg_eq hq0 hqi]
    refine RelErr.mul_left ?_ _
    unfold RelErr
    have hp := pi_pos
    have e : π / (|gaZ q| * gsVal q) - π / (|gaZ q| * Gamma q) = (Gamma q - gsVal q) / gsVal q * (π / (|gaZ q| * Gamma q)) := by
      field_simp
    rw [e, abs_mul]
    refine mul_le_mul_of_nonneg_right ?_ (abs_nonneg _)
    rw [abs_div, abs_of_pos hv, div_le_iff₀ hv, abs_sub_comm]
    have := (abs_le.1 hacc).1
    norm_num at *
    linarith

/-- the hypotheses hold, e.g., for `-5/2` -/
example : ∃ r : ℝ, gammaF (.fin (-5 / 2)) = some (r : EReal) ∧ |r - Gamma (-5 / 2)| ≤ 21 / 10 ^ 17 * |Gamma (-5 / 2)| := by
  refine C111_gamma_accurate (fun m hm => ?_) (by rw [abs_of_neg] <;> norm_num)
  have h2 : (5 : ℝ) = 2 * m := by linarith
  have h3 : 5 = 2 * m := by exact_mod_cast h2
  omega

theorem gaReduce_nat (n : ℕ) (z : ℝ) : gaReduce ((n : ℝ) + 1) z = (z * n.factorial : ℝ) := by
  have two : ∀ z, gaReduce 2 z = (z : EReal) := fun z => by rw [gaReduce_base le_rfl (by norm_num), gaTail, if_pos rfl]
  induction n generalizing z with
  | zero =>
    rw [gaReduce_up (by norm_num) (by norm_num), show ((0 : ℕ) : ℝ) + 1 + 1 = 2 by norm_num, two]
    norm_num
  | succ n ih =>
    rcases Nat.eq_zero_or_pos n with rfl | hn
    · rw [show ((0 + 1 : ℕ) : ℝ) + 1 = 2 by norm_num, two]
      simp
    · have : (1 : ℝ) ≤ n := by exact_mod_cast hn
      rw [gaReduce_down (by push_cast; linarith), show ((n + 1 : ℕ) : ℝ) + 1 - 1 = (n : ℝ) + 1 by push_cast; ring, ih, Nat.factorial_succ, mul_assoc]
      push_cast
      rfl

/-- **factorials**: `gamma(n + 1)` is exactly `n!` for `n ≤ 32` -/
theorem C111_gamma_factorial {n : ℕ} (hn : n ≤ 32) : gammaF (.fin (n + 1)) = some ((n.factorial : ℝ) : EReal) := by
  have h : (n : ℝ) ≤ 32 := by exact_mod_cast hn
  have h0 : (0 : ℝ) ≤ n := Nat.cast_nonneg n
  rw [gammaF_fin (fun m hm => ?_) (by rw [abs_of_pos] <;> linarith), gaReduce_nat, one_mul]
  have : (0 : ℝ) ≤ m := Nat.cast_nonneg m
  linarith

example : gammaF (.fin 7) = some ((720 : ℝ) : EReal) := by
  have := C111_gamma_factorial (n := 6) (by norm_num)
  norm_num [Nat.factorial] at this ⊢
  exact this

/-- **recurrence**: `gamma(x + 1) = x gamma(x)` holds without any error for `-33 ≤ x ≤ 32`, `|x| ≥ 1e-9`, rounding errors aside: both calls
reduce the argument to the same number in `[2, 3)` -/
theorem C111_gamma_recurrence {x : ℝ} (hx : ∀ m : ℕ, x ≠ -m) (h1 : -33 ≤ x) (h2 : x ≤ 32) (ht : 1 / 10 ^ 9 ≤ |x|) :
    ∃ r : ℝ, gammaF (.fin x) = some (r : EReal) ∧ (x + 1 ≠ 0 → (∀ m : ℕ, x + 1 ≠ -m) → gammaF (.fin (x + 1)) = some ((x * r : ℝ) : EReal)) := by
  obtain ⟨g, hg, -⟩ := gaReduce_spec 33 (x := x) (by push_cast; linarith) hx
  refine ⟨g, by rw [gammaF_fin hx (abs_le.2 ⟨by linarith, by linarith⟩), hg, one_mul], fun _ hx1 => ?_⟩
  have hx0 : x ≠ 0 := by simpa using hx 0
  obtain ⟨g', hg', -⟩ := gaReduce_spec 33 (x := x + 1) (by push_cast; linarith) hx1
  rw [gammaF_fin hx1 (abs_le.2 ⟨by linarith, by linarith⟩)]
  by_cases h : 2 ≤ x
  · rw [gaReduce_down (by linarith), add_sub_cancel_right, hg, one_mul]
  push Not at h
  have key : gaReduce x 1 = gaReduce (x + 1) (1 / x) := by
    rcases lt_or_ge x 0 with hn | hn
    · rw [abs_of_neg hn] at ht
      exact gaReduce_neg (by linarith) 1
    · rw [abs_of_nonneg hn] at ht
      exact gaReduce_up ht h 1
  rw [hg, hg'] at key
  have key' : 1 * g = 1 / x * g' := by exact_mod_cast key
  rw [hg']
  congr 2
  field_simp at key'
  linarith

/-- e.g. `gamma(3/2) = gamma(1/2) / 2` -/
example : ∃ r : ℝ, gammaF (.fin (1 / 2)) = some (r : EReal) ∧ gammaF (.fin (3 / 2)) = some ((1 / 2 * r : ℝ) : EReal) := by
  have hh : ∀ {x : ℝ}, 0 < x → ∀ m : ℕ, x ≠ -m := fun hx m hm => by
    have : (0 : ℝ) ≤ m := Nat.cast_nonneg m
    linarith
  obtain ⟨r, h1, h2⟩ := C111_gamma_recurrence (x := 1 / 2) (hh (by norm_num)) (by norm_num) (by norm_num) (by rw [abs_of_pos] <;> norm_num)
  refine ⟨r, h1, ?_⟩
  have := h2 (by norm_num) (hh (by norm_num))
  rwa [show (1 / 2 + 1 : ℝ) = 3 / 2 by norm_num] at this

theorem fact199 : 2 ^ 1024 * 2 ^ 200 < (199).factorial := by decide +kernel

theorem Gamma_large {x : ℝ} (h : 200 < x) : (2 : ℝ) ^ 1024 * 2 ^ 200 < Gamma x := by
  have h1 : Gamma 200 < Gamma x := Gamma_strictMonoOn_Ici (mem_Ici.2 (by norm_num)) (mem_Ici.2 (by linarith)) h
  have h2 : Gamma 200 = ((199).factorial : ℝ) := by
    have := Gamma_nat_eq_factorial 199
    rw [show ((199 : ℕ) : ℝ) + 1 = 200 by norm_num] at this
    exact this
  have h3 : (2 : ℝ) ^ 1024 * 2 ^ 200 < ((199).factorial : ℝ) := by
    have := (Nat.cast_lt (α := ℝ)).2 fact199
    rwa [Nat.cast_mul, Nat.cast_pow, Nat.cast_pow, Nat.cast_ofNat] at this
  linarith

/-- **overflow**: `gamma(x) = +Inf` for `x > 200`, and then `Γ(x)` exceeds every double precision number -/
theorem C111_gamma_overflow {x : ℝ} (h : 200 < x) : gammaF (.fin x) = some ⊤ ∧ (2 : ℝ) ^ 1024 < Gamma x := by
  refine ⟨?_, ?_⟩
  · rw [gammaF, if_neg (by rintro ⟨n, hn⟩; have : (0 : ℝ) ≤ n := Nat.cast_nonneg n; linarith), if_neg (by linarith),
      if_pos (by rw [abs_of_pos] <;> linarith), if_pos (by linarith), gaStirling, if_pos h]
    simp
  · have := Gamma_large h
    have h2 : (2 : ℝ) ^ 1024 * 1 ≤ 2 ^ 1024 * 2 ^ 200 := by
      refine mul_le_mul_of_nonneg_left (by norm_num) (by positivity)
    rw [mul_one] at h2
    exact h2.trans_lt this

/-- **underflow**: `gamma(x) = 0` for `x < -200`, and then `|Γ(x)|` is below half of the smallest double precision number when `x` keeps a distance of
`2⁻⁵³` from the integers (which the non-integer double precision numbers of this size do) -/
theorem C111_gamma_underflow {x : ℝ} (h : x < -200) (hx : ∀ m : ℤ, 1 / 2 ^ 53 ≤ |x - m|) : gammaF (.fin x) = some 0 ∧ |Gamma x| < 1 / 2 ^ 1075 := by
  obtain ⟨q, hq⟩ : ∃ q, q = -x := ⟨_, rfl⟩
  have hxq : x = -q := by linarith
  have hq0 : 200 < q := by linarith
  have hqp : 0 < q := by linarith
  have hqi : ∀ n : ℤ, q ≠ n := by
    intro n hn
    have := hx (-n)
    rw [hxq, hn] at this
    push_cast at this
    rw [sub_self, abs_zero] at this
    norm_num at this
  have hz : 0 < |gaZ q| := by
    rw [gaZ_abs hqp]
    have := abs_pos.2 (sin_ne_zero_of hqi)
    positivity
  have habs : |x| = q := by rw [abs_of_neg (by linarith), hq]
  constructor
  · have hd : ((|gaZ q| : ℝ) : EReal) * (⊤ : EReal) * 1 = ⊤ := by
      rw [mul_one, EReal.coe_mul_top_of_pos hz]
    rw [gammaF, if_neg (by rintro ⟨n, hn⟩; exact hqi (n + 1) (by push_cast; linarith)), if_neg (by linarith), if_pos (by rw [habs]; linarith), if_neg (by linarith)]
    dsimp only
    rw [habs, if_neg (abs_pos.1 hz), gaStirling, if_pos hq0]
    dsimp only
    rw [hd, if_pos rfl]
    simp
  · rw [hxq, Gamma_neg_eq hqp hqi, abs_mul]
    have hs1 : |gaSign q| = 1 := by unfold gaSign; split <;> simp
    have hG := Gamma_large hq0
    have hGp : 0 < Gamma q := Gamma_pos_of_pos hqp
    obtain ⟨m, u, hu, hu2, hzu⟩ := gaZ_spec q
    have hul : 1 / 2 ^ 53 ≤ |u| := by
      have := hx (-m)
      rw [hxq] at this
      push_cast at this
      rw [show -q - -(m : ℝ) = -u by rw [hu]; ring, abs_neg] at this
      exact this
    have hp := pi_pos
    have hsin : 2 * |u| ≤ |sin (π * u)| := by
      have h1 := mul_le_sin (x := π * |u|) (by positivity) (by nlinarith)
      have e : |sin (π * u)| = |sin (π * |u|)| := by
        rcases abs_choice u with hc | hc <;> rw [hc]
        rw [mul_neg, sin_neg, abs_neg]
      rw [e]
      refine le_trans ?_ (h1.trans (le_abs_self _))
      apply le_of_eq
      field_simp
    have hzl : 1 / 2 ^ 53 ≤ |gaZ q| := by
      rw [hzu, abs_mul, abs_of_pos hqp]
      nlinarith [abs_nonneg u]
    rw [hs1, one_mul, abs_of_pos (by positivity), div_lt_div_iff₀ (by positivity) (by positivity), one_mul]
    have h3 : π < 4 := pi_lt_four
    calc π * 2 ^ 1075 < 4 * 2 ^ 1075 := by gcongr
      _ ≤ 1 / 2 ^ 53 * (2 ^ 1024 * 2 ^ 200) := by
        rw [show (2 : ℝ) ^ 1075 = 2 ^ 1024 * 2 ^ 51 by rw [← pow_add]]
        have : (0 : ℝ) < 2 ^ 1024 := by positivity
        generalize (2 : ℝ) ^ 1024 = t at *
        norm_num
        linarith
      _ ≤ |gaZ q| * Gamma q := by gcongr

example : gammaF (.fin (-401 / 2)) = some 0 := by
  refine (C111_gamma_underflow (by norm_num) fun m => ?_).1
  have h : (1 : ℝ) ≤ |(-401 - 2 * m : ℝ)| := by
    have : (1 : ℤ) ≤ |-401 - 2 * m| := Int.one_le_abs (by omega)
    exact_mod_cast this
  rw [show (-401 / 2 - m : ℝ) = (-401 - 2 * m) / 2 by ring, abs_div, abs_two]
  norm_num
  linarith

/-- **special cases**: exactly the documented ones -/
theorem C111_gamma_special : gammaF .nan = none ∧ gammaF .negInf = none ∧ gammaF .posInf = some ⊤ ∧ gammaF .negZero = some ⊥ ∧ gammaF (.fin 0) = some ⊤
    ∧ ∀ x : ℝ, gammaF (.fin x) = none ↔ ∃ n : ℕ, x = -(n + 1) := by
  refine ⟨rfl, rfl, rfl, rfl, ?_, fun x => ⟨fun h => ?_, fun h => ?_⟩⟩
  · rw [gammaF, if_neg (by rintro ⟨n, hn⟩; have : (0 : ℝ) ≤ n := Nat.cast_nonneg n; linarith), if_pos rfl]
  · by_contra hn
    rw [gammaF, if_neg hn] at h
    revert h
    split_ifs <;> (try dsimp only) <;> (try split_ifs) <;> simp
  · rw [gammaF, if_pos h]

end Russell.Lab
