import Verif.Lab.GammaCore

/-!
# The rational approximation of `gamma` on [2, 3] (background of property C111)
-/

namespace Russell.Lab

open Real Set

/-- the test `|f| ≤ a/b` on a chain of intervals from `p/d` to `q/d`, list of the pairs `(q, a)` -/
def tvChk (f : RF) (d b : ℤ) : ℤ → List (ℤ × ℤ) → Bool
  | _, [] => true
  | p, (q, a) :: l => decide (p ≤ q) && chkPiece (addL (smulL a f.2) (smulL (-b) f.1)) d p q && chkPiece (addL (smulL a f.2) (smulL b f.1)) d p q && tvChk f d b q l

/-- the bound of the total variation, times `b d` -/
def tvSum : ℤ → List (ℤ × ℤ) → ℤ
  | _, [] => 0
  | p, (q, a) :: l => a * (q - p) + tvSum q l

def tvEnd : ℤ → List (ℤ × ℤ) → ℤ
  | p, [] => p
  | _, (q, _) :: l => tvEnd q l

theorem piece_lipschitz {f : RF} {d b p q a : ℤ} (hd : 0 < d) (hb : 0 < b) (h1 : chkPiece (addL (smulL a f.2) (smulL (-b) f.1)) d p q = true)
    (h2 : chkPiece (addL (smulL a f.2) (smulL b f.1)) d p q = true) {F : ℝ → ℝ}
    (hF : ∀ x ∈ Icc ((p : ℝ) / d) ((q : ℝ) / d), 0 < polyEval f.2 x ∧ HasDerivAt F (rfEval f x) x) {x y : ℝ} (hx : x ∈ Icc ((p : ℝ) / d) ((q : ℝ) / d))
    (hy : y ∈ Icc ((p : ℝ) / d) ((q : ℝ) / d)) : |F y - F x| ≤ a / b * |y - x| := by
  have := Convex.norm_image_sub_le_of_norm_hasDerivWithin_le (f := F) (f' := rfEval f) (C := (a : ℝ) / b) (s := Icc ((p : ℝ) / d) ((q : ℝ) / d))
    (fun z hz => (hF z hz).2.hasDerivWithinAt) (fun z hz => ?_) (convex_Icc _ _) hx hy
  · simpa [Real.norm_eq_abs] using this
  · rw [Real.norm_eq_abs]
    exact rf_bound f a b d p [q] (by simp) hd hb (by simpa [chkChain] using h1) (by simpa [chkChain] using h2) (hF z hz).1 hz.1 (by simpa using hz.2)

theorem tvChk_le {f : RF} {d b : ℤ} (hd : 0 < d) (l : List (ℤ × ℤ)) (p : ℤ) (h : tvChk f d b p l = true) : (p : ℝ) / d ≤ (tvEnd p l : ℝ) / d := by
  induction l generalizing p with
  | nil => exact le_rfl
  | cons c l ih =>
    obtain ⟨q, a⟩ := c
    simp only [tvChk, Bool.and_eq_true, decide_eq_true_eq] at h
    refine le_trans ?_ (ih q h.2)
    have : (p : ℝ) ≤ q := by exact_mod_cast h.1.1.1
    have hd' : (0 : ℝ) < d := by exact_mod_cast hd
    gcongr

/-- the variation of a function with the derivative `f` to the left and to the right of a point -/
theorem tvChk_sound {f : RF} {d b : ℤ} (hd : 0 < d) (hb : 0 < b) (l : List (ℤ × ℤ)) (p : ℤ) (h : tvChk f d b p l = true) {F : ℝ → ℝ}
    (hF : ∀ x ∈ Icc ((p : ℝ) / d) ((tvEnd p l : ℝ) / d), 0 < polyEval f.2 x ∧ HasDerivAt F (rfEval f x) x) {x : ℝ}
    (hx : x ∈ Icc ((p : ℝ) / d) ((tvEnd p l : ℝ) / d)) :
    |F x - F ((p : ℝ) / d)| + |F ((tvEnd p l : ℝ) / d) - F x| ≤ (tvSum p l : ℝ) / (b * d) := by
  have hd' : (0 : ℝ) < d := by exact_mod_cast hd
  have hb' : (0 : ℝ) < b := by exact_mod_cast hb
  induction l generalizing p x with
  | nil =>
    have : x = (p : ℝ) / d := le_antisymm hx.2 hx.1
    simp [tvSum, tvEnd, this]
  | cons c l ih =>
    obtain ⟨q, a⟩ := c
    have h' := h
    simp only [tvChk, Bool.and_eq_true, decide_eq_true_eq] at h'
    obtain ⟨⟨⟨hpq, hc1⟩, hc2⟩, hl⟩ := h'
    have hpq' : (p : ℝ) / d ≤ (q : ℝ) / d := by
      have : (p : ℝ) ≤ q := by exact_mod_cast hpq
      gcongr
    have hqe := tvChk_le hd l q hl
    simp only [tvEnd] at hF hx ⊢
    have hlip : ∀ {u v : ℝ}, u ∈ Icc ((p : ℝ) / d) ((q : ℝ) / d) → v ∈ Icc ((p : ℝ) / d) ((q : ℝ) / d) → |F v - F u| ≤ a / b * |v - u| := fun hu hv =>
      piece_lipschitz hd hb hc1 hc2 (fun z hz => hF z ⟨hz.1, hz.2.trans hqe⟩) hu hv
    have hih : ∀ {u : ℝ}, u ∈ Icc ((q : ℝ) / d) ((tvEnd q l : ℝ) / d) → _ := fun {u} hu => ih q hl (fun z hz => hF z ⟨hpq'.trans hz.1, hz.2⟩) hu
    have hsum : (tvSum p ((q, a) :: l) : ℝ) / (b * d) = a / b * ((q : ℝ) / d - p / d) + (tvSum q l : ℝ) / (b * d) := by
      simp only [tvSum]; push_cast; field_simp
    rw [hsum]
    by_cases hxq : x ≤ (q : ℝ) / d
    · have h1 := hlip (u := (p : ℝ) / d) (v := x) ⟨le_rfl, hpq'⟩ ⟨hx.1, hxq⟩
      have h2 := hlip (u := x) (v := (q : ℝ) / d) ⟨hx.1, hxq⟩ ⟨hpq', le_rfl⟩
      have h3 := hih (u := (q : ℝ) / d) ⟨le_rfl, hqe⟩
      rw [sub_self, abs_zero, zero_add] at h3
      rw [abs_of_nonneg (show 0 ≤ x - (p : ℝ) / d by linarith [hx.1])] at h1
      rw [abs_of_nonneg (show 0 ≤ (q : ℝ) / d - x by linarith)] at h2
      have h4 : |F ((tvEnd q l : ℝ) / d) - F x| ≤ |F ((tvEnd q l : ℝ) / d) - F ((q : ℝ) / d)| + |F ((q : ℝ) / d) - F x| := by
        have := abs_add_le (F ((tvEnd q l : ℝ) / d) - F ((q : ℝ) / d)) (F ((q : ℝ) / d) - F x)
        rwa [sub_add_sub_cancel] at this
      linarith
    · have hxq' : (q : ℝ) / d ≤ x := (not_le.1 hxq).le
      have h1 := hlip (u := (p : ℝ) / d) (v := (q : ℝ) / d) ⟨le_rfl, hpq'⟩ ⟨hpq', le_rfl⟩
      have h3 := hih (u := x) ⟨hxq', hx.2⟩
      rw [abs_of_nonneg (show 0 ≤ (q : ℝ) / d - (p : ℝ) / d by linarith)] at h1
      have h4 : |F x - F ((p : ℝ) / d)| ≤ |F x - F ((q : ℝ) / d)| + |F ((q : ℝ) / d) - F ((p : ℝ) / d)| := by
        have := abs_add_le (F x - F ((q : ℝ) / d)) (F ((q : ℝ) / d) - F ((p : ℝ) / d))
        rwa [sub_add_sub_cancel] at this
      linarith

/-- the bound from the nearer end -/
theorem tvChk_half {f : RF} {d b : ℤ} (hd : 0 < d) (hb : 0 < b) (l : List (ℤ × ℤ)) (p : ℤ) (h : tvChk f d b p l = true) {F : ℝ → ℝ}
    (hF : ∀ x ∈ Icc ((p : ℝ) / d) ((tvEnd p l : ℝ) / d), 0 < polyEval f.2 x ∧ HasDerivAt F (rfEval f x) x) {e : ℝ}
    (h0 : |F ((p : ℝ) / d)| ≤ e) (h1 : |F ((tvEnd p l : ℝ) / d)| ≤ e) {x : ℝ}
    (hx : x ∈ Icc ((p : ℝ) / d) ((tvEnd p l : ℝ) / d)) : |F x| ≤ e + (tvSum p l : ℝ) / (b * d) / 2 := by
  have := tvChk_sound hd hb l p h hF hx
  have a1 := abs_sub_abs_le_abs_sub (F x) (F ((p : ℝ) / d))
  have a2 := abs_sub_abs_le_abs_sub (F x) (F ((tvEnd p l : ℝ) / d))
  rw [abs_sub_comm] at a2
  rcases le_total |F x - F ((p : ℝ) / d)| ((tvSum p l : ℝ) / (b * d) / 2) with h2 | h2
  · linarith
  · linarith

/-- numerator and denominator in `gamma` for `2 < x < 3`, `y = x - 2` (gamma.rs:207-208 with GP, GQ, 26-45) -/
noncomputable def gaP (y : ℝ) : ℝ := (((((y * 1.60119522476751861407e-04 + 1.19135147006586384913e-03) * y + 1.04213797561761569935e-02) * y + 4.76367800457137231464e-02) * y + 2.07448227648435975150e-01) * y + 4.94214826801497100753e-01) * y + 9.99999999999999996796e-01

noncomputable def gaQ (y : ℝ) : ℝ := ((((((y * (-2.31581873324120129819e-05) + 5.39605580493303397842e-04) * y + (-4.45641913851797240494e-03)) * y + 1.18139785222060435552e-02) * y + 3.58236398605498653373e-02) * y + (-2.34591795718243348568e-01)) * y + 7.14304917030273074085e-02) * y + 1.00000000000000000320

def gaPl : List ℤ := [9999999999999999967960000, 4942148268014971007530000, 2074482276484359751500000, 476367800457137231464000, 104213797561761569935000, 11913514700658638491300, 1601195224767518614070]
def gaQl : List ℤ := [10000000000000000032000000, 714304917030273074085000, -2345917957182433485680000, 358236398605498653373000, 118139785222060435552000, -44564191385179724049400, 5396055804933033978420, -231581873324120129819]

theorem gaP_eq (y : ℝ) : gaP y = polyEval gaPl y / 10 ^ 25 := by
  simp only [gaP, gaPl, polyEval]
  push_cast
  ring

theorem gaQ_eq (y : ℝ) : gaQ y = polyEval gaQl y / 10 ^ 25 := by
  simp only [gaQ, gaQl, polyEval]
  push_cast
  ring

theorem gaPl_pos {y : ℝ} (hy : 0 ≤ y) : 0 < polyEval gaPl y := by
  simp only [gaPl, polyEval]
  push_cast
  positivity

theorem gaQl_pos {y : ℝ} (hy : y ∈ Icc (0 : ℝ) 1) : 0 < polyEval gaQl y := by
  have h : chkChain (addL gaQl [-1]) 1 0 [1] = true := by decide +kernel
  have := chkChain_sound (by norm_num) 0 [1] (by simp) h (by simpa using hy.1) (by simpa using hy.2)
  rw [polyEval_add] at this
  simp only [polyEval] at this
  push_cast at this
  linarith

/-- the derivative of `log gaP - log gaQ - lgCore` -/
def gaRF : RF := rfSub (rfSub (derivL gaPl, gaPl) (derivL gaQl, gaQl)) (quotD 1 lgU lgW, powL lgW 2)

def gaTv : List (ℤ × ℤ) := [(1, 2711), (2, 604), (3, 487), (4, 326), (5, 369), (6, 336), (7, 152), (8, 224), (9, 270), (10, 262), (11, 197), (12, 74), (13, 173), (14, 217), (15, 224), (16, 210), (17, 142), (18, 56), (19, 142), (20, 191), (21, 197), (22, 197), (23, 157), (24, 92), (25, 74), (26, 137), (27, 179), (28, 185), (29, 179), (30, 147), (31, 86), (32, 68), (33, 133), (34, 179), (35, 185), (36, 185), (37, 162), (38, 109), (39, 48), (40, 121), (41, 167), (42, 185), (43, 185), (44, 157), (45, 98), (46, 80), (47, 162), (48, 210), (49, 217), (50, 210), (51, 162), (52, 66), (53, 167), (54, 231), (55, 238), (56, 217), (57, 113), (58, 254), (59, 347), (60, 347), (61, 231), (62, 487), (63, 534), (64, 2407)]

theorem gaTv_chk : tvChk gaRF 64 (10 ^ 18) 0 gaTv = true := by decide +kernel

noncomputable def gaErr (y : ℝ) : ℝ := log (polyEval gaPl y) - log (polyEval gaQl y) - polyEval lgU y / polyEval lgW y ^ 1

theorem gaErr_deriv {y : ℝ} (hy : y ∈ Icc (0 : ℝ) 1) : 0 < polyEval gaRF.2 y ∧ HasDerivAt gaErr (rfEval gaRF y) y := by
  have hp := gaPl_pos hy.1
  have hq := gaQl_pos hy
  have hw := lgW_pos hy.1
  have h1 := rfSub_eval (f := (derivL gaPl, gaPl)) (g := (derivL gaQl, gaQl)) (x := y) hp hq
  have h2 := rfSub_eval (g := (quotD 1 lgU lgW, powL lgW 2)) h1.2 (by simp only [polyEval_pow]; positivity)
  refine ⟨h2.2, ?_⟩
  have d := (((polyEval_deriv gaPl y).log hp.ne').sub ((polyEval_deriv gaQl y).log hq.ne')).sub (quotD_deriv 0 lgU lgW hw)
  refine d.congr_deriv ?_
  rw [gaRF, h2.1, h1.1]
  simp only [rfEval, polyEval_pow]
  norm_num

theorem abs_log_le {t e : ℝ} (he : e ≤ 1 / 2) (h : |t - 1| ≤ e) : |log t| ≤ 2 * e := by
  have h' := abs_le.1 h
  have ht : 0 < t := by linarith
  have h0 : 0 ≤ e := (abs_nonneg _).trans h
  rw [abs_le]
  constructor
  · have h1 := Real.one_sub_inv_le_log_of_pos ht
    have h2 : t⁻¹ ≤ 1 + 2 * e := by
      rw [← one_div, div_le_iff₀ ht]
      nlinarith
    linarith
  · have h1 := Real.log_le_sub_one_of_pos ht
    linarith

theorem gaErr_zero : |gaErr 0| ≤ 20 / 10 ^ 18 := by
  have e : gaErr 0 = log (polyEval gaPl 0 / polyEval gaQl 0) := by
    rw [log_div (gaPl_pos le_rfl).ne' (gaQl_pos (by simp)).ne', gaErr]
    simp [lgU, polyEval]
  rw [e]
  have := abs_log_le (t := polyEval gaPl 0 / polyEval gaQl 0) (e := 7 / 10 ^ 18) (by norm_num) (by
    rw [abs_le]; simp only [gaPl, gaQl, polyEval]; norm_num)
  norm_num at this ⊢
  linarith

theorem gaErr_one : |gaErr 1| ≤ 20 / 10 ^ 18 := by
  have e : gaErr 1 = log (polyEval gaPl 1 / polyEval gaQl 1 / 2) - (lgCore 1 - log 2) := by
    have h1 := gaPl_pos (zero_le_one)
    have h2 := gaQl_pos (y := 1) (by simp)
    rw [log_div (by positivity) (by norm_num), log_div h1.ne' h2.ne', gaErr, lgCore_eq zero_le_one, pow_one]
    ring
  rw [e]
  have h1 := abs_log_le (t := polyEval gaPl 1 / polyEval gaQl 1 / 2) (e := 7 / 10 ^ 18) (by norm_num) (by
    rw [abs_le]; simp only [gaPl, gaQl, polyEval]; norm_num)
  have h2 := lgCore_one
  have h3 := abs_sub (log (polyEval gaPl 1 / polyEval gaQl 1 / 2)) (lgCore 1 - log 2)
  norm_num at h1 h2 h3 ⊢
  linarith

theorem gaErr_bound {y : ℝ} (hy : y ∈ Icc (0 : ℝ) 1) : |gaErr y| ≤ 159 / 10 ^ 18 := by
  have e64 : tvEnd 0 gaTv = 64 := by decide +kernel
  have es : tvSum 0 gaTv = 17659 := by decide +kernel
  have z : (((0 : ℤ) : ℝ) / ((64 : ℤ) : ℝ)) = 0 := by norm_num
  have o : (((tvEnd 0 gaTv : ℤ) : ℝ) / ((64 : ℤ) : ℝ)) = 1 := by rw [e64]; norm_num
  have := tvChk_half (f := gaRF) (d := 64) (b := 10 ^ 18) (by norm_num) (by norm_num) gaTv 0 gaTv_chk (F := gaErr) (e := 20 / 10 ^ 18)
    (by rw [z, o]; exact fun x hx => gaErr_deriv hx) (by rw [z]; exact gaErr_zero) (by rw [o]; exact gaErr_one) (x := y) (by rw [z, o]; exact hy)
  rw [es] at this
  refine this.trans ?_
  norm_num

/-- the rational approximation of `gamma` on [2, 3] has a relative error of at most `2.1e-16` -/
theorem gaCore_accurate {y : ℝ} (h0 : 0 ≤ y) (h1 : y ≤ 1) : |gaP y / gaQ y - Gamma (2 + y)| ≤ 21 / 10 ^ 17 * Gamma (2 + y) := by
  have hy : y ∈ Icc (0 : ℝ) 1 := ⟨h0, h1⟩
  have hp := gaPl_pos h0
  have hq := gaQl_pos hy
  have hG : 0 < Gamma (2 + y) := Gamma_pos_of_pos (by linarith)
  have e : gaP y / gaQ y = polyEval gaPl y / polyEval gaQl y := by
    rw [gaP_eq, gaQ_eq]; field_simp
  rw [e]
  have hl : log (polyEval gaPl y / polyEval gaQl y / Gamma (2 + y)) = gaErr y + (lgCore y - log (Gamma (2 + y))) := by
    rw [log_div (by positivity) hG.ne', log_div hp.ne' hq.ne', gaErr, lgCore_eq h0, pow_one]
    ring
  have hb : |log (polyEval gaPl y / polyEval gaQl y / Gamma (2 + y))| ≤ 209 / 10 ^ 18 := by
    rw [hl]
    have := abs_add_le (gaErr y) (lgCore y - log (Gamma (2 + y)))
    have h2 := gaErr_bound hy
    have h3 := lgCore_accurate h0 h1
    norm_num at *
    linarith
  have ht : 0 < polyEval gaPl y / polyEval gaQl y / Gamma (2 + y) := by positivity
  generalize hτ : polyEval gaPl y / polyEval gaQl y / Gamma (2 + y) = t at *
  have e2 : polyEval gaPl y / polyEval gaQl y = t * Gamma (2 + y) := by rw [← hτ]; field_simp
  rw [e2, ← sub_one_mul, abs_mul, abs_of_pos hG]
  refine mul_le_mul_of_nonneg_right ?_ hG.le
  have h4 := Real.abs_exp_sub_one_sub_id_le (x := log t) (hb.trans (by norm_num))
  rw [exp_log ht] at h4
  have h5 : (log t) ^ 2 ≤ (209 / 10 ^ 18) ^ 2 := sq_le_sq' (by linarith [(abs_le.1 hb).1]) (abs_le.1 hb).2
  have h6 : |t - 1| ≤ |t - 1 - log t| + |log t| := by
    have := abs_add_le (t - 1 - log t) (log t)
    rwa [sub_add_cancel] at this
  norm_num at *
  linarith

end Russell.Lab
