import Verif.Prelude
import Verif.Lab.CarlsonSeries

/-!
# Carlson's algorithms `rf` and `rd` (property C107)

Model of russell_lab/src/math/elliptic.rs:247-350 in exact real arithmetic.
-/

namespace Russell.Lab

open MeasureTheory Set Real Russell Russell.Res

/-- `f64::MIN_POSITIVE` -/
noncomputable def f64MinPos : ℝ := 1 / 2 ^ 1022

/-- `f64::MAX` -/
noncomputable def f64Max : ℝ := (2 - 1 / 2 ^ 52) * 2 ^ 1023

/-- `f64::EPSILON` -/
noncomputable def f64Epsilon : ℝ := 1 / 2 ^ 52

/-- the variables of `rf` after the loop was left by `break` -/
structure RfOut where
  xt : ℝ
  yt : ℝ
  zt : ℝ
  ave : ℝ
  dx : ℝ
  dy : ℝ
  dz : ℝ

/-- the loop of `rf` (elliptic.rs:264-281); `none` when all iterations are used up. The counter runs downwards -/
noncomputable def rfLoop : ℕ → ℝ → ℝ → ℝ → Option RfOut
  | 0, _, _, _ => none
  | k + 1, xt, yt, zt =>
    let sqx := √xt
    let sqy := √yt
    let sqz := √zt
    let lam := sqx * (sqy + sqz) + sqy * sqz
    let xt := 1 / 4 * (xt + lam)
    let yt := 1 / 4 * (yt + lam)
    let zt := 1 / 4 * (zt + lam)
    let ave := 1 / 3 * (xt + yt + zt)
    let dx := (ave - xt) / ave
    let dy := (ave - yt) / ave
    let dz := (ave - zt) / ave
    if max (max |dx| |dy|) |dz| < 0.0025 then some ⟨xt, yt, zt, ave, dx, dy, dz⟩ else rfLoop k xt yt zt

/-- `rf` (elliptic.rs:247-288, constants 502-508) in exact arithmetic -/
noncomputable def rf (x y z : ℝ) : Res ℝ :=
  let tiny := 5 * f64MinPos
  let big := 0.2 * f64Max
  if min (min x y) z < 0 ∨ min (min (x + y) (x + z)) (y + z) < tiny ∨ max (max x y) z > big then
    .err "(x,y,z) must be non-negative and at most one can be zero"
  else match rfLoop 11 x y z with
    | none => .err "rf failed to converge"
    | some o =>
      let e2 := o.dx * o.dy - o.dz * o.dz
      let e3 := o.dx * o.dy * o.dz
      .ok ((1 + (1 / 24 * e2 - 0.1 - 3 / 44 * e3) * e2 + 1 / 14 * e3) / √o.ave)

/-- the variables of `rd` after the loop was left by `break` -/
structure RdOut where
  sum : ℝ
  fac : ℝ
  ave : ℝ
  dx : ℝ
  dy : ℝ
  dz : ℝ

/-- the loop of `rd` (elliptic.rs:317-336) -/
noncomputable def rdLoop : ℕ → ℝ → ℝ → ℝ → ℝ → ℝ → Option RdOut
  | 0, _, _, _, _, _ => none
  | k + 1, sum, fac, xt, yt, zt =>
    let sqx := √xt
    let sqy := √yt
    let sqz := √zt
    let lam := sqx * (sqy + sqz) + sqy * sqz
    let sum := sum + fac / (sqz * (zt + lam))
    let fac := 1 / 4 * fac
    let xt := 1 / 4 * (xt + lam)
    let yt := 1 / 4 * (yt + lam)
    let zt := 1 / 4 * (zt + lam)
    let ave := 0.2 * (xt + yt + 3 * zt)
    let dx := (ave - xt) / ave
    let dy := (ave - yt) / ave
    let dz := (ave - zt) / ave
    if max (max |dx| |dy|) |dz| < 0.0015 then some ⟨sum, fac, ave, dx, dy, dz⟩ else rdLoop k sum fac xt yt zt

/-- `rd` (elliptic.rs:300-350, constants 510-516) -/
noncomputable def rd (x y z : ℝ) : Res ℝ :=
  let tiny := 2 * f64Max ^ (-2 / 3 : ℝ)
  let big := 0.1 * 0.0015 * f64MinPos ^ (-2 / 3 : ℝ)
  if min x y < 0 ∨ min (x + y) z < tiny ∨ max (max x y) z > big then
    .err "(x,y) must be non-negative and at most one can be zero. z must be positive"
  else match rdLoop 11 0 1 x y z with
    | none => .err "rd failed to converge"
    | some o =>
      let c1 := 3 / 14
      let c2 := 1 / 6
      let c3 := 9 / 22
      let c4 := 3 / 26
      let c5 := 0.25 * c3
      let c6 := 1.5 * c4
      let ea := o.dx * o.dy
      let eb := o.dz * o.dz
      let ec := ea - eb
      let ed := ea - 6 * eb
      let ee := ed + ec + ec
      .ok (3 * o.sum + o.fac * (1 + ed * (-c1 + c5 * ed - c6 * o.dz * ee) + o.dz * (c2 * ee + o.dz * (-c3 * ec + o.dz * c4 * ea))) / (o.ave * √o.ave))

/-! ## The loop invariant -/

theorem lam_pos {x y z : ℝ} (hx : 0 ≤ x) (hy : 0 ≤ y) (_hz : 0 ≤ z) (h1 : 0 < x + y) (h2 : 0 < x + z) (h3 : 0 < y + z) :
    0 < √x * (√y + √z) + √y * √z := by
  have sx := Real.sqrt_nonneg x
  have sy := Real.sqrt_nonneg y
  have sz := Real.sqrt_nonneg z
  rcases hx.eq_or_lt with rfl | px
  · have : 0 < √y := Real.sqrt_pos.2 (by linarith)
    have : 0 < √z := Real.sqrt_pos.2 (by linarith)
    positivity
  · have qx : 0 < √x := Real.sqrt_pos.2 px
    rcases hy.eq_or_lt with rfl | py
    · have : 0 < √z := Real.sqrt_pos.2 (by linarith)
      positivity
    · have qy : 0 < √y := Real.sqrt_pos.2 py
      have := mul_pos qx qy
      have := mul_nonneg sx sz
      have := mul_nonneg sy sz
      nlinarith

/-- what the loop of `rf` establishes -/
theorem rfLoop_spec (k : ℕ) {x y z : ℝ} (hx : 0 ≤ x) (hy : 0 ≤ y) (hz : 0 ≤ z) (h1 : 0 < x + y) (h2 : 0 < x + z) (h3 : 0 < y + z)
    {o : RfOut} (h : rfLoop k x y z = some o) :
    0 < o.xt ∧ 0 < o.yt ∧ 0 < o.zt ∧ carlsonRF o.xt o.yt o.zt = carlsonRF x y z ∧ o.ave = 1 / 3 * (o.xt + o.yt + o.zt) ∧
    o.dx = (o.ave - o.xt) / o.ave ∧ o.dy = (o.ave - o.yt) / o.ave ∧ o.dz = (o.ave - o.zt) / o.ave ∧
    |o.dx| < 0.0025 ∧ |o.dy| < 0.0025 ∧ |o.dz| < 0.0025 := by
  induction k generalizing x y z with
  | zero => simp [rfLoop] at h
  | succ k ih =>
    have hl := lam_pos hx hy hz h1 h2 h3
    have hdup := carlsonRF_dup hx hy hz _ rfl
    simp only [rfLoop] at h
    set lam := √x * (√y + √z) + √y * √z with hlam
    split_ifs at h with hc
    · simp only [Option.some.injEq] at h
      subst h
      obtain ⟨ha, hb⟩ := max_lt_iff.1 hc
      obtain ⟨ha, hd⟩ := max_lt_iff.1 ha
      exact ⟨by positivity, by positivity, by positivity, hdup, rfl, rfl, rfl, rfl, ha, hd, hb⟩
    · have := ih (by positivity) (by positivity) (by positivity) (by positivity) (by positivity) (by positivity) h
      rw [hdup] at this
      exact this

/-- the integral of the first kind in terms of the relative deviations -/
theorem carlsonRF_scaled {x y z A : ℝ} (hA : 0 < A) :
    carlsonRF x y z = 1 / √A * (1 / 2 * ∫ u in Ioi (1 : ℝ), 1 / √((u - (A - x) / A) * (u - (A - y) / A) * (u - (A - z) / A))) := by
  unfold carlsonRF
  rw [carlson_scale hA, ← integral_const_mul, ← integral_const_mul, ← integral_const_mul]
  congr 1
  funext u
  have e : ∀ a : ℝ, A * (u - 1) + a = A * (u - (A - a) / A) := fun a => by field_simp; ring
  rw [e x, e y, e z]
  have e2 : A * (u - (A - x) / A) * (A * (u - (A - y) / A)) * (A * (u - (A - z) / A)) =
      (A * √A) ^ 2 * ((u - (A - x) / A) * (u - (A - y) / A) * (u - (A - z) / A)) := by
    have := Real.sq_sqrt hA.le
    rw [mul_pow, this]; ring
  have hs : 0 < √A := Real.sqrt_pos.2 hA
  rw [e2, Real.sqrt_mul (by positivity), Real.sqrt_sq (by positivity)]
  field_simp

theorem carlsonRJ_scaled {x y z p A : ℝ} (hA : 0 < A) :
    3 / 2 * (∫ t in Ioi (0 : ℝ), 1 / (√((t + x) * (t + y) * (t + z)) * (t + p))) =
      1 / (A * √A) * (3 / 2 * ∫ u in Ioi (1 : ℝ), 1 / (√((u - (A - x) / A) * (u - (A - y) / A) * (u - (A - z) / A)) * (u - (A - p) / A))) := by
  rw [carlson_scale hA, ← integral_const_mul, ← integral_const_mul, ← integral_const_mul]
  congr 1
  funext u
  have e : ∀ a : ℝ, A * (u - 1) + a = A * (u - (A - a) / A) := fun a => by field_simp; ring
  rw [e x, e y, e z, e p]
  have e2 : A * (u - (A - x) / A) * (A * (u - (A - y) / A)) * (A * (u - (A - z) / A)) =
      (A * √A) ^ 2 * ((u - (A - x) / A) * (u - (A - y) / A) * (u - (A - z) / A)) := by
    have := Real.sq_sqrt hA.le
    rw [mul_pow, this]; ring
  have hs : 0 < √A := Real.sqrt_pos.2 hA
  rw [e2, Real.sqrt_mul (by positivity), Real.sqrt_sq (by positivity)]
  field_simp

/-- from the absolute error of the scaled quantity to the relative error -/
theorem rel_of_scaled {I P S e : ℝ} (hS : 0 < S) (hP : 0.99 ≤ P) (h : |I - P| ≤ e) (he : e ≤ 5 / 10 ^ 17) :
    |P * S - S * I| ≤ 1 / 2 ^ 54 * (S * I) := by
  have h1 := abs_le.1 h
  have hI : 0.98 ≤ I := by
    have : (5 : ℝ) / 10 ^ 17 ≤ 0.01 := by norm_num
    linarith
  have e1 : P * S - S * I = -(S * (I - P)) := by ring
  rw [e1, abs_neg, abs_mul, abs_of_pos hS]
  calc S * |I - P| ≤ S * (5 / 10 ^ 17) := by gcongr; exact h.trans he
    _ ≤ 1 / 2 ^ 54 * (S * I) := by
      have : (5 : ℝ) / 10 ^ 17 ≤ 1 / 2 ^ 54 * 0.98 := by norm_num
      nlinarith

theorem rfPoly_ge {dx dy dz : ℝ} (hx : |dx| ≤ 1 / 400) (hy : |dy| ≤ 1 / 400) (hz : |dz| ≤ 1 / 400) (hs : dx + dy + dz = 0) :
    0.99 ≤ rfPoly (dx * dy - dz * dz) (dx * dy * dz) := by
  obtain ⟨b2, b3⟩ := rf_sym_bounds hx hy hz hs
  rw [← pow_two]
  have c2 := abs_le.1 b2
  have c3 := abs_le.1 b3
  unfold rfPoly
  generalize dx * dy - dz ^ 2 = e2 at *
  generalize dx * dy * dz = e3 at *
  have hm : |e2 * e3| ≤ 3 / 2 * (1 / 400) ^ 2 * (1 / 400) ^ 3 := by
    rw [abs_mul]; gcongr
  have c4 := abs_le.1 hm
  norm_num at c2 c3 c4 ⊢
  nlinarith [sq_nonneg e2]

/-- near the diagonal the polynomial of `rf` has relative error `2⁻⁵⁴` -/
theorem rf_near {x y z A dx dy dz : ℝ} (hx : 0 < x) (hy : 0 < y) (hz : 0 < z) (hA : A = 1 / 3 * (x + y + z))
    (ex : dx = (A - x) / A) (ey : dy = (A - y) / A) (ez : dz = (A - z) / A)
    (bx : |dx| ≤ 1 / 400) (by_ : |dy| ≤ 1 / 400) (bz : |dz| ≤ 1 / 400) :
    |rfPoly (dx * dy - dz * dz) (dx * dy * dz) / √A - carlsonRF x y z| ≤ 1 / 2 ^ 54 * carlsonRF x y z := by
  have hA0 : 0 < A := by rw [hA]; positivity
  have hs : dx + dy + dz = 0 := by
    rw [ex, ey, ez]; field_simp; rw [hA]; ring
  have h := rf_series bx by_ bz hs
  have hp := rfPoly_ge bx by_ bz hs
  rw [carlsonRF_scaled hA0, ← ex, ← ey, ← ez]
  have := rel_of_scaled (S := 1 / √A) (by have := Real.sqrt_pos.2 hA0; positivity) hp h (by norm_num)
  rwa [mul_one_div] at this

theorem f64MinPos_pos : 0 < f64MinPos := by unfold f64MinPos; positivity

/-- `rf` returns the integral to a relative accuracy of `2⁻⁵⁴` -/
theorem rf_accurate {x y z v : ℝ} (h : rf x y z = .ok v) :
    |v - carlsonRF x y z| ≤ 1 / 2 ^ 54 * carlsonRF x y z ∧ 0 ≤ x ∧ 0 ≤ y ∧ 0 ≤ z := by
  unfold rf at h
  simp only [] at h
  split_ifs at h with hc
  rw [not_or, not_or, not_lt, not_lt, not_lt] at hc
  obtain ⟨c1, c2, -⟩ := hc
  have hm := f64MinPos_pos
  obtain ⟨c11, hz⟩ := le_min_iff.1 c1
  obtain ⟨hx, hy⟩ := le_min_iff.1 c11
  obtain ⟨c21, h3⟩ := le_min_iff.1 c2
  obtain ⟨h1, h2⟩ := le_min_iff.1 c21
  refine ⟨?_, hx, hy, hz⟩
  cases hL : rfLoop 11 x y z with
  | none => rw [hL] at h; simp at h
  | some o =>
    rw [hL] at h
    simp only [Res.ok.injEq] at h
    obtain ⟨px, py, pz, hI, hA, ex, ey, ez, bx, by_, bz⟩ := rfLoop_spec 11 hx hy hz (by linarith) (by linarith) (by linarith) hL
    have := rf_near px py pz hA ex ey ez (bx.le.trans (by norm_num)) (by_.le.trans (by norm_num)) (bz.le.trans (by norm_num))
    rw [← hI, ← h]
    have e : 1 + (1 / 24 * (o.dx * o.dy - o.dz * o.dz) - 0.1 - 3 / 44 * (o.dx * o.dy * o.dz)) * (o.dx * o.dy - o.dz * o.dz) + 1 / 14 * (o.dx * o.dy * o.dz) =
        rfPoly (o.dx * o.dy - o.dz * o.dz) (o.dx * o.dy * o.dz) := by unfold rfPoly; norm_num; ring
    rw [e]; exact this

/-! ## `rd` -/

theorem rjPoly_ge {dx dy dz dp : ℝ} (hx : |dx| ≤ 3 / 2000) (hy : |dy| ≤ 3 / 2000) (hz : |dz| ≤ 3 / 2000) (hp : |dp| ≤ 3 / 2000)
    (_hs : dx + dy + dz + 2 * dp = 0) :
    0.99 ≤ rjPoly (dx * dy + dx * dz + dy * dz - 3 * dp ^ 2) (dx * dy * dz + 2 * dp * (dx * dy + dx * dz + dy * dz - dp ^ 2))
        (2 * dp * (dx * dy * dz) + dp ^ 2 * (dx * dy + dx * dz + dy * dz)) (dp ^ 2 * (dx * dy * dz)) := by
  have t : ∀ a b : ℝ, |a| ≤ 3 / 2000 → |b| ≤ 3 / 2000 → |a * b| ≤ 3 / 2000 := fun a b ha hb => by
    rw [abs_mul]
    calc |a| * |b| ≤ 3 / 2000 * (3 / 2000) := by gcongr
      _ ≤ 3 / 2000 := by norm_num
  have xy := t _ _ hx hy
  have xz := t _ _ hx hz
  have yz := t _ _ hy hz
  have pp := t _ _ hp hp
  have xyz := t _ _ xy hz
  have e2a : |dx * dy + dx * dz + dy * dz - 3 * dp ^ 2| ≤ 1 / 100 := by
    rw [pow_two, abs_le]
    constructor <;> linarith [(abs_le.1 xy).1, (abs_le.1 xy).2, (abs_le.1 xz).1, (abs_le.1 xz).2, (abs_le.1 yz).1, (abs_le.1 yz).2, (abs_le.1 pp).1, (abs_le.1 pp).2]
  have ea : |dx * dy + dx * dz + dy * dz - dp ^ 2| ≤ 1 / 100 := by
    rw [pow_two, abs_le]
    constructor <;> linarith [(abs_le.1 xy).1, (abs_le.1 xy).2, (abs_le.1 xz).1, (abs_le.1 xz).2, (abs_le.1 yz).1, (abs_le.1 yz).2, (abs_le.1 pp).1, (abs_le.1 pp).2]
  have eb : |dx * dy + dx * dz + dy * dz| ≤ 1 / 100 := by
    rw [abs_le]
    constructor <;> linarith [(abs_le.1 xy).1, (abs_le.1 xy).2, (abs_le.1 xz).1, (abs_le.1 xz).2, (abs_le.1 yz).1, (abs_le.1 yz).2]
  have q1 : |2 * dp * (dx * dy + dx * dz + dy * dz - dp ^ 2)| ≤ 1 / 1000 := by
    rw [abs_mul, abs_mul, abs_two]
    calc 2 * |dp| * |dx * dy + dx * dz + dy * dz - dp ^ 2| ≤ 2 * (3 / 2000) * (1 / 100) := by gcongr
      _ ≤ _ := by norm_num
  have e3a : |dx * dy * dz + 2 * dp * (dx * dy + dx * dz + dy * dz - dp ^ 2)| ≤ 1 / 100 := by
    refine (abs_add_le _ _).trans ?_
    linarith
  have q2 : |2 * dp * (dx * dy * dz)| ≤ 1 / 1000 := by
    rw [abs_mul, abs_mul, abs_two]
    calc 2 * |dp| * |dx * dy * dz| ≤ 2 * (3 / 2000) * (3 / 2000) := by gcongr
      _ ≤ _ := by norm_num
  have q3 : |dp ^ 2 * (dx * dy + dx * dz + dy * dz)| ≤ 1 / 1000 := by
    rw [pow_two, abs_mul]
    calc |dp * dp| * |dx * dy + dx * dz + dy * dz| ≤ 3 / 2000 * (1 / 100) := by gcongr
      _ ≤ _ := by norm_num
  have e4a : |2 * dp * (dx * dy * dz) + dp ^ 2 * (dx * dy + dx * dz + dy * dz)| ≤ 1 / 500 := by
    refine (abs_add_le _ _).trans ?_
    linarith
  have e5a : |dp ^ 2 * (dx * dy * dz)| ≤ 3 / 2000 := by
    rw [pow_two]; exact t _ _ pp xyz
  unfold rjPoly
  generalize dx * dy + dx * dz + dy * dz - 3 * dp ^ 2 = e2 at *
  generalize dx * dy * dz + 2 * dp * (dx * dy + dx * dz + dy * dz - dp ^ 2) = e3 at *
  generalize 2 * dp * (dx * dy * dz) + dp ^ 2 * (dx * dy + dx * dz + dy * dz) = e4 at *
  generalize dp ^ 2 * (dx * dy * dz) = e5 at *
  have e23 : |e2 * e3| ≤ 1 / 100 * (1 / 100) := by rw [abs_mul]; gcongr
  linarith [(abs_le.1 e2a).2, (abs_le.1 e3a).1, sq_nonneg e2, (abs_le.1 e4a).2, (abs_le.1 e23).2, (abs_le.1 e5a).1]

/-- near the diagonal the polynomial of `rd` and `rj` has relative error `2⁻⁵⁴` -/
theorem rj_near {x y z p A dx dy dz dp : ℝ} (hx : 0 < x) (hy : 0 < y) (hz : 0 < z) (hp : 0 < p) (hA : A = 1 / 5 * (x + y + z + 2 * p))
    (ex : dx = (A - x) / A) (ey : dy = (A - y) / A) (ez : dz = (A - z) / A) (ep : dp = (A - p) / A)
    (bx : |dx| ≤ 3 / 2000) (by_ : |dy| ≤ 3 / 2000) (bz : |dz| ≤ 3 / 2000) (bp : |dp| ≤ 3 / 2000) :
    |rjPoly (dx * dy + dx * dz + dy * dz - 3 * dp ^ 2) (dx * dy * dz + 2 * dp * (dx * dy + dx * dz + dy * dz - dp ^ 2))
        (2 * dp * (dx * dy * dz) + dp ^ 2 * (dx * dy + dx * dz + dy * dz)) (dp ^ 2 * (dx * dy * dz)) / (A * √A) -
      3 / 2 * (∫ t in Ioi (0 : ℝ), 1 / (√((t + x) * (t + y) * (t + z)) * (t + p)))| ≤
      1 / 2 ^ 54 * (3 / 2 * (∫ t in Ioi (0 : ℝ), 1 / (√((t + x) * (t + y) * (t + z)) * (t + p)))) := by
  have hA0 : 0 < A := by rw [hA]; positivity
  have hs : dx + dy + dz + 2 * dp = 0 := by
    rw [ex, ey, ez, ep]; field_simp; rw [hA]; ring
  have h := rj_series bx by_ bz bp hs
  have hp := rjPoly_ge bx by_ bz bp hs
  rw [carlsonRJ_scaled hA0, ← ex, ← ey, ← ez, ← ep]
  have := rel_of_scaled (S := 1 / (A * √A)) (by have := Real.sqrt_pos.2 hA0; positivity) hp h (by norm_num)
  rwa [mul_one_div] at this

theorem carlsonRD_nonneg (x y : ℝ) {z : ℝ} (hz : 0 ≤ z) : 0 ≤ carlsonRD x y z := by
  unfold carlsonRD
  refine mul_nonneg (by norm_num) (setIntegral_nonneg measurableSet_Ioi fun t ht => ?_)
  have : (0 : ℝ) < t := ht
  positivity

/-- what the loop of `rd` establishes -/
theorem rdLoop_spec (k : ℕ) {x y z sum fac : ℝ} (hx : 0 ≤ x) (hy : 0 ≤ y) (hz : 0 < z) (h1 : 0 < x + y) (hf : 0 < fac)
    {o : RdOut} (h : rdLoop k sum fac x y z = some o) :
    ∃ xt yt zt, 0 < xt ∧ 0 < yt ∧ 0 < zt ∧ 0 < o.fac ∧ sum ≤ o.sum ∧
    3 * o.sum + o.fac * carlsonRD xt yt zt = 3 * sum + fac * carlsonRD x y z ∧ o.ave = 0.2 * (xt + yt + 3 * zt) ∧
    o.dx = (o.ave - xt) / o.ave ∧ o.dy = (o.ave - yt) / o.ave ∧ o.dz = (o.ave - zt) / o.ave ∧
    |o.dx| < 0.0015 ∧ |o.dy| < 0.0015 ∧ |o.dz| < 0.0015 := by
  induction k generalizing x y z sum fac with
  | zero => simp [rdLoop] at h
  | succ k ih =>
    have hl := lam_pos hx hy hz.le h1 (by linarith) (by linarith)
    have hdup := carlsonRD_dup hx hy hz h1 _ rfl
    simp only [rdLoop] at h
    set lam := √x * (√y + √z) + √y * √z with hlam
    have hq : 0 < √z := Real.sqrt_pos.2 hz
    have hinc : 0 ≤ fac / (√z * (z + lam)) := by positivity
    split_ifs at h with hc
    · simp only [Option.some.injEq] at h
      subst h
      obtain ⟨ha, hb⟩ := max_lt_iff.1 hc
      obtain ⟨ha, hd⟩ := max_lt_iff.1 ha
      refine ⟨1 / 4 * (x + lam), 1 / 4 * (y + lam), 1 / 4 * (z + lam), by positivity, by positivity, by positivity, by simp only []; positivity, ?_, ?_, rfl, rfl, rfl, rfl, ha, hd, hb⟩
      · simp only []; linarith
      · simp only []; rw [hdup]; ring
    · obtain ⟨xt, yt, zt, a1, a2, a3, a4, a5, a6, a7⟩ := ih (by positivity) (by positivity) (by positivity) (by positivity) (by positivity) h
      refine ⟨xt, yt, zt, a1, a2, a3, a4, by linarith, ?_, a7⟩
      rw [a6, hdup]; ring

theorem f64Max_pos : 0 < f64Max := by
  unfold f64Max
  have : (1 : ℝ) / 2 ^ 52 ≤ 1 := by norm_num
  have h2 : (0 : ℝ) < 2 ^ 1023 := by positivity
  exact mul_pos (by linarith) h2

/-- `rd` returns the integral to a relative accuracy of `2⁻⁵⁴` -/
theorem rd_accurate {x y z v : ℝ} (h : rd x y z = .ok v) :
    |v - carlsonRD x y z| ≤ 1 / 2 ^ 54 * carlsonRD x y z ∧ 0 ≤ x ∧ 0 ≤ y ∧ 0 < z ∧ 0 < x + y := by
  unfold rd at h
  simp only [] at h
  split_ifs at h with hc
  rw [not_or, not_or, not_lt, not_lt, not_lt] at hc
  obtain ⟨c1, c2, -⟩ := hc
  have hm : 0 < f64Max ^ (-2 / 3 : ℝ) := Real.rpow_pos_of_pos f64Max_pos _
  obtain ⟨hx, hy⟩ := le_min_iff.1 c1
  obtain ⟨h1, hz⟩ := le_min_iff.1 c2
  have hz' : 0 < z := by linarith
  have h1' : 0 < x + y := by linarith
  refine ⟨?_, hx, hy, hz', h1'⟩
  cases hL : rdLoop 11 0 1 x y z with
  | none => rw [hL] at h; simp at h
  | some o =>
    rw [hL] at h
    simp only [Res.ok.injEq] at h
    obtain ⟨xt, yt, zt, px, py, pz, pf, ps, hI, hA, ex, ey, ez, bx, by_, bz⟩ := rdLoop_spec 11 hx hy hz' h1' one_pos hL
    have hn := rj_near px py pz pz (by rw [hA]; norm_num; ring) ex ey ez ez (bx.le.trans (by norm_num)) (by_.le.trans (by norm_num)) (bz.le.trans (by norm_num)) (bz.le.trans (by norm_num))
    have hA0 : 0 < o.ave := by rw [hA]; positivity
    have hs : o.dx + o.dy + 3 * o.dz = 0 := by
      rw [ex, ey, ez]; field_simp; rw [hA]; norm_num; ring
    have hdx : o.dx = -o.dy - 3 * o.dz := by linarith
    have e : 1 + (o.dx * o.dy - 6 * (o.dz * o.dz)) * (-(3 / 14) + 0.25 * (9 / 22) * (o.dx * o.dy - 6 * (o.dz * o.dz)) -
          1.5 * (3 / 26) * o.dz * (o.dx * o.dy - 6 * (o.dz * o.dz) + (o.dx * o.dy - o.dz * o.dz) + (o.dx * o.dy - o.dz * o.dz))) +
        o.dz * (1 / 6 * (o.dx * o.dy - 6 * (o.dz * o.dz) + (o.dx * o.dy - o.dz * o.dz) + (o.dx * o.dy - o.dz * o.dz)) +
          o.dz * (-(9 / 22) * (o.dx * o.dy - o.dz * o.dz) + o.dz * (3 / 26) * (o.dx * o.dy))) =
        rjPoly (o.dx * o.dy + o.dx * o.dz + o.dy * o.dz - 3 * o.dz ^ 2) (o.dx * o.dy * o.dz + 2 * o.dz * (o.dx * o.dy + o.dx * o.dz + o.dy * o.dz - o.dz ^ 2))
          (2 * o.dz * (o.dx * o.dy * o.dz) + o.dz ^ 2 * (o.dx * o.dy + o.dx * o.dz + o.dy * o.dz)) (o.dz ^ 2 * (o.dx * o.dy * o.dz)) := by
      unfold rjPoly; rw [hdx]; norm_num; ring
    rw [e] at h
    have hI' : carlsonRD x y z = 3 * o.sum + o.fac * carlsonRD xt yt zt := by linarith
    rw [← h, hI']
    change |_ - carlsonRD xt yt zt| ≤ 1 / 2 ^ 54 * carlsonRD xt yt zt at hn
    rw [mul_div_assoc, add_sub_add_left_eq_sub, ← mul_sub, abs_mul, abs_of_pos pf]
    have hr := carlsonRD_nonneg xt yt pz.le
    calc o.fac * |_| ≤ o.fac * (1 / 2 ^ 54 * carlsonRD xt yt zt) := by gcongr
      _ ≤ 1 / 2 ^ 54 * (3 * o.sum + o.fac * carlsonRD xt yt zt) := by
        have : 0 ≤ 1 / 2 ^ 54 * (3 * o.sum) := by positivity
        linarith

end Russell.Lab
