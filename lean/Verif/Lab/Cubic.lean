import Verif.Prelude
import Mathlib.Analysis.SpecialFunctions.Trigonometric.Inverse
import Mathlib.Analysis.SpecialFunctions.Trigonometric.Bounds
import Mathlib.Analysis.SpecialFunctions.Pow.Real
import Mathlib.Data.List.Sort
import Mathlib.Tactic.FieldSimp
import Mathlib.Tactic.LinearCombination
import Mathlib.Tactic.Linarith

/-!
# Roots of cubic equations (property C38)

Model of `solve_cubic` (/repo/russell_lab/src/algo/cubic.rs) over the real numbers.
-/

namespace Russell.Lab

open Russell Res

/-- `f64::cbrt` -/
noncomputable def cbrt (x : ℝ) : ℝ := if 0 ≤ x then x ^ ((1 : ℝ) / 3) else -((-x) ^ ((1 : ℝ) / 3))

/-- `EPS` (/repo/russell_lab/src/algo/cubic.rs:9) -/
noncomputable def cubicEps : ℝ := 1e-12

/-- `half_b` as a function of the normalised coefficients (/repo/russell_lab/src/algo/cubic.rs:41-45) -/
noncomputable def halfB (p q r : ℝ) : ℝ := (r - (p * q) / 3 + (2 * p * (p * p)) / 27) / 2

/-- `third_a` (/repo/russell_lab/src/algo/cubic.rs:42, 46) -/
noncomputable def thirdA (p q : ℝ) : ℝ := (q - p * p / 3) / 3

/-- roots of the depressed cubic (/repo/russell_lab/src/algo/cubic.rs:49-82) -/
noncomputable def cubicYs (half_b third_a : ℝ) : List ℝ :=
  let delta := half_b * half_b + third_a ^ 3
  if delta > cubicEps then
    let sqrt_delta := Real.sqrt delta
    let u := cbrt (-half_b + sqrt_delta)
    let v := cbrt (-half_b - sqrt_delta)
    [u + v]
  else if delta < -cubicEps then
    let s := Real.sqrt (-third_a)
    let radicand := -half_b / s ^ 3
    let radicand_clamped := max (-1) (min 1 radicand)
    let theta := Real.arccos radicand_clamped
    let factor := 2 * s
    [factor * Real.cos (theta / 3), factor * Real.cos ((theta + 2 * Real.pi) / 3), factor * Real.cos ((theta + 4 * Real.pi) / 3)]
  else if |half_b| < cubicEps then [0, 0, 0]
  else
    let u := cbrt (-half_b)
    [2 * u, -u, -u]

/-- `solve_cubic` (/repo/russell_lab/src/algo/cubic.rs:32-89).  `powf(3.0)` is the third power; the sorting of the list is
`List.mergeSort`. -/
noncomputable def solveCubic (a b c d : ℝ) : Res (List ℝ) :=
  if |a| < cubicEps then err "The absolute value of the leading coefficient 'a' must be nonzero (>= 1e-12)."
  else
    let p := b / a
    let q := c / a
    let r := d / a
    ok (((cubicYs (halfB p q r) (thirdA p q)).map (· - p / 3)).mergeSort (fun x y => decide (x ≤ y)))

/-! ## specification -/

/-- the cubic polynomial -/
def cubicPoly (a b c d x : ℝ) : ℝ := a * x ^ 3 + b * x ^ 2 + c * x + d

/-- the discriminant of `a x³ + b x² + c x + d`, negative for a single real root (up to the factor −108 a⁴ the `delta` of the code) -/
def cubicDisc (a b c d : ℝ) : ℝ := 18 * a * b * c * d - 4 * b ^ 3 * d + b ^ 2 * c ^ 2 - 4 * a * c ^ 3 - 27 * a ^ 2 * d ^ 2

theorem cbrt_pow (x : ℝ) : cbrt x ^ 3 = x := by
  unfold cbrt
  split
  · rename_i h
    rw [← Real.rpow_natCast, ← Real.rpow_mul h]; norm_num
  · rename_i h
    have h' : 0 ≤ -x := by linarith
    have : (-((-x) ^ ((1 : ℝ) / 3))) ^ 3 = -(((-x) ^ ((1 : ℝ) / 3)) ^ 3) := by ring
    rw [this, ← Real.rpow_natCast, ← Real.rpow_mul h']; norm_num

theorem cube_inj {x y : ℝ} (h : x ^ 3 = y ^ 3) : x = y := by
  have : StrictMono (fun x : ℝ => x ^ 3) := Odd.strictMono_pow (by decide)
  exact this.injective h

/-- the depressed cubic: substitution `x = y - p/3` -/
theorem depressed {a b c d : ℝ} (ha : a ≠ 0) (y : ℝ) :
    cubicPoly a b c d (y - b / a / 3) = a * (y ^ 3 + 3 * thirdA (b / a) (c / a) * y + 2 * halfB (b / a) (c / a) (d / a)) := by
  unfold cubicPoly thirdA halfB
  field_simp
  ring

/-- the quantity `delta` of the code is the discriminant divided by `-108 a⁴` -/
theorem delta_eq {a b c d : ℝ} (ha : a ≠ 0) :
    halfB (b / a) (c / a) (d / a) * halfB (b / a) (c / a) (d / a) + thirdA (b / a) (c / a) ^ 3 = -cubicDisc a b c d / (108 * a ^ 4) := by
  unfold halfB thirdA cubicDisc
  field_simp
  ring

/-- one real root -/
theorem cubicYs_one {hb ta : ℝ} (h : hb * hb + ta ^ 3 > cubicEps) :
    ∃ y1, cubicYs hb ta = [y1] ∧ ∀ y, y ^ 3 + 3 * ta * y + 2 * hb = 0 ↔ y = y1 := by
  have h0 : (0 : ℝ) < cubicEps := by unfold cubicEps; norm_num
  unfold cubicYs
  dsimp only
  rw [if_pos h]
  refine ⟨_, rfl, ?_⟩
  have hd : 0 < hb * hb + ta ^ 3 := by linarith
  have hsq := Real.mul_self_sqrt hd.le
  have hspos := Real.sqrt_pos.2 hd
  set sd := Real.sqrt (hb * hb + ta ^ 3)
  have hu := cbrt_pow (-hb + sd)
  have hv := cbrt_pow (-hb - sd)
  set u := cbrt (-hb + sd)
  set v := cbrt (-hb - sd)
  have huv : u * v = -ta := by
    apply cube_inj
    calc (u * v) ^ 3 = u ^ 3 * v ^ 3 := by ring
      _ = hb * hb - sd * sd := by rw [hu, hv]; ring
      _ = (-ta) ^ 3 := by rw [hsq]; ring
  have hne : u ≠ v := by
    intro he
    rw [he] at hu
    linarith
  intro y
  constructor
  · intro hy
    have hfac : (y - (u + v)) * ((y + (u + v) / 2) ^ 2 + 3 / 4 * (u - v) ^ 2) = 0 := by
      have : (y - (u + v)) * ((y + (u + v) / 2) ^ 2 + 3 / 4 * (u - v) ^ 2) = y ^ 3 - 3 * (u * v) * y - (u ^ 3 + v ^ 3) := by ring
      rw [this, huv, hu, hv]; linarith
    rcases mul_eq_zero.1 hfac with h1 | h1
    · linarith
    · have h2 : 0 < (u - v) ^ 2 := by
        have := sub_ne_zero.2 hne
        positivity
      have h3 : 0 ≤ (y + (u + v) / 2) ^ 2 := sq_nonneg _
      linarith
  · rintro rfl
    have : (u + v) ^ 3 + 3 * ta * (u + v) + 2 * hb = (u ^ 3 + v ^ 3) + 2 * hb + 3 * (u + v) * (u * v + ta) := by ring
    rw [this, hu, hv, huv]; ring

theorem cos_third_sum (φ : ℝ) :
    Real.cos (φ + 2 * Real.pi / 3) = -Real.cos φ / 2 - Real.sqrt 3 / 2 * Real.sin φ ∧
    Real.cos (φ + 4 * Real.pi / 3) = -Real.cos φ / 2 + Real.sqrt 3 / 2 * Real.sin φ := by
  have c1 : Real.cos (2 * Real.pi / 3) = -1 / 2 := by
    rw [show 2 * Real.pi / 3 = Real.pi - Real.pi / 3 by ring, Real.cos_pi_sub, Real.cos_pi_div_three]; norm_num
  have s1 : Real.sin (2 * Real.pi / 3) = Real.sqrt 3 / 2 := by
    rw [show 2 * Real.pi / 3 = Real.pi - Real.pi / 3 by ring, Real.sin_pi_sub, Real.sin_pi_div_three]
  have c2 : Real.cos (4 * Real.pi / 3) = -1 / 2 := by
    rw [show 4 * Real.pi / 3 = Real.pi / 3 + Real.pi by ring, Real.cos_add_pi, Real.cos_pi_div_three]; norm_num
  have s2 : Real.sin (4 * Real.pi / 3) = -(Real.sqrt 3 / 2) := by
    rw [show 4 * Real.pi / 3 = Real.pi / 3 + Real.pi by ring, Real.sin_add_pi, Real.sin_pi_div_three]
  rw [Real.cos_add, Real.cos_add, c1, s1, c2, s2]
  constructor <;> ring

/-- three real roots -/
theorem cubicYs_three {hb ta : ℝ} (h : hb * hb + ta ^ 3 < -cubicEps) :
    ∃ y1 y2 y3, cubicYs hb ta = [y1, y2, y3] ∧ ∀ y, y ^ 3 + 3 * ta * y + 2 * hb = (y - y1) * (y - y2) * (y - y3) := by
  have h0 : (0 : ℝ) < cubicEps := by unfold cubicEps; norm_num
  unfold cubicYs
  dsimp only
  rw [if_neg (by linarith), if_pos h]
  refine ⟨_, _, _, rfl, ?_⟩
  have hd : hb * hb + ta ^ 3 < 0 := by linarith
  have hta : 0 < -ta := by
    by_contra hc
    have : 0 ≤ ta ^ 3 := pow_nonneg (by linarith) 3
    nlinarith [mul_self_nonneg hb]
  have hsq := Real.mul_self_sqrt hta.le
  have hspos := Real.sqrt_pos.2 hta
  set s := Real.sqrt (-ta)
  have hs3 : 0 < s ^ 3 := by positivity
  have hs6 : s ^ 3 * s ^ 3 = -(ta ^ 3) := by
    calc s ^ 3 * s ^ 3 = (s * s) ^ 3 := by ring
      _ = -(ta ^ 3) := by rw [hsq]; ring
  have hr : |(-hb / s ^ 3)| ≤ 1 := by
    rw [abs_div, abs_neg, abs_of_pos hs3, div_le_one hs3]
    apply abs_le_of_sq_le_sq _ hs3.le
    nlinarith
  obtain ⟨hr1, hr2⟩ := abs_le.1 hr
  rw [min_eq_right hr2, max_eq_right hr1]
  have hcos := Real.cos_arccos hr1 hr2
  set θ := Real.arccos (-hb / s ^ 3)
  have e3 : Real.cos (3 * (θ / 3)) = -hb / s ^ 3 := by rw [← hcos]; congr 1; ring
  rw [Real.cos_three_mul] at e3
  obtain ⟨k1, k2⟩ := cos_third_sum (θ / 3)
  rw [show (θ + 2 * Real.pi) / 3 = θ / 3 + 2 * Real.pi / 3 by ring, show (θ + 4 * Real.pi) / 3 = θ / 3 + 4 * Real.pi / 3 by ring, k1, k2]
  have hcs := Real.sin_sq_add_cos_sq (θ / 3)
  have h3 : Real.sqrt 3 * Real.sqrt 3 = 3 := Real.mul_self_sqrt (by norm_num)
  generalize Real.cos (θ / 3) = cc at *
  generalize Real.sin (θ / 3) = ss at *
  generalize Real.sqrt 3 = t at *
  have hhb : hb = -(s ^ 3 * (4 * cc ^ 3 - 3 * cc)) := by rw [e3]; field_simp
  have hta' : ta = -(s * s) := by rw [hsq]; ring
  have hss : ss ^ 2 = 1 - cc ^ 2 := by linarith
  have ht2 : t ^ 2 = 3 := by rw [← h3]; ring
  intro y
  rw [hhb, hta']
  have : (y - 2 * s * cc) * (y - 2 * s * (-cc / 2 - t / 2 * ss)) * (y - 2 * s * (-cc / 2 + t / 2 * ss)) =
      (y - 2 * s * cc) * ((y + s * cc) ^ 2 - s ^ 2 * t ^ 2 * ss ^ 2) := by ring
  rw [this, ht2, hss]; ring

/-- a double or a triple root -/
theorem cubicYs_double {hb ta : ℝ} (h : hb * hb + ta ^ 3 = 0) (hx : hb = 0 ∨ cubicEps ≤ |hb|) :
    ∃ y1 y2 y3, cubicYs hb ta = [y1, y2, y3] ∧ ∀ y, y ^ 3 + 3 * ta * y + 2 * hb = (y - y1) * (y - y2) * (y - y3) := by
  have h0 : (0 : ℝ) < cubicEps := by unfold cubicEps; norm_num
  unfold cubicYs
  dsimp only
  rw [if_neg (by linarith), if_neg (by linarith)]
  by_cases hb0 : hb = 0
  · rw [if_pos (by rw [hb0, abs_zero]; exact h0)]
    refine ⟨_, _, _, rfl, ?_⟩
    have : ta ^ 3 = 0 := by rw [hb0] at h; linarith
    have hta : ta = 0 := pow_eq_zero_iff (by norm_num) |>.1 this
    intro y; rw [hb0, hta]; ring
  · rw [if_neg (not_lt.2 (hx.resolve_left hb0))]
    refine ⟨_, _, _, rfl, ?_⟩
    have hu := cbrt_pow (-hb)
    set u := cbrt (-hb)
    have hta : ta = -(u ^ 2) := by
      apply cube_inj
      have : (-(u ^ 2)) ^ 3 = -((u ^ 3) ^ 2) := by ring
      rw [this, hu]; linarith
    have hhb : hb = -(u ^ 3) := by linarith
    intro y; rw [hhb, hta]; ring

theorem mergeSort3_perm (l : List ℝ) : (l.mergeSort (fun x y => decide (x ≤ y))).Perm l := List.mergeSort_perm _ _

theorem mergeSort_sorted_le (l : List ℝ) : (l.mergeSort (fun x y => decide (x ≤ y))).Pairwise (· ≤ ·) := by
  have := List.pairwise_mergeSort (le := fun x y : ℝ => decide (x ≤ y)) (by simp; intro a b c; exact le_trans) (by simp; intro a b; exact le_total a b) l
  simpa using this

/-- C38: the leading coefficient is checked. -/
theorem C38_leading (a b c d : ℝ) : (∃ m, solveCubic a b c d = err m) ↔ |a| < 1e-12 := by
  unfold solveCubic
  split
  · rename_i h; simpa [cubicEps] using h
  · rename_i h; simpa [cubicEps] using h

/-- C38: clearly negative discriminant: exactly one value is returned and it is the only real root. -/
theorem C38_one_root {a b c d : ℝ} (ha : 1e-12 ≤ |a|) (hd : cubicDisc a b c d < -108e-12 * a ^ 4) :
    ∃ x1, solveCubic a b c d = ok [x1] ∧ ∀ x, cubicPoly a b c d x = 0 ↔ x = x1 := by
  have ha0 : a ≠ 0 := by rintro rfl; norm_num at ha
  have h4 : 0 < a ^ 4 := by positivity
  have hdl := delta_eq (b := b) (c := c) (d := d) ha0
  obtain ⟨y1, e, hy⟩ := cubicYs_one (hb := halfB (b / a) (c / a) (d / a)) (ta := thirdA (b / a) (c / a)) (by
    rw [hdl, gt_iff_lt, lt_div_iff₀ (by positivity)]; unfold cubicEps; linarith)
  refine ⟨y1 - b / a / 3, ?_, fun x => ?_⟩
  · unfold solveCubic
    rw [if_neg (by unfold cubicEps; linarith)]
    simp only [e, List.map_cons, List.map_nil, List.mergeSort_singleton]
  · have := depressed (b := b) (c := c) (d := d) ha0 (x + b / a / 3)
    rw [show x + b / a / 3 - b / a / 3 = x by ring] at this
    rw [this, mul_eq_zero, or_iff_right ha0, hy]
    constructor <;> intro h <;> linarith

theorem three_of {a b c d : ℝ} (ha : 1e-12 ≤ |a|) {y1 y2 y3 : ℝ} (e : cubicYs (halfB (b / a) (c / a) (d / a)) (thirdA (b / a) (c / a)) = [y1, y2, y3])
    (hy : ∀ y, y ^ 3 + 3 * thirdA (b / a) (c / a) * y + 2 * halfB (b / a) (c / a) (d / a) = (y - y1) * (y - y2) * (y - y3)) :
    ∃ x1 x2 x3, solveCubic a b c d = ok [x1, x2, x3] ∧ x1 ≤ x2 ∧ x2 ≤ x3 ∧
      ∀ x, cubicPoly a b c d x = a * (x - x1) * (x - x2) * (x - x3) := by
  have ha0 : a ≠ 0 := by rintro rfl; norm_num at ha
  unfold solveCubic
  rw [if_neg (by unfold cubicEps; linarith)]
  dsimp only
  rw [e]
  have hp := mergeSort3_perm (([y1, y2, y3] : List ℝ).map (· - b / a / 3))
  have hs := mergeSort_sorted_le (([y1, y2, y3] : List ℝ).map (· - b / a / 3))
  generalize (([y1, y2, y3] : List ℝ).map (· - b / a / 3)).mergeSort (fun x y => decide (x ≤ y)) = l at *
  obtain ⟨x1, x2, x3, rfl⟩ : ∃ x1 x2 x3, l = [x1, x2, x3] := by
    have := hp.length_eq
    match l, this with
    | [x1, x2, x3], _ => exact ⟨x1, x2, x3, rfl⟩
  refine ⟨x1, x2, x3, rfl, ?_, ?_, fun x => ?_⟩
  · simp only [List.pairwise_cons, List.mem_cons, List.not_mem_nil, or_false] at hs
    exact hs.1 x2 (Or.inl rfl)
  · simp only [List.pairwise_cons, List.mem_cons, List.not_mem_nil, or_false] at hs
    exact hs.2.1 x3 rfl
  · have := depressed (b := b) (c := c) (d := d) ha0 (x + b / a / 3)
    rw [show x + b / a / 3 - b / a / 3 = x by ring] at this
    rw [this, hy]
    have hprod := (hp.map (fun r => x - r)).prod_eq
    simp only [List.map_cons, List.map_nil, List.prod_cons, List.prod_nil, mul_one] at hprod
    calc a * ((x + b / a / 3 - y1) * (x + b / a / 3 - y2) * (x + b / a / 3 - y3)) =
        a * ((x - (y1 - b / a / 3)) * ((x - (y2 - b / a / 3)) * (x - (y3 - b / a / 3)))) := by ring
      _ = _ := by rw [← hprod]; ring

/-- C38: clearly positive discriminant: three values in increasing order whose linear factors give the polynomial, i.e. all its roots. -/
theorem C38_three_roots {a b c d : ℝ} (ha : 1e-12 ≤ |a|) (hd : 108e-12 * a ^ 4 < cubicDisc a b c d) :
    ∃ x1 x2 x3, solveCubic a b c d = ok [x1, x2, x3] ∧ x1 ≤ x2 ∧ x2 ≤ x3 ∧
      ∀ x, cubicPoly a b c d x = a * (x - x1) * (x - x2) * (x - x3) := by
  have ha0 : a ≠ 0 := by rintro rfl; norm_num at ha
  have h4 : 0 < a ^ 4 := by positivity
  have hdl := delta_eq (b := b) (c := c) (d := d) ha0
  obtain ⟨y1, y2, y3, e, hy⟩ := cubicYs_three (hb := halfB (b / a) (c / a) (d / a)) (ta := thirdA (b / a) (c / a)) (by
    rw [hdl, div_lt_iff₀ (by positivity)]; unfold cubicEps; linarith)
  exact three_of ha e hy

/-- the value at the inflection point divided by `2 a`; it vanishes for a triple root -/
noncomputable def inflection (a b c d : ℝ) : ℝ := cubicPoly a b c d (-b / (3 * a)) / (2 * a)

theorem inflection_eq {a b c d : ℝ} (ha : a ≠ 0) : inflection a b c d = halfB (b / a) (c / a) (d / a) := by
  unfold inflection cubicPoly halfB
  field_simp
  ring

/-- C38: vanishing discriminant (multiple roots): the three values are the roots with their multiplicities, provided that the cubic has a
triple root or is not within the cut-off of one. -/
theorem C38_multiple_root {a b c d : ℝ} (ha : 1e-12 ≤ |a|) (hd : cubicDisc a b c d = 0)
    (hi : inflection a b c d = 0 ∨ 1e-12 ≤ |inflection a b c d|) :
    ∃ x1 x2 x3, solveCubic a b c d = ok [x1, x2, x3] ∧ x1 ≤ x2 ∧ x2 ≤ x3 ∧
      ∀ x, cubicPoly a b c d x = a * (x - x1) * (x - x2) * (x - x3) := by
  have ha0 : a ≠ 0 := by rintro rfl; norm_num at ha
  have hdl := delta_eq (b := b) (c := c) (d := d) ha0
  rw [hd] at hdl
  obtain ⟨y1, y2, y3, e, hy⟩ := cubicYs_double (hb := halfB (b / a) (c / a) (d / a)) (ta := thirdA (b / a) (c / a)) (by
    rw [hdl]; simp) (by rw [← inflection_eq ha0]; exact hi)
  exact three_of ha e hy

/-- C38 fails for discriminants that are small but not zero: `x³ + 1.6e-6 = 0` has the single real root `-0.0117`, but three values are
returned, none of which is a root. -/
theorem C38_cutoff_counterexample :
    ∃ x1 x2 x3, solveCubic 1 0 0 1.6e-6 = ok [x1, x2, x3] ∧
      cubicPoly 1 0 0 1.6e-6 x1 ≠ 0 ∧ cubicPoly 1 0 0 1.6e-6 x2 ≠ 0 ∧ cubicPoly 1 0 0 1.6e-6 x3 ≠ 0 := by
  have hu := cbrt_pow (-0.8e-6)
  set u := cbrt (-0.8e-6) with hu'
  have e : cubicYs (halfB (0 / 1) (0 / 1) (1.6e-6 / 1)) (thirdA (0 / 1) (0 / 1)) = [2 * u, -u, -u] := by
    have h1 : halfB (0 / 1) (0 / 1) (1.6e-6 / 1) = 0.8e-6 := by unfold halfB; norm_num
    have h2 : thirdA (0 / 1) (0 / 1) = 0 := by unfold thirdA; norm_num
    rw [h1, h2]
    unfold cubicYs cubicEps
    dsimp only
    rw [if_neg (by norm_num), if_neg (by norm_num), if_neg (by norm_num [abs_of_pos])]
  have hne : ∀ x, x = 2 * u ∨ x = -u → cubicPoly 1 0 0 1.6e-6 x ≠ 0 := by
    unfold cubicPoly
    rintro x (rfl | rfl) h0
    · have : (1 : ℝ) * (2 * u) ^ 3 + 0 * (2 * u) ^ 2 + 0 * (2 * u) + 1.6e-6 = 8 * u ^ 3 + 1.6e-6 := by ring
      rw [this, hu] at h0; norm_num at h0
    · have : (1 : ℝ) * (-u) ^ 3 + 0 * (-u) ^ 2 + 0 * (-u) + 1.6e-6 = -(u ^ 3) + 1.6e-6 := by ring
      rw [this, hu] at h0; norm_num at h0
  unfold solveCubic
  rw [if_neg (by unfold cubicEps; norm_num)]
  dsimp only
  rw [e]
  have hp := mergeSort3_perm (([2 * u, -u, -u] : List ℝ).map (· - 0 / 1 / 3))
  generalize (([2 * u, -u, -u] : List ℝ).map (· - 0 / 1 / 3)).mergeSort (fun x y => decide (x ≤ y)) = l at *
  obtain ⟨x1, x2, x3, rfl⟩ : ∃ x1 x2 x3, l = [x1, x2, x3] := by
    have := hp.length_eq
    match l, this with
    | [x1, x2, x3], _ => exact ⟨x1, x2, x3, rfl⟩
  have hm : ∀ x ∈ [x1, x2, x3], x = 2 * u ∨ x = -u := by
    intro x hx
    have := (hp.mem_iff).1 hx
    simpa using this
  exact ⟨x1, x2, x3, rfl, hne _ (hm _ (by simp)), hne _ (hm _ (by simp)), hne _ (hm _ (by simp))⟩

/-- the hypotheses are met: one root, three roots, a double root and a triple root -/
example : cubicDisc 1 0 1 1 < -108e-12 * 1 ^ 4 := by norm_num [cubicDisc]
example : 108e-12 * 2 ^ 4 < cubicDisc 2 (-12) 22 (-12) := by norm_num [cubicDisc]
example : cubicDisc 1 0 (-3) 2 = 0 ∧ 1e-12 ≤ |inflection 1 0 (-3) 2| := by norm_num [cubicDisc, inflection, cubicPoly]
example : cubicDisc 1 3 3 1 = 0 ∧ inflection 1 3 3 1 = 0 := by norm_num [cubicDisc, inflection, cubicPoly]

end Russell.Lab
