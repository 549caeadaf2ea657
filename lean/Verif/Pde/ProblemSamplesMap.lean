import Verif.Pde.ProblemSamples2d
import Mathlib.Analysis.Calculus.Deriv.Prod
import Mathlib.Analysis.Calculus.Implicit
import Mathlib.Analysis.Calculus.InverseFunctionTheorem.FDeriv

/-!
# Sample problems on curvilinear domains (C98)
-/

namespace Russell.Pde

open Russell Russell.Res Real ProblemSamples TransfiniteSamples

noncomputable section

/-- the point of the domain with the given reference coordinates, and the domain -/
def ProblemMap.px (p : ProblemMap) (r s : ℝ) : ℝ := p.map.point r s 0
def ProblemMap.py (p : ProblemMap) (r s : ℝ) : ℝ := p.map.point r s 1
def ProblemMap.domain (p : ProblemMap) : Set (ℝ × ℝ) := (fun q : ℝ × ℝ => (p.px q.1 q.2, p.py q.1 q.2)) '' square

/-- the sides of the reference square in the order `Xmin, Xmax, Ymin, Ymax` -/
def OnSquare : Nat → ℝ → ℝ → Prop
  | 0, r, s => r = -1 ∧ s ∈ Set.Icc (-1 : ℝ) 1
  | 1, r, s => r = 1 ∧ s ∈ Set.Icc (-1 : ℝ) 1
  | 2, r, s => s = -1 ∧ r ∈ Set.Icc (-1 : ℝ) 1
  | _, r, s => s = 1 ∧ r ∈ Set.Icc (-1 : ℝ) 1

/-- `n` is the outward unit normal, in terms of the derivatives of the mapping -/
def OutNormal (d : Derivs2) (n : Fin 2 → ℝ) : Nat → Prop
  | 0 => n 0 ^ 2 + n 1 ^ 2 = 1 ∧ n 0 * d.ds 0 + n 1 * d.ds 1 = 0 ∧ n 0 * d.dr 0 + n 1 * d.dr 1 < 0
  | 1 => n 0 ^ 2 + n 1 ^ 2 = 1 ∧ n 0 * d.ds 0 + n 1 * d.ds 1 = 0 ∧ 0 < n 0 * d.dr 0 + n 1 * d.dr 1
  | 2 => n 0 ^ 2 + n 1 ^ 2 = 1 ∧ n 0 * d.dr 0 + n 1 * d.dr 1 = 0 ∧ n 0 * d.ds 0 + n 1 * d.ds 1 < 0
  | _ => n 0 ^ 2 + n 1 ^ 2 = 1 ∧ n 0 * d.dr 0 + n 1 * d.dr 1 = 0 ∧ 0 < n 0 * d.ds 0 + n 1 * d.ds 1

/-- a classical solution of `-k ∇²φ = source` with prescribed values and flows `-k ∂φ/∂n` -/
structure ProblemMap.Solution (p : ProblemMap) (φ : ℝ → ℝ → ℝ) : Prop where
  cont : ContinuousOn (fun q : ℝ × ℝ => φ q.1 q.2) p.domain
  smooth : ∀ r ∈ Set.Ioo (-1 : ℝ) 1, ∀ s ∈ Set.Ioo (-1 : ℝ) 1, Smooth2 φ (p.px r s) (p.py r s)
  eq : ∀ r ∈ Set.Ioo (-1 : ℝ) 1, ∀ s ∈ Set.Ioo (-1 : ℝ) 1,
    -p.k * (dx (dx φ) (p.px r s) (p.py r s) + dy (dy φ) (p.px r s) (p.py r s)) = p.source (p.px r s) (p.py r s)
  values : ∀ k < 4, ∀ f, p.ebcs.sides[k]? = some true → p.ebcs.functions[k]? = some f → ∀ r s, OnSquare k r s →
    φ (p.px r s) (p.py r s) = f (p.px r s) (p.py r s)
  flows : ∀ k < 4, ∀ f, p.nbcs.sides[k]? = some true → p.nbcs.functions[k]? = some f → ∀ r s, OnSquare k r s →
    ∀ n, OutNormal (p.map.pointAndDerivs true true true r s) n k → ∃ d,
      HasDerivWithinAt (fun t => φ (p.px r s + t * -n 0) (p.py r s + t * -n 1)) d (Set.Ici 0) 0 ∧ f (p.px r s) (p.py r s) = p.k * d

/-- the conditions are accepted: every side has exactly one -/
structure ProblemMap.WellPosed (p : ProblemMap) : Prop where
  valid : p.ebcs.validate p.nbcs = ok ()
  notPeriodicX : p.ebcs.periodic_along_x = false
  notPeriodicY : p.ebcs.periodic_along_y = false

/-- partial derivatives away from the origin -/
structure PartialsOff (φ φx φy φxx φyy : ℝ → ℝ → ℝ) : Prop where
  hx : ∀ x y, 0 < x ^ 2 + y ^ 2 → HasDerivAt (fun x => φ x y) (φx x y) x
  hy : ∀ x y, 0 < x ^ 2 + y ^ 2 → HasDerivAt (fun y => φ x y) (φy x y) y
  hxx : ∀ x y, 0 < x ^ 2 + y ^ 2 → HasDerivAt (fun x => φx x y) (φxx x y) x
  hyy : ∀ x y, 0 < x ^ 2 + y ^ 2 → HasDerivAt (fun y => φy x y) (φyy x y) y

variable {φ ψ φx φy φxx φyy : ℝ → ℝ → ℝ}

theorem off_x {x y : ℝ} (h : 0 < x ^ 2 + y ^ 2) : ∀ᶠ z in nhds x, 0 < z ^ 2 + y ^ 2 :=
  (by fun_prop : Continuous fun z : ℝ => z ^ 2 + y ^ 2).continuousAt.eventually (lt_mem_nhds h)
theorem off_y {x y : ℝ} (h : 0 < x ^ 2 + y ^ 2) : ∀ᶠ z in nhds y, 0 < x ^ 2 + z ^ 2 :=
  (by fun_prop : Continuous fun z : ℝ => x ^ 2 + z ^ 2).continuousAt.eventually (lt_mem_nhds h)

theorem PartialsOff.dxx_eq (h : PartialsOff φ φx φy φxx φyy) {x y : ℝ} (hxy : 0 < x ^ 2 + y ^ 2) :
    HasDerivAt (fun x => dx φ x y) (φxx x y) x := by
  refine (h.hxx x y hxy).congr_of_eventuallyEq ?_
  filter_upwards [off_x hxy] with z hz
  exact (h.hx z y hz).deriv
theorem PartialsOff.dyy_eq (h : PartialsOff φ φx φy φxx φyy) {x y : ℝ} (hxy : 0 < x ^ 2 + y ^ 2) :
    HasDerivAt (fun y => dy φ x y) (φyy x y) y := by
  refine (h.hyy x y hxy).congr_of_eventuallyEq ?_
  filter_upwards [off_y hxy] with z hz
  exact (h.hy x z hz).deriv
theorem PartialsOff.smooth (h : PartialsOff φ φx φy φxx φyy) {x y : ℝ} (hxy : 0 < x ^ 2 + y ^ 2) : Smooth2 φ x y :=
  ⟨(off_x hxy).mono fun z hz => (h.hx z y hz).differentiableAt, (off_y hxy).mono fun z hz => (h.hy x z hz).differentiableAt,
    (h.dxx_eq hxy).differentiableAt, (h.dyy_eq hxy).differentiableAt⟩

/-- two solutions are equal if there is a function that increases from the sides with prescribed flow into the domain -/
theorem uniqueMap {p : ProblemMap} {a b c d : ℝ} (hk : p.k ≠ 0) (hac : 0 < a + c) (hcomp : IsCompact p.domain)
    (hpt : ∀ r s, (r, s) ∈ square →
      (∃ k < 4, OnSquare k r s ∧ p.ebcs.sides[k]? = some true ∧ ∃ f, p.ebcs.functions[k]? = some f) ∨
      (r ∈ Set.Ioo (-1 : ℝ) 1 ∧ s ∈ Set.Ioo (-1 : ℝ) 1 ∧ p.domain ∈ nhds (p.px r s, p.py r s)) ∨
      (∃ k < 4, OnSquare k r s ∧ p.nbcs.sides[k]? = some true ∧ (∃ f, p.nbcs.functions[k]? = some f) ∧
        ∃ n, OutNormal (p.map.pointAndDerivs true true true r s) n k ∧
          (∀ᶠ t in nhdsWithin 0 (Set.Ioi 0), (p.px r s + t * -n 0, p.py r s + t * -n 1) ∈ p.domain) ∧
          0 < (2 * a * p.px r s + b) * -n 0 + (2 * c * p.py r s + d) * -n 1))
    (hφ : p.Solution φ) (hψ : p.Solution ψ) : ∀ x y, (x, y) ∈ p.domain → ψ x y = φ x y := by
  intro x y hxy
  have := max_principle2 (w := fun x y => ψ x y - φ x y) (κ := 0) (b := b) (d := d) le_rfl le_rfl hac hcomp (hψ.cont.sub hφ.cont)
    (fun x y hxy => ?_) hxy
  · exact sub_eq_zero.1 (abs_nonpos_iff.1 this)
  · obtain ⟨⟨r, s⟩, hrs, e⟩ := hxy
    simp only [Prod.mk.injEq] at e
    obtain ⟨rfl, rfl⟩ := e
    rcases hpt r s hrs with ⟨k, hk4, hs, h1, f, hf⟩ | ⟨hr, hs, hn⟩ | ⟨k, hk4, hs, h1, ⟨f, hf⟩, n, hn, hin, hb⟩
    · left
      rw [hφ.values k hk4 f h1 hf r s hs, hψ.values k hk4 f h1 hf r s hs, sub_self, abs_zero]
    · right; left
      obtain ⟨s1, s2, s3⟩ := smooth_sub (hψ.smooth r hr s hs) (hφ.smooth r hr s hs)
      refine ⟨hn, s1, ?_⟩
      rw [s2, s3, zero_mul]
      have e1 := hφ.eq r hr s hs
      have e2 := hψ.eq r hr s hs
      have : p.k * (dx (dx ψ) (p.px r s) (p.py r s) + dy (dy ψ) (p.px r s) (p.py r s)) =
          p.k * (dx (dx φ) (p.px r s) (p.py r s) + dy (dy φ) (p.px r s) (p.py r s)) := by linear_combination e1 - e2
      linear_combination mul_left_cancel₀ hk this
    · right; right
      refine ⟨-n 0, -n 1, hin, ?_, hb⟩
      obtain ⟨d1, g1, r1⟩ := hφ.flows k hk4 f h1 hf r s hs n hn
      obtain ⟨d2, g2, r2⟩ := hψ.flows k hk4 f h1 hf r s hs n hn
      have := g2.sub g1
      rw [mul_left_cancel₀ hk (r2.symm.trans r1), sub_self] at this
      exact this

/-! ### Functions of the angle -/

theorem cos_atan2 {x y : ℝ} (h : 0 < x ^ 2 + y ^ 2) : cos (atan2 y x) = x / √(x * x + y * y) := by
  have hz : (⟨x, y⟩ : ℂ) ≠ 0 := by
    intro e
    have e1 : x = 0 := congrArg Complex.re e
    have e2 : y = 0 := congrArg Complex.im e
    rw [e1, e2] at h
    norm_num at h
  unfold atan2
  rw [Complex.cos_arg hz, Complex.norm_eq_sqrt_sq_add_sq]
  simp only [sq]

theorem sin_atan2 (x y : ℝ) : sin (atan2 y x) = y / √(x * x + y * y) := by
  unfold atan2
  rw [Complex.sin_arg, Complex.norm_eq_sqrt_sq_add_sq]
  simp only [sq]

theorem sqrt_sq_sum (x y : ℝ) : √(x * x + y * y) ^ 2 = x ^ 2 + y ^ 2 := by
  rw [sq_sqrt (by nlinarith [mul_self_nonneg x, mul_self_nonneg y])]; ring

theorem sin4_atan2 {x y : ℝ} (h : 0 < x ^ 2 + y ^ 2) : sin (4 * atan2 y x) = 4 * (x ^ 3 * y - x * y ^ 3) / (x ^ 2 + y ^ 2) ^ 2 := by
  have hr : √(x * x + y * y) ≠ 0 := by
    intro e
    have := sqrt_sq_sum x y
    rw [e] at this
    norm_num at this
    linarith
  rw [show 4 * atan2 y x = 2 * (2 * atan2 y x) by ring, sin_two_mul, sin_two_mul, cos_two_mul', cos_atan2 h, sin_atan2, ← sqrt_sq_sum x y]
  field_simp
  ring

theorem log_sqrt_sum (x y : ℝ) : log (√(x * x + y * y)) = log (x ^ 2 + y ^ 2) / 2 := by
  rw [log_sqrt (by nlinarith [mul_self_nonneg x, mul_self_nonneg y])]
  ring_nf

theorem rho_x (x y : ℝ) : HasDerivAt (fun x : ℝ => x ^ 2 + y ^ 2) (2 * x) x := by
  simpa using (hasDerivAt_pow 2 x).add_const (y ^ 2)
theorem rho_y (x y : ℝ) : HasDerivAt (fun y : ℝ => x ^ 2 + y ^ 2) (2 * y) y := by
  simpa using (hasDerivAt_pow 2 y).const_add (x ^ 2)

/-- `log r` -/
theorem log_off : PartialsOff (fun x y => log (x ^ 2 + y ^ 2) / 2) (fun x y => x / (x ^ 2 + y ^ 2)) (fun x y => y / (x ^ 2 + y ^ 2))
    (fun x y => (y ^ 2 - x ^ 2) / (x ^ 2 + y ^ 2) ^ 2) (fun x y => (x ^ 2 - y ^ 2) / (x ^ 2 + y ^ 2) ^ 2) := by
  refine ⟨fun x y h => ?_, fun x y h => ?_, fun x y h => ?_, fun x y h => ?_⟩
  · exact (((rho_x x y).log h.ne').div_const 2).congr_deriv (by field_simp)
  · exact (((rho_y x y).log h.ne').div_const 2).congr_deriv (by field_simp)
  · exact ((hasDerivAt_id x).div (rho_x x y) h.ne').congr_deriv (by simp only [id]; congr 1; ring)
  · exact ((hasDerivAt_id y).div (rho_y x y) h.ne').congr_deriv (by simp only [id]; congr 1; ring)

theorem poly_x (a b c d e y x : ℝ) : HasDerivAt (fun x : ℝ => a * x ^ 4 + b * x ^ 3 + c * x ^ 2 + d * x + e) (4 * a * x ^ 3 + 3 * b * x ^ 2 + 2 * c * x + d) x := by
  have := (((((hasDerivAt_pow 4 x).const_mul a).add ((hasDerivAt_pow 3 x).const_mul b)).add ((hasDerivAt_pow 2 x).const_mul c)).add
    ((hasDerivAt_id x).const_mul d)).add_const e
  exact this.congr_deriv (by norm_num; ring)

/-- `sin 4θ` -/
theorem sin4_off : PartialsOff (fun x y => 4 * (x ^ 3 * y - x * y ^ 3) / (x ^ 2 + y ^ 2) ^ 2)
    (fun x y => -4 * y * (x ^ 4 - 6 * x ^ 2 * y ^ 2 + y ^ 4) / (x ^ 2 + y ^ 2) ^ 3)
    (fun x y => 4 * x * (x ^ 4 - 6 * x ^ 2 * y ^ 2 + y ^ 4) / (x ^ 2 + y ^ 2) ^ 3)
    (fun x y => -4 * y * ((4 * x ^ 3 - 12 * x * y ^ 2) * (x ^ 2 + y ^ 2) - 6 * x * (x ^ 4 - 6 * x ^ 2 * y ^ 2 + y ^ 4)) / (x ^ 2 + y ^ 2) ^ 4)
    (fun x y => 4 * x * ((4 * y ^ 3 - 12 * x ^ 2 * y) * (x ^ 2 + y ^ 2) - 6 * y * (x ^ 4 - 6 * x ^ 2 * y ^ 2 + y ^ 4)) / (x ^ 2 + y ^ 2) ^ 4) := by
  refine ⟨fun x y h => ?_, fun x y h => ?_, fun x y h => ?_, fun x y h => ?_⟩
  · have hn := poly_x 0 (4 * y) 0 (-4 * y ^ 3) 0 y x
    have := hn.div ((rho_x x y).pow 2) (pow_ne_zero 2 h.ne')
    refine (this.congr_of_eventuallyEq (Filter.Eventually.of_forall fun z => ?_)).congr_deriv ?_
    · simp only [Pi.div_apply, Pi.pow_apply]; ring
    · norm_num; field_simp; ring
  · have hn := poly_x 0 (-4 * x) 0 (4 * x ^ 3) 0 x y
    have := hn.div ((rho_y x y).pow 2) (pow_ne_zero 2 h.ne')
    refine (this.congr_of_eventuallyEq (Filter.Eventually.of_forall fun z => ?_)).congr_deriv ?_
    · simp only [Pi.div_apply, Pi.pow_apply]; ring
    · norm_num; field_simp; ring
  · have hn := poly_x (-4 * y) 0 (24 * y ^ 3) 0 (-4 * y ^ 5) y x
    have := hn.div ((rho_x x y).pow 3) (pow_ne_zero 3 h.ne')
    refine (this.congr_of_eventuallyEq (Filter.Eventually.of_forall fun z => ?_)).congr_deriv ?_
    · simp only [Pi.div_apply, Pi.pow_apply]; ring
    · norm_num; field_simp; ring
  · have hn := poly_x (4 * x) 0 (-24 * x ^ 3) 0 (4 * x ^ 5) x y
    have := hn.div ((rho_y x y).pow 3) (pow_ne_zero 3 h.ne')
    refine (this.congr_of_eventuallyEq (Filter.Eventually.of_forall fun z => ?_)).congr_deriv ?_
    · simp only [Pi.div_apply, Pi.pow_apply]; ring
    · norm_num; field_simp; ring

/-- products -/
theorem PartialsOff.mul {ψx ψy ψxx ψyy : ℝ → ℝ → ℝ} (h : PartialsOff φ φx φy φxx φyy) (k : PartialsOff ψ ψx ψy ψxx ψyy) :
    PartialsOff (fun x y => φ x y * ψ x y) (fun x y => φx x y * ψ x y + φ x y * ψx x y) (fun x y => φy x y * ψ x y + φ x y * ψy x y)
      (fun x y => φxx x y * ψ x y + φx x y * ψx x y + (φx x y * ψx x y + φ x y * ψxx x y))
      (fun x y => φyy x y * ψ x y + φy x y * ψy x y + (φy x y * ψy x y + φ x y * ψyy x y)) :=
  ⟨fun x y e => (h.hx x y e).mul (k.hx x y e), fun x y e => (h.hy x y e).mul (k.hy x y e),
    fun x y e => ((h.hxx x y e).mul (k.hx x y e)).add ((h.hx x y e).mul (k.hxx x y e)),
    fun x y e => ((h.hyy x y e).mul (k.hy x y e)).add ((h.hy x y e).mul (k.hyy x y e))⟩

/-- only the values away from the origin matter -/
theorem PartialsOff.congr (h : PartialsOff φ φx φy φxx φyy) (e : ∀ x y, 0 < x ^ 2 + y ^ 2 → ψ x y = φ x y) : PartialsOff ψ φx φy φxx φyy :=
  ⟨fun x y p => (h.hx x y p).congr_of_eventuallyEq ((off_x p).mono fun z hz => e z y hz),
    fun x y p => (h.hy x y p).congr_of_eventuallyEq ((off_y p).mono fun z hz => e x z hz), h.hxx, h.hyy⟩

/-- the analytical solutions of problems 8 and 9 -/
def ana8 (x y : ℝ) : ℝ := log (√(x * x + y * y)) * sin (4 * atan2 y x)
def ana9 (ra v x y : ℝ) : ℝ := (√(x * x + y * y) + ra * ra / √(x * x + y * y)) * v * cos (atan2 y x)

theorem ana8_eq {x y : ℝ} (h : 0 < x ^ 2 + y ^ 2) : ana8 x y = log (x ^ 2 + y ^ 2) / 2 * (4 * (x ^ 3 * y - x * y ^ 3) / (x ^ 2 + y ^ 2) ^ 2) := by
  rw [ana8, log_sqrt_sum, sin4_atan2 h]

theorem ana9_eq {ra v x y : ℝ} (h : 0 < x ^ 2 + y ^ 2) : ana9 ra v x y = v * x + v * ra ^ 2 * x / (x ^ 2 + y ^ 2) := by
  have hr : √(x * x + y * y) ≠ 0 := by
    intro e
    have := sqrt_sq_sum x y
    rw [e] at this
    norm_num at this
    linarith
  rw [ana9, cos_atan2 h, ← sqrt_sq_sum x y]
  field_simp

theorem ana8_off : ∃ φx φy φxx φyy, PartialsOff ana8 φx φy φxx φyy ∧ ∀ x y, 0 < x ^ 2 + y ^ 2 →
    φxx x y + φyy x y = -16 * log (√(x * x + y * y)) * sin (4 * atan2 y x) / (√(x * x + y * y) * √(x * x + y * y)) := by
  refine ⟨_, _, _, _, (log_off.mul sin4_off).congr fun _ _ h => ana8_eq h, fun x y h => ?_⟩
  rw [← sq (√(x * x + y * y)), sqrt_sq_sum, log_sqrt_sum, sin4_atan2 h]
  obtain ⟨l, hl⟩ : ∃ l, l = log (x ^ 2 + y ^ 2) := ⟨_, rfl⟩
  simp only [← hl]
  field_simp
  ring

theorem ana9_off (ra v : ℝ) : PartialsOff (ana9 ra v) (fun x y => v + v * ra ^ 2 * (y ^ 2 - x ^ 2) / (x ^ 2 + y ^ 2) ^ 2)
    (fun x y => -2 * v * ra ^ 2 * x * y / (x ^ 2 + y ^ 2) ^ 2)
    (fun x y => v * ra ^ 2 * (2 * x ^ 3 - 6 * x * y ^ 2) / (x ^ 2 + y ^ 2) ^ 3)
    (fun x y => -2 * v * ra ^ 2 * x * (x ^ 2 - 3 * y ^ 2) / (x ^ 2 + y ^ 2) ^ 3) := by
  refine PartialsOff.congr (φ := fun x y => v * x + v * ra ^ 2 * x / (x ^ 2 + y ^ 2)) ⟨fun x y h => ?_, fun x y h => ?_, fun x y h => ?_, fun x y h => ?_⟩
    fun _ _ h => ana9_eq h
  · have := ((hasDerivAt_id x).const_mul v).add (((hasDerivAt_id x).const_mul (v * ra ^ 2)).div (rho_x x y) h.ne')
    refine this.congr_deriv ?_
    simp only [id]
    field_simp
    ring
  · have := ((hasDerivAt_const y (v * ra ^ 2 * x)).div (rho_y x y) h.ne').const_add (v * x)
    refine this.congr_deriv ?_
    field_simp
    ring
  · have hn := poly_x 0 0 (-(v * ra ^ 2)) 0 (v * ra ^ 2 * y ^ 2) y x
    have := (hn.div ((rho_x x y).pow 2) (pow_ne_zero 2 h.ne')).const_add v
    refine (this.congr_of_eventuallyEq (Filter.Eventually.of_forall fun z => ?_)).congr_deriv ?_
    · simp only [Pi.div_apply, Pi.pow_apply]; ring
    · norm_num; field_simp; ring
  · have hn := poly_x 0 0 0 (-2 * v * ra ^ 2 * x) 0 y y
    have := hn.div ((rho_y x y).pow 2) (pow_ne_zero 2 h.ne')
    refine (this.congr_of_eventuallyEq (Filter.Eventually.of_forall fun z => ?_)).congr_deriv ?_
    · simp only [Pi.div_apply, Pi.pow_apply]; ring
    · norm_num; field_simp; ring

theorem cont_off {S : Set (ℝ × ℝ)} (hS : ∀ q ∈ S, 0 < q.1 ^ 2 + q.2 ^ 2) :
    ContinuousOn (fun q : ℝ × ℝ => ana8 q.1 q.2) S ∧ ∀ ra v, ContinuousOn (fun q : ℝ × ℝ => ana9 ra v q.1 q.2) S := by
  have hρ : ContinuousOn (fun q : ℝ × ℝ => q.1 ^ 2 + q.2 ^ 2) S := Continuous.continuousOn (by fun_prop)
  constructor
  · have : ContinuousOn (fun q : ℝ × ℝ => log (q.1 ^ 2 + q.2 ^ 2) / 2 * (4 * (q.1 ^ 3 * q.2 - q.1 * q.2 ^ 3) / (q.1 ^ 2 + q.2 ^ 2) ^ 2)) S :=
      ((hρ.log fun q hq => (hS q hq).ne').div_const 2).mul
        ((Continuous.continuousOn (by fun_prop)).div (hρ.pow 2) fun q hq => pow_ne_zero 2 (hS q hq).ne')
    exact this.congr fun q hq => ana8_eq (hS q hq)
  · intro ra v
    have : ContinuousOn (fun q : ℝ × ℝ => v * q.1 + v * ra ^ 2 * q.1 / (q.1 ^ 2 + q.2 ^ 2)) S :=
      (Continuous.continuousOn (by fun_prop)).add ((Continuous.continuousOn (by fun_prop)).div hρ fun q hq => (hS q hq).ne')
    exact this.congr fun q hq => ana9_eq (hS q hq)

/-! ### The domains -/

/-- the image of the square is a neighbourhood of the image of an interior point if the Jacobian does not vanish -/
theorem nhds_of_det {m : Transfinite2d} {F : ℝ → ℝ → Fin 2 → ℝ} (hE : ExactMap m F) (hF : ContDiff ℝ 1 fun q : ℝ × ℝ => (F q.1 q.2 0, F q.1 q.2 1))
    {r s : ℝ} (hr : r ∈ Set.Ioo (-1 : ℝ) 1) (hs : s ∈ Set.Ioo (-1 : ℝ) 1) (hdet : (m.pointAndDerivs true true true r s).det ≠ 0) :
    (fun q : ℝ × ℝ => (F q.1 q.2 0, F q.1 q.2 1)) '' square ∈ nhds (F r s 0, F r s 1) := by
  have hst := hF.contDiffAt.hasStrictFDerivAt (x := (r, s)) one_ne_zero
  obtain ⟨L, hL⟩ : ∃ L, L = fderiv ℝ (fun q : ℝ × ℝ => (F q.1 q.2 0, F q.1 q.2 1)) (r, s) := ⟨_, rfl⟩
  rw [← hL] at hst
  obtain ⟨_, h1, h2⟩ := hE.first true true true r s
  have c1 : HasDerivAt (fun z : ℝ => ((z, s) : ℝ × ℝ)) (1, 0) r := (hasDerivAt_id r).prodMk (hasDerivAt_const r s)
  have c2 : HasDerivAt (fun z : ℝ => ((r, z) : ℝ × ℝ)) (0, 1) s := (hasDerivAt_const s r).prodMk (hasDerivAt_id s)
  have e1 := (hst.hasFDerivAt.comp_hasDerivAt r c1).unique (HasDerivAt.prodMk (h1 0) (h1 1))
  have e2 := (hst.hasFDerivAt.comp_hasDerivAt s c2).unique (HasDerivAt.prodMk (h2 0) (h2 1))
  obtain ⟨D, hD⟩ : ∃ D, D = m.pointAndDerivs true true true r s := ⟨_, rfl⟩
  rw [← hD] at e1 e2 hdet
  have hdet : D.dr 0 * D.ds 1 - D.dr 1 * D.ds 0 ≠ 0 := hdet
  have hsurj : L.range = ⊤ := by
    rw [LinearMap.range_eq_top]
    rintro ⟨u, v⟩
    refine ⟨(((u * D.ds 1 - v * D.ds 0) / (D.dr 0 * D.ds 1 - D.dr 1 * D.ds 0)) • ((1 : ℝ), (0 : ℝ)) +
      ((D.dr 0 * v - D.dr 1 * u) / (D.dr 0 * D.ds 1 - D.dr 1 * D.ds 0)) • ((0 : ℝ), (1 : ℝ))), ?_⟩
    show L _ = _
    rw [map_add, map_smul, map_smul, e1, e2]
    simp only [Prod.smul_mk, Prod.mk_add_mk, smul_eq_mul, Prod.mk.injEq]
    constructor
    · rw [div_mul_eq_mul_div, div_mul_eq_mul_div, ← add_div, div_eq_iff hdet]; ring
    · rw [div_mul_eq_mul_div, div_mul_eq_mul_div, ← add_div, div_eq_iff hdet]; ring
  have := hst.map_nhds_eq_of_surj hsurj
  rw [← this]
  exact Filter.image_mem_map (prod_mem_nhds (Icc_mem_nhds hr.1 hr.2) (Icc_mem_nhds hs.1 hs.2))

theorem square_cases {r s : ℝ} (h : (r, s) ∈ square) : OnSquare 0 r s ∨ OnSquare 1 r s ∨ OnSquare 2 r s ∨ OnSquare 3 r s ∨
    r ∈ Set.Ioo (-1 : ℝ) 1 ∧ s ∈ Set.Ioo (-1 : ℝ) 1 := by
  obtain ⟨hr, hs⟩ := h
  simp only at hr hs
  rcases eq_or_lt_of_le hr.1 with h1 | h1
  · exact Or.inl ⟨h1.symm, hs⟩
  rcases eq_or_lt_of_le hr.2 with h2 | h2
  · exact Or.inr (Or.inl ⟨h2, hs⟩)
  rcases eq_or_lt_of_le hs.1 with h3 | h3
  · exact Or.inr (Or.inr (Or.inl ⟨h3.symm, hr⟩))
  rcases eq_or_lt_of_le hs.2 with h4 | h4
  · exact Or.inr (Or.inr (Or.inr (Or.inl ⟨h4, hr⟩)))
  exact Or.inr (Or.inr (Or.inr (Or.inr ⟨⟨h1, h2⟩, h3, h4⟩)))

theorem compact_square : IsCompact square := isCompact_Icc.prod isCompact_Icc

/-- the problem on a given mapping -/
def problem8 (m : Transfinite2d) : ProblemMap :=
  ⟨m, -1, ⟨false, false, [ana8, ana8, fun _ _ => 0, fun _ _ => 0], [true, true, true, true]⟩, NaturalBcs2d.new,
    fun x y => -16 * log (√(x * x + y * y)) * sin (4 * atan2 y x) / (√(x * x + y * y) * √(x * x + y * y)), ana8⟩

theorem problem8_core {m : Transfinite2d} {F : ℝ → ℝ → Fin 2 → ℝ} (hE : ExactMap m F) (hpos : ∀ q ∈ square, 0 < F q.1 q.2 0 ^ 2 + F q.1 q.2 1 ^ 2)
    (h0 : ∀ r, F r (-1) 1 = 0) (h1 : ∀ r, F r 1 0 = 0) :
    (problem8 m).WellPosed ∧ (problem8 m).Solution ana8 ∧
    (ContDiff ℝ 1 (fun q : ℝ × ℝ => (F q.1 q.2 0, F q.1 q.2 1)) → (∀ q ∈ square, 0 < (m.pointAndDerivs true true true q.1 q.2).det) →
      ∀ φ, (problem8 m).Solution φ → ∀ x y, (x, y) ∈ (problem8 m).domain → φ x y = ana8 x y) := by
  obtain ⟨φx, φy, φxx, φyy, hP, hL⟩ := ana8_off
  have ex : ∀ r s, (problem8 m).px r s = F r s 0 := fun r s => by show m.point r s 0 = _; rw [hE.point]
  have ey : ∀ r s, (problem8 m).py r s = F r s 1 := fun r s => by show m.point r s 1 = _; rw [hE.point]
  have hdom : ∀ q ∈ (problem8 m).domain, 0 < q.1 ^ 2 + q.2 ^ 2 := by
    rintro _ ⟨⟨r, s⟩, hq, rfl⟩
    simp only [ex, ey]
    exact hpos (r, s) hq
  have hsq : ∀ k r s, OnSquare k r s → (r, s) ∈ square := by
    have l1 : (1 : ℝ) ∈ Set.Icc (-1 : ℝ) 1 := ⟨by norm_num, le_rfl⟩
    have l2 : (-1 : ℝ) ∈ Set.Icc (-1 : ℝ) 1 := ⟨le_rfl, by norm_num⟩
    intro k r s h
    rcases k with _ | _ | _ | k
    · obtain ⟨rfl, h⟩ := h; exact ⟨l2, h⟩
    · obtain ⟨rfl, h⟩ := h; exact ⟨l1, h⟩
    · obtain ⟨rfl, h⟩ := h; exact ⟨h, l2⟩
    · obtain ⟨rfl, h⟩ := h; exact ⟨h, l1⟩
  have hsol : (problem8 m).Solution ana8 := by
    refine ⟨(cont_off hdom).1, fun r hr s hs => ?_, fun r hr s hs => ?_, bcs4 ?_ ?_ ?_ ?_, bcs4 ?_ ?_ ?_ ?_⟩
    · rw [ex, ey]
      exact hP.smooth (hpos (r, s) ⟨⟨hr.1.le, hr.2.le⟩, ⟨hs.1.le, hs.2.le⟩⟩)
    · rw [ex, ey]
      have hq := hpos (r, s) ⟨⟨hr.1.le, hr.2.le⟩, ⟨hs.1.le, hs.2.le⟩⟩
      have a := (hP.dxx_eq hq).deriv
      have b := (hP.dyy_eq hq).deriv
      have c := hL _ _ hq
      have a : dx (dx ana8) (F r s 0) (F r s 1) = _ := a
      have b : dy (dy ana8) (F r s 0) (F r s 1) = _ := b
      rw [a, b, c]
      show -(-1) * _ = _
      simp only [neg_neg, one_mul]
      rfl
    · intro _ r s _; rfl
    · intro _ r s _; rfl
    · intro _ r s h
      have hq := hpos (r, s) (hsq 2 r s h)
      obtain ⟨rfl, _⟩ := h
      rw [ex, ey, ana8_eq hq]
      simp [h0]
    · intro _ r s h
      have hq := hpos (r, s) (hsq 3 r s h)
      obtain ⟨rfl, _⟩ := h
      rw [ex, ey, ana8_eq hq]
      simp [h1]
    all_goals intro h; cases h
  refine ⟨⟨rfl, rfl, rfl⟩, hsol, fun hF hdet φ hφ => ?_⟩
  have hdomF : (problem8 m).domain = (fun q : ℝ × ℝ => (F q.1 q.2 0, F q.1 q.2 1)) '' square := by
    unfold ProblemMap.domain
    simp only [ex, ey]
  refine uniqueMap (a := 1) (b := 0) (c := 0) (d := 0) (by show (-1 : ℝ) ≠ 0; norm_num) (by norm_num) ?_ ?_ hsol hφ
  · rw [hdomF]
    exact compact_square.image hF.continuous
  · intro r s h
    rcases square_cases h with h' | h' | h' | h' | ⟨hr, hs⟩
    · exact Or.inl ⟨0, by norm_num, h', rfl, _, rfl⟩
    · exact Or.inl ⟨1, by norm_num, h', rfl, _, rfl⟩
    · exact Or.inl ⟨2, by norm_num, h', rfl, _, rfl⟩
    · exact Or.inl ⟨3, by norm_num, h', rfl, _, rfl⟩
    · refine Or.inr (Or.inl ⟨hr, hs, ?_⟩)
      rw [ex, ey, hdomF]
      exact nhds_of_det hE hF hr hs (hdet (r, s) h).ne'

theorem ringMap_norm (a b Θ r s : ℝ) : ringMap a b Θ r s 0 ^ 2 + ringMap a b Θ r s 1 ^ 2 = (a + (1 + r) / 2 * (b - a)) ^ 2 := by
  simp only [ringMap, Matrix.cons_val_zero, Matrix.cons_val_one]
  have := sin_sq_add_cos_sq (Θ * (1 + s) / 2)
  linear_combination (a + (1 + r) / 2 * (b - a)) ^ 2 * this

theorem ring_radius {a b r : ℝ} (ha : 0 < a) (hb : 0 < b) (hr : r ∈ Set.Icc (-1 : ℝ) 1) : 0 < a + (1 + r) / 2 * (b - a) := by
  have h1 := hr.1
  have h2 := hr.2
  have : a + (1 + r) / 2 * (b - a) = (1 - r) / 2 * a + (1 + r) / 2 * b := by ring
  rw [this]
  rcases eq_or_lt_of_le h1 with h | h
  · rw [← h]; norm_num; exact ha
  · have := mul_pos (show 0 < (1 + r) / 2 by linarith) hb
    have := mul_nonneg (show 0 ≤ (1 - r) / 2 by linarith) ha.le
    linarith

theorem ringMap_smooth (a b Θ : ℝ) : ContDiff ℝ 1 fun q : ℝ × ℝ => (ringMap a b Θ q.1 q.2 0, ringMap a b Θ q.1 q.2 1) := by
  simp only [ringMap, Matrix.cons_val_zero, Matrix.cons_val_one]
  fun_prop

theorem lozengeMap_smooth (a b : ℝ) : ContDiff ℝ 1 fun q : ℝ × ℝ => (lozengeMap a b q.1 q.2 0, lozengeMap a b q.1 q.2 1) := by
  simp only [lozengeMap, Matrix.cons_val_zero, Matrix.cons_val_one]
  fun_prop

/-- **C98 (2D problem 8).** The analytical solution is a solution on the quarter of the ring and on the quarter of the perforated
lozenge, the only one if `ra < rb` or `√2 ra < rb`, respectively. -/
theorem C98_d2_problem_08 {ra rb : ℝ} (ha : 0 < ra) (hb : 0 < rb) (lozenge : Bool) : ∃ p, d2Problem08 ra rb lozenge = ok p ∧ p.WellPosed ∧
    (if lozenge then quarterPerforatedLozenge2d ra rb else quarterRing2d ra rb) = ok p.map ∧ p.Solution p.analytical ∧
    ((if lozenge then √2 * ra else ra) < rb → ∀ φ, p.Solution φ → ∀ x y, (x, y) ∈ p.domain → φ x y = p.analytical x y) := by
  cases lozenge
  · obtain ⟨m, hm, hE, hB⟩ := C97_quarter_ring_2d ra rb
    obtain ⟨a, b, c⟩ := problem8_core hE (fun q hq => by
      rw [ringMap_norm]
      exact pow_pos (ring_radius ha hb hq.1) 2) (fun r => by simp [ringMap]) (fun r => by
      simp only [ringMap, Matrix.cons_val_zero]
      rw [show π / 2 * (1 + 1) / 2 = π / 2 by ring, cos_pi_div_two, mul_zero])
    refine ⟨problem8 m, ?_, a, hm, b, fun h => c (ringMap_smooth _ _ _) ((hB ha h).2 true true true)⟩
    unfold d2Problem08
    rw [if_neg (by simp), hm]
    rfl
  · obtain ⟨m, hm, hE, hB⟩ := C97_quarter_perforated_lozenge_2d ra rb
    obtain ⟨a, b, c⟩ := problem8_core hE (fun q hq => by
      obtain ⟨⟨r0, r1⟩, ⟨s0, s1⟩⟩ := hq
      obtain ⟨r, s⟩ := q
      simp only at r0 r1 s0 s1
      have t0 : 0 ≤ π * (1 + s) / 4 := by have := pi_pos; have : 0 ≤ 1 + s := by linarith
                                          positivity
      have t1 : π * (1 + s) / 4 ≤ π / 2 := by nlinarith [pi_pos]
      have hc := cos_nonneg_of_neg_pi_div_two_le_of_le (by linarith [pi_pos]) t1
      have hs := sin_nonneg_of_nonneg_of_le_pi t0 (by linarith [pi_pos])
      have h1 := sin_sq_add_cos_sq (π * (1 + s) / 4)
      have hsum : 1 ≤ cos (π * (1 + s) / 4) + sin (π * (1 + s) / 4) := by nlinarith [mul_nonneg hc hs]
      simp only [lozengeMap, Matrix.cons_val_zero, Matrix.cons_val_one]
      have e : 0 < ((1 - r) / 2 * (ra * cos (π * (1 + s) / 4)) + (1 + r) / 2 * (rb * (1 - s) / 2)) +
          ((1 - r) / 2 * (ra * sin (π * (1 + s) / 4)) + (1 + r) / 2 * (rb * (1 + s) / 2)) := by
        have : 0 < (1 - r) / 2 * ra + (1 + r) / 2 * rb := by
          have := ring_radius ha hb (r := r) ⟨r0, r1⟩
          linarith
        have : 0 ≤ (1 - r) / 2 * ra * (cos (π * (1 + s) / 4) + sin (π * (1 + s) / 4) - 1) :=
          mul_nonneg (mul_nonneg (by linarith) ha.le) (by linarith)
        linarith
      generalize (1 - r) / 2 * (ra * cos (π * (1 + s) / 4)) + (1 + r) / 2 * (rb * (1 - s) / 2) = X at *
      generalize (1 - r) / 2 * (ra * sin (π * (1 + s) / 4)) + (1 + r) / 2 * (rb * (1 + s) / 2) = Y at *
      nlinarith [mul_pos e e, sq_nonneg (X - Y)]) (fun r => by simp [lozengeMap]) (fun r => by
      simp only [lozengeMap, Matrix.cons_val_zero]
      rw [show π * (1 + 1) / 4 = π / 2 by ring, cos_pi_div_two]
      ring)
    refine ⟨problem8 m, ?_, a, hm, b, fun h => c (lozengeMap_smooth _ _) ?_⟩
    · unfold d2Problem08
      rw [if_pos rfl, hm]
      rfl
    · exact (hB ha true true true).2 h

example := C98_d2_problem_08 (ra := 1) (rb := 2) (by norm_num) (by norm_num) false

/-! ### Potential flow -/

/-- the problem on a given mapping -/
def problem9 (m : Transfinite2d) (ra v : ℝ) : ProblemMap :=
  ⟨m, -1, ⟨false, false, [fun _ _ => 0, ana9 ra v, fun _ _ => 0, fun _ _ => 0], [false, true, false, false]⟩,
    ⟨[fun _ _ => 0, fun _ _ => 0, fun _ _ => 0, fun _ _ => 0], [true, false, true, true]⟩, fun _ _ => 0, ana9 ra v⟩

theorem ana9_line (ra v : ℝ) {X Y : ℝ} (h : 0 < X ^ 2 + Y ^ 2) (e0 e1 : ℝ) : HasDerivAt (fun t => ana9 ra v (X + t * e0) (Y + t * e1))
    (v * e0 + v * ra ^ 2 * (e0 * (X ^ 2 + Y ^ 2) - X * (2 * X * e0 + 2 * Y * e1)) / (X ^ 2 + Y ^ 2) ^ 2) 0 := by
  have l : ∀ X e : ℝ, HasDerivAt (fun t : ℝ => X + t * e) e 0 := fun X e => by simpa using ((hasDerivAt_id (0 : ℝ)).mul_const e).const_add X
  have q := ((l X e0).fun_pow 2).fun_add ((l Y e1).fun_pow 2)
  have g : HasDerivAt (fun t : ℝ => v * (X + t * e0) + v * ra ^ 2 * ((X + t * e0) / ((X + t * e0) ^ 2 + (Y + t * e1) ^ 2))) _ 0 :=
    ((l X e0).const_mul v).fun_add (((l X e0).fun_div q (by simpa using h.ne')).const_mul (v * ra ^ 2))
  have hev : ∀ᶠ t in nhds (0 : ℝ), 0 < (X + t * e0) ^ 2 + (Y + t * e1) ^ 2 :=
    (by fun_prop : Continuous fun t : ℝ => (X + t * e0) ^ 2 + (Y + t * e1) ^ 2).continuousAt.eventually (lt_mem_nhds (by simpa using h))
  refine (g.congr_of_eventuallyEq ?_).congr_deriv ?_
  · filter_upwards [hev] with t ht
    rw [ana9_eq ht]
    ring
  · simp only [zero_mul, add_zero, Nat.cast_ofNat, Nat.add_one_sub_one, pow_one]
    ring

theorem ring_derivs {a b Θ : ℝ} {m : Transfinite2d} (h : ExactMap m (ringMap a b Θ)) (r s : ℝ) :
    (m.pointAndDerivs true true true r s).dr 0 = (b - a) / 2 * cos (Θ * (1 + s) / 2) ∧
    (m.pointAndDerivs true true true r s).dr 1 = (b - a) / 2 * sin (Θ * (1 + s) / 2) ∧
    (m.pointAndDerivs true true true r s).ds 0 = -(a + (1 + r) / 2 * (b - a)) * sin (Θ * (1 + s) / 2) * (Θ / 2) ∧
    (m.pointAndDerivs true true true r s).ds 1 = (a + (1 + r) / 2 * (b - a)) * cos (Θ * (1 + s) / 2) * (Θ / 2) := by
  obtain ⟨_, hr, hs⟩ := h.first true true true r s
  have q : ∀ x : ℝ, Θ * (1 + x) / 2 = Θ / 2 + Θ / 2 * x := fun x => by ring
  refine ⟨(hr 0).unique (f := fun r => ringMap a b Θ r s 0) (lin1 ((a + 1 / 2 * (b - a)) * cos (Θ * (1 + s) / 2)) ((b - a) / 2 * cos (Θ * (1 + s) / 2)) r fun x => by
    simp [ringMap]; ring), (hr 1).unique (f := fun r => ringMap a b Θ r s 1) (lin1 ((a + 1 / 2 * (b - a)) * sin (Θ * (1 + s) / 2)) ((b - a) / 2 * sin (Θ * (1 + s) / 2)) r fun x => by
    simp [ringMap]; ring), ?_, ?_⟩
  · rw [q]
    exact (hs 0).unique (f := fun s => ringMap a b Θ r s 0) (cos_d (a + (1 + r) / 2 * (b - a)) (Θ / 2) (Θ / 2) _ s (fun x => by
      simp [ringMap, q]) rfl)
  · rw [q]
    exact (hs 1).unique (f := fun s => ringMap a b Θ r s 1) (sin_d (a + (1 + r) / 2 * (b - a)) (Θ / 2) (Θ / 2) _ s (fun x => by
      simp [ringMap, q]) rfl)

theorem px9 {ra rb v : ℝ} {m : Transfinite2d} (hE : ExactMap m (ringMap ra rb π)) (r s : ℝ) : (problem9 m ra v).px r s = ringMap ra rb π r s 0 := by
  show m.point r s 0 = _
  rw [hE.point]
theorem py9 {ra rb v : ℝ} {m : Transfinite2d} (hE : ExactMap m (ringMap ra rb π)) (r s : ℝ) : (problem9 m ra v).py r s = ringMap ra rb π r s 1 := by
  show m.point r s 1 = _
  rw [hE.point]
theorem pos9 {ra rb : ℝ} (ha : 0 < ra) (hb : 0 < rb) : ∀ q ∈ square, 0 < ringMap ra rb π q.1 q.2 0 ^ 2 + ringMap ra rb π q.1 q.2 1 ^ 2 :=
  fun q hq => by
    rw [ringMap_norm]
    exact pow_pos (ring_radius ha hb hq.1) 2
theorem dom9 {ra rb : ℝ} {m : Transfinite2d} (hE : ExactMap m (ringMap ra rb π))
    (hB : Set.BijOn (fun p : ℝ × ℝ => m.point p.1 p.2) square (halfRing ra rb)) (v : ℝ) :
    ∀ x y, (x, y) ∈ (problem9 m ra v).domain ↔ ra ^ 2 ≤ x ^ 2 + y ^ 2 ∧ x ^ 2 + y ^ 2 ≤ rb ^ 2 ∧ 0 ≤ y := by
  intro x y
  constructor
  · rintro ⟨q, hq, e⟩
    simp only [Prod.mk.injEq] at e
    have := hB.mapsTo hq
    rw [← e.1, ← e.2]
    exact this
  · intro h
    obtain ⟨q, hq, e⟩ := hB.surjOn (show ![x, y] ∈ halfRing ra rb from by simpa [halfRing] using h)
    refine ⟨q, hq, ?_⟩
    have e : m.point q.1 q.2 = ![x, y] := e
    show (m.point q.1 q.2 0, m.point q.1 q.2 1) = _
    rw [e]
    rfl

theorem solution9 {ra rb : ℝ} (ha : 0 < ra) (hab : ra < rb) (v : ℝ) {m : Transfinite2d} (hE : ExactMap m (ringMap ra rb π))
    (hB : Set.BijOn (fun p : ℝ × ℝ => m.point p.1 p.2) square (halfRing ra rb)) : (problem9 m ra v).Solution (ana9 ra v) := by
  have hb : 0 < rb := ha.trans hab
  have ex := fun r s => px9 hE (v := v) r s
  have ey := fun r s => py9 hE (v := v) r s
  have hpos := pos9 ha hb
  have hdom := dom9 hE hB v
  have l1 : (1 : ℝ) ∈ Set.Icc (-1 : ℝ) 1 := ⟨by norm_num, le_rfl⟩
  have l2 : (-1 : ℝ) ∈ Set.Icc (-1 : ℝ) 1 := ⟨le_rfl, by norm_num⟩
  have z1 : π * (1 + -1) / 2 = 0 := by ring
  have z2 : π * (1 + 1) / 2 = π := by ring
  have hdomp : ∀ q ∈ (problem9 m ra v).domain, 0 < q.1 ^ 2 + q.2 ^ 2 := fun q hq => by
    have := (hdom q.1 q.2).1 hq
    have := pow_pos ha 2
    linarith [this]
  refine ⟨(cont_off hdomp).2 ra v, fun r hr s hs => ?_, fun r hr s hs => ?_, bcs4 ?_ ?_ ?_ ?_, bcs4 ?_ ?_ ?_ ?_⟩
  · rw [ex, ey]
    exact (ana9_off ra v).smooth (hpos (r, s) ⟨⟨hr.1.le, hr.2.le⟩, ⟨hs.1.le, hs.2.le⟩⟩)
  · rw [ex, ey]
    have hq := hpos (r, s) ⟨⟨hr.1.le, hr.2.le⟩, ⟨hs.1.le, hs.2.le⟩⟩
    have a : dx (dx (ana9 ra v)) (ringMap ra rb π r s 0) (ringMap ra rb π r s 1) = _ := ((ana9_off ra v).dxx_eq hq).deriv
    have b : dy (dy (ana9 ra v)) (ringMap ra rb π r s 0) (ringMap ra rb π r s 1) = _ := ((ana9_off ra v).dyy_eq hq).deriv
    rw [a, b]
    show _ = (0 : ℝ)
    field_simp
    ring
  · intro h; cases h
  · intro _ r s _; rfl
  · intro h; cases h
  · intro h; cases h
  · intro _ r s h n hn
    have hq : (r, s) ∈ square := by obtain ⟨rfl, h⟩ := h; exact ⟨l2, h⟩
    obtain ⟨rfl, hs⟩ := h
    have hq' := hpos _ hq
    rw [← ex, ← ey] at hq'
    refine ⟨_, (ana9_line ra v hq' (-n 0) (-n 1)).hasDerivWithinAt, ?_⟩
    rw [ex, ey, ringMap_norm]
    obtain ⟨-, -, d0, d1⟩ := ring_derivs (m := (problem9 m ra v).map) hE (-1) s
    have hn := hn.2.1
    rw [d0, d1] at hn
    simp only [ringMap, Matrix.cons_val_zero, Matrix.cons_val_one]
    have hn : n 1 * cos (π * (1 + s) / 2) = n 0 * sin (π * (1 + s) / 2) := by
      have : ra * (π / 2) * (n 1 * cos (π * (1 + s) / 2) - n 0 * sin (π * (1 + s) / 2)) = 0 := by linear_combination hn
      have := (mul_eq_zero.1 this).resolve_left (by positivity)
      linarith
    have hsc := sin_sq_add_cos_sq (π * (1 + s) / 2)
    generalize cos (π * (1 + s) / 2) = c at *
    generalize sin (π * (1 + s) / 2) = σ at *
    rw [show ra + (1 + -1) / 2 * (rb - ra) = ra by ring]
    show (0 : ℝ) = -1 * _
    have e : v * -n 0 + v * ra ^ 2 * (-n 0 * ra ^ 2 - ra * c * (2 * (ra * c) * -n 0 + 2 * (ra * σ) * -n 1)) / (ra ^ 2) ^ 2 =
        -(2 * v * n 0) + 2 * v * c * (c * n 0 + σ * n 1) := by
      have hra := ha.ne'
      field_simp
      ring
    rw [e]
    linear_combination 2 * v * n 0 * hsc + 2 * v * σ * hn
  · intro h; cases h
  · intro _ r s h n hn
    have hq : (r, s) ∈ square := by obtain ⟨rfl, h⟩ := h; exact ⟨h, l2⟩
    obtain ⟨rfl, hr⟩ := h
    have hq' := hpos _ hq
    rw [← ex, ← ey] at hq'
    refine ⟨_, (ana9_line ra v hq' (-n 0) (-n 1)).hasDerivWithinAt, ?_⟩
    obtain ⟨d0, d1, -, -⟩ := ring_derivs (m := (problem9 m ra v).map) hE r (-1)
    have hn := hn.2.1
    rw [d0, d1, z1, cos_zero, sin_zero] at hn
    have hn : n 0 = 0 := by
      have : n 0 * ((rb - ra) / 2) = 0 := by linear_combination hn
      exact (mul_eq_zero.1 this).resolve_right (by linarith)
    have hy : (problem9 m ra v).py r (-1) = 0 := by rw [ey]; simp [ringMap]
    rw [hn, hy]
    show (0 : ℝ) = -1 * _
    ring
  · intro _ r s h n hn
    have hq : (r, s) ∈ square := by obtain ⟨rfl, h⟩ := h; exact ⟨h, l1⟩
    obtain ⟨rfl, hr⟩ := h
    have hq' := hpos _ hq
    rw [← ex, ← ey] at hq'
    refine ⟨_, (ana9_line ra v hq' (-n 0) (-n 1)).hasDerivWithinAt, ?_⟩
    obtain ⟨d0, d1, -, -⟩ := ring_derivs (m := (problem9 m ra v).map) hE r 1
    have hn := hn.2.1
    rw [d0, d1, z2, cos_pi, sin_pi] at hn
    have hn : n 0 = 0 := by
      have : n 0 * ((rb - ra) / 2) = 0 := by linear_combination -hn
      exact (mul_eq_zero.1 this).resolve_right (by linarith)
    have hy : (problem9 m ra v).py r 1 = 0 := by rw [ey]; simp only [ringMap, Matrix.cons_val_one]; rw [z2, sin_pi, mul_zero]; rfl
    rw [hn, hy]
    show (0 : ℝ) = -1 * _
    ring

theorem unique9 {ra rb : ℝ} (ha : 0 < ra) (hab : ra < rb) (v : ℝ) {m : Transfinite2d} (hE : ExactMap m (ringMap ra rb π))
    (hB : Set.BijOn (fun p : ℝ × ℝ => m.point p.1 p.2) square (halfRing ra rb))
    (hdet : ∀ q ∈ square, 0 < (m.pointAndDerivs true true true q.1 q.2).det) {φ ψ : ℝ → ℝ → ℝ}
    (hφ : (problem9 m ra v).Solution φ) (hψ : (problem9 m ra v).Solution ψ) : ∀ x y, (x, y) ∈ (problem9 m ra v).domain → ψ x y = φ x y := by
  have hb : 0 < rb := ha.trans hab
  have ex := fun r s => px9 hE (v := v) r s
  have ey := fun r s => py9 hE (v := v) r s
  have hpos := pos9 ha hb
  have hdom := dom9 hE hB v
  have l1 : (1 : ℝ) ∈ Set.Icc (-1 : ℝ) 1 := ⟨by norm_num, le_rfl⟩
  have l2 : (-1 : ℝ) ∈ Set.Icc (-1 : ℝ) 1 := ⟨le_rfl, by norm_num⟩
  have z1 : π * (1 + -1) / 2 = 0 := by ring
  have z2 : π * (1 + 1) / 2 = π := by ring
  have hdomF : (problem9 m ra v).domain = (fun q : ℝ × ℝ => (ringMap ra rb π q.1 q.2 0, ringMap ra rb π q.1 q.2 1)) '' square := by
    unfold ProblemMap.domain
    simp only [ex, ey]
  have hF := ringMap_smooth ra rb π
  have ev : ∀ {f : ℝ → ℝ}, Continuous f → f 0 < rb ^ 2 → ∀ᶠ t in nhdsWithin 0 (Set.Ioi 0), f t ≤ rb ^ 2 := fun hf h =>
    ((hf.continuousAt.eventually (gt_mem_nhds h)).filter_mono nhdsWithin_le_nhds).mono fun _ h => h.le
  refine uniqueMap (a := 1) (b := 0) (c := 1) (d := 1) (by show (-1 : ℝ) ≠ 0; norm_num) (by norm_num) ?_ ?_ hφ hψ
  · rw [hdomF]
    exact compact_square.image hF.continuous
  · intro r s h
    by_cases h1 : r = 1
    · exact Or.inl ⟨1, by norm_num, ⟨h1, h.2⟩, rfl, _, rfl⟩
    have hR := ring_radius ha hb h.1
    have hRb : ra + (1 + r) / 2 * (rb - ra) < rb := by
      have : r < 1 := lt_of_le_of_ne h.1.2 h1
      nlinarith
    have hRa : ra ≤ ra + (1 + r) / 2 * (rb - ra) := by
      have : 0 ≤ (1 + r) / 2 * (rb - ra) := mul_nonneg (by have := h.1.1; linarith) (by linarith)
      linarith
    have hπ := pi_pos
    have flat : ∀ ε : ℝ, ε ^ 2 = 1 → (problem9 m ra v).px r s = (ra + (1 + r) / 2 * (rb - ra)) * ε → (problem9 m ra v).py r s = 0 →
        (∀ᶠ t in nhdsWithin 0 (Set.Ioi 0), ((problem9 m ra v).px r s + t * -(![0, -1] : Fin 2 → ℝ) 0,
          (problem9 m ra v).py r s + t * -(![0, -1] : Fin 2 → ℝ) 1) ∈ (problem9 m ra v).domain) ∧
        0 < (2 * 1 * (problem9 m ra v).px r s + 0) * -(![0, -1] : Fin 2 → ℝ) 0 +
          (2 * 1 * (problem9 m ra v).py r s + 1) * -(![0, -1] : Fin 2 → ℝ) 1 := by
      intro ε hε hx hy
      rw [hx, hy]
      generalize ra + (1 + r) / 2 * (rb - ra) = R at *
      constructor
      · filter_upwards [ev (f := fun t => R ^ 2 + t ^ 2) (by fun_prop) (by nlinarith), self_mem_nhdsWithin] with t ht h0
        rw [hdom]
        simp only [Matrix.cons_val_zero, Matrix.cons_val_one]
        have h0 : 0 < t := h0
        have e : (R * ε + t * -0) ^ 2 + (0 + t * - -1) ^ 2 = R ^ 2 + t ^ 2 := by linear_combination R ^ 2 * hε
        rw [e]
        exact ⟨by nlinarith, ht, by linarith⟩
      · simp
    rcases square_cases h with h' | h' | h' | h' | ⟨hr, hs⟩
    · refine Or.inr (Or.inr ⟨0, by norm_num, h', rfl, ⟨_, rfl⟩, ![-cos (π * (1 + s) / 2), -sin (π * (1 + s) / 2)], ⟨?_, ?_, ?_⟩, ?_, ?_⟩)
      all_goals obtain ⟨rfl, hs⟩ := h'
      all_goals obtain ⟨d0, d1, d2, d3⟩ := ring_derivs (m := (problem9 m ra v).map) hE (-1) s
      all_goals have hsc := sin_sq_add_cos_sq (π * (1 + s) / 2)
      all_goals have hs0 : 0 ≤ sin (π * (1 + s) / 2) := sin_nonneg_of_nonneg_of_le_pi (by nlinarith [hs.1]) (by nlinarith [hs.2])
      · simp only [Matrix.cons_val_zero, Matrix.cons_val_one]
        linarith
      · rw [d2, d3]
        simp only [Matrix.cons_val_zero, Matrix.cons_val_one]
        ring
      · rw [d0, d1]
        simp only [Matrix.cons_val_zero, Matrix.cons_val_one]
        nlinarith
      · filter_upwards [ev (f := fun t => (ra + t) ^ 2) (by fun_prop) (by nlinarith), self_mem_nhdsWithin] with t ht h0
        rw [hdom, ex, ey]
        simp only [Matrix.cons_val_zero, Matrix.cons_val_one, ringMap]
        have h0 : 0 < t := h0
        generalize cos (π * (1 + s) / 2) = c at *
        generalize sin (π * (1 + s) / 2) = σ at *
        have e : ((ra + (1 + -1) / 2 * (rb - ra)) * c + t * - -c) ^ 2 + ((ra + (1 + -1) / 2 * (rb - ra)) * σ + t * - -σ) ^ 2 = (ra + t) ^ 2 := by
          linear_combination (ra + t) ^ 2 * hsc
        rw [e]
        refine ⟨by nlinarith, ht, ?_⟩
        have : 0 ≤ (ra + t) * σ := mul_nonneg (by linarith) hs0
        linarith
      · rw [ex, ey]
        simp only [Matrix.cons_val_zero, Matrix.cons_val_one, ringMap]
        generalize cos (π * (1 + s) / 2) = c at *
        generalize sin (π * (1 + s) / 2) = σ at *
        have e : (2 * 1 * ((ra + (1 + -1) / 2 * (rb - ra)) * c) + 0) * - -c + (2 * 1 * ((ra + (1 + -1) / 2 * (rb - ra)) * σ) + 1) * - -σ =
            2 * ra + σ := by linear_combination 2 * ra * hsc
        rw [e]
        linarith
    · exact absurd h'.1 h1
    · obtain ⟨a, b⟩ := flat 1 (by norm_num) (by rw [ex, h'.1]; simp [ringMap]) (by rw [ey, h'.1]; simp [ringMap])
      refine Or.inr (Or.inr ⟨2, by norm_num, h', rfl, ⟨_, rfl⟩, ![0, -1], ⟨?_, ?_, ?_⟩, a, b⟩)
      all_goals obtain ⟨rfl, hr⟩ := h'
      all_goals obtain ⟨d0, d1, d2, d3⟩ := ring_derivs (m := (problem9 m ra v).map) hE r (-1)
      · simp
      · rw [d0, d1, z1]; simp
      · rw [d2, d3, z1]
        simp only [Matrix.cons_val_zero, Matrix.cons_val_one, cos_zero]
        have := mul_pos hR hπ
        linarith
    · obtain ⟨a, b⟩ := flat (-1) (by norm_num) (by rw [ex, h'.1]; simp only [ringMap, Matrix.cons_val_zero]; rw [z2, cos_pi])
        (by rw [ey, h'.1]; simp only [ringMap, Matrix.cons_val_one]; rw [z2, sin_pi, mul_zero]; rfl)
      refine Or.inr (Or.inr ⟨3, by norm_num, h', rfl, ⟨_, rfl⟩, ![0, -1], ⟨?_, ?_, ?_⟩, a, b⟩)
      all_goals obtain ⟨rfl, hr⟩ := h'
      all_goals obtain ⟨d0, d1, d2, d3⟩ := ring_derivs (m := (problem9 m ra v).map) hE r 1
      · simp
      · rw [d0, d1, z2]; simp
      · rw [d2, d3, z2]
        simp only [Matrix.cons_val_zero, Matrix.cons_val_one, cos_pi]
        have := mul_pos hR hπ
        linarith
    · refine Or.inr (Or.inl ⟨hr, hs, ?_⟩)
      rw [ex, ey, hdomF]
      exact nhds_of_det hE hF hr hs (hdet (r, s) h).ne'

/-- **C98 (2D problem 9).** The analytical solution is a solution on the half ring, the only one. -/
theorem C98_d2_problem_09 {ra rb : ℝ} (ha : 0 < ra) (hab : ra < rb) (v : ℝ) : ∃ p, d2Problem09 ra rb v = ok p ∧ p.WellPosed ∧
    halfRing2d ra rb = ok p.map ∧ p.Solution p.analytical ∧
    ∀ φ, p.Solution φ → ∀ x y, (x, y) ∈ p.domain → φ x y = p.analytical x y := by
  obtain ⟨m, hm, hE, hB⟩ := C97_half_ring_2d ra rb
  obtain ⟨hB, hdet⟩ := hB ha hab
  have hp : d2Problem09 ra rb v = ok (problem9 m ra v) := by
    unfold d2Problem09
    rw [hm]
    rfl
  have hsol := solution9 ha hab v hE hB
  exact ⟨_, hp, ⟨rfl, rfl, rfl⟩, hm, hsol, fun φ hφ => unique9 ha hab v hE hB (hdet true true true) hsol hφ⟩

example := C98_d2_problem_09 (ra := 1) (rb := 2) (by norm_num) (by norm_num) 3

end

end Russell.Pde
