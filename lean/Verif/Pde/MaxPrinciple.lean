import Mathlib.Analysis.Calculus.DerivativeTest
import Mathlib.Analysis.Calculus.Deriv.Add
import Mathlib.Analysis.Calculus.Deriv.Mul
import Mathlib.Analysis.Calculus.Deriv.Pow
import Mathlib.Analysis.Calculus.MeanValue
import Mathlib.Analysis.Calculus.LocalExtr.Basic
import Mathlib.Topology.Order.Compact
import Mathlib.Analysis.Normed.Group.Bounded
import Mathlib.Analysis.Calculus.Deriv.Slope
import Mathlib.Tactic.Linarith
import Mathlib.Tactic.FieldSimp

/-!
# Uniqueness for the model equation (used by C98)

The maximum principle on compact domains and the energy argument on an interval.
-/

namespace Russell.Pde

/-- partial derivatives -/
noncomputable def dx (f : ℝ → ℝ → ℝ) (x y : ℝ) : ℝ := deriv (fun x => f x y) x
noncomputable def dy (f : ℝ → ℝ → ℝ) (x y : ℝ) : ℝ := deriv (fun y => f x y) y

/-- the second derivative at a maximum -/
theorem second_le_zero {f : ℝ → ℝ} {x : ℝ} (h : IsLocalMax f x) (hc : ContinuousAt f x) : deriv (deriv f) x ≤ 0 := by
  by_contra hn
  have hn := not_le.1 hn
  have h2 := isLocalMin_of_deriv_deriv_pos hn h.deriv_eq_zero hc
  have he : f =ᶠ[nhds x] fun _ => f x := by
    filter_upwards [h, h2] with z h1 h3
    exact le_antisymm h1 h3
  have h4 : deriv f =ᶠ[nhds x] fun _ => 0 := by
    have := he.deriv
    simpa using this
  have := h4.deriv_eq
  simp at this
  linarith

/-- the function is twice differentiable in each variable at the point -/
structure Smooth2 (f : ℝ → ℝ → ℝ) (x y : ℝ) : Prop where
  dx : ∀ᶠ z in nhds x, DifferentiableAt ℝ (fun x => f x y) z
  dy : ∀ᶠ z in nhds y, DifferentiableAt ℝ (fun y => f x y) z
  dxx : DifferentiableAt ℝ (fun x => Russell.Pde.dx f x y) x
  dyy : DifferentiableAt ℝ (fun y => Russell.Pde.dy f x y) y

/-- an auxiliary quadratic function -/
def quadFn (a b c d x y : ℝ) : ℝ := a * x ^ 2 + b * x + (c * y ^ 2 + d * y)

/-- a point of the interior where `w_xx + w_yy = κ w` -/
structure Inner (K : Set (ℝ × ℝ)) (κ : ℝ) (w : ℝ → ℝ → ℝ) (x y : ℝ) : Prop where
  nhds : K ∈ nhds (x, y)
  smooth : Smooth2 w x y
  eq : dx (dx w) x y + dy (dy w) x y = κ * w x y

/-- a point of the boundary where the derivative in some direction into the domain vanishes; the auxiliary function increases there -/
def Insulated (K : Set (ℝ × ℝ)) (a b c d : ℝ) (w : ℝ → ℝ → ℝ) (x y : ℝ) : Prop :=
  ∃ e1 e2 : ℝ, (∀ᶠ t in nhdsWithin 0 (Set.Ioi 0), (x + t * e1, y + t * e2) ∈ K) ∧
    HasDerivWithinAt (fun t => w (x + t * e1) (y + t * e2)) 0 (Set.Ici 0) 0 ∧
    0 < (2 * a * x + b) * e1 + (2 * c * y + d) * e2

theorem max_principle_upper {w : ℝ → ℝ → ℝ} {K : Set (ℝ × ℝ)} {a b c d κ M : ℝ} (hκ : 0 ≤ κ) (hM : 0 ≤ M) (hac : 0 < a + c)
    (hK : IsCompact K) (hcont : ContinuousOn (fun p : ℝ × ℝ => w p.1 p.2) K)
    (hp : ∀ x y, (x, y) ∈ K → w x y ≤ M ∨ Inner K κ w x y ∨ Insulated K a b c d w x y) {x y : ℝ} (hxy : (x, y) ∈ K) : w x y ≤ M := by
  by_contra hn
  have hn := not_le.1 hn
  have hq : ContinuousOn (fun p : ℝ × ℝ => quadFn a b c d p.1 p.2) K := by
    unfold quadFn
    exact Continuous.continuousOn (by fun_prop)
  obtain ⟨L, hL0, hL⟩ : ∃ L, 0 ≤ L ∧ ∀ x y, (x, y) ∈ K → |quadFn a b c d x y| ≤ L := by
    obtain ⟨L, hL⟩ := hK.exists_bound_of_continuousOn hq
    refine ⟨L, le_trans (norm_nonneg _) (hL (x, y) hxy), fun x y h => hL (x, y) h⟩
  obtain ⟨ε, hε0, hε⟩ : ∃ ε, 0 < ε ∧ M + 2 * (ε * L) < w x y := by
    refine ⟨(w x y - M) / (4 * (L + 1)), by apply div_pos <;> linarith, ?_⟩
    have : (w x y - M) / (4 * (L + 1)) * L ≤ (w x y - M) / 4 := by
      rw [div_mul_eq_mul_div, div_le_div_iff₀ (by linarith) (by norm_num)]
      nlinarith
    linarith
  obtain ⟨v, hv⟩ : ∃ v : ℝ → ℝ → ℝ, v = fun x y => w x y + ε * quadFn a b c d x y := ⟨_, rfl⟩
  have hvL : ∀ x y, (x, y) ∈ K → w x y - ε * L ≤ v x y ∧ v x y ≤ w x y + ε * L := by
    intro x y hx
    rw [hv]
    have h1 := abs_le.1 (hL x y hx)
    have : ε * quadFn a b c d x y ≤ ε * L := mul_le_mul_of_nonneg_left h1.2 hε0.le
    have : ε * -L ≤ ε * quadFn a b c d x y := mul_le_mul_of_nonneg_left h1.1 hε0.le
    exact ⟨by simp only; linarith, by simp only; linarith⟩
  have hcv : ContinuousOn (fun p : ℝ × ℝ => v p.1 p.2) K := by
    rw [hv]
    exact hcont.add (continuousOn_const.mul hq)
  obtain ⟨⟨x0, y0⟩, h0, hmax⟩ := hK.exists_isMaxOn ⟨(x, y), hxy⟩ hcv
  have hge : M + ε * L < v x0 y0 := by
    have h1 : v x y ≤ v x0 y0 := hmax hxy
    have := (hvL x y hxy).1
    linarith
  have hw0 : M < w x0 y0 := by have := (hvL x0 y0 h0).2; linarith
  have qx : ∀ y z : ℝ, HasDerivAt (fun x : ℝ => ε * quadFn a b c d x y) (ε * (2 * a * z + b)) z := by
    intro y z
    have := (((((hasDerivAt_id z).pow 2).const_mul a).add ((hasDerivAt_id z).const_mul b)).add_const (c * y ^ 2 + d * y)).const_mul ε
    refine this.congr_deriv ?_
    simp only [id_eq, Nat.cast_ofNat, Nat.add_one_sub_one, pow_one]
    ring
  have qy : ∀ x z : ℝ, HasDerivAt (fun y : ℝ => ε * quadFn a b c d x y) (ε * (2 * c * z + d)) z := by
    intro x z
    have := (((((hasDerivAt_id z).pow 2).const_mul c).add ((hasDerivAt_id z).const_mul d)).const_add (a * x ^ 2 + b * x)).const_mul ε
    refine this.congr_deriv ?_
    simp only [id_eq, Nat.cast_ofNat, Nat.add_one_sub_one, pow_one]
    ring
  rcases hp x0 y0 h0 with h | ⟨hnh, ⟨s1, s2, s3, s4⟩, heq⟩ | ⟨e1, e2, hin, hd, hpos⟩
  · linarith
  · have lx : IsLocalMax (fun x => v x y0) x0 := by
      have : Filter.Tendsto (fun z : ℝ => (z, y0)) (nhds x0) (nhds (x0, y0)) := (by fun_prop : Continuous fun z : ℝ => (z, y0)).tendsto x0
      filter_upwards [this hnh] with z hz
      exact hmax hz
    have ly : IsLocalMax (fun y => v x0 y) y0 := by
      have : Filter.Tendsto (fun z : ℝ => (x0, z)) (nhds y0) (nhds (x0, y0)) := (by fun_prop : Continuous fun z : ℝ => (x0, z)).tendsto y0
      filter_upwards [this hnh] with z hz
      exact hmax hz
    have ex : deriv (deriv fun x => v x y0) x0 = dx (dx w) x0 y0 + ε * (2 * a) := by
      have e1 : deriv (fun x => v x y0) =ᶠ[nhds x0] fun z => dx w z y0 + ε * (2 * a * z + b) := by
        filter_upwards [s1] with z hz
        rw [hv]
        exact (hz.hasDerivAt.add (qx y0 z)).deriv
      rw [e1.deriv_eq]
      have := (s3.hasDerivAt.add (((((hasDerivAt_id x0).const_mul (2 * a)).add_const b)).const_mul ε)).deriv
      simp only [mul_one] at this
      exact this
    have ey : deriv (deriv fun y => v x0 y) y0 = dy (dy w) x0 y0 + ε * (2 * c) := by
      have e1 : deriv (fun y => v x0 y) =ᶠ[nhds y0] fun z => dy w x0 z + ε * (2 * c * z + d) := by
        filter_upwards [s2] with z hz
        rw [hv]
        exact (hz.hasDerivAt.add (qy x0 z)).deriv
      rw [e1.deriv_eq]
      have := (s4.hasDerivAt.add (((((hasDerivAt_id y0).const_mul (2 * c)).add_const d)).const_mul ε)).deriv
      simp only [mul_one] at this
      exact this
    have cx : ContinuousAt (fun x => v x y0) x0 := by
      rw [hv]
      exact (s1.self_of_nhds.hasDerivAt.add (qx y0 x0)).continuousAt
    have cy : ContinuousAt (fun y => v x0 y) y0 := by
      rw [hv]
      exact (s2.self_of_nhds.hasDerivAt.add (qy x0 y0)).continuousAt
    have kx := second_le_zero lx cx
    have ky := second_le_zero ly cy
    rw [ex] at kx
    rw [ey] at ky
    have : 0 ≤ κ * w x0 y0 := mul_nonneg hκ (by linarith)
    have := mul_pos hε0 hac
    linarith
  · have d1 : HasDerivAt (fun t : ℝ => x0 + t * e1) e1 0 := by simpa using ((hasDerivAt_id (0 : ℝ)).mul_const e1).const_add x0
    have d2 : HasDerivAt (fun t : ℝ => y0 + t * e2) e2 0 := by simpa using ((hasDerivAt_id (0 : ℝ)).mul_const e2).const_add y0
    have hq : HasDerivAt (fun t : ℝ => ε * quadFn a b c d (x0 + t * e1) (y0 + t * e2)) (ε * ((2 * a * x0 + b) * e1 + (2 * c * y0 + d) * e2)) 0 := by
      have := ((((d1.pow 2).const_mul a).add (d1.const_mul b)).add (((d2.pow 2).const_mul c).add (d2.const_mul d))).const_mul ε
      refine this.congr_deriv ?_
      simp only [Nat.cast_ofNat, Nat.add_one_sub_one, pow_one, zero_mul, add_zero]
      ring
    have hvd : HasDerivWithinAt (fun t : ℝ => v (x0 + t * e1) (y0 + t * e2)) (ε * ((2 * a * x0 + b) * e1 + (2 * c * y0 + d) * e2)) (Set.Ici 0) 0 := by
      rw [hv]
      have := hd.add hq.hasDerivWithinAt
      exact this.congr_deriv (by ring)
    have hvd := hvd.mono (Set.Ioi_subset_Ici_self)
    have hs := (hasDerivWithinAt_iff_tendsto_slope' (by simp)).1 hvd
    have hev := hs.eventually (lt_mem_nhds (mul_pos hε0 hpos))
    obtain ⟨t, ht⟩ := ((hev.and hin).and (eventually_mem_nhdsWithin (s := Set.Ioi (0 : ℝ)) (a := 0))).exists
    obtain ⟨⟨h1, h2⟩, h3⟩ := ht
    have h4 : v (x0 + t * e1) (y0 + t * e2) ≤ v x0 y0 := hmax h2
    have h3 : 0 < t := h3
    rw [slope_def_field] at h1
    simp only [zero_mul, add_zero, sub_zero] at h1
    have := (div_pos_iff_of_pos_right h3).1 h1
    linarith

theorem dx_neg (w : ℝ → ℝ → ℝ) : dx (fun x y => -w x y) = fun x y => -dx w x y := by
  funext x y
  exact deriv.fun_neg

theorem dy_neg (w : ℝ → ℝ → ℝ) : dy (fun x y => -w x y) = fun x y => -dy w x y := by
  funext x y
  exact deriv.fun_neg

/-- the absolute value of a solution of `w_xx + w_yy = κ w`, `κ ≥ 0`, on a compact domain is bounded by its values at the part of the
boundary that is not insulated -/
theorem max_principle2 {w : ℝ → ℝ → ℝ} {K : Set (ℝ × ℝ)} {a b c d κ M : ℝ} (hκ : 0 ≤ κ) (hM : 0 ≤ M) (hac : 0 < a + c)
    (hK : IsCompact K) (hcont : ContinuousOn (fun p : ℝ × ℝ => w p.1 p.2) K)
    (hp : ∀ x y, (x, y) ∈ K → |w x y| ≤ M ∨ Inner K κ w x y ∨ Insulated K a b c d w x y) {x y : ℝ} (hxy : (x, y) ∈ K) : |w x y| ≤ M := by
  rw [abs_le]
  constructor
  · have := max_principle_upper (w := fun x y => -w x y) (b := b) (d := d) hκ hM hac hK hcont.neg (fun x y h => ?_) hxy
    · linarith
    · rcases hp x y h with h | ⟨h1, ⟨s1, s2, s3, s4⟩, h3⟩ | ⟨e1, e2, h1, h2, h3⟩
      · left
        have := (abs_le.1 h).1
        linarith
      · right; left
        refine ⟨h1, ⟨s1.mono fun z hz => hz.neg, s2.mono fun z hz => hz.neg, ?_, ?_⟩, ?_⟩
        · rw [dx_neg]; exact s3.neg
        · rw [dy_neg]; exact s4.neg
        · rw [dx_neg, dy_neg, dx_neg, dy_neg]
          linarith
      · right; right
        exact ⟨e1, e2, h1, by have := h2.neg; rw [neg_zero] at this; exact this, h3⟩
  · exact max_principle_upper hκ hM hac hK hcont (fun x y h => (hp x y h).imp_left fun h => (abs_le.1 h).2) hxy

/-- a solution of `w'' = c w`, `c ≥ 0`, with `w w' = 0` at both ends is constant -/
theorem energy_line {w w' : ℝ → ℝ} {x0 x1 c : ℝ} (hc : 0 ≤ c) (h01 : x0 ≤ x1)
    (h1 : ∀ x ∈ Set.Icc x0 x1, HasDerivWithinAt w (w' x) (Set.Icc x0 x1) x)
    (h2 : ∀ x ∈ Set.Icc x0 x1, HasDerivWithinAt w' (c * w x) (Set.Icc x0 x1) x)
    (e0 : w x0 * w' x0 = 0) (e1 : w x1 * w' x1 = 0) : ∀ x ∈ Set.Icc x0 x1, w x = w x0 := by
  have hd : ∀ x ∈ Set.Icc x0 x1, HasDerivWithinAt (fun x => w x * w' x) (w' x * w' x + w x * (c * w x)) (Set.Icc x0 x1) x :=
    fun x hx => (h1 x hx).mul (h2 x hx)
  have hmono : MonotoneOn (fun x => w x * w' x) (Set.Icc x0 x1) := by
    refine monotoneOn_of_hasDerivWithinAt_nonneg (convex_Icc x0 x1) (fun x hx => (hd x hx).continuousWithinAt)
      (fun x hx => (hd x (interior_subset hx)).mono interior_subset) fun x _ => ?_
    nlinarith [mul_self_nonneg (w' x), mul_self_nonneg (w x), mul_nonneg hc (mul_self_nonneg (w x))]
  have hz : ∀ x ∈ Set.Icc x0 x1, w x * w' x = 0 := by
    intro x hx
    have a := hmono (Set.left_mem_Icc.2 h01) hx hx.1
    have b := hmono hx (Set.right_mem_Icc.2 h01) hx.2
    simp only at a b
    linarith
  have hsq : ∀ x ∈ Set.Icc x0 x1, HasDerivWithinAt (fun x => w x * w x) 0 (Set.Icc x0 x1) x := fun x hx =>
    ((h1 x hx).mul (h1 x hx)).congr_deriv (by have := hz x hx; linarith)
  have const : ∀ f : ℝ → ℝ, (∀ x ∈ Set.Icc x0 x1, HasDerivWithinAt f 0 (Set.Icc x0 x1) x) → ∀ x ∈ Set.Icc x0 x1, f x = f x0 :=
    fun f hf => constant_of_derivWithin_zero (fun x hx => (hf x hx).differentiableWithinAt) fun x hx =>
      (hf x ⟨hx.1, hx.2.le⟩).derivWithin (uniqueDiffOn_Icc (lt_of_le_of_lt hx.1 hx.2) x ⟨hx.1, hx.2.le⟩)
  have hsc := const _ hsq
  by_cases hw : w x0 = 0
  · intro x hx
    have := hsc x hx
    rw [hw, mul_zero, mul_self_eq_zero] at this
    rw [this, hw]
  · refine const w fun x hx => (h1 x hx).congr_deriv ?_
    have h3 := hsc x hx
    have h4 : w x ≠ 0 := fun h => by rw [h, zero_mul] at h3; exact hw (mul_self_eq_zero.1 h3.symm)
    exact (mul_eq_zero.1 (hz x hx)).resolve_left h4

end Russell.Pde
