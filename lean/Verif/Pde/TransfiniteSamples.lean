import Verif.Pde.Transfinite3d
import Mathlib.Analysis.SpecialFunctions.Trigonometric.Deriv
import Mathlib.Analysis.SpecialFunctions.Trigonometric.Inverse
import Mathlib.Analysis.SpecialFunctions.Trigonometric.Bounds

/-!
# Sample mappings (C97)

Model of russell_pde/src/transfinite_samples.rs with real numbers; exact arithmetic.
-/

namespace Russell.Pde

open Russell Russell.Res Real

noncomputable section

namespace TransfiniteSamples

/-- `quadrilateral_2d` (/repo/russell_pde/src/transfinite_samples.rs:24-81) -/
def quadrilateral2d (xa xb xc xd : List ℝ) : Res Transfinite2d := do
  let xa_0 ← vget xa 0
  let xa_1 ← vget xa 1
  let xb_0 ← vget xb 0
  let xb_1 ← vget xb 1
  let xc_0 ← vget xc 0
  let xc_1 ← vget xc 1
  let xd_0 ← vget xd 0
  let xd_1 ← vget xd 1
  let scale0_0 := (xd_0 - xa_0) / 2
  let scale0_1 := (xd_1 - xa_1) / 2
  let scale1_0 := (xc_0 - xb_0) / 2
  let scale1_1 := (xc_1 - xb_1) / 2
  let scale2_0 := (xb_0 - xa_0) / 2
  let scale2_1 := (xb_1 - xa_1) / 2
  let scale3_0 := (xc_0 - xd_0) / 2
  let scale3_1 := (xc_1 - xd_1) / 2
  (Transfinite2d.new
    [fun s => ![xa_0 + (1 + s) * scale0_0, xa_1 + (1 + s) * scale0_1],
     fun s => ![xb_0 + (1 + s) * scale1_0, xb_1 + (1 + s) * scale1_1],
     fun r => ![xa_0 + (1 + r) * scale2_0, xa_1 + (1 + r) * scale2_1],
     fun r => ![xd_0 + (1 + r) * scale3_0, xd_1 + (1 + r) * scale3_1]]
    [fun _ => ![scale0_0, scale0_1],
     fun _ => ![scale1_0, scale1_1],
     fun _ => ![scale2_0, scale2_1],
     fun _ => ![scale3_0, scale3_1]]
    none).unwrap

/-- `quarter_ring_2d` (/repo/russell_pde/src/transfinite_samples.rs:126-205) -/
def quarterRing2d (a b : ℝ) : Res Transfinite2d :=
  (Transfinite2d.new
    [fun s => let theta := π * (1 + s) / 4; ![a * cos theta, a * sin theta],
     fun s => let theta := π * (1 + s) / 4; ![b * cos theta, b * sin theta],
     fun r => ![a + 0.5 * (1 + r) * (b - a), 0],
     fun r => ![0, a + 0.5 * (1 + r) * (b - a)]]
    [fun s => let theta := π * (1 + s) / 4; ![-a * sin theta * π / 4, a * cos theta * π / 4],
     fun s => let theta := π * (1 + s) / 4; ![-b * sin theta * π / 4, b * cos theta * π / 4],
     fun _ => ![0.5 * (b - a), 0],
     fun _ => ![0, 0.5 * (b - a)]]
    (some
      [fun s => let theta := π * (1 + s) / 4; ![-a * cos theta * π * π / 16, -a * sin theta * π * π / 16],
       fun s => let theta := π * (1 + s) / 4; ![-b * cos theta * π * π / 16, -b * sin theta * π * π / 16],
       fun _ => ![0, 0],
       fun _ => ![0, 0]])).unwrap

/-- `half_ring_2d` (/repo/russell_pde/src/transfinite_samples.rs:249-328) -/
def halfRing2d (a b : ℝ) : Res Transfinite2d :=
  (Transfinite2d.new
    [fun s => let theta := π * (s + 1) / 2; ![a * cos theta, a * sin theta],
     fun s => let theta := π * (s + 1) / 2; ![b * cos theta, b * sin theta],
     fun r => ![a + (b - a) * (r + 1) / 2, 0],
     fun r => ![-a - (b - a) * (r + 1) / 2, 0]]
    [fun s => let theta := π * (s + 1) / 2; ![-a * sin theta * π / 2, a * cos theta * π / 2],
     fun s => let theta := π * (s + 1) / 2; ![-b * sin theta * π / 2, b * cos theta * π / 2],
     fun _ => ![(b - a) / 2, 0],
     fun _ => ![-(b - a) / 2, 0]]
    (some
      [fun s => let theta := π * (s + 1) / 2; ![-a * cos theta * π * π / 4, -a * sin theta * π * π / 4],
       fun s => let theta := π * (s + 1) / 2; ![-b * cos theta * π * π / 4, -b * sin theta * π * π / 4],
       fun _ => ![0, 0],
       fun _ => ![0, 0]])).unwrap

/-- `quarter_perforated_lozenge_2d` (/repo/russell_pde/src/transfinite_samples.rs:335-425) -/
def quarterPerforatedLozenge2d (a b : ℝ) : Res Transfinite2d :=
  (Transfinite2d.new
    [fun s => let theta := π * (1 + s) / 4; ![a * cos theta, a * sin theta],
     fun s => ![b * 0.5 * (1 - s), b * 0.5 * (1 + s)],
     fun r => ![a + 0.5 * (1 + r) * (b - a), 0],
     fun r => ![0, a + 0.5 * (1 + r) * (b - a)]]
    [fun s => let theta := π * (1 + s) / 4; ![-a * sin theta * π / 4, a * cos theta * π / 4],
     fun _ => ![-b * 0.5, b * 0.5],
     fun _ => ![0.5 * (b - a), 0],
     fun _ => ![0, 0.5 * (b - a)]]
    (some
      [fun s => let theta := π * (1 + s) / 4; ![-a * cos theta * π * π / 16, -a * sin theta * π * π / 16],
       fun _ => ![0, 0],
       fun _ => ![0, 0],
       fun _ => ![0, 0]])).unwrap

/-- `brick_3d` (/repo/russell_pde/src/transfinite_samples.rs:428-525) -/
def brick3d (lx ly lz : ℝ) : Res Transfinite3d :=
  (Transfinite3d.new
    [fun s t => ![0, (1 + s) * ly / 2, (1 + t) * lz / 2],
     fun s t => ![lx, (1 + s) * ly / 2, (1 + t) * lz / 2],
     fun r t => ![(1 + r) * lx / 2, 0, (1 + t) * lz / 2],
     fun r t => ![(1 + r) * lx / 2, ly, (1 + t) * lz / 2],
     fun r s => ![(1 + r) * lx / 2, (1 + s) * ly / 2, 0],
     fun r s => ![(1 + r) * lx / 2, (1 + s) * ly / 2, lz]]
    [fun _ _ => (![0, ly / 2, 0], ![0, 0, lz / 2]),
     fun _ _ => (![0, ly / 2, 0], ![0, 0, lz / 2]),
     fun _ _ => (![lx / 2, 0, 0], ![0, 0, lz / 2]),
     fun _ _ => (![lx / 2, 0, 0], ![0, 0, lz / 2]),
     fun _ _ => (![lx / 2, 0, 0], ![0, ly / 2, 0]),
     fun _ _ => (![lx / 2, 0, 0], ![0, ly / 2, 0])]
    none).unwrap

/-- the second derivatives taken from the surface in the closures of `quarter_ring_3d`; the vectors keep their zeros if `point_and_derivs`
does not write them -/
def secondOf (surf : Transfinite2d) (s t : ℝ) : (Fin 2 → ℝ) × (Fin 2 → ℝ) × (Fin 2 → ℝ) :=
  ((surf.pointAndDerivs true true true s t).second).getD (fun _ => 0, fun _ => 0, fun _ => 0)

/-- `quarter_ring_3d` (/repo/russell_pde/src/transfinite_samples.rs:532-785); the lock around the shared surface is left out -/
def quarterRing3d (a b h : ℝ) : Res Transfinite3d := do
  let surf ← quarterRing2d a b
  (Transfinite3d.new
    [fun s t => let x2d := surf.point s t; ![0, x2d 0, x2d 1],
     fun s t => let x2d := surf.point s t; ![h, x2d 0, x2d 1],
     fun r t => let theta := (1 + t) * π / 4; ![(1 + r) * h / 2, a * cos theta, a * sin theta],
     fun r t => let theta := (1 + t) * π / 4; ![(1 + r) * h / 2, b * cos theta, b * sin theta],
     fun r s => ![(1 + r) * h / 2, a + (1 + s) * (b - a) / 2, 0],
     fun r s => ![(1 + r) * h / 2, 0, a + (1 + s) * (b - a) / 2]]
    [fun s t => let d := surf.pointAndDerivs false false false s t; (![0, d.dr 0, d.dr 1], ![0, d.ds 0, d.ds 1]),
     fun s t => let d := surf.pointAndDerivs false false false s t; (![0, d.dr 0, d.dr 1], ![0, d.ds 0, d.ds 1]),
     fun _ t => let theta := (1 + t) * π / 4; (![h / 2, 0, 0], ![0, -a * sin theta * π / 4, a * cos theta * π / 4]),
     fun _ t => let theta := (1 + t) * π / 4; (![h / 2, 0, 0], ![0, -b * sin theta * π / 4, b * cos theta * π / 4]),
     fun _ _ => (![h / 2, 0, 0], ![0, (b - a) / 2, 0]),
     fun _ _ => (![h / 2, 0, 0], ![0, 0, (b - a) / 2])]
    (some
      [fun s t => let d := secondOf surf s t; (![0, d.1 0, d.1 1], ![0, d.2.1 0, d.2.1 1], ![0, d.2.2 0, d.2.2 1]),
       fun s t => let d := secondOf surf s t; (![0, d.1 0, d.1 1], ![0, d.2.1 0, d.2.1 1], ![0, d.2.2 0, d.2.2 1]),
       fun _ t => let theta := (1 + t) * π / 4; (![0, 0, 0], ![0, -a * cos theta * π * π / 16, -a * sin theta * π * π / 16], ![0, 0, 0]),
       fun _ t => let theta := (1 + t) * π / 4; (![0, 0, 0], ![0, -b * cos theta * π * π / 16, -b * sin theta * π * π / 16], ![0, 0, 0]),
       fun _ _ => (![0, 0, 0], ![0, 0, 0], ![0, 0, 0]),
       fun _ _ => (![0, 0, 0], ![0, 0, 0], ![0, 0, 0])])).unwrap

end TransfiniteSamples

open TransfiniteSamples

/-! ### What a sample mapping must do -/

/-- the mapping is `F`, and `point_and_derivs` returns the partial derivatives of `F` of first and second order -/
structure ExactMap (m : Transfinite2d) (F : ℝ → ℝ → Fin 2 → ℝ) : Prop where
  point : ∀ r s, m.point r s = F r s
  first : ∀ wr ws wx r s, (m.pointAndDerivs wr ws wx r s).x = F r s ∧
    (∀ i, HasDerivAt (fun r => F r s i) ((m.pointAndDerivs wr ws wx r s).dr i) r) ∧
    (∀ i, HasDerivAt (fun s => F r s i) ((m.pointAndDerivs wr ws wx r s).ds i) s)
  second : ∀ r s, ∃ rr ss rs, (m.pointAndDerivs true true true r s).second = some (rr, ss, rs) ∧
    (∀ i, HasDerivAt (fun r' => deriv (fun r => F r s i) r') (rr i) r) ∧
    (∀ i, HasDerivAt (fun s' => deriv (fun s => F r s i) s') (ss i) s) ∧
    (∀ i, HasDerivAt (fun s' => deriv (fun r => F r s' i) r) (rs i) s) ∧
    (∀ i, HasDerivAt (fun r' => deriv (fun s => F r' s i) s) (rs i) r)

/-- zero functions -/
def zeros1 : List Curve := [fun _ => ![0, 0], fun _ => ![0, 0], fun _ => ![0, 0], fun _ => ![0, 0]]

theorem fnAt_zeros (k : Nat) (t : ℝ) (i : Fin 2) : fnAt zeros1 k t i = 0 := by
  unfold fnAt zeros1
  rcases k with _ | _ | _ | _ | k <;> fin_cases i <;> simp

theorem exact_of {m : Transfinite2d} {d2 : List Curve} {F : ℝ → ℝ → Fin 2 → ℝ} (hF : ∀ r s, m.point r s = F r s)
    (h1 : IsDerivs m.b m.d1) (h2 : IsDerivs m.d1 d2) (hd : m.d2 = some d2 ∨ m.d2 = none ∧ d2 = zeros1) : ExactMap m F := by
  have hF' : ∀ r s i, F r s i = m.point r s i := fun r s i => by rw [hF]
  have f1 : ∀ wr ws wx r s, (m.pointAndDerivs wr ws wx r s).x = F r s ∧
    (∀ i, HasDerivAt (fun r => F r s i) ((m.pointAndDerivs wr ws wx r s).dr i) r) ∧
    (∀ i, HasDerivAt (fun s => F r s i) ((m.pointAndDerivs wr ws wx r s).ds i) s) := by
    intro wr ws wx r s
    obtain ⟨a, b, c⟩ := C91_derivatives h1 wr ws wx r s
    refine ⟨by rw [a, hF], fun i => ?_, fun i => ?_⟩
    · simp only [hF']; exact b i
    · simp only [hF']; exact c i
  refine ⟨hF, f1, fun r s => ?_⟩
  have er : ∀ r s i, deriv (fun r => F r s i) r = (m.pointAndDerivs true true true r s).dr i := fun r s i =>
    ((f1 true true true r s).2.1 i).deriv
  have es : ∀ r s i, deriv (fun s => F r s i) s = (m.pointAndDerivs true true true r s).ds i := fun r s i =>
    ((f1 true true true r s).2.2 i).deriv
  simp only [er, es]
  rcases hd with hd | ⟨hd, rfl⟩
  · obtain ⟨_, rr, ss, rs, e, a, b, c⟩ := C91_second_derivatives h1 true true true r s
    exact ⟨rr, ss, rs, e, (c d2 hd h2).1, (c d2 hd h2).2, a, b⟩
  · have key : (m.pointAndDerivs true true true r s).second =
        (({ m with d2 := some zeros1 } : Transfinite2d).pointAndDerivs true true true r s).second := by
      simp only [Transfinite2d.pointAndDerivs, hd, fnAt_zeros]
      simp
    obtain ⟨_, rr, ss, rs, e, a, b, c⟩ := C91_second_derivatives (m := { m with d2 := some zeros1 }) h1 true true true r s
    exact ⟨rr, ss, rs, by rw [key, e], (c zeros1 rfl h2).1, (c zeros1 rfl h2).2, a, b⟩

/-- the trigonometric entries -/
theorem cos_d {f : ℝ → ℝ} (a p q c s : ℝ) (hf : ∀ s, f s = a * cos (p + q * s)) (hc : c = -a * sin (p + q * s) * q) : HasDerivAt f c s := by
  rw [show f = fun s => a * cos (p + q * s) from funext hf, hc]
  have l : HasDerivAt (fun s : ℝ => p + q * s) q s := by simpa using ((hasDerivAt_id s).const_mul q).const_add p
  have := ((hasDerivAt_cos (p + q * s)).comp s l).const_mul a
  exact this.congr_deriv (by ring)

theorem sin_d {f : ℝ → ℝ} (a p q c s : ℝ) (hf : ∀ s, f s = a * sin (p + q * s)) (hc : c = a * cos (p + q * s) * q) : HasDerivAt f c s := by
  rw [show f = fun s => a * sin (p + q * s) from funext hf, hc]
  have l : HasDerivAt (fun s : ℝ => p + q * s) q s := by simpa using ((hasDerivAt_id s).const_mul q).const_add p
  have := ((hasDerivAt_sin (p + q * s)).comp s l).const_mul a
  exact this.congr_deriv (by ring)

/-! ### Quadrilateral -/

/-- **C97 (quadrilateral).** The mapping of a quadrilateral is the bilinear interpolation of the corners, with the right derivatives; more
than two coordinates are ignored and fewer cause a panic. -/
theorem C97_quadrilateral_2d (xa xb xc xd : List ℝ) :
    ((∃ m, quadrilateral2d xa xb xc xd = ok m) ↔ 2 ≤ xa.length ∧ 2 ≤ xb.length ∧ 2 ≤ xc.length ∧ 2 ≤ xd.length) ∧
    ∀ m, quadrilateral2d xa xb xc xd = ok m → ExactMap m fun r s i =>
      ((1 - r) * (1 - s) * xa.getD i 0 + (1 + r) * (1 - s) * xb.getD i 0 + (1 + r) * (1 + s) * xc.getD i 0
        + (1 - r) * (1 + s) * xd.getD i 0) / 4 := by
  rcases xa with _ | ⟨a0, _ | ⟨a1, xa⟩⟩ <;> rcases xb with _ | ⟨b0, _ | ⟨b1, xb⟩⟩ <;> rcases xc with _ | ⟨c0, _ | ⟨c1, xc⟩⟩ <;>
    rcases xd with _ | ⟨d0, _ | ⟨d1, xd⟩⟩
  all_goals try (refine ⟨⟨fun h => ?_, fun h => ?_⟩, fun m h => ?_⟩ <;>
    first | (simp [quadrilateral2d, vget] at h; done) | (obtain ⟨m, h⟩ := h; simp [quadrilateral2d, vget] at h; done))
  refine ⟨⟨fun _ => by simp, fun _ => ⟨_, rfl⟩⟩, fun m h => ?_⟩
  cases h
  refine exact_of (d2 := zeros1) ?_ ?_ ?_ (Or.inr ⟨rfl, rfl⟩)
  · intro r s
    funext i
    fin_cases i <;> simp [Transfinite2d.point, fnAt] <;> ring
  · intro k hk t i
    have : k = 0 ∨ k = 1 ∨ k = 2 ∨ k = 3 := by omega
    rcases this with rfl | rfl | rfl | rfl <;> fin_cases i
    · exact lin1 (a0 + (d0 - a0) / 2) _ _ fun x => by simp [fnAt]; ring
    · exact lin1 (a1 + (d1 - a1) / 2) _ _ fun x => by simp [fnAt]; ring
    · exact lin1 (b0 + (c0 - b0) / 2) _ _ fun x => by simp [fnAt]; ring
    · exact lin1 (b1 + (c1 - b1) / 2) _ _ fun x => by simp [fnAt]; ring
    · exact lin1 (a0 + (b0 - a0) / 2) _ _ fun x => by simp [fnAt]; ring
    · exact lin1 (a1 + (b1 - a1) / 2) _ _ fun x => by simp [fnAt]; ring
    · exact lin1 (d0 + (c0 - d0) / 2) _ _ fun x => by simp [fnAt]; ring
    · exact lin1 (d1 + (c1 - d1) / 2) _ _ fun x => by simp [fnAt]; ring
  · intro k hk t i
    have : k = 0 ∨ k = 1 ∨ k = 2 ∨ k = 3 := by omega
    rw [fnAt_zeros]
    rcases this with rfl | rfl | rfl | rfl <;> fin_cases i <;> exact hasDerivAt_const t _

/-- a quadrilateral without parallel sides -/
example : ∃ m, quadrilateral2d [1, 0] [6, 4] [1, 6] [0, 5] = ok m ∧ m.point 0 0 = ![2, 15 / 4] := by
  refine ⟨_, rfl, ?_⟩
  funext i
  fin_cases i <;> norm_num [Transfinite2d.point, fnAt]

/-! ### Rings -/

/-- a sector of a ring in polar coordinates: inner radius `a`, outer radius `b`, angle `Θ` -/
def ringMap (a b Θ r s : ℝ) : Fin 2 → ℝ :=
  ![(a + (1 + r) / 2 * (b - a)) * cos (Θ * (1 + s) / 2), (a + (1 + r) / 2 * (b - a)) * sin (Θ * (1 + s) / 2)]

/-- the reference square -/
def square : Set (ℝ × ℝ) := Set.Icc (-1) 1 ×ˢ Set.Icc (-1) 1

theorem ring_bij {a b Θ : ℝ} (ha : 0 < a) (hab : a < b) (hΘ : 0 < Θ) (hΘπ : Θ ≤ π) :
    Set.BijOn (fun p : ℝ × ℝ => ringMap a b Θ p.1 p.2) square
      {x | a ^ 2 ≤ x 0 ^ 2 + x 1 ^ 2 ∧ x 0 ^ 2 + x 1 ^ 2 ≤ b ^ 2 ∧ 0 ≤ x 1 ∧ cos Θ * √(x 0 ^ 2 + x 1 ^ 2) ≤ x 0} := by
  have hρ : ∀ r ∈ Set.Icc (-1 : ℝ) 1, a ≤ a + (1 + r) / 2 * (b - a) ∧ a + (1 + r) / 2 * (b - a) ≤ b := by
    intro r hr
    have h1 := hr.1
    have h2 := hr.2
    constructor <;> nlinarith
  have hθ : ∀ s ∈ Set.Icc (-1 : ℝ) 1, 0 ≤ Θ * (1 + s) / 2 ∧ Θ * (1 + s) / 2 ≤ Θ := by
    intro r hr
    have h1 := hr.1
    have h2 := hr.2
    constructor <;> nlinarith
  have hsq : ∀ r s, (ringMap a b Θ r s 0) ^ 2 + (ringMap a b Θ r s 1) ^ 2 = (a + (1 + r) / 2 * (b - a)) ^ 2 := by
    intro r s
    simp only [ringMap, Matrix.cons_val_zero, Matrix.cons_val_one]
    have := sin_sq_add_cos_sq (Θ * (1 + s) / 2)
    linear_combination (a + (1 + r) / 2 * (b - a)) ^ 2 * this
  refine ⟨?_, ?_, ?_⟩
  · rintro ⟨r, s⟩ ⟨hr, hs⟩
    obtain ⟨l, u⟩ := hρ r hr
    obtain ⟨t0, t1⟩ := hθ s hs
    simp only [Set.mem_setOf_eq, hsq]
    refine ⟨by nlinarith, by nlinarith, ?_, ?_⟩
    · show 0 ≤ (a + (1 + r) / 2 * (b - a)) * sin (Θ * (1 + s) / 2)
      exact mul_nonneg (by linarith) (sin_nonneg_of_nonneg_of_le_pi t0 (by linarith))
    · show _ ≤ (a + (1 + r) / 2 * (b - a)) * cos (Θ * (1 + s) / 2)
      rw [sqrt_sq (by linarith), mul_comm]
      exact mul_le_mul_of_nonneg_left (cos_le_cos_of_nonneg_of_le_pi t0 hΘπ t1) (by linarith)
  · rintro ⟨r, s⟩ ⟨hr, hs⟩ ⟨r', s'⟩ ⟨hr', hs'⟩ e
    simp only at e
    have e2 := hsq r s
    rw [e, hsq] at e2
    obtain ⟨l, u⟩ := hρ r hr
    obtain ⟨l', u'⟩ := hρ r' hr'
    have er : a + (1 + r') / 2 * (b - a) = a + (1 + r) / 2 * (b - a) := by
      rcases sq_eq_sq_iff_eq_or_eq_neg.1 e2 with h | h
      · exact h
      · linarith
    have err : r' = r := by
      have : (r' - r) * (b - a) = 0 := by linarith
      rcases mul_eq_zero.1 this with h | h <;> linarith
    subst err
    have ec : (a + (1 + r') / 2 * (b - a)) * cos (Θ * (1 + s) / 2) = (a + (1 + r') / 2 * (b - a)) * cos (Θ * (1 + s') / 2) := congrFun e 0
    have ec := mul_left_cancel₀ (by linarith : a + (1 + r') / 2 * (b - a) ≠ 0) ec
    obtain ⟨t0, t1⟩ := hθ s hs
    obtain ⟨t0', t1'⟩ := hθ s' hs'
    have := injOn_cos ⟨t0, by linarith⟩ ⟨t0', by linarith⟩ ec
    have : Θ * (s - s') = 0 := by linarith
    rcases mul_eq_zero.1 this with h | h
    · linarith
    · rw [Prod.mk.injEq]; exact ⟨rfl, by linarith⟩
  · rintro x ⟨x1, x2, x3, x4⟩
    obtain ⟨ρ, hρd⟩ : ∃ ρ, ρ = √(x 0 ^ 2 + x 1 ^ 2) := ⟨_, rfl⟩
    rw [← hρd] at x4
    have hρ2 : ρ ^ 2 = x 0 ^ 2 + x 1 ^ 2 := by rw [hρd]; exact sq_sqrt (by positivity)
    have hρ0 : 0 ≤ ρ := by rw [hρd]; exact sqrt_nonneg _
    have ρa : a ≤ ρ := by nlinarith
    have ρb : ρ ≤ b := by nlinarith
    have ρp : 0 < ρ := by linarith
    obtain ⟨θ, hθd⟩ : ∃ θ, θ = arccos (x 0 / ρ) := ⟨_, rfl⟩
    have q1 : x 0 / ρ ≤ 1 := by rw [div_le_one ρp]; nlinarith [sq_nonneg (x 1)]
    have q2 : -1 ≤ x 0 / ρ := by rw [le_div_iff₀ ρp]; nlinarith [sq_nonneg (x 1)]
    have hc : cos θ = x 0 / ρ := by rw [hθd]; exact cos_arccos q2 q1
    have hs : sin θ = x 1 / ρ := by
      rw [hθd, sin_arccos, show 1 - (x 0 / ρ) ^ 2 = (x 1 / ρ) ^ 2 by field_simp; linarith]
      exact sqrt_sq (by positivity)
    have t0 : 0 ≤ θ := by rw [hθd]; exact arccos_nonneg _
    have tπ : θ ≤ π := by rw [hθd]; exact arccos_le_pi _
    have t1 : θ ≤ Θ := by
      by_contra hh
      have hh := not_le.1 hh
      have := cos_lt_cos_of_nonneg_of_le_pi hΘ.le tπ hh
      rw [hc, div_lt_iff₀ ρp] at this
      linarith
    have hba : 0 < b - a := by linarith
    refine ⟨(2 * (ρ - a) / (b - a) - 1, 2 * θ / Θ - 1), ⟨⟨?_, ?_⟩, ⟨?_, ?_⟩⟩, ?_⟩
    · have : 0 ≤ 2 * (ρ - a) / (b - a) := div_nonneg (by linarith) hba.le
      simp only; linarith
    · have : 2 * (ρ - a) / (b - a) ≤ 2 := by rw [div_le_iff₀ hba]; linarith
      simp only; linarith
    · have : 0 ≤ 2 * θ / Θ := div_nonneg (by linarith) hΘ.le
      simp only; linarith
    · have : 2 * θ / Θ ≤ 2 := by rw [div_le_iff₀ hΘ]; linarith
      simp only; linarith
    · have e1 : a + (1 + (2 * (ρ - a) / (b - a) - 1)) / 2 * (b - a) = ρ := by field_simp; ring
      have e2 : Θ * (1 + (2 * θ / Θ - 1)) / 2 = θ := by field_simp; ring
      funext i
      simp only [ringMap, e1, e2, hc, hs]
      fin_cases i
      · show ρ * (x 0 / ρ) = x 0
        field_simp
      · show ρ * (x 1 / ρ) = x 1
        field_simp

/-- the Jacobian determinant of what `point_and_derivs` returns -/
def Derivs2.det (d : Derivs2) : ℝ := d.dr 0 * d.ds 1 - d.dr 1 * d.ds 0

theorem ring_det {a b Θ : ℝ} {m : Transfinite2d} (h : ExactMap m (ringMap a b Θ)) (wr ws wx : Bool) (r s : ℝ) :
    (m.pointAndDerivs wr ws wx r s).det = (b - a) / 2 * (a + (1 + r) / 2 * (b - a)) * (Θ / 2) := by
  obtain ⟨_, hr, hs⟩ := h.first wr ws wx r s
  have e1 := (hr 0).unique (f := fun r => ringMap a b Θ r s 0) (lin1 ((a + 1 / 2 * (b - a)) * cos (Θ * (1 + s) / 2)) ((b - a) / 2 * cos (Θ * (1 + s) / 2)) r fun x => by
    simp [ringMap]; ring)
  have e2 := (hr 1).unique (f := fun r => ringMap a b Θ r s 1) (lin1 ((a + 1 / 2 * (b - a)) * sin (Θ * (1 + s) / 2)) ((b - a) / 2 * sin (Θ * (1 + s) / 2)) r fun x => by
    simp [ringMap]; ring)
  have q : ∀ x : ℝ, Θ * (1 + x) / 2 = Θ / 2 + Θ / 2 * x := fun x => by ring
  have e3 := (hs 0).unique (f := fun s => ringMap a b Θ r s 0) (cos_d (a + (1 + r) / 2 * (b - a)) (Θ / 2) (Θ / 2) _ s (fun x => by
    simp [ringMap, q]) rfl)
  have e4 := (hs 1).unique (f := fun s => ringMap a b Θ r s 1) (sin_d (a + (1 + r) / 2 * (b - a)) (Θ / 2) (Θ / 2) _ s (fun x => by
    simp [ringMap, q]) rfl)
  rw [Derivs2.det, e1, e2, e3, e4, q]
  have := sin_sq_add_cos_sq (Θ / 2 + Θ / 2 * s)
  linear_combination (b - a) / 2 * (a + (1 + r) / 2 * (b - a)) * (Θ / 2) * this

theorem and_of {P Q : Prop} (h : P) (k : P → Q) : P ∧ Q := ⟨h, k h⟩

/-- a quarter of a ring -/
def quarterRing (a b : ℝ) : Set (Fin 2 → ℝ) := {x | a ^ 2 ≤ x 0 ^ 2 + x 1 ^ 2 ∧ x 0 ^ 2 + x 1 ^ 2 ≤ b ^ 2 ∧ 0 ≤ x 0 ∧ 0 ≤ x 1}

/-- half of a ring -/
def halfRing (a b : ℝ) : Set (Fin 2 → ℝ) := {x | a ^ 2 ≤ x 0 ^ 2 + x 1 ^ 2 ∧ x 0 ^ 2 + x 1 ^ 2 ≤ b ^ 2 ∧ 0 ≤ x 1}

/-- **C97 (quarter ring).** The mapping is the one of polar coordinates, with the right derivatives. It is a bijection of the square
onto the quarter of the ring, and its Jacobian is positive. -/
theorem C97_quarter_ring_2d (a b : ℝ) : ∃ m, quarterRing2d a b = ok m ∧ ExactMap m (ringMap a b (π / 2)) ∧
    (0 < a → a < b → Set.BijOn (fun p : ℝ × ℝ => m.point p.1 p.2) square (quarterRing a b) ∧
      ∀ wr ws wx, ∀ p ∈ square, 0 < (m.pointAndDerivs wr ws wx p.1 p.2).det) := by
  have q : ∀ x : ℝ, π * (1 + x) / 4 = π / 4 + π / 4 * x := fun x => by ring
  refine ⟨_, rfl, and_of (exact_of ?_ ?_ ?_ (Or.inl rfl)) fun h ha hab => ⟨?_, ?_⟩⟩
  · intro r s
    have q2 : π / 2 * (1 + s) / 2 = π * (1 + s) / 4 := by ring
    have q3 : π * (1 + 1) / 4 = π / 2 := by ring
    funext i
    fin_cases i <;> simp [Transfinite2d.point, fnAt, ringMap, q2, q3] <;> ring
  · intro k hk t i
    have : k = 0 ∨ k = 1 ∨ k = 2 ∨ k = 3 := by omega
    rcases this with rfl | rfl | rfl | rfl <;> fin_cases i
    · exact cos_d a (π / 4) (π / 4) _ _ (fun x => by simp [fnAt, q]) (by simp [fnAt, q]; ring)
    · exact sin_d a (π / 4) (π / 4) _ _ (fun x => by simp [fnAt, q]) (by simp [fnAt, q]; ring)
    · exact cos_d b (π / 4) (π / 4) _ _ (fun x => by simp [fnAt, q]) (by simp [fnAt, q]; ring)
    · exact sin_d b (π / 4) (π / 4) _ _ (fun x => by simp [fnAt, q]) (by simp [fnAt, q]; ring)
    · exact lin1 (a + 0.5 * (b - a)) _ _ fun x => by simp [fnAt]; ring
    · exact hasDerivAt_const t _
    · exact hasDerivAt_const t _
    · exact lin1 (a + 0.5 * (b - a)) _ _ fun x => by simp [fnAt]; ring
  · intro k hk t i
    have : k = 0 ∨ k = 1 ∨ k = 2 ∨ k = 3 := by omega
    rcases this with rfl | rfl | rfl | rfl <;> fin_cases i
    · exact sin_d (-a * π / 4) (π / 4) (π / 4) _ _ (fun x => by simp [fnAt, q]; ring) (by simp [fnAt, q]; ring)
    · exact cos_d (a * π / 4) (π / 4) (π / 4) _ _ (fun x => by simp [fnAt, q]; ring) (by simp [fnAt, q]; ring)
    · exact sin_d (-b * π / 4) (π / 4) (π / 4) _ _ (fun x => by simp [fnAt, q]; ring) (by simp [fnAt, q]; ring)
    · exact cos_d (b * π / 4) (π / 4) (π / 4) _ _ (fun x => by simp [fnAt, q]; ring) (by simp [fnAt, q]; ring)
    all_goals exact hasDerivAt_const t _
  · simp only [h.point]
    have := ring_bij ha hab (by positivity : 0 < π / 2) (by linarith [pi_pos])
    simp only [cos_pi_div_two, zero_mul] at this
    convert this using 1
    ext x
    simp only [quarterRing, Set.mem_setOf_eq]
    tauto
  · rintro wr ws wx ⟨r, s⟩ ⟨hr, hs⟩
    rw [ring_det h]
    have := hr.1
    have hb : 0 < b - a := by linarith
    have : 0 ≤ (1 + r) / 2 * (b - a) := mul_nonneg (by simp only at this; linarith) hb.le
    have : 0 < a + (1 + r) / 2 * (b - a) := by linarith
    positivity

example := (Classical.choose_spec (C97_quarter_ring_2d 1 2)).2.2 one_pos one_lt_two

/-- **C97 (half ring).** As for the quarter of a ring. -/
theorem C97_half_ring_2d (a b : ℝ) : ∃ m, halfRing2d a b = ok m ∧ ExactMap m (ringMap a b π) ∧
    (0 < a → a < b → Set.BijOn (fun p : ℝ × ℝ => m.point p.1 p.2) square (halfRing a b) ∧
      ∀ wr ws wx, ∀ p ∈ square, 0 < (m.pointAndDerivs wr ws wx p.1 p.2).det) := by
  have q : ∀ x : ℝ, π * (x + 1) / 2 = π / 2 + π / 2 * x := fun x => by ring
  refine ⟨_, rfl, and_of (exact_of ?_ ?_ ?_ (Or.inl rfl)) fun h ha hab => ⟨?_, ?_⟩⟩
  · intro r s
    have q2 : π * (s + 1) / 2 = π * (1 + s) / 2 := by ring
    have q3 : π * (1 + 1) / 2 = π := by ring
    funext i
    fin_cases i <;> simp [Transfinite2d.point, fnAt, ringMap, q2, q3] <;> ring
  · intro k hk t i
    have : k = 0 ∨ k = 1 ∨ k = 2 ∨ k = 3 := by omega
    rcases this with rfl | rfl | rfl | rfl <;> fin_cases i
    · exact cos_d a (π / 2) (π / 2) _ _ (fun x => by simp [fnAt, q]) (by simp [fnAt, q]; ring)
    · exact sin_d a (π / 2) (π / 2) _ _ (fun x => by simp [fnAt, q]) (by simp [fnAt, q]; ring)
    · exact cos_d b (π / 2) (π / 2) _ _ (fun x => by simp [fnAt, q]) (by simp [fnAt, q]; ring)
    · exact sin_d b (π / 2) (π / 2) _ _ (fun x => by simp [fnAt, q]) (by simp [fnAt, q]; ring)
    · exact lin1 (a + (b - a) / 2) _ _ fun x => by simp [fnAt]; ring
    · exact hasDerivAt_const t _
    · exact lin1 (-a - (b - a) / 2) _ _ fun x => by simp [fnAt]; ring
    · exact hasDerivAt_const t _
  · intro k hk t i
    have : k = 0 ∨ k = 1 ∨ k = 2 ∨ k = 3 := by omega
    rcases this with rfl | rfl | rfl | rfl <;> fin_cases i
    · exact sin_d (-a * π / 2) (π / 2) (π / 2) _ _ (fun x => by simp [fnAt, q]; ring) (by simp [fnAt, q]; ring)
    · exact cos_d (a * π / 2) (π / 2) (π / 2) _ _ (fun x => by simp [fnAt, q]; ring) (by simp [fnAt, q]; ring)
    · exact sin_d (-b * π / 2) (π / 2) (π / 2) _ _ (fun x => by simp [fnAt, q]; ring) (by simp [fnAt, q]; ring)
    · exact cos_d (b * π / 2) (π / 2) (π / 2) _ _ (fun x => by simp [fnAt, q]; ring) (by simp [fnAt, q]; ring)
    all_goals exact hasDerivAt_const t _
  · simp only [h.point]
    have := ring_bij ha hab pi_pos le_rfl
    convert this using 1
    ext x
    simp only [halfRing, Set.mem_setOf_eq]
    constructor
    · rintro ⟨h1, h2, h3⟩
      refine ⟨h1, h2, h3, ?_⟩
      rw [cos_pi]
      have := abs_le_sqrt (show x 0 ^ 2 ≤ x 0 ^ 2 + x 1 ^ 2 by nlinarith)
      have := neg_abs_le (x 0)
      linarith
    · rintro ⟨h1, h2, h3, _⟩
      exact ⟨h1, h2, h3⟩
  · rintro wr ws wx ⟨r, s⟩ ⟨hr, hs⟩
    rw [ring_det h]
    have := hr.1
    have hb : 0 < b - a := by linarith
    have : 0 ≤ (1 + r) / 2 * (b - a) := mul_nonneg (by simp only at this; linarith) hb.le
    have : 0 < a + (1 + r) / 2 * (b - a) := by linarith
    positivity

example := (Classical.choose_spec (C97_half_ring_2d 1 2)).2.2 one_pos one_lt_two

/-! ### Quarter of a perforated lozenge -/

/-- segments from the arc of radius `a` to the line through `(b, 0)` and `(0, b)` -/
def lozengeMap (a b r s : ℝ) : Fin 2 → ℝ :=
  ![(1 - r) / 2 * (a * cos (π * (1 + s) / 4)) + (1 + r) / 2 * (b * (1 - s) / 2),
    (1 - r) / 2 * (a * sin (π * (1 + s) / 4)) + (1 + r) / 2 * (b * (1 + s) / 2)]

theorem lozenge_det {a b : ℝ} {m : Transfinite2d} (h : ExactMap m (lozengeMap a b)) (wr ws wx : Bool) (r s : ℝ) :
    (m.pointAndDerivs wr ws wx r s).det = 1 / 2 * ((1 - r) / 2 * (a * π / 4) * (b / 2 * ((1 - s) * cos (π * (1 + s) / 4) + (1 + s) * sin (π * (1 + s) / 4)) - a)
      + (1 + r) / 2 * (b / 2) * (b - a * (cos (π * (1 + s) / 4) + sin (π * (1 + s) / 4)))) := by
  obtain ⟨_, hr, hs⟩ := h.first wr ws wx r s
  have e1 := (hr 0).unique (f := fun r => lozengeMap a b r s 0) (lin1 (1 / 2 * (a * cos (π * (1 + s) / 4)) + 1 / 2 * (b * (1 - s) / 2))
    (1 / 2 * (b * (1 - s) / 2) - 1 / 2 * (a * cos (π * (1 + s) / 4))) r fun x => by simp [lozengeMap]; ring)
  have e2 := (hr 1).unique (f := fun r => lozengeMap a b r s 1) (lin1 (1 / 2 * (a * sin (π * (1 + s) / 4)) + 1 / 2 * (b * (1 + s) / 2))
    (1 / 2 * (b * (1 + s) / 2) - 1 / 2 * (a * sin (π * (1 + s) / 4))) r fun x => by simp [lozengeMap]; ring)
  have q : ∀ x : ℝ, π * (1 + x) / 4 = π / 4 + π / 4 * x := fun x => by ring
  have e3 := (hs 0).unique (f := fun s => lozengeMap a b r s 0) ((cos_d (f := fun s => (1 - r) / 2 * (a * cos (π * (1 + s) / 4)))
    ((1 - r) / 2 * a) (π / 4) (π / 4) _ s (fun x => by rw [q]; ring) rfl).add
    (lin1 (f := fun s => (1 + r) / 2 * (b * (1 - s) / 2)) ((1 + r) / 2 * (b / 2)) (-((1 + r) / 2 * (b / 2))) s fun x => by ring))
  have e4 := (hs 1).unique (f := fun s => lozengeMap a b r s 1) ((sin_d (f := fun s => (1 - r) / 2 * (a * sin (π * (1 + s) / 4)))
    ((1 - r) / 2 * a) (π / 4) (π / 4) _ s (fun x => by rw [q]; ring) rfl).add
    (lin1 (f := fun s => (1 + r) / 2 * (b * (1 + s) / 2)) ((1 + r) / 2 * (b / 2)) ((1 + r) / 2 * (b / 2)) s fun x => by ring))
  rw [Derivs2.det, e1, e2, e3, e4, q]
  have := sin_sq_add_cos_sq (π / 4 + π / 4 * s)
  linear_combination (-(1 / 2) * ((1 - r) / 2 * (a * π / 4) * a)) * this

/-- the sum of cosine and sine -/
theorem cos_add_sin (s : ℝ) : cos (π * (1 + s) / 4) + sin (π * (1 + s) / 4) = √2 * cos (π * s / 4) := by
  rw [show π * (1 + s) / 4 = π / 4 + π * s / 4 by ring, cos_add, sin_add, cos_pi_div_four, sin_pi_div_four]
  ring

theorem sin_sub_cos (s : ℝ) : sin (π * (1 + s) / 4) - cos (π * (1 + s) / 4) = √2 * sin (π * s / 4) := by
  rw [show π * (1 + s) / 4 = π / 4 + π * s / 4 by ring, cos_add, sin_add, cos_pi_div_four, sin_pi_div_four]
  ring

theorem lozenge_dist {s : ℝ} (h0 : -1 ≤ s) (h1 : s ≤ 1) : 1 ≤ cos (π * s / 4) + s * sin (π * s / 4) := by
  have key : ∀ s : ℝ, 0 ≤ s → s ≤ 1 → 1 ≤ cos (π * s / 4) + s * sin (π * s / 4) := by
    intro s h0 h1
    have hπ := pi_pos
    have hπ4 := pi_le_four
    have e : π * s / 4 = 2 * (π * s / 8) := by ring
    rw [e, cos_two_mul, sin_two_mul]
    have hs : sin (π * s / 8) ≤ π * s / 8 := sin_le (by positivity)
    have hs0 : 0 ≤ sin (π * s / 8) := sin_nonneg_of_nonneg_of_le_pi (by positivity) (by nlinarith)
    have hc : 1 / 2 ≤ cos (π * s / 8) := by
      rw [← cos_pi_div_three]
      exact cos_le_cos_of_nonneg_of_le_pi (by positivity) (by linarith) (by nlinarith)
    have hsc := sin_sq_add_cos_sq (π * s / 8)
    have : sin (π * s / 8) ≤ s * cos (π * s / 8) := by nlinarith
    nlinarith
  rcases le_total 0 s with h | h
  · exact key s h h1
  · have := key (-s) (by linarith) (by linarith)
    rwa [show π * -s / 4 = -(π * s / 4) by ring, cos_neg, sin_neg, neg_mul_neg] at this

/-- **C97 (perforated lozenge).** The mapping joins the arc to the line by segments, with the right derivatives. Its Jacobian is
positive on the square if and only if the line is outside of the circle; `a < b` does not suffice. -/
theorem C97_quarter_perforated_lozenge_2d (a b : ℝ) : ∃ m, quarterPerforatedLozenge2d a b = ok m ∧ ExactMap m (lozengeMap a b) ∧
    (0 < a → ∀ wr ws wx, (∀ p ∈ square, 0 < (m.pointAndDerivs wr ws wx p.1 p.2).det) ↔ √2 * a < b) := by
  have q : ∀ x : ℝ, π * (1 + x) / 4 = π / 4 + π / 4 * x := fun x => by ring
  refine ⟨_, rfl, and_of (exact_of ?_ ?_ ?_ (Or.inl rfl)) fun h ha wr ws wx => ⟨fun hd => ?_, ?_⟩⟩
  · intro r s
    have q3 : π * (1 + 1) / 4 = π / 2 := by ring
    funext i
    fin_cases i <;> simp [Transfinite2d.point, fnAt, lozengeMap, q3] <;> ring
  · intro k hk t i
    have : k = 0 ∨ k = 1 ∨ k = 2 ∨ k = 3 := by omega
    rcases this with rfl | rfl | rfl | rfl <;> fin_cases i
    · exact cos_d a (π / 4) (π / 4) _ _ (fun x => by simp [fnAt, q]) (by simp [fnAt, q]; ring)
    · exact sin_d a (π / 4) (π / 4) _ _ (fun x => by simp [fnAt, q]) (by simp [fnAt, q]; ring)
    · exact lin1 (b * 0.5) _ _ fun x => by simp [fnAt]; ring
    · exact lin1 (b * 0.5) _ _ fun x => by simp [fnAt]; ring
    · exact lin1 (a + 0.5 * (b - a)) _ _ fun x => by simp [fnAt]; ring
    · exact hasDerivAt_const t _
    · exact hasDerivAt_const t _
    · exact lin1 (a + 0.5 * (b - a)) _ _ fun x => by simp [fnAt]; ring
  · intro k hk t i
    have : k = 0 ∨ k = 1 ∨ k = 2 ∨ k = 3 := by omega
    rcases this with rfl | rfl | rfl | rfl <;> fin_cases i
    · exact sin_d (-a * π / 4) (π / 4) (π / 4) _ _ (fun x => by simp [fnAt, q]; ring) (by simp [fnAt, q]; ring)
    · exact cos_d (a * π / 4) (π / 4) (π / 4) _ _ (fun x => by simp [fnAt, q]; ring) (by simp [fnAt, q]; ring)
    all_goals exact hasDerivAt_const t _
  · have := hd (-1, 0) ⟨⟨by norm_num, by norm_num⟩, ⟨by norm_num, by norm_num⟩⟩
    rw [lozenge_det h] at this
    simp only [sub_zero, one_mul, add_zero] at this
    have e := cos_add_sin 0
    simp only [add_zero, mul_zero, zero_div, cos_zero, mul_one] at e
    simp only [mul_one] at this
    rw [e] at this
    have h2 : √2 * √2 = 2 := mul_self_sqrt (by norm_num)
    have hp : 0 < a * π / 4 := by positivity
    have : 0 < b / 2 * √2 - a := by nlinarith
    have h3 : 0 < √2 := by positivity
    nlinarith
  · rintro hab ⟨r, s⟩ ⟨⟨r0, r1⟩, ⟨s0, s1⟩⟩
    simp only at r0 r1 s0 s1
    have h2 : √2 * √2 = 2 := mul_self_sqrt (by norm_num)
    have h3 : 0 < √2 := by positivity
    have hb : 0 < b := by nlinarith
    have e1 := cos_add_sin s
    have e2 := sin_sub_cos s
    have hd := lozenge_dist s0 s1
    rw [lozenge_det h]
    have t1 : 0 < b / 2 * ((1 - s) * cos (π * (1 + s) / 4) + (1 + s) * sin (π * (1 + s) / 4)) - a := by
      have : (1 - s) * cos (π * (1 + s) / 4) + (1 + s) * sin (π * (1 + s) / 4) = √2 * (cos (π * s / 4) + s * sin (π * s / 4)) := by
        linear_combination e1 + s * e2
      rw [this]
      have : √2 ≤ √2 * (cos (π * s / 4) + s * sin (π * s / 4)) := by nlinarith
      nlinarith
    have t2 : 0 < b - a * (cos (π * (1 + s) / 4) + sin (π * (1 + s) / 4)) := by
      rw [e1]
      have := mul_le_mul_of_nonneg_left (cos_le_one (π * s / 4)) (by positivity : 0 ≤ a * √2)
      linarith
    have p1 : 0 < a * π / 4 := by positivity
    have k1 : 0 < (a * π / 4) * (b / 2 * ((1 - s) * cos (π * (1 + s) / 4) + (1 + s) * sin (π * (1 + s) / 4)) - a) := mul_pos p1 t1
    have k2 : 0 < b / 2 * (b - a * (cos (π * (1 + s) / 4) + sin (π * (1 + s) / 4))) := mul_pos (by linarith) t2
    simp only [mul_assoc ((1 - r) / 2), mul_assoc ((1 + r) / 2)]
    generalize (a * π / 4) * (b / 2 * ((1 - s) * cos (π * (1 + s) / 4) + (1 + s) * sin (π * (1 + s) / 4)) - a) = A at k1 ⊢
    generalize hB : b / 2 * (b - a * (cos (π * (1 + s) / 4) + sin (π * (1 + s) / 4))) = B at k2 ⊢
    rcases eq_or_lt_of_le r0 with h | h
    · subst h; nlinarith
    · have : 0 < (1 + r) / 2 * B := mul_pos (by linarith) k2
      have : 0 ≤ (1 - r) / 2 * A := mul_nonneg (by linarith) k1.le
      nlinarith

example := (Classical.choose_spec (C97_quarter_perforated_lozenge_2d 1 3)).2.2 one_pos true true true

/-- **C97 (lozenge too small).** The sample accepts a lozenge that cuts the circle although `a < b`; the mapping is then folded. -/
theorem C97_lozenge_counterexample : ∃ m, quarterPerforatedLozenge2d 1 1.2 = ok m ∧ ∃ p ∈ square, (m.pointAndDerivs true true true p.1 p.2).det ≤ 0 := by
  obtain ⟨m, hm, _, h⟩ := C97_quarter_perforated_lozenge_2d 1 1.2
  refine ⟨m, hm, ?_⟩
  by_contra hh
  push Not at hh
  have := ((h one_pos true true true).1 hh)
  have h3 : 1.4 ≤ √2 := by
    apply le_sqrt_of_sq_le; norm_num
  norm_num at this h3
  linarith

/-! ### Three dimensions -/

/-- the mapping is `F`, and `point_and_derivs` returns the partial derivatives of `F` of first and second order -/
structure ExactMap3 (m : Transfinite3d) (F : ℝ → ℝ → ℝ → Fin 3 → ℝ) : Prop where
  point : ∀ r s t, m.point r s t = F r s t
  first : ∀ all r s t, (m.pointAndDerivs all r s t).x = F r s t ∧
    (∀ i, HasDerivAt (fun r => F r s t i) ((m.pointAndDerivs all r s t).dr i) r) ∧
    (∀ i, HasDerivAt (fun s => F r s t i) ((m.pointAndDerivs all r s t).ds i) s) ∧
    (∀ i, HasDerivAt (fun t => F r s t i) ((m.pointAndDerivs all r s t).dt i) t)
  second : ∀ r s t, ∃ S, (m.pointAndDerivs true r s t).second = some S ∧
    (∀ i, HasDerivAt (fun r' => deriv (fun r => F r s t i) r') (S.rr i) r) ∧
    (∀ i, HasDerivAt (fun s' => deriv (fun s => F r s t i) s') (S.ss i) s) ∧
    (∀ i, HasDerivAt (fun t' => deriv (fun t => F r s t i) t') (S.tt i) t) ∧
    (∀ i, HasDerivAt (fun s' => deriv (fun r => F r s' t i) r) (S.rs i) s) ∧
    (∀ i, HasDerivAt (fun t' => deriv (fun r => F r s t' i) r) (S.rt i) t) ∧
    (∀ i, HasDerivAt (fun t' => deriv (fun s => F r s t' i) s) (S.st i) t)

theorem exact3_of {m : Transfinite3d} {d2 : List Surf2} {F : ℝ → ℝ → ℝ → Fin 3 → ℝ} (hF : ∀ r s t, m.point r s t = F r s t)
    (h1 : IsPartials m.b m.d1) (h2 : IsPartials2 m.d1 d2) (hd : m.d2 = some d2 ∨ m.d2 = none ∧ d2 = zeros2) : ExactMap3 m F := by
  have hF' : ∀ r s t i, F r s t i = m.point r s t i := fun r s t i => by rw [hF]
  have f1 : ∀ all r s t, (m.pointAndDerivs all r s t).x = F r s t ∧
      (∀ i, HasDerivAt (fun r => F r s t i) ((m.pointAndDerivs all r s t).dr i) r) ∧
      (∀ i, HasDerivAt (fun s => F r s t i) ((m.pointAndDerivs all r s t).ds i) s) ∧
      (∀ i, HasDerivAt (fun t => F r s t i) ((m.pointAndDerivs all r s t).dt i) t) := by
    intro all r s t
    obtain ⟨a, b, c, d⟩ := C92_derivatives h1 all r s t
    refine ⟨by rw [a, hF], fun i => ?_, fun i => ?_, fun i => ?_⟩
    · simp only [hF']; exact b i
    · simp only [hF']; exact c i
    · simp only [hF']; exact d i
  refine ⟨hF, f1, fun r s t => ?_⟩
  have er : ∀ r s t i, deriv (fun r => F r s t i) r = (m.pointAndDerivs true r s t).dr i := fun r s t i => ((f1 true r s t).2.1 i).deriv
  have es : ∀ r s t i, deriv (fun s => F r s t i) s = (m.pointAndDerivs true r s t).ds i := fun r s t i => ((f1 true r s t).2.2.1 i).deriv
  have et : ∀ r s t i, deriv (fun t => F r s t i) t = (m.pointAndDerivs true r s t).dt i := fun r s t i => ((f1 true r s t).2.2.2 i).deriv
  simp only [er, es, et]
  obtain ⟨_, S, e, h⟩ := C92_second_derivatives h1 h2 hd r s t
  exact ⟨S, e, h.rr, h.ss, h.tt, h.rs, h.rt, h.st⟩

/-- **C97 (brick).** The mapping stretches the cube, with the right derivatives. -/
theorem C97_brick_3d (lx ly lz : ℝ) : ∃ m, brick3d lx ly lz = ok m ∧
    ExactMap3 m fun r s t => ![(1 + r) * lx / 2, (1 + s) * ly / 2, (1 + t) * lz / 2] := by
  refine ⟨_, rfl, exact3_of (d2 := zeros2) ?_ ?_ ?_ (Or.inr ⟨rfl, rfl⟩)⟩
  · intro r s t
    funext i
    fin_cases i <;> simp [Transfinite3d.point, surfAt] <;> ring
  · intro k hk u v i
    have : k = 0 ∨ k = 1 ∨ k = 2 ∨ k = 3 ∨ k = 4 ∨ k = 5 := by omega
    have h0 : ∀ f : ℝ → ℝ, ∀ b x, (∀ x, f x = f 0 + b * x) → HasDerivAt f b x := fun f b x h => lin1 (f 0) b x h
    rcases this with rfl | rfl | rfl | rfl | rfl | rfl <;> fin_cases i <;> refine ⟨h0 _ _ _ fun x => ?_, h0 _ _ _ fun x => ?_⟩ <;>
      simp [surfAt, surf1At] <;> ring
  · intro k hk u v i
    have : k = 0 ∨ k = 1 ∨ k = 2 ∨ k = 3 ∨ k = 4 ∨ k = 5 := by omega
    rw [surf2At_zeros]
    rcases this with rfl | rfl | rfl | rfl | rfl | rfl <;> fin_cases i <;>
      exact ⟨hasDerivAt_const u _, hasDerivAt_const v _, hasDerivAt_const v _, hasDerivAt_const u _⟩

/-- **C97 (quarter of a ring in 3D).** The mapping is the one of cylindrical coordinates with the first coordinate as axis, with the right
derivatives. -/
theorem C97_quarter_ring_3d (a b h : ℝ) : ∃ m, quarterRing3d a b h = ok m ∧
    ExactMap3 m fun r s t => ![(1 + r) * h / 2, ringMap a b (π / 2) s t 0, ringMap a b (π / 2) s t 1] := by
  obtain ⟨surf, hs, hm, -⟩ := C97_quarter_ring_2d a b
  have q : ∀ x : ℝ, (1 + x) * π / 4 = π / 4 + π / 4 * x := fun x => by ring
  have h0 : ∀ f : ℝ → ℝ, ∀ b x, (∀ x, f x = f 0 + b * x) → HasDerivAt f b x := fun f b x h => lin1 (f 0) b x h
  have sec : ∀ s t, ∀ i, HasDerivAt (fun s' => deriv (fun s => ringMap a b (π / 2) s t i) s') ((secondOf surf s t).1 i) s ∧
      HasDerivAt (fun t' => deriv (fun t => ringMap a b (π / 2) s t i) t') ((secondOf surf s t).2.1 i) t ∧
      HasDerivAt (fun t' => deriv (fun s => ringMap a b (π / 2) s t' i) s) ((secondOf surf s t).2.2 i) t ∧
      HasDerivAt (fun s' => deriv (fun t => ringMap a b (π / 2) s' t i) t) ((secondOf surf s t).2.2 i) s := by
    intro s t i
    obtain ⟨rr, ss, rs, e, e1, e2, e3, e4⟩ := hm.second s t
    rw [show secondOf surf s t = (rr, ss, rs) by rw [secondOf, e]; rfl]
    exact ⟨e1 i, e2 i, e3 i, e4 i⟩
  have er : ∀ s t i, deriv (fun s => ringMap a b (π / 2) s t i) s = (surf.pointAndDerivs false false false s t).dr i := fun s t i =>
    ((hm.first false false false s t).2.1 i).deriv
  have es : ∀ s t i, deriv (fun t => ringMap a b (π / 2) s t i) t = (surf.pointAndDerivs false false false s t).ds i := fun s t i =>
    ((hm.first false false false s t).2.2 i).deriv
  simp only [er, es] at sec
  have fs : ∀ s t i, HasDerivAt (fun s => surf.point s t i) ((surf.pointAndDerivs false false false s t).dr i) s := by
    intro s t i
    simp only [hm.point]
    exact (hm.first false false false s t).2.1 i
  have ft : ∀ s t i, HasDerivAt (fun t => surf.point s t i) ((surf.pointAndDerivs false false false s t).ds i) t := by
    intro s t i
    simp only [hm.point]
    exact (hm.first false false false s t).2.2 i
  unfold quarterRing3d
  rw [hs, ok_bind]
  refine ⟨_, rfl, exact3_of ?_ ?_ ?_ (Or.inl rfl)⟩
  · intro r s t
    have q2 : ∀ t, π / 2 * (1 + t) / 2 = (1 + t) * π / 4 := fun t => by ring
    have q3 : (1 + 1) * π / 4 = π / 2 := by ring
    funext i
    fin_cases i <;> simp [Transfinite3d.point, surfAt, hm.point, ringMap, q2, q3] <;> ring
  · intro k hk u v i
    have : k = 0 ∨ k = 1 ∨ k = 2 ∨ k = 3 ∨ k = 4 ∨ k = 5 := by omega
    rcases this with rfl | rfl | rfl | rfl | rfl | rfl <;> fin_cases i
    · exact ⟨hasDerivAt_const u _, hasDerivAt_const v _⟩
    · exact ⟨fs u v 0, ft u v 0⟩
    · exact ⟨fs u v 1, ft u v 1⟩
    · exact ⟨hasDerivAt_const u _, hasDerivAt_const v _⟩
    · exact ⟨fs u v 0, ft u v 0⟩
    · exact ⟨fs u v 1, ft u v 1⟩
    · exact ⟨h0 _ _ _ fun x => by simp [surfAt, surf1At]; ring, hasDerivAt_const v _⟩
    · exact ⟨hasDerivAt_const u _, cos_d a (π / 4) (π / 4) _ _ (fun x => by simp [surfAt, q]) (by simp [surf1At, q]; ring)⟩
    · exact ⟨hasDerivAt_const u _, sin_d a (π / 4) (π / 4) _ _ (fun x => by simp [surfAt, q]) (by simp [surf1At, q]; ring)⟩
    · exact ⟨h0 _ _ _ fun x => by simp [surfAt, surf1At]; ring, hasDerivAt_const v _⟩
    · exact ⟨hasDerivAt_const u _, cos_d b (π / 4) (π / 4) _ _ (fun x => by simp [surfAt, q]) (by simp [surf1At, q]; ring)⟩
    · exact ⟨hasDerivAt_const u _, sin_d b (π / 4) (π / 4) _ _ (fun x => by simp [surfAt, q]) (by simp [surf1At, q]; ring)⟩
    all_goals refine ⟨h0 _ _ _ fun x => ?_, h0 _ _ _ fun x => ?_⟩ <;> simp [surfAt, surf1At] <;> ring
  · intro k hk u v i
    have : k = 0 ∨ k = 1 ∨ k = 2 ∨ k = 3 ∨ k = 4 ∨ k = 5 := by omega
    have z := And.intro (hasDerivAt_const u (0 : ℝ)) (And.intro (hasDerivAt_const v (0 : ℝ)) (And.intro (hasDerivAt_const v (0 : ℝ)) (hasDerivAt_const u (0 : ℝ))))
    rcases this with rfl | rfl | rfl | rfl | rfl | rfl <;> fin_cases i
    · exact z
    · exact sec u v 0
    · exact sec u v 1
    · exact z
    · exact sec u v 0
    · exact sec u v 1
    · exact ⟨hasDerivAt_const u _, hasDerivAt_const v _, hasDerivAt_const v _, hasDerivAt_const u _⟩
    · exact ⟨hasDerivAt_const u _, sin_d (-a * π / 4) (π / 4) (π / 4) _ _ (fun x => by simp [surf1At, q]; ring) (by simp [surf2At, q]; ring),
        hasDerivAt_const v _, hasDerivAt_const u _⟩
    · exact ⟨hasDerivAt_const u _, cos_d (a * π / 4) (π / 4) (π / 4) _ _ (fun x => by simp [surf1At, q]; ring) (by simp [surf2At, q]; ring),
        hasDerivAt_const v _, hasDerivAt_const u _⟩
    · exact ⟨hasDerivAt_const u _, hasDerivAt_const v _, hasDerivAt_const v _, hasDerivAt_const u _⟩
    · exact ⟨hasDerivAt_const u _, sin_d (-b * π / 4) (π / 4) (π / 4) _ _ (fun x => by simp [surf1At, q]; ring) (by simp [surf2At, q]; ring),
        hasDerivAt_const v _, hasDerivAt_const u _⟩
    · exact ⟨hasDerivAt_const u _, cos_d (b * π / 4) (π / 4) (π / 4) _ _ (fun x => by simp [surf1At, q]; ring) (by simp [surf2At, q]; ring),
        hasDerivAt_const v _, hasDerivAt_const u _⟩
    all_goals exact ⟨hasDerivAt_const u _, hasDerivAt_const v _, hasDerivAt_const v _, hasDerivAt_const u _⟩

end

end Russell.Pde
