import Verif.Lab.ChebyshevPoints
import Verif.Lab.NumVector
import Mathlib.Analysis.Calculus.Deriv.Add
import Mathlib.Analysis.Calculus.Deriv.Mul

/-!
# Transfinite mapping in two dimensions (C91)

Model of russell_pde/src/transfinite_2d.rs with real numbers; exact arithmetic. The boundary functions are closures that write a
vector of dimension two; they are represented by pure functions which write both components.
-/

namespace Russell.Pde

open Russell Russell.Res Russell.Lab

noncomputable section

/-- a boundary function -/
abbrev Curve := ℝ → Fin 2 → ℝ

/-- `Transfinite2d` (/repo/russell_pde/src/transfinite_2d.rs:23-57); the vectors for intermediate results are left out -/
structure Transfinite2d where
  b : List Curve
  d1 : List Curve
  d2 : Option (List Curve)
  p0 : Fin 2 → ℝ
  p1 : Fin 2 → ℝ
  p2 : Fin 2 → ℝ
  p3 : Fin 2 → ℝ

/-- indexing of the lists of functions, whose length has been checked by `new` -/
def fnAt (l : List Curve) (i : Nat) : Curve := l.getD i fun _ _ => 0

/-- `Transfinite2d::new` (/repo/russell_pde/src/transfinite_2d.rs:67-113) -/
def Transfinite2d.new (b d1 : List Curve) (d2 : Option (List Curve)) : Res Transfinite2d :=
  if b.length ≠ 4 then err "boundary_functions must have length 4"
  else if d1.length ≠ 4 then err "deriv1_boundary_functions must have length 4"
  else if d2.any fun l => l.length != 4 then err "deriv2_boundary_functions must have length 4"
  else ok ⟨b, d1, d2, fnAt b 0 (-1), fnAt b 1 (-1), fnAt b 1 1, fnAt b 0 1⟩

/-- `Transfinite2d::point` (/repo/russell_pde/src/transfinite_2d.rs:122-141) -/
def Transfinite2d.point (m : Transfinite2d) (r s : ℝ) : Fin 2 → ℝ := fun i =>
  let b0s := fnAt m.b 0 s
  let b1s := fnAt m.b 1 s
  let b2r := fnAt m.b 2 r
  let b3r := fnAt m.b 3 r
  0 + (1 - r) * b0s i / 2 + (1 + r) * b1s i / 2 + (1 - s) * b2r i / 2 + (1 + s) * b3r i / 2
    - (1 - r) * (1 - s) * m.p0 i / 4 - (1 + r) * (1 - s) * m.p1 i / 4 - (1 + r) * (1 + s) * m.p2 i / 4
    - (1 - r) * (1 + s) * m.p3 i / 4

/-- what `point_and_derivs` writes: the second derivatives (two pure ones and the mixed one) may be left unchanged -/
structure Derivs2 where
  x : Fin 2 → ℝ
  dr : Fin 2 → ℝ
  ds : Fin 2 → ℝ
  second : Option ((Fin 2 → ℝ) × (Fin 2 → ℝ) × (Fin 2 → ℝ))

/-- `Transfinite2d::point_and_derivs` (/repo/russell_pde/src/transfinite_2d.rs:159-263); `wr`, `ws`, `wx` tell whether the three arguments
for the second derivatives are given -/
def Transfinite2d.pointAndDerivs (m : Transfinite2d) (wr ws wx : Bool) (r s : ℝ) : Derivs2 :=
  let b0s := fnAt m.b 0 s
  let b1s := fnAt m.b 1 s
  let b2r := fnAt m.b 2 r
  let b3r := fnAt m.b 3 r
  let db0s := fnAt m.d1 0 s
  let db1s := fnAt m.d1 1 s
  let db2r := fnAt m.d1 2 r
  let db3r := fnAt m.d1 3 r
  { x := fun i => 0 + (1 - r) * b0s i / 2 + (1 + r) * b1s i / 2 + (1 - s) * b2r i / 2 + (1 + s) * b3r i / 2
      - (1 - r) * (1 - s) * m.p0 i / 4 - (1 + r) * (1 - s) * m.p1 i / 4 - (1 + r) * (1 + s) * m.p2 i / 4
      - (1 - r) * (1 + s) * m.p3 i / 4
    dr := fun i => 0 - b0s i / 2 + b1s i / 2 + (1 - s) * db2r i / 2 + (1 + s) * db3r i / 2
      + (1 - s) * m.p0 i / 4 - (1 - s) * m.p1 i / 4 - (1 + s) * m.p2 i / 4 + (1 + s) * m.p3 i / 4
    ds := fun i => 0 + (1 - r) * db0s i / 2 + (1 + r) * db1s i / 2 - b2r i / 2 + b3r i / 2
      + (1 - r) * m.p0 i / 4 + (1 + r) * m.p1 i / 4 - (1 + r) * m.p2 i / 4 - (1 - r) * m.p3 i / 4
    second :=
      if wr = false ∨ ws = false ∨ wx = false then none
      else
        match m.d2 with
        | none => some (fun _ => 0, fun _ => 0, fun i => 0 - db0s i / 2 + db1s i / 2 - db2r i / 2 + db3r i / 2
            - m.p0 i / 4 + m.p1 i / 4 - m.p2 i / 4 + m.p3 i / 4)
        | some d2 =>
          let ddb0s := fnAt d2 0 s
          let ddb1s := fnAt d2 1 s
          let ddb2r := fnAt d2 2 r
          let ddb3r := fnAt d2 3 r
          some (fun i => 0 + (1 - s) * ddb2r i / 2 + (1 + s) * ddb3r i / 2,
            fun i => 0 + (1 - r) * ddb0s i / 2 + (1 + r) * ddb1s i / 2,
            fun i => 0 - db0s i / 2 + db1s i / 2 - db2r i / 2 + db3r i / 2
              - m.p0 i / 4 + m.p1 i / 4 - m.p2 i / 4 + m.p3 i / 4) }

/-- the points of `triangulate` in one direction (/repo/russell_pde/src/transfinite_2d.rs:294-303) -/
def stations (cgl : Bool) (n : Nat) : Res (List ℝ) :=
  if cgl then chebyshevLobattoPoints (n - 1)
  else match linspace (-1 : ℝ) 1 n with
    | ok l => ok l
    | _ => panic

/-- `Transfinite2d::triangulate` (/repo/russell_pde/src/transfinite_2d.rs:282-320): the coordinates and the triangles in the order of
the `push` calls. The subtractions `m - nr - 1` are only reached with `i, j > 0`. -/
def Transfinite2d.triangulate (m : Transfinite2d) (nr ns : Nat) (cgl_r cgl_s : Bool) :
    Res (List ℝ × List ℝ × List (List Nat)) :=
  if nr ≥ 2 ∧ ns ≥ 2 then do
    let ksi ← stations cgl_r nr
    let eta ← stations cgl_s ns
    ok ((List.range ns).flatMap fun j => (List.range nr).map fun i => m.point (ksi.getD i 0) (eta.getD j 0) 0,
      (List.range ns).flatMap fun j => (List.range nr).map fun i => m.point (ksi.getD i 0) (eta.getD j 0) 1,
      (List.range ns).flatMap fun j => (List.range nr).flatMap fun i =>
        if i > 0 ∧ j > 0 then
          let k := i + j * nr
          [[k - nr - 1, k - nr, k], [k - nr - 1, k, k - 1]]
        else [])
  else panic

/-! ### The mapping -/

/-- **C91 (new).** The lists must have four functions. The corners are the ends of the first two boundaries. -/
theorem C91_new (b d1 : List Curve) (d2 : Option (List Curve)) :
    (∃ m, Transfinite2d.new b d1 d2 = ok m) ↔ b.length = 4 ∧ d1.length = 4 ∧ ∀ l, d2 = some l → l.length = 4 := by
  unfold Transfinite2d.new
  by_cases h1 : b.length = 4 <;> by_cases h2 : d1.length = 4 <;> cases d2 with
  | none => simp [h1, h2]
  | some l => by_cases h3 : l.length = 4 <;> simp [h1, h2, h3]

/-- the corners -/
theorem new_fields {b d1 : List Curve} {d2 : Option (List Curve)} {m : Transfinite2d} (h : Transfinite2d.new b d1 d2 = ok m) :
    m.b = b ∧ m.d1 = d1 ∧ m.d2 = d2 ∧ m.p0 = fnAt b 0 (-1) ∧ m.p1 = fnAt b 1 (-1) ∧ m.p2 = fnAt b 1 1 ∧ m.p3 = fnAt b 0 1 := by
  unfold Transfinite2d.new at h
  split_ifs at h
  cases h
  exact ⟨rfl, rfl, rfl, rfl, rfl, rfl, rfl⟩

/-- **C91 (boundary).** The mapping reproduces the four boundaries if and only if the ends of the boundaries meet at the four corners. -/
theorem C91_boundary {b0 b1 b2 b3 : Curve} {d1 : List Curve} {d2 : Option (List Curve)} {m : Transfinite2d}
    (h : Transfinite2d.new [b0, b1, b2, b3] d1 d2 = ok m) :
    ((∀ s ∈ Set.Icc (-1 : ℝ) 1, m.point (-1) s = b0 s ∧ m.point 1 s = b1 s ∧ m.point s (-1) = b2 s ∧ m.point s 1 = b3 s) ↔
      b0 (-1) = b2 (-1) ∧ b0 1 = b3 (-1) ∧ b1 (-1) = b2 1 ∧ b1 1 = b3 1) := by
  obtain ⟨e0, e1, e2, p0, p1, p2, p3⟩ := new_fields h
  have hp : ∀ r s i, m.point r s i = (1 - r) * b0 s i / 2 + (1 + r) * b1 s i / 2 + (1 - s) * b2 r i / 2 + (1 + s) * b3 r i / 2
      - (1 - r) * (1 - s) * b0 (-1) i / 4 - (1 + r) * (1 - s) * b1 (-1) i / 4 - (1 + r) * (1 + s) * b1 1 i / 4
      - (1 - r) * (1 + s) * b0 1 i / 4 := by
    intro r s i
    simp [Transfinite2d.point, e0, p0, p1, p2, p3, fnAt]
  constructor
  · intro h
    have hm := h (-1) (by constructor <;> norm_num)
    have h1 := h 1 (by constructor <;> norm_num)
    refine ⟨?_, ?_, ?_, ?_⟩ <;> funext i
    · have := congrFun hm.1 i; rw [hp] at this; linarith
    · have := congrFun h1.1 i; rw [hp] at this; linarith
    · have := congrFun hm.2.1 i; rw [hp] at this; linarith
    · have := congrFun h1.2.1 i; rw [hp] at this; linarith
  · rintro ⟨c0, c1, c2, c3⟩ s _
    have c0 := fun i => congrFun c0 i
    have c1 := fun i => congrFun c1 i
    have c2 := fun i => congrFun c2 i
    have c3 := fun i => congrFun c3 i
    refine ⟨?_, ?_, ?_, ?_⟩ <;> funext i <;> rw [hp] <;> simp only [c0, c1, c2, c3] <;> ring

/-- boundaries of a quarter of a disc like domain that meet at the corners -/
example : ∃ (b0 b1 b2 b3 : Curve), b0 (-1) = b2 (-1) ∧ b0 1 = b3 (-1) ∧ b1 (-1) = b2 1 ∧ b1 1 = b3 1 ∧ b0 0 ≠ (b0 (-1) + b0 1) / 2 := by
  refine ⟨fun s => ![s ^ 2, s], fun s => ![3, s], fun r => ![2 + r, -1], fun r => ![2 + r, 1], ?_, ?_, ?_, ?_, ?_⟩
  · funext i; fin_cases i <;> norm_num
  · funext i; fin_cases i <;> norm_num
  · funext i; fin_cases i <;> norm_num
  · funext i; fin_cases i <;> norm_num
  · intro h
    have := congrFun h 0
    norm_num at this

/-- **C91 (boundaries that do not meet).** They are accepted by `new`, and then the boundary of the mapped domain differs. -/
theorem C91_corners_counterexample : ∃ (b0 b1 b2 b3 : Curve) (m : Transfinite2d),
    Transfinite2d.new [b0, b1, b2, b3] [b0, b1, b2, b3] none = ok m ∧ m.point (-1) (-1) ≠ b0 (-1) := by
  refine ⟨fun s => ![-1, s], fun s => ![1, s], fun r => ![r, -2], fun r => ![r, 1], _, rfl, ?_⟩
  intro h
  have := congrFun h 1
  norm_num [Transfinite2d.point, fnAt] at this

/-- **C91 (reproduction).** Mappings of the form `A(r) + s B(r) + C(s) + r D(s)`, which include the bilinear ones, are reproduced. -/
theorem C91_reproduction (A B C D : Curve) {d1 : List Curve} {d2 : Option (List Curve)} {F : ℝ → ℝ → Fin 2 → ℝ} {m : Transfinite2d}
    (hF : ∀ r s i, F r s i = A r i + s * B r i + C s i + r * D s i)
    (h : Transfinite2d.new [fun s => F (-1) s, fun s => F 1 s, fun r => F r (-1), fun r => F r 1] d1 d2 = ok m) (r s : ℝ) :
    m.point r s = F r s := by
  obtain ⟨e0, e1, e2, p0, p1, p2, p3⟩ := new_fields h
  funext i
  simp only [Transfinite2d.point, e0, p0, p1, p2, p3, fnAt, List.getD_cons_zero, List.getD_cons_succ, hF]
  ring

/-- the functions `d` are the derivatives of the functions `b` -/
def IsDerivs (b d : List Curve) : Prop := ∀ k < 4, ∀ t i, HasDerivAt (fun t => fnAt b k t i) (fnAt d k t i) t

/-- **C91 (derivatives).** `point_and_derivs` returns the point of the mapping and its partial derivatives. -/
theorem C91_derivatives {m : Transfinite2d} (h1 : IsDerivs m.b m.d1) (wr ws wx : Bool) (r s : ℝ) :
    (m.pointAndDerivs wr ws wx r s).x = m.point r s ∧
    (∀ i, HasDerivAt (fun r => m.point r s i) ((m.pointAndDerivs wr ws wx r s).dr i) r) ∧
    (∀ i, HasDerivAt (fun s => m.point r s i) ((m.pointAndDerivs wr ws wx r s).ds i) s) := by
  refine ⟨rfl, fun i => ?_, fun i => ?_⟩
  · have e2 := h1 2 (by norm_num) r i
    have e3 := h1 3 (by norm_num) r i
    have a : HasDerivAt (fun r : ℝ => 1 - r) (-1) r := by simpa using (hasDerivAt_id r).const_sub 1
    have c : HasDerivAt (fun r : ℝ => 1 + r) 1 r := by simpa using (hasDerivAt_id r).const_add 1
    have := ((((((((a.mul_const (fnAt m.b 0 s i / 2)).add (c.mul_const (fnAt m.b 1 s i / 2))).add (e2.const_mul ((1 - s) / 2))).add
      (e3.const_mul ((1 + s) / 2))).sub (a.mul_const ((1 - s) * m.p0 i / 4))).sub (c.mul_const ((1 - s) * m.p1 i / 4))).sub
      (c.mul_const ((1 + s) * m.p2 i / 4))).sub (a.mul_const ((1 + s) * m.p3 i / 4)))
    refine (this.congr_deriv ?_).congr_of_eventuallyEq (Filter.Eventually.of_forall fun t => ?_)
    · simp only [Transfinite2d.pointAndDerivs]; ring
    · simp only [Transfinite2d.point, Pi.add_apply, Pi.sub_apply]; ring
  · have e0 := h1 0 (by norm_num) s i
    have e1 := h1 1 (by norm_num) s i
    have a : HasDerivAt (fun r : ℝ => 1 - r) (-1) s := by simpa using (hasDerivAt_id s).const_sub 1
    have c : HasDerivAt (fun r : ℝ => 1 + r) 1 s := by simpa using (hasDerivAt_id s).const_add 1
    have := ((((((((e0.const_mul ((1 - r) / 2)).add (e1.const_mul ((1 + r) / 2))).add (a.mul_const (fnAt m.b 2 r i / 2))).add
      (c.mul_const (fnAt m.b 3 r i / 2))).sub (a.mul_const ((1 - r) * m.p0 i / 4))).sub (a.mul_const ((1 + r) * m.p1 i / 4))).sub
      (c.mul_const ((1 + r) * m.p2 i / 4))).sub (c.mul_const ((1 - r) * m.p3 i / 4)))
    refine (this.congr_deriv ?_).congr_of_eventuallyEq (Filter.Eventually.of_forall fun t => ?_)
    · simp only [Transfinite2d.pointAndDerivs]; ring
    · simp only [Transfinite2d.point, Pi.add_apply, Pi.sub_apply]; ring

/-- **C91 (second derivatives).** They are written only if all three are requested. The mixed derivative is right; the pure ones are
right if the second derivatives of the boundaries are given. -/
theorem C91_second_derivatives {m : Transfinite2d} (h1 : IsDerivs m.b m.d1) (wr ws wx : Bool) (r s : ℝ) :
    ((wr = false ∨ ws = false ∨ wx = false) → (m.pointAndDerivs wr ws wx r s).second = none) ∧
    ∃ rr ss rs, (m.pointAndDerivs true true true r s).second = some (rr, ss, rs) ∧
      (∀ i, HasDerivAt (fun s => (m.pointAndDerivs wr ws wx r s).dr i) (rs i) s) ∧
      (∀ i, HasDerivAt (fun r => (m.pointAndDerivs wr ws wx r s).ds i) (rs i) r) ∧
      (∀ d2, m.d2 = some d2 → IsDerivs m.d1 d2 → (∀ i, HasDerivAt (fun r => (m.pointAndDerivs wr ws wx r s).dr i) (rr i) r) ∧
        (∀ i, HasDerivAt (fun s => (m.pointAndDerivs wr ws wx r s).ds i) (ss i) s)) := by
  refine ⟨fun h => by simp only [Transfinite2d.pointAndDerivs]; rw [if_pos h], ?_⟩
  have a : ∀ t : ℝ, HasDerivAt (fun r : ℝ => 1 - r) (-1) t := fun t => by simpa using (hasDerivAt_id t).const_sub 1
  have c : ∀ t : ℝ, HasDerivAt (fun r : ℝ => 1 + r) 1 t := fun t => by simpa using (hasDerivAt_id t).const_add 1
  have m1 : ∀ i, HasDerivAt (fun s => (m.pointAndDerivs wr ws wx r s).dr i) (0 - fnAt m.d1 0 s i / 2 + fnAt m.d1 1 s i / 2
      - fnAt m.d1 2 r i / 2 + fnAt m.d1 3 r i / 2 - m.p0 i / 4 + m.p1 i / 4 - m.p2 i / 4 + m.p3 i / 4) s := by
    intro i
    have e0 := h1 0 (by norm_num) s i
    have e1 := h1 1 (by norm_num) s i
    have := (((((((e0.const_mul (-1 / 2)).add (e1.const_mul (1 / 2))).add ((a s).mul_const (fnAt m.d1 2 r i / 2))).add
      ((c s).mul_const (fnAt m.d1 3 r i / 2))).add ((a s).mul_const (m.p0 i / 4))).sub ((a s).mul_const (m.p1 i / 4))).sub
      ((c s).mul_const (m.p2 i / 4))).add ((c s).mul_const (m.p3 i / 4))
    refine (this.congr_deriv ?_).congr_of_eventuallyEq (Filter.Eventually.of_forall fun t => ?_)
    · ring
    · simp only [Transfinite2d.pointAndDerivs, Pi.add_apply, Pi.sub_apply]; ring
  have m2 : ∀ i, HasDerivAt (fun r => (m.pointAndDerivs wr ws wx r s).ds i) (0 - fnAt m.d1 0 s i / 2 + fnAt m.d1 1 s i / 2
      - fnAt m.d1 2 r i / 2 + fnAt m.d1 3 r i / 2 - m.p0 i / 4 + m.p1 i / 4 - m.p2 i / 4 + m.p3 i / 4) r := by
    intro i
    have e2 := h1 2 (by norm_num) r i
    have e3 := h1 3 (by norm_num) r i
    have := (((((((e2.const_mul (-1 / 2)).add (e3.const_mul (1 / 2))).add ((a r).mul_const (fnAt m.d1 0 s i / 2))).add
      ((c r).mul_const (fnAt m.d1 1 s i / 2))).add ((a r).mul_const (m.p0 i / 4))).add ((c r).mul_const (m.p1 i / 4))).sub
      ((c r).mul_const (m.p2 i / 4))).sub ((a r).mul_const (m.p3 i / 4))
    refine (this.congr_deriv ?_).congr_of_eventuallyEq (Filter.Eventually.of_forall fun t => ?_)
    · ring
    · simp only [Transfinite2d.pointAndDerivs, Pi.add_apply, Pi.sub_apply]; ring
  rcases hd : m.d2 with _ | d2
  · refine ⟨_, _, _, by simp only [Transfinite2d.pointAndDerivs, hd]; rfl, m1, m2, fun d h => by cases h⟩
  · refine ⟨_, _, _, by simp only [Transfinite2d.pointAndDerivs, hd]; rfl, m1, m2, ?_⟩
    intro d h h2
    cases h
    refine ⟨fun i => ?_, fun i => ?_⟩
    · have e2 := h2 2 (by norm_num) r i
      have e3 := h2 3 (by norm_num) r i
      have := (((e2.const_mul ((1 - s) / 2)).add (e3.const_mul ((1 + s) / 2))).add_const
        (0 - fnAt m.b 0 s i / 2 + fnAt m.b 1 s i / 2
          + (1 - s) * m.p0 i / 4 - (1 - s) * m.p1 i / 4 - (1 + s) * m.p2 i / 4 + (1 + s) * m.p3 i / 4))
      refine (this.congr_deriv ?_).congr_of_eventuallyEq (Filter.Eventually.of_forall fun t => ?_)
      · ring
      · simp only [Transfinite2d.pointAndDerivs, Pi.add_apply]; ring
    · have e0 := h2 0 (by norm_num) s i
      have e1 := h2 1 (by norm_num) s i
      have := (((e0.const_mul ((1 - r) / 2)).add (e1.const_mul ((1 + r) / 2))).add_const
        (0 - fnAt m.b 2 r i / 2 + fnAt m.b 3 r i / 2
          + (1 - r) * m.p0 i / 4 + (1 + r) * m.p1 i / 4 - (1 + r) * m.p2 i / 4 - (1 - r) * m.p3 i / 4))
      refine (this.congr_deriv ?_).congr_of_eventuallyEq (Filter.Eventually.of_forall fun t => ?_)
      · ring
      · simp only [Transfinite2d.pointAndDerivs, Pi.add_apply]; ring

/-- a parabola as first boundary -/
def parabola : List Curve := [fun s => ![s ^ 2, s], fun s => ![3, s], fun r => ![2 + r, -1], fun r => ![2 + r, 1]]
def parabola1 : List Curve := [fun s => ![2 * s, 1], fun _ => ![0, 1], fun _ => ![1, 0], fun _ => ![1, 0]]
def parabola2 : List Curve := [fun _ => ![2, 0], fun _ => ![0, 0], fun _ => ![0, 0], fun _ => ![0, 0]]

theorem parabola_derivs : IsDerivs parabola parabola1 ∧ IsDerivs parabola1 parabola2 := by
  have hid : ∀ t : ℝ, HasDerivAt (fun t : ℝ => t) 1 t := fun t => hasDerivAt_id t
  have hsq : ∀ t : ℝ, HasDerivAt (fun t : ℝ => t ^ 2) (2 * t) t := fun t => by simpa using hasDerivAt_pow 2 t
  have h2 : ∀ t : ℝ, HasDerivAt (fun t : ℝ => 2 * t) 2 t := fun t => by simpa using (hasDerivAt_id t).const_mul 2
  have ha : ∀ t : ℝ, HasDerivAt (fun t : ℝ => 2 + t) 1 t := fun t => (hid t).const_add 2
  constructor <;> intro k hk t i
  · have : k = 0 ∨ k = 1 ∨ k = 2 ∨ k = 3 := by omega
    rcases this with rfl | rfl | rfl | rfl <;> fin_cases i
    · exact hsq t
    · exact hid t
    · exact hasDerivAt_const t 3
    · exact hid t
    · exact ha t
    · exact hasDerivAt_const t (-1)
    · exact ha t
    · exact hasDerivAt_const t 1
  · have : k = 0 ∨ k = 1 ∨ k = 2 ∨ k = 3 := by omega
    rcases this with rfl | rfl | rfl | rfl <;> fin_cases i
    · exact h2 t
    all_goals exact hasDerivAt_const t _

/-- the hypotheses above, with second derivatives that do not vanish -/
example : ∃ m, Transfinite2d.new parabola parabola1 (some parabola2) = ok m ∧ IsDerivs m.b m.d1 ∧ IsDerivs m.d1 parabola2 ∧
    m.d2 = some parabola2 := ⟨_, rfl, parabola_derivs.1, parabola_derivs.2, rfl⟩

/-- **C91 (missing second derivatives of the boundaries).** Without these functions the pure second derivatives are reported as zero,
which is wrong for a curved boundary. -/
theorem C91_no_second_counterexample : ∃ m, Transfinite2d.new parabola parabola1 none = ok m ∧
    ∃ rr ss rs, (m.pointAndDerivs true true true 0 0).second = some (rr, ss, rs) ∧ ss 0 = 0 ∧
      HasDerivAt (fun s => (m.pointAndDerivs true true true 0 s).ds 0) 1 0 := by
  refine ⟨_, rfl, _, _, _, rfl, rfl, ?_⟩
  have h2 : HasDerivAt (fun t : ℝ => t) 1 0 := hasDerivAt_id (0 : ℝ)
  refine h2.congr_of_eventuallyEq (Filter.Eventually.of_forall fun t => ?_)
  norm_num [Transfinite2d.pointAndDerivs, fnAt, parabola, parabola1]

/-! ### The triangulation -/

/-- the points in one direction: increasing from -1 to 1, either uniformly or as Chebyshev-Gauss-Lobatto points -/
structure IsStations (cgl : Bool) (n : Nat) (x : Nat → ℝ) : Prop where
  values : ∀ i < n, x i = if cgl then -Real.cos (i * Real.pi / (n - 1 : ℕ)) else -1 + 2 * (i : ℝ) / (n - 1 : ℕ)
  first : x 0 = -1
  last : x (n - 1) = 1
  mono : ∀ i j, i < j → j < n → x i < x j

theorem stations_spec (cgl : Bool) {n : Nat} (hn : 2 ≤ n) : ∃ l, stations cgl n = ok l ∧ IsStations cgl n (fun i => l.getD i 0) := by
  cases cgl with
  | true =>
    obtain ⟨l, e, hlen, hv, h0, h1, hm, _⟩ := C52_lobatto_points (nn := n - 1) (by omega)
    have get : ∀ i < n, l[i]? = some (l.getD i 0) := by
      intro i hi
      rw [List.getD_eq_getElem?_getD, List.getElem?_eq_getElem (by omega)]
      rfl
    refine ⟨l, by simp [stations, e], ⟨fun i hi => ?_, ?_, ?_, fun i j hij hj => ?_⟩⟩
    · have a := hv i (by omega)
      rw [get i hi] at a
      simpa using a
    · rw [get 0 (by omega)] at h0; simpa using h0
    · rw [get (n - 1) (by omega)] at h1; simpa using h1
    · exact hm i j _ _ hij (get i (by omega)) (get j hj)
  | false =>
    obtain ⟨l, e, hv⟩ : ∃ l, linspace (-1 : ℝ) 1 n = ok l ∧ ∀ i < n, l.getD i 0 = -1 + 2 * (i : ℝ) / (n - 1 : ℕ) := by
      obtain ⟨l, e, _, hv, _⟩ := C24_linspace (-1 : ℝ) 1 id hn
      refine ⟨l, e, fun i hi => ?_⟩
      rw [List.getD_eq_getElem?_getD, hv i hi, Option.getD_some]
      ring
    have hp : (0 : ℝ) < (n - 1 : ℕ) := by exact_mod_cast (by omega : 0 < n - 1)
    refine ⟨l, by simp [stations, e], ⟨fun i hi => by simpa using hv i hi, ?_, ?_, fun i j hij hj => ?_⟩⟩
    · simpa using hv 0 (by omega)
    · have := hv (n - 1) (by omega)
      simp only [this]
      field_simp
      ring
    · simp only [hv i (by omega), hv j hj]
      have : (i : ℝ) < j := by exact_mod_cast hij
      gcongr

theorem grid_length {β : Type} (f : Nat → Nat → β) (nr ns : Nat) :
    ((List.range ns).flatMap fun j => (List.range nr).map fun i => f i j).length = nr * ns := by
  induction ns with
  | zero => simp
  | succ n ih => rw [List.range_succ, List.flatMap_append, List.length_append, ih]; simp [Nat.mul_succ]

theorem grid_get {β : Type} (f : Nat → Nat → β) (nr : Nat) : ∀ (ns i j : Nat), i < nr → j < ns →
    ((List.range ns).flatMap fun j => (List.range nr).map fun i => f i j)[i + j * nr]? = some (f i j)
  | 0, _, _, _, h => by omega
  | n + 1, i, j, hi, hj => by
    rw [List.range_succ, List.flatMap_append]
    by_cases h : j < n
    · have hlt : i + j * nr < nr * n := by nlinarith
      rw [List.getElem?_append_left (by rw [grid_length]; exact hlt)]
      exact grid_get f nr n i j hi h
    · have : j = n := by omega
      subst this
      rw [List.getElem?_append_right (by rw [grid_length]; nlinarith), grid_length]
      have e : i + j * nr - nr * j = i := by rw [Nat.mul_comm nr j]; omega
      rw [e]
      simp [hi]

/-- **C91 (triangulate, points).** With fewer than two points in a direction the assertions fail. Otherwise the points are the images of
a grid of points of the reference square, the first index running fastest. -/
theorem C91_triangulate_points (m : Transfinite2d) (nr ns : Nat) (cr cs : Bool) :
    (¬ (2 ≤ nr ∧ 2 ≤ ns) → m.triangulate nr ns cr cs = panic) ∧
    (2 ≤ nr → 2 ≤ ns → ∃ ksi eta xx yy tt, m.triangulate nr ns cr cs = ok (xx, yy, tt) ∧ IsStations cr nr ksi ∧ IsStations cs ns eta ∧
      xx.length = nr * ns ∧ yy.length = nr * ns ∧ ∀ i < nr, ∀ j < ns,
        xx[i + j * nr]? = some (m.point (ksi i) (eta j) 0) ∧ yy[i + j * nr]? = some (m.point (ksi i) (eta j) 1)) := by
  constructor
  · intro h
    unfold Transfinite2d.triangulate
    rw [if_neg h]
  · intro hr hs
    obtain ⟨k, e1, h1⟩ := stations_spec cr hr
    obtain ⟨l, e2, h2⟩ := stations_spec cs hs
    refine ⟨fun i => k.getD i 0, fun j => l.getD j 0, _, _, (List.range ns).flatMap fun j => (List.range nr).flatMap fun i =>
        if i > 0 ∧ j > 0 then
          let k := i + j * nr
          [[k - nr - 1, k - nr, k], [k - nr - 1, k, k - 1]]
        else [], ?_, h1, h2,
      grid_length (fun i j => m.point (k.getD i 0) (l.getD j 0) 0) nr ns,
      grid_length (fun i j => m.point (k.getD i 0) (l.getD j 0) 1) nr ns, fun i hi j hj =>
      ⟨grid_get (fun i j => m.point (k.getD i 0) (l.getD j 0) 0) nr ns i j hi hj,
        grid_get (fun i j => m.point (k.getD i 0) (l.getD j 0) 1) nr ns i j hi hj⟩⟩
    unfold Transfinite2d.triangulate
    rw [if_pos ⟨hr, hs⟩, e1, ok_bind, e2, ok_bind]

/-- **C91 (triangulate, triangles).** Each cell of the grid is split along the diagonal from its first to its last corner; every
triangle occurs once, and there are no other ones. -/
theorem C91_triangulate_triangles {m : Transfinite2d} {nr ns : Nat} {cr cs : Bool} {xx yy : List ℝ} {tt : List (List Nat)}
    (h : m.triangulate nr ns cr cs = ok (xx, yy, tt)) :
    tt.length = 2 * ((nr - 1) * (ns - 1)) ∧ tt.Nodup ∧
    ∀ t, t ∈ tt ↔ ∃ i j, i + 1 < nr ∧ j + 1 < ns ∧
      (t = [i + j * nr, i + 1 + j * nr, i + 1 + (j + 1) * nr] ∨ t = [i + j * nr, i + 1 + (j + 1) * nr, i + (j + 1) * nr]) := by
  have hb : 2 ≤ nr ∧ 2 ≤ ns := by
    by_contra hc
    rw [(C91_triangulate_points m nr ns cr cs).1 hc] at h
    cases h
  obtain ⟨hr, hs⟩ := hb
  obtain ⟨k, e1, h1⟩ := stations_spec cr hr
  obtain ⟨l, e2, h2⟩ := stations_spec cs hs
  unfold Transfinite2d.triangulate at h
  rw [if_pos ⟨hr, hs⟩, e1, ok_bind, e2, ok_bind] at h
  simp only [Res.ok.injEq, Prod.mk.injEq] at h
  obtain ⟨_, _, rfl⟩ := h
  obtain ⟨a, rfl⟩ : ∃ a, nr = a + 1 := ⟨nr - 1, by omega⟩
  obtain ⟨c, rfl⟩ : ∃ c, ns = c + 1 := ⟨ns - 1, by omega⟩
  -- the cells
  have key : ((List.range (c + 1)).flatMap fun j => (List.range (a + 1)).flatMap fun i =>
      if i > 0 ∧ j > 0 then
        let k := i + j * (a + 1)
        [[k - (a + 1) - 1, k - (a + 1), k], [k - (a + 1) - 1, k, k - 1]]
      else []) = (List.range c).flatMap fun j => (List.range a).flatMap fun i =>
        [[i + j * (a + 1), i + 1 + j * (a + 1), i + 1 + (j + 1) * (a + 1)],
          [i + j * (a + 1), i + 1 + (j + 1) * (a + 1), i + (j + 1) * (a + 1)]] := by
    rw [List.range_succ_eq_map (n := c), List.flatMap_cons]
    rw [show ((List.range (a + 1)).flatMap fun i => if i > 0 ∧ 0 > 0 then
        let k := i + 0 * (a + 1)
        [[k - (a + 1) - 1, k - (a + 1), k], [k - (a + 1) - 1, k, k - 1]] else []) = [] by simp, List.nil_append, List.flatMap_map]
    congr 1
    funext j
    rw [List.range_succ_eq_map, List.flatMap_cons]
    rw [show (if 0 > 0 ∧ Nat.succ j > 0 then
        let k := 0 + Nat.succ j * (a + 1)
        [[k - (a + 1) - 1, k - (a + 1), k], [k - (a + 1) - 1, k, k - 1]] else []) = [] by simp, List.nil_append, List.flatMap_map]
    congr 1
    funext i
    rw [if_pos ⟨Nat.succ_pos i, Nat.succ_pos j⟩]
    have e : Nat.succ i + Nat.succ j * (a + 1) = i + 1 + j * (a + 1) + (a + 1) := by simp only [Nat.succ_eq_add_one]; ring
    have e' : i + 1 + (j + 1) * (a + 1) = i + 1 + j * (a + 1) + (a + 1) := by ring
    have e'' : i + (j + 1) * (a + 1) = i + j * (a + 1) + (a + 1) := by ring
    simp only [e, e', e'']
    have f1 : i + 1 + j * (a + 1) + (a + 1) - (a + 1) - 1 = i + j * (a + 1) := by omega
    have f2 : i + 1 + j * (a + 1) + (a + 1) - (a + 1) = i + 1 + j * (a + 1) := by omega
    have f3 : i + 1 + j * (a + 1) + (a + 1) - 1 = i + j * (a + 1) + (a + 1) := by omega
    rw [f1, f2, f3]
  rw [key]
  refine ⟨?_, ?_, ?_⟩
  · simp [List.length_flatMap]
    ring
  · rw [List.nodup_flatMap]
    have inj : ∀ i i' j j' : Nat, i < a → i' < a → i + j * (a + 1) = i' + j' * (a + 1) → i = i' ∧ j = j' := by
      intro i i' j j' hi hi' e
      have e1 := congrArg (· % (a + 1)) e
      have e2 := congrArg (· / (a + 1)) e
      simp only [Nat.add_mul_mod_self_right, Nat.mod_eq_of_lt (show i < a + 1 by omega), Nat.mod_eq_of_lt (show i' < a + 1 by omega)] at e1
      simp only [Nat.add_mul_div_right _ _ (show 0 < a + 1 by omega), Nat.div_eq_of_lt (show i < a + 1 by omega),
        Nat.div_eq_of_lt (show i' < a + 1 by omega), Nat.zero_add] at e2
      exact ⟨e1, e2⟩
    refine ⟨fun j _ => ?_, ?_⟩
    · rw [List.nodup_flatMap]
      refine ⟨fun i _ => ?_, ?_⟩
      · simp only [List.nodup_cons, List.mem_singleton, List.cons.injEq, true_and, List.not_mem_nil, not_false_eq_true, List.nodup_nil,
          and_true]
        have : i + 1 + (j + 1) * (a + 1) = i + 1 + j * (a + 1) + (a + 1) := by ring
        omega
      · refine List.Nodup.pairwise_of_forall_ne List.nodup_range ?_
        intro i hi i' hi' hne t ht ht'
        simp only [List.mem_range] at hi hi'
        simp only [List.mem_cons, List.not_mem_nil, or_false] at ht ht'
        refine hne (inj i i' j j hi hi' ?_).1
        rcases ht with rfl | rfl <;> rcases ht' with h | h <;> simp only [List.cons.injEq] at h <;> exact h.1
    · refine List.Nodup.pairwise_of_forall_ne List.nodup_range ?_
      intro j hj j' hj' hne t ht ht'
      simp only [List.mem_flatMap, List.mem_range, List.mem_cons, List.not_mem_nil, or_false] at ht ht'
      obtain ⟨i, hi, ht⟩ := ht
      obtain ⟨i', hi', ht'⟩ := ht'
      refine hne (inj i i' j j' hi hi' ?_).2
      rcases ht with rfl | rfl <;> rcases ht' with h | h <;> simp only [List.cons.injEq] at h <;> exact h.1
  · intro t
    simp only [List.mem_flatMap, List.mem_range, List.mem_cons, List.not_mem_nil, or_false]
    constructor
    · rintro ⟨j, hj, i, hi, h⟩
      exact ⟨i, j, by omega, by omega, h⟩
    · rintro ⟨i, j, hi, hj, h⟩
      exact ⟨j, by omega, i, by omega, h⟩

/-- the reference coordinates of a point -/
def refOf (nr : Nat) (ksi eta : Nat → ℝ) (k : Nat) : ℝ × ℝ := (ksi (k % nr), eta (k / nr))

/-- **C91 (triangulate, orientation).** All indices are those of points, and all triangles of the reference square are oriented counter-
clockwise. -/
theorem C91_triangulate_orientation {m : Transfinite2d} {nr ns : Nat} {cr cs : Bool} {xx yy : List ℝ} {tt : List (List Nat)}
    (h : m.triangulate nr ns cr cs = ok (xx, yy, tt)) {ksi eta : Nat → ℝ} (h1 : IsStations cr nr ksi) (h2 : IsStations cs ns eta) :
    ∀ t ∈ tt, ∃ a b c, t = [a, b, c] ∧ a < nr * ns ∧ b < nr * ns ∧ c < nr * ns ∧
      0 < ((refOf nr ksi eta b).1 - (refOf nr ksi eta a).1) * ((refOf nr ksi eta c).2 - (refOf nr ksi eta a).2) -
        ((refOf nr ksi eta c).1 - (refOf nr ksi eta a).1) * ((refOf nr ksi eta b).2 - (refOf nr ksi eta a).2) := by
  intro t ht
  obtain ⟨i, j, hi, hj, ht⟩ := ((C91_triangulate_triangles h).2.2 t).1 ht
  have rf : ∀ i j, i < nr → refOf nr ksi eta (i + j * nr) = (ksi i, eta j) := by
    intro i j hi
    unfold refOf
    rw [Nat.add_mul_mod_self_right, Nat.mod_eq_of_lt hi, Nat.add_mul_div_right _ _ (by omega), Nat.div_eq_of_lt hi, Nat.zero_add]
  have b : ∀ i j, i < nr → j < ns → i + j * nr < nr * ns := by
    intro i j hi hj
    calc i + j * nr < nr + j * nr := by omega
      _ = nr * (j + 1) := by ring
      _ ≤ nr * ns := Nat.mul_le_mul_left _ hj
  have k := h1.mono i (i + 1) (by omega) hi
  have e := h2.mono j (j + 1) (by omega) hj
  have p : 0 < (ksi (i + 1) - ksi i) * (eta (j + 1) - eta j) := mul_pos (by linarith) (by linarith)
  rcases ht with rfl | rfl
  · refine ⟨_, _, _, rfl, b i j (by omega) (by omega), b (i + 1) j hi (by omega), b (i + 1) (j + 1) hi hj, ?_⟩
    rw [rf i j (by omega), rf (i + 1) j hi, rf (i + 1) (j + 1) hi]
    simpa using p
  · refine ⟨_, _, _, rfl, b i j (by omega) (by omega), b (i + 1) (j + 1) hi hj, b i (j + 1) (by omega) hj, ?_⟩
    rw [rf i j (by omega), rf (i + 1) (j + 1) hi, rf i (j + 1) (by omega)]
    simpa using p

/-- consecutive points around a value -/
theorem IsStations.cell {cgl : Bool} {n : Nat} {x : Nat → ℝ} (h : IsStations cgl n x) (hn : 2 ≤ n) {r : ℝ} (h0 : -1 ≤ r) (h1 : r ≤ 1) :
    ∃ i, i + 1 < n ∧ x i ≤ r ∧ r ≤ x (i + 1) := by
  by_contra hc
  have : ∀ i, i < n → x i ≤ r ∧ (i + 1 < n → x (i + 1) < r) := by
    intro i
    induction i with
    | zero =>
      intro hi
      refine ⟨by rw [h.first]; exact h0, fun hi => ?_⟩
      by_contra hx
      exact hc ⟨0, hi, by rw [h.first]; exact h0, not_lt.1 hx⟩
    | succ i ih =>
      intro hi
      have a := (ih (by omega)).2 hi
      refine ⟨a.le, fun hi' => ?_⟩
      by_contra hx
      exact hc ⟨i + 1, hi', a.le, not_lt.1 hx⟩
  have := (this (n - 2) (by omega)).2 (by omega)
  rw [show n - 2 + 1 = n - 1 by omega, h.last] at this
  linarith

/-- **C91 (triangulate, covering).** Every point of the reference square lies in one of the triangles. -/
theorem C91_triangulate_covering {m : Transfinite2d} {nr ns : Nat} {cr cs : Bool} {xx yy : List ℝ} {tt : List (List Nat)}
    (h : m.triangulate nr ns cr cs = ok (xx, yy, tt)) {ksi eta : Nat → ℝ} (h1 : IsStations cr nr ksi) (h2 : IsStations cs ns eta)
    {r s : ℝ} (hr : -1 ≤ r ∧ r ≤ 1) (hs : -1 ≤ s ∧ s ≤ 1) :
    ∃ a b c, [a, b, c] ∈ tt ∧ ∃ u v w : ℝ, 0 ≤ u ∧ 0 ≤ v ∧ 0 ≤ w ∧ u + v + w = 1 ∧
      r = u * (refOf nr ksi eta a).1 + v * (refOf nr ksi eta b).1 + w * (refOf nr ksi eta c).1 ∧
      s = u * (refOf nr ksi eta a).2 + v * (refOf nr ksi eta b).2 + w * (refOf nr ksi eta c).2 := by
  have hb : 2 ≤ nr ∧ 2 ≤ ns := by
    by_contra hc
    rw [(C91_triangulate_points m nr ns cr cs).1 hc] at h
    cases h
  obtain ⟨i, hi, r0, r1⟩ := h1.cell hb.1 hr.1 hr.2
  obtain ⟨j, hj, s0, s1⟩ := h2.cell hb.2 hs.1 hs.2
  have k := h1.mono i (i + 1) (by omega) hi
  have e := h2.mono j (j + 1) (by omega) hj
  have rf : ∀ i j, i < nr → refOf nr ksi eta (i + j * nr) = (ksi i, eta j) := by
    intro i j hi
    unfold refOf
    rw [Nat.add_mul_mod_self_right, Nat.mod_eq_of_lt hi, Nat.add_mul_div_right _ _ (by omega), Nat.div_eq_of_lt hi, Nat.zero_add]
  set p := (r - ksi i) / (ksi (i + 1) - ksi i) with hp
  set q := (s - eta j) / (eta (j + 1) - eta j) with hq
  have dp : (0 : ℝ) < ksi (i + 1) - ksi i := by linarith
  have dq : (0 : ℝ) < eta (j + 1) - eta j := by linarith
  have er : r = ksi i + p * (ksi (i + 1) - ksi i) := by rw [hp]; field_simp; ring
  have es : s = eta j + q * (eta (j + 1) - eta j) := by rw [hq]; field_simp; ring
  have p0 : 0 ≤ p := div_nonneg (by linarith) dp.le
  have q0 : 0 ≤ q := div_nonneg (by linarith) dq.le
  have p1 : p ≤ 1 := (div_le_one dp).2 (by linarith)
  have q1 : q ≤ 1 := (div_le_one dq).2 (by linarith)
  rcases le_total q p with hpq | hpq
  · refine ⟨_, _, _, ((C91_triangulate_triangles h).2.2 _).2 ⟨i, j, hi, hj, Or.inl rfl⟩, 1 - p, p - q, q, by linarith, by linarith, q0,
      by ring, ?_, ?_⟩
    · rw [rf i j (by omega), rf (i + 1) j hi, rf (i + 1) (j + 1) hi, er]; ring
    · rw [rf i j (by omega), rf (i + 1) j hi, rf (i + 1) (j + 1) hi, es]; ring
  · refine ⟨_, _, _, ((C91_triangulate_triangles h).2.2 _).2 ⟨i, j, hi, hj, Or.inr rfl⟩, 1 - q, p, q - p, by linarith, p0, by linarith,
      by ring, ?_, ?_⟩
    · rw [rf i j (by omega), rf (i + 1) (j + 1) hi, rf i (j + 1) (by omega), er]; ring
    · rw [rf i j (by omega), rf (i + 1) (j + 1) hi, rf i (j + 1) (by omega), es]; ring

end

end Russell.Pde
