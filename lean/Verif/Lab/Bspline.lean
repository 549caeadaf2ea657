import Verif.Lab.GaussJ
import Verif.Lab.Dense
import Mathlib.Algebra.Order.BigOperators.Group.Finset
import Mathlib.Algebra.BigOperators.Intervals

/-!
# B-splines (property C33)

Model of the basis functions and of the evaluation of points of `Bspline` (/repo/russell_lab/src/algo/bspline.rs) over an ordered field.
-/

namespace Russell.Lab

open Russell Res

variable {α : Type} [Field α] [LinearOrder α]

/-- `Bspline` (/repo/russell_lab/src/algo/bspline.rs:77-142).  `ndu` is a `(p+1) × (p+1)` array, `left` and `right` have `p+1` entries. -/
structure Bspline (α : Type) where
  p : Nat
  uu : List α
  uMin : α
  uMax : α
  pp : List (List α)
  ndu : Arr2 α
  left : Arr1 α
  right : Arr1 α
  span : Nat

/-- `Bspline::new` (/repo/russell_lab/src/algo/bspline.rs:151-189).  The searches for the extreme knots start from the infinities in the
code and from the first knot here (the list is not empty). -/
def Bspline.new (p : Nat) (uu : List α) : Res (Bspline α) :=
  if p < 1 then err "the degree must be ≥ 1"
  else if uu.length < 2 * (p + 1) then err "the number of knots must be ≥ 2 (p + 1)"
  else
    match uu with
    | [] => panic
    | u0 :: _ =>
      let uMin := uu.foldl (fun m u => if u < m then u else m) u0
      let uMax := uu.foldl (fun m u => if u > m then u else m) u0
      ok { p, uu, uMin, uMax, pp := [], ndu := fun _ _ => 0, left := fun _ => 0, right := fun _ => 0, span := 0 }

/-- `num_basis` (/repo/russell_lab/src/algo/bspline.rs:194-199) -/
def Bspline.numBasis (b : Bspline α) : Nat := b.uu.length - 1 - b.p

/-- binary search of `find_span` (/repo/russell_lab/src/algo/bspline.rs:463-475).  `fuel` bounds the number of iterations; exceeding it
(a loop that does not end) is modelled as a panic. -/
def findSpanLoop (uu : List α) (u : α) : (fuel low high : Nat) → Res Nat
  | 0, _, _ => panic
  | fuel + 1, low, high => do
    let mid := (low + high) / 2
    let x ← vget uu mid
    if u < x then findSpanLoop uu u fuel low mid
    else do
      let y ← vget uu (mid + 1)
      if u ≥ y then findSpanLoop uu u fuel mid high else ok mid

/-- `find_span` (/repo/russell_lab/src/algo/bspline.rs:448-476) -/
def findSpan (p : Nat) (uu : List α) (u : α) : Res Nat := do
  let m := uu.length - 1
  let n := m - p - 1
  let x ← vget uu (n + 1)
  if u ≥ x then ok n
  else do
    let y ← vget uu p
    if u ≤ y then ok p
    else findSpanLoop uu u (n + 2) p (n + 1)

/-- body of the inner loop of `basis_funs` (/repo/russell_lab/src/algo/bspline.rs:493-501); the state is `(ndu, saved)` -/
def basisInner (p j : Nat) (left right : Arr1 α) (r : Nat) (s : Arr2 α × α) : Res (Arr2 α × α) := do
  let rr ← Arr1.get (p + 1) right (r + 1)
  let jr ← subUsize j r
  let ll ← Arr1.get (p + 1) left jr
  let ndu ← Arr2.set (p + 1) (p + 1) s.1 j r (rr + ll)
  let j1 ← subUsize j 1
  let x ← Arr2.get (p + 1) (p + 1) ndu r j1
  let d ← Arr2.get (p + 1) (p + 1) ndu j r
  let temp := x / d
  let ndu ← Arr2.set (p + 1) (p + 1) ndu r j (s.2 + rr * temp)
  ok (ndu, ll * temp)

/-- body of the outer loop of `basis_funs` (/repo/russell_lab/src/algo/bspline.rs:489-503) -/
def basisOuter (p : Nat) (uu : List α) (u : α) (span j : Nat) (s : Arr2 α × Arr1 α × Arr1 α) : Res (Arr2 α × Arr1 α × Arr1 α) := do
  let k ← subUsize (span + 1) j
  let x ← vget uu k
  let left ← Arr1.set (p + 1) s.2.1 j (u - x)
  let y ← vget uu (span + j)
  let right ← Arr1.set (p + 1) s.2.2 j (y - u)
  let t ← forRange 0 j (s.1, (0 : α)) (basisInner p j left right)
  let ndu ← Arr2.set (p + 1) (p + 1) t.1 j j t.2
  ok (ndu, left, right)

/-- `basis_funs` (/repo/russell_lab/src/algo/bspline.rs:483-504) -/
def Bspline.basisFuns (b : Bspline α) (u : α) (span : Nat) : Res (Bspline α) := do
  let ndu ← Arr2.set (b.p + 1) (b.p + 1) b.ndu 0 0 1
  let s ← forRange 1 (b.p + 1) (ndu, b.left, b.right) (basisOuter b.p b.uu u span)
  ok { b with ndu := s.1, left := s.2.1, right := s.2.2 }

/-- `calc_basis` (/repo/russell_lab/src/algo/bspline.rs:231-238) -/
def Bspline.calcBasis (b : Bspline α) (u : α) : Res (Bspline α) :=
  if u < b.uMin ∨ u > b.uMax then err "u is out of range"
  else do
    let span ← findSpan b.p b.uu u
    let b := { b with span }
    b.basisFuns u b.span

/-- `get_basis` (/repo/russell_lab/src/algo/bspline.rs:262-269) -/
def Bspline.getBasis (b : Bspline α) (i : Nat) : Res α :=
  if i + b.p ≥ b.span ∧ i ≤ b.span then Arr2.get (b.p + 1) (b.p + 1) b.ndu (i + b.p - b.span) b.p
  else ok 0

/-- `recursive_nn` (/repo/russell_lab/src/algo/bspline.rs:410-443) -/
def recursiveNn (uu : List α) (uMax : α) : (p i : Nat) → α → Res α
  | 0, i, u => do
    let u := if |u - uMax| < 1e-14 then uMax - 1e-14 else u
    let x ← vget uu i
    if u ≥ x then do
      let y ← vget uu (i + 1)
      if u < y then ok 1 else ok 0
    else ok 0
  | p + 1, i, u => do
    let u := if |u - uMax| < 1e-14 then uMax - 1e-14 else u
    let a ← vget uu (i + (p + 1))
    let b ← vget uu i
    let c ← vget uu (i + (p + 1) + 1)
    let d ← vget uu (i + 1)
    let nd1 ← (if |a - b| < 1e-14 then ok (0, 1) else do
      let n ← recursiveNn uu uMax p i u
      ok (n, a - b) : Res (α × α))
    let nd2 ← (if |c - d| < 1e-14 then ok (0, 1) else do
      let n ← recursiveNn uu uMax p (i + 1) u
      ok (n, c - d) : Res (α × α))
    ok ((u - b) * nd1.1 / nd1.2 + (c - u) * nd2.1 / nd2.2)

/-- `recursive_basis` (/repo/russell_lab/src/algo/bspline.rs:294-299) -/
def Bspline.recursiveBasis (b : Bspline α) (u : α) (i : Nat) : Res α :=
  if u < b.uMin ∨ u > b.uMax then panic else recursiveNn b.uu b.uMax b.p i u

/-- `set_control_points` (/repo/russell_lab/src/algo/bspline.rs:205-226); the points are given as the list of their coordinates (all of
length `ndim`) -/
def Bspline.setControlPoints (b : Bspline α) (pp : List (List α)) (ndim : Nat) : Res (Bspline α) :=
  if pp.length ≠ b.numBasis then err "the number of control points must equal the number of basis functions"
  else if ndim = 0 then err "the number of dimensions must be ≥ 1"
  else ok { b with pp }

/-- `for j in 0..ndim { cc[j] += w * pp[idx][j] }` (/repo/russell_lab/src/algo/bspline.rs:330-332, 341-343) -/
def accumulatePoint (ndim : Nat) (w : α) (pp : List (List α)) (idx : Nat) (cc : List α) : Res (List α) :=
  forRange 0 ndim cc fun j cc => do
    let row ← vget pp idx
    let x ← vget row j
    let c ← vget cc j
    vset cc j (c + w * x)

/-- `calc_point` (/repo/russell_lab/src/algo/bspline.rs:316-347); returns the updated structure and `cc` -/
def Bspline.calcPoint (b : Bspline α) (cc : List α) (u : α) (recursive : Bool) : Res (Bspline α × List α) :=
  let nb := b.numBasis
  if b.pp.length ≠ nb then err "control points must be set before calling calc_point"
  else do
    let p0 ← vget b.pp 0
    let ndim := p0.length
    if cc.length ≠ ndim then err "cc must have the same dimension as control points"
    else if recursive then do
      let cc ← forRange 0 nb (List.replicate cc.length (0 : α)) fun idx cc => do
        let basis ← b.recursiveBasis u idx
        accumulatePoint ndim basis b.pp idx cc
      ok (b, cc)
    else do
      let span ← findSpan b.p b.uu u
      let b ← b.basisFuns u span
      let cc ← forRange 0 (b.p + 1) (List.replicate cc.length (0 : α)) fun i cc => do
        let s ← subUsize span b.p
        let w ← Arr2.get (b.p + 1) (b.p + 1) b.ndu i b.p
        accumulatePoint ndim w b.pp (s + i) cc
      ok (b, cc)

/-! ## The reference: the Cox–de Boor recursion -/

/-- the `i`-th B-spline of degree `k` on the knots `U` (with the convention 0/0 = 0) -/
def coxDeBoor (U : Nat → α) (u : α) : (k i : Nat) → α
  | 0, i => if U i ≤ u ∧ u < U (i + 1) then 1 else 0
  | k + 1, i => (u - U i) / (U (i + k + 1) - U i) * coxDeBoor U u k i +
      (U (i + k + 2) - u) / (U (i + k + 2) - U (i + 1)) * coxDeBoor U u k (i + 1)

/-- the polynomial piece of the `i`-th B-spline of degree `k` on the knot span `s` -/
def piece (U : Nat → α) (s : Nat) (u : α) : (k i : Nat) → α
  | 0, i => if i = s then 1 else 0
  | k + 1, i => (u - U i) / (U (i + k + 1) - U i) * piece U s u k i +
      (U (i + k + 2) - u) / (U (i + k + 2) - U (i + 1)) * piece U s u k (i + 1)

/-- the knots as a function -/
def knot (uu : List α) (i : Nat) : α := uu.getD i 0

theorem knot_vget {uu : List α} {i : Nat} (h : i < uu.length) : vget uu i = ok (knot uu i) := by
  rw [vget_lt h]; simp [knot, h]

/-- non-decreasing knots -/
def SortedKnots (uu : List α) : Prop := ∀ i j, i ≤ j → j < uu.length → knot uu i ≤ knot uu j

omit [LinearOrder α] in
theorem piece_zero (U : Nat → α) (s : Nat) (u : α) : ∀ (k i : Nat), (s < i ∨ i + k < s) → piece U s u k i = 0
  | 0, i, h => if_neg (by omega)
  | k + 1, i, h => by
    rw [piece, piece_zero U s u k i (by omega), piece_zero U s u k (i + 1) (by omega)]; simp

theorem coxDeBoor_eq_piece {uu : List α} (hs : SortedKnots uu) {s : Nat} {u : α} (h1 : knot uu s ≤ u) (h2 : u < knot uu (s + 1))
    (hsl : s + 1 < uu.length) : ∀ (k i : Nat), i + k + 1 < uu.length → coxDeBoor (knot uu) u k i = piece (knot uu) s u k i
  | 0, i, hi => by
    rw [coxDeBoor, piece]
    by_cases h : i = s
    · subst h; rw [if_pos ⟨h1, h2⟩, if_pos rfl]
    · rw [if_neg h, if_neg]
      rintro ⟨h3, h4⟩
      rcases Nat.lt_or_gt_of_ne h with hl | hl
      · have := hs (i + 1) s (by omega) (by omega)
        exact absurd (lt_of_lt_of_le h4 this) (not_lt.2 h1)
      · have := hs (s + 1) i (by omega) (by omega)
        exact absurd (lt_of_lt_of_le h2 this) (not_lt.2 h3)
  | k + 1, i, hi => by
    rw [coxDeBoor, piece, coxDeBoor_eq_piece hs h1 h2 hsl k i (by omega), coxDeBoor_eq_piece hs h1 h2 hsl k (i + 1) (by omega)]

section Props

variable [IsStrictOrderedRing α]

theorem piece_nonneg {uu : List α} (hs : SortedKnots uu) {s : Nat} {u : α} (h1 : knot uu s ≤ u) (h2 : u ≤ knot uu (s + 1)) :
    ∀ (k i : Nat), i + k + 1 < uu.length → 0 ≤ piece (knot uu) s u k i
  | 0, i, _ => by rw [piece]; split <;> norm_num
  | k + 1, i, hi => by
    rw [piece]
    have t1 : 0 ≤ (u - knot uu i) / (knot uu (i + k + 1) - knot uu i) * piece (knot uu) s u k i := by
      by_cases hz : s < i ∨ i + k < s
      · rw [piece_zero _ _ _ _ _ hz, mul_zero]
      · refine mul_nonneg (div_nonneg ?_ ?_) (piece_nonneg hs h1 h2 k i (by omega))
        · have := hs i s (by omega) (by omega); linarith
        · have := hs i (i + k + 1) (by omega) (by omega); linarith
    have t2 : 0 ≤ (knot uu (i + k + 2) - u) / (knot uu (i + k + 2) - knot uu (i + 1)) * piece (knot uu) s u k (i + 1) := by
      by_cases hz : s < i + 1 ∨ i + 1 + k < s
      · rw [piece_zero _ _ _ _ _ hz, mul_zero]
      · refine mul_nonneg (div_nonneg ?_ ?_) (piece_nonneg hs h1 h2 k (i + 1) (by omega))
        · have := hs (s + 1) (i + k + 2) (by omega) (by omega); linarith
        · have := hs (i + 1) (i + k + 2) (by omega) (by omega); linarith
    exact add_nonneg t1 t2

/-- the pieces of degree `k` that do not vanish on the span sum to one -/
theorem piece_sum {uu : List α} (hs : SortedKnots uu) {s : Nat} (u : α) (hlt : knot uu s < knot uu (s + 1)) :
    ∀ (k : Nat), k ≤ s → s + k < uu.length → ∑ r ∈ Finset.range (k + 1), piece (knot uu) s u k (s - k + r) = 1
  | 0, _, _ => by simp [piece]
  | k + 1, h1, h2 => by
    have ih := piece_sum hs u hlt k (by omega) (by omega)
    -- both kinds of terms, indexed by the piece of degree k
    let A : Nat → α := fun r => (u - knot uu (s - k + r)) / (knot uu (s - k + r + k + 1) - knot uu (s - k + r)) * piece (knot uu) s u k (s - k + r)
    let B : Nat → α := fun r => (knot uu (s - k + r + k + 1) - u) / (knot uu (s - k + r + k + 1) - knot uu (s - k + r)) * piece (knot uu) s u k (s - k + r)
    have hAB : ∀ r ∈ Finset.range (k + 1), A r + B r = piece (knot uu) s u k (s - k + r) := by
      intro r hr
      have hr' := Finset.mem_range.1 hr
      have hd : knot uu (s - k + r + k + 1) - knot uu (s - k + r) ≠ 0 := by
        have g1 := hs (s - k + r) s (by omega) (by omega)
        have g2 := hs (s + 1) (s - k + r + k + 1) (by omega) (by omega)
        have : knot uu (s - k + r) < knot uu (s - k + r + k + 1) := lt_of_le_of_lt g1 (lt_of_lt_of_le hlt g2)
        exact (sub_pos.2 this).ne'
      show (u - knot uu (s - k + r)) / _ * _ + (knot uu (s - k + r + k + 1) - u) / _ * _ = _
      rw [← add_mul, ← add_div, show u - knot uu (s - k + r) + (knot uu (s - k + r + k + 1) - u) =
        knot uu (s - k + r + k + 1) - knot uu (s - k + r) by ring, div_self hd, one_mul]
    have hrec : ∀ r, r ≤ k + 1 → piece (knot uu) s u (k + 1) (s - (k + 1) + r) =
        (if r = 0 then 0 else A (r - 1)) + (if r = k + 1 then 0 else B r) := by
      intro r hr
      rw [piece]
      congr 1
      · by_cases h0 : r = 0
        · rw [if_pos h0, piece_zero _ _ _ _ _ (by omega), mul_zero]
        · rw [if_neg h0]
          show _ = (u - knot uu (s - k + (r - 1))) / _ * _
          rw [show s - (k + 1) + r = s - k + (r - 1) by omega]
      · by_cases h0 : r = k + 1
        · rw [if_pos h0, piece_zero _ _ _ _ _ (by omega), mul_zero]
        · rw [if_neg h0]
          show _ = (knot uu (s - k + r + k + 1) - u) / _ * _
          rw [show s - (k + 1) + r + 1 = s - k + r by omega, show s - (k + 1) + r + k + 2 = s - k + r + k + 1 by omega]
    rw [Finset.sum_congr rfl (fun r hr => hrec r (by have := Finset.mem_range.1 hr; omega)), Finset.sum_add_distrib]
    have e1 : ∑ r ∈ Finset.range (k + 1 + 1), (if r = 0 then 0 else A (r - 1)) = ∑ r ∈ Finset.range (k + 1), A r := by
      rw [Finset.sum_range_succ']; simp
    have e2 : ∑ r ∈ Finset.range (k + 1 + 1), (if r = k + 1 then 0 else B r) = ∑ r ∈ Finset.range (k + 1), B r := by
      rw [Finset.sum_range_succ]
      simp only [if_true, add_zero]
      exact Finset.sum_congr rfl (fun r hr => if_neg (by have := Finset.mem_range.1 hr; omega))
    rw [e1, e2, ← Finset.sum_add_distrib, Finset.sum_congr rfl hAB, ih]

/-! ## find_span -/

theorem findSpanLoop_spec {uu : List α} (u : α) : ∀ (fuel low high : Nat), high < uu.length → low < high →
    high - low < fuel → knot uu low ≤ u → u < knot uu high →
    ∃ s, findSpanLoop uu u fuel low high = ok s ∧ low ≤ s ∧ s < high ∧ knot uu s ≤ u ∧ u < knot uu (s + 1)
  | 0, low, high, _, _, h3, _, _ => by omega
  | fuel + 1, low, high, h1, h2, h3, h4, h5 => by
    rw [findSpanLoop]
    rw [knot_vget (by omega), ok_bind]
    by_cases hc : u < knot uu ((low + high) / 2)
    · rw [if_pos hc]
      have hne : low ≠ (low + high) / 2 := by
        intro he; rw [← he] at hc; exact absurd hc (not_lt.2 h4)
      obtain ⟨s, e, a, b, c, d⟩ := findSpanLoop_spec u fuel low ((low + high) / 2) (by omega) (by omega) (by omega) h4 hc
      exact ⟨s, e, a, by omega, c, d⟩
    · rw [if_neg hc, knot_vget (by omega), ok_bind]
      by_cases hd : u ≥ knot uu ((low + high) / 2 + 1)
      · rw [if_pos hd]
        have hne : (low + high) / 2 + 1 ≠ high := by
          intro he; rw [he] at hd; exact absurd h5 (not_lt.2 hd)
        have hne2 : low ≠ (low + high) / 2 := by omega
        obtain ⟨s, e, a, b, c, d⟩ := findSpanLoop_spec u fuel ((low + high) / 2) high h1 (by omega) (by omega) (not_lt.1 hc) h5
        exact ⟨s, e, by omega, b, c, d⟩
      · rw [if_neg hd]
        exact ⟨_, rfl, by omega, by omega, not_lt.1 hc, not_le.1 hd⟩

/-- C33: the search terminates (no panic), even for knots that are not sorted, and finds a knot span containing `u`. -/
theorem C33_find_span {p : Nat} {uu : List α} (hl : 2 * (p + 1) ≤ uu.length) {u : α}
    (h1 : knot uu p < u ∨ (u = knot uu p ∧ u < knot uu (p + 1))) (h2 : u < knot uu (uu.length - 1 - p)) :
    ∃ s, findSpan p uu u = ok s ∧ p ≤ s ∧ s < uu.length - 1 - p ∧ knot uu s ≤ u ∧ u < knot uu (s + 1) := by
  unfold findSpan
  have hn : uu.length - 1 - p - 1 + 1 = uu.length - 1 - p := by omega
  dsimp only
  rw [hn, knot_vget (by omega), ok_bind, if_neg (not_le.2 h2), knot_vget (by omega), ok_bind]
  rcases h1 with h1 | ⟨h1, h1'⟩
  · rw [if_neg (not_le.2 h1)]
    exact findSpanLoop_spec u (uu.length - 1 - p - 1 + 2) p (uu.length - 1 - p) (by omega) (by omega) (by omega) h1.le h2
  · rw [if_pos h1.le]
    exact ⟨p, rfl, le_refl _, by omega, h1.ge, h1'⟩

omit [IsStrictOrderedRing α] in
/-- C33: at and beyond the end of the parametric range the last span is used. -/
theorem C33_find_span_end {p : Nat} {uu : List α} (hl : 2 * (p + 1) ≤ uu.length) {u : α} (h2 : knot uu (uu.length - 1 - p) ≤ u) :
    findSpan p uu u = ok (uu.length - 1 - p - 1) := by
  unfold findSpan
  have hn : uu.length - 1 - p - 1 + 1 = uu.length - 1 - p := by omega
  dsimp only
  rw [hn, knot_vget (by omega), ok_bind, if_pos h2]

/-! ## basis_funs -/

/-- contents of the table after the levels `< j` have been computed -/
structure NduOk (U : Nat → α) (s : Nat) (u : α) (j : Nat) (ndu : Arr2 α) : Prop where
  val : ∀ t q, t < j → q ≤ t → ndu q t = piece U s u t (s - t + q)
  dif : ∀ t q, t < j → q < t → ndu t q = U (s + q + 1) - U (s - t + q + 1)

omit [IsStrictOrderedRing α] in
theorem basisInner_spec {p j s : Nat} (hj : 1 ≤ j) (hjp : j ≤ p) (hps : p ≤ s) {U : Nat → α} {u : α} {ndu : Arr2 α} {lf rt : Arr1 α}
    (hl : ∀ t, 1 ≤ t → t ≤ j → lf t = u - U (s + 1 - t)) (hr : ∀ t, 1 ≤ t → t ≤ j → rt t = U (s + t) - u) (hn : NduOk U s u j ndu) :
    ∃ ndu' sv, forRange 0 j (ndu, (0 : α)) (basisInner p j lf rt) = ok (ndu', sv) ∧ NduOk U s u j ndu' ∧
      (∀ q, q < j → ndu' q j = piece U s u j (s - j + q) ∧ ndu' j q = U (s + q + 1) - U (s - j + q + 1)) ∧
      sv = (u - U s) / (U (s + j) - U s) * piece U s u (j - 1) s := by
  obtain ⟨⟨ndu', sv⟩, e, h1, h2, h3⟩ := forRange_spec (f := basisInner p j lf rt)
    (fun r (st : Arr2 α × α) => NduOk U s u j st.1 ∧
      (∀ q, q < r → st.1 q j = piece U s u j (s - j + q) ∧ st.1 j q = U (s + q + 1) - U (s - j + q + 1)) ∧
      st.2 = if r = 0 then 0 else (u - U (s - j + r)) / (U (s + r) - U (s - j + r)) * piece U s u (j - 1) (s - j + r))
    (Nat.zero_le j) (s := (ndu, 0)) ⟨hn, fun q hq => by omega, by simp⟩
    (by
      rintro r ⟨nd, sv⟩ _ hr' ⟨h1, h2, h3⟩
      dsimp only at h1 h2 h3
      unfold basisInner
      have hsub : subUsize j r = ok (j - r) := by simp [subUsize, hr'.le]
      have hsub1 : subUsize j 1 = ok (j - 1) := by simp [subUsize, hj]
      rw [Arr1.get_ok (by omega), ok_bind, hsub, ok_bind, Arr1.get_ok (by omega), ok_bind]
      dsimp only
      rw [Arr2.set_ok (by omega) (by omega), ok_bind, hsub1, ok_bind, Arr2.get_ok (by omega) (by omega), ok_bind,
        Arr2.get_ok (by omega) (by omega), ok_bind, Arr2.set_ok (by omega) (by omega), ok_bind]
      refine ⟨_, rfl, ?_⟩
      have eR : rt (r + 1) = U (s + r + 1) - u := by rw [hr (r + 1) (by omega) (by omega), Nat.add_assoc]
      have eL : lf (j - r) = u - U (s - j + r + 1) := by rw [hl (j - r) (by omega) (by omega)]; congr 2; omega
      have hd : rt (r + 1) + lf (j - r) = U (s + r + 1) - U (s - j + r + 1) := by rw [eR, eL]; ring
      have hx : (nd.put j r (rt (r + 1) + lf (j - r))) r (j - 1) = piece U s u (j - 1) (s - j + r + 1) := by
        unfold Arr2.put
        rw [if_neg (by omega), h1.val (j - 1) r (by omega) (by omega)]
        congr 1; omega
      have hy : (nd.put j r (rt (r + 1) + lf (j - r))) j r = U (s + r + 1) - U (s - j + r + 1) := by
        unfold Arr2.put
        rw [if_pos ⟨rfl, rfl⟩, hd]
      rw [hx, hy]
      have hpiece : sv + rt (r + 1) * (piece U s u (j - 1) (s - j + r + 1) / (U (s + r + 1) - U (s - j + r + 1))) =
          piece U s u j (s - j + r) := by
        obtain ⟨k, rfl⟩ : ∃ k, j = k + 1 := ⟨j - 1, by omega⟩
        rw [piece, h3, eR, Nat.add_sub_cancel, show s - (k + 1) + r + k + 2 = s + r + 1 by omega,
          show s - (k + 1) + r + k + 1 = s + r by omega]
        congr 1
        · by_cases h0 : r = 0
          · subst h0
            rw [if_pos rfl, piece_zero _ _ _ _ _ (by omega), mul_zero]
          · rw [if_neg h0]
        · ring
      rw [hpiece]
      refine ⟨⟨?_, ?_⟩, ?_, ?_⟩
      · intro t q ht hq
        simp only [Arr2.put]
        rw [if_neg (by omega), if_neg (by omega)]
        exact h1.val t q ht hq
      · intro t q ht hq
        simp only [Arr2.put]
        rw [if_neg (by omega), if_neg (by omega)]
        exact h1.dif t q ht hq
      · intro q hq
        simp only [Arr2.put]
        by_cases hqr : q = r
        · subst hqr
          refine ⟨if_pos (by simp), ?_⟩
          rw [if_neg (by omega), if_pos (by simp), hd]
        · obtain ⟨g1, g2⟩ := h2 q (by omega)
          rw [if_neg (by omega), if_neg (by omega), if_neg (by omega), if_neg (by omega)]
          exact ⟨g1, g2⟩
      · dsimp only
        rw [if_neg (by omega), eL, show s - j + (r + 1) = s - j + r + 1 by omega, show s + (r + 1) = s + r + 1 by omega]
        ring)
  refine ⟨ndu', sv, e, h1, h2, ?_⟩
  dsimp only at h3
  rw [h3, if_neg (by omega), show s - j + j = s by omega]

omit [IsStrictOrderedRing α] in
/-- `basis_funs` fills the table with the pieces of the B-splines on the span, whatever the arrays contained before. -/
theorem basisFuns_spec (b : Bspline α) (u : α) {s : Nat} (h1 : b.p ≤ s) (h2 : s + b.p < b.uu.length) :
    ∃ ndu left right, b.basisFuns u s = ok { b with ndu, left, right } ∧ NduOk (knot b.uu) s u (b.p + 1) ndu := by
  unfold Bspline.basisFuns
  rw [Arr2.set_ok (by omega) (by omega), ok_bind]
  obtain ⟨⟨ndu, left, right⟩, e, hn, _, _⟩ := forRange_spec (f := basisOuter b.p b.uu u s)
    (fun j (st : Arr2 α × Arr1 α × Arr1 α) => NduOk (knot b.uu) s u j st.1 ∧ (∀ t, 1 ≤ t → t < j → st.2.1 t = u - knot b.uu (s + 1 - t)) ∧
      (∀ t, 1 ≤ t → t < j → st.2.2 t = knot b.uu (s + t) - u))
    (by omega : 1 ≤ b.p + 1) (s := (b.ndu.put 0 0 1, b.left, b.right))
    ⟨⟨fun t q ht hq => by
        obtain rfl : t = 0 := by omega
        obtain rfl : q = 0 := by omega
        simp [Arr2.put, piece], fun t q ht hq => by omega⟩, fun t h1 h2 => by omega, fun t h1 h2 => by omega⟩
    (by
      rintro j ⟨nd, lf, rt⟩ hj1 hj2 ⟨hn, hl, hr⟩
      dsimp only at hn hl hr
      unfold basisOuter
      have hsub : subUsize (s + 1) j = ok (s + 1 - j) := by
        have : j ≤ s + 1 := by omega
        simp [subUsize, this]
      rw [hsub, ok_bind, knot_vget (by omega), ok_bind]
      dsimp only
      rw [Arr1.set_ok (by omega), ok_bind, knot_vget (by omega), ok_bind, Arr1.set_ok (by omega), ok_bind]
      have hl' : ∀ t, 1 ≤ t → t < j + 1 → (lf.put j (u - knot b.uu (s + 1 - j))) t = u - knot b.uu (s + 1 - t) := by
        intro t ht1 ht2
        unfold Arr1.put
        by_cases htj : t = j
        · rw [if_pos htj, htj]
        · rw [if_neg htj, hl t ht1 (by omega)]
      have hr' : ∀ t, 1 ≤ t → t < j + 1 → (rt.put j (knot b.uu (s + j) - u)) t = knot b.uu (s + t) - u := by
        intro t ht1 ht2
        unfold Arr1.put
        by_cases htj : t = j
        · rw [if_pos htj, htj]
        · rw [if_neg htj, hr t ht1 (by omega)]
      obtain ⟨nd', sv, e, g1, g2, g3⟩ := basisInner_spec (p := b.p) hj1 (by omega) h1
        (fun t a b => hl' t a (by omega)) (fun t a b => hr' t a (by omega)) hn
      rw [e, ok_bind]
      dsimp only
      rw [Arr2.set_ok (by omega) (by omega), ok_bind]
      refine ⟨_, rfl, ⟨?_, ?_⟩, hl', hr'⟩
      · intro t q ht hq
        simp only [Arr2.put]
        by_cases htj : t = j
        · subst htj
          by_cases hqt : q = t
          · subst hqt
            rw [if_pos ⟨rfl, rfl⟩, g3, show s - q + q = s by omega]
            obtain ⟨k, rfl⟩ : ∃ k, q = k + 1 := ⟨q - 1, by omega⟩
            rw [piece, piece_zero _ _ _ k (s + 1) (by omega), mul_zero, add_zero]
            simp only [Nat.add_sub_cancel, Nat.add_assoc]
          · rw [if_neg (by omega)]; exact (g2 q (by omega)).1
        · rw [if_neg (by omega)]; exact g1.val t q (by omega) hq
      · intro t q ht hq
        simp only [Arr2.put]
        rw [if_neg (by omega)]
        by_cases htj : t = j
        · subst htj; exact (g2 q (by omega)).2
        · exact g1.dif t q (by omega) hq)
  rw [e, ok_bind]
  exact ⟨ndu, left, right, rfl, hn⟩

/-! ## properties -/

/-- What `new` establishes and all the methods preserve. -/
structure Bspline.WF (b : Bspline α) : Prop where
  deg : 1 ≤ b.p
  len : 2 * (b.p + 1) ≤ b.uu.length
  min_le : ∀ x ∈ b.uu, b.uMin ≤ x
  le_max : ∀ x ∈ b.uu, x ≤ b.uMax
  min_mem : b.uMin ∈ b.uu
  max_mem : b.uMax ∈ b.uu

theorem foldl_min (l : List α) (m : α) : (∀ x ∈ l, l.foldl (fun m u => if u < m then u else m) m ≤ x) ∧
    l.foldl (fun m u => if u < m then u else m) m ≤ m ∧
    (l.foldl (fun m u => if u < m then u else m) m = m ∨ l.foldl (fun m u => if u < m then u else m) m ∈ l) := by
  induction l generalizing m with
  | nil => simp
  | cons a l ih =>
    obtain ⟨h1, h2, h3⟩ := ih (if a < m then a else m)
    rw [List.foldl_cons]
    have hle : (if a < m then a else m) ≤ a ∧ (if a < m then a else m) ≤ m := by
      split
      · rename_i h; exact ⟨le_refl _, h.le⟩
      · rename_i h; exact ⟨not_lt.1 h, le_refl _⟩
    refine ⟨?_, h2.trans hle.2, ?_⟩
    · intro x hx
      rcases List.mem_cons.1 hx with rfl | hx
      · exact h2.trans hle.1
      · exact h1 x hx
    · rcases h3 with h3 | h3
      · rw [h3]
        split
        · right; exact List.mem_cons_self
        · left; rfl
      · right; exact List.mem_cons_of_mem _ h3

theorem foldl_max (l : List α) (m : α) : (∀ x ∈ l, x ≤ l.foldl (fun m u => if u > m then u else m) m) ∧
    m ≤ l.foldl (fun m u => if u > m then u else m) m ∧
    (l.foldl (fun m u => if u > m then u else m) m = m ∨ l.foldl (fun m u => if u > m then u else m) m ∈ l) := by
  induction l generalizing m with
  | nil => simp
  | cons a l ih =>
    obtain ⟨h1, h2, h3⟩ := ih (if a > m then a else m)
    rw [List.foldl_cons]
    have hle : a ≤ (if a > m then a else m) ∧ m ≤ (if a > m then a else m) := by
      split
      · rename_i h; exact ⟨le_refl _, h.le⟩
      · rename_i h; exact ⟨not_lt.1 h, le_refl _⟩
    refine ⟨?_, hle.2.trans h2, ?_⟩
    · intro x hx
      rcases List.mem_cons.1 hx with rfl | hx
      · exact hle.1.trans h2
      · exact h1 x hx
    · rcases h3 with h3 | h3
      · rw [h3]
        split
        · right; exact List.mem_cons_self
        · left; rfl
      · right; exact List.mem_cons_of_mem _ h3

/-- C33: `new` accepts exactly the degrees `≥ 1` with enough knots and records the extreme knots. -/
theorem C33_new (p : Nat) (uu : List α) :
    (1 ≤ p ∧ 2 * (p + 1) ≤ uu.length → ∃ b, Bspline.new p uu = ok b ∧ b.WF ∧ b.p = p ∧ b.uu = uu ∧ b.pp = []) ∧
    (¬ (1 ≤ p ∧ 2 * (p + 1) ≤ uu.length) → ∃ m, Bspline.new p uu = err m) := by
  unfold Bspline.new
  constructor
  · rintro ⟨h1, h2⟩
    rw [if_neg (by omega), if_neg (by omega)]
    match uu, h2 with
    | u0 :: rest, h2 =>
      obtain ⟨a1, a2, a3⟩ := foldl_min (u0 :: rest) u0
      obtain ⟨b1, b2, b3⟩ := foldl_max (u0 :: rest) u0
      refine ⟨_, rfl, ⟨h1, h2, a1, b1, ?_, ?_⟩, rfl, rfl, rfl⟩
      · rcases a3 with h | h
        · dsimp only; rw [h]; exact List.mem_cons_self
        · exact h
      · rcases b3 with h | h
        · dsimp only; rw [h]; exact List.mem_cons_self
        · exact h
  · intro h
    by_cases h1 : p < 1
    · rw [if_pos h1]; exact ⟨_, rfl⟩
    · rw [if_neg h1, if_pos (by omega)]; exact ⟨_, rfl⟩

omit [IsStrictOrderedRing α] in
theorem knot_mem {uu : List α} {i : Nat} (h : i < uu.length) : knot uu i ∈ uu := by
  simp only [knot, List.getD_eq_getElem?_getD, List.getElem?_eq_getElem h, Option.getD_some]
  exact List.getElem_mem h

/-- the values of the basis functions of the span in terms of `get_basis` -/
theorem getBasis_eq {b : Bspline α} {u : α} (hs : b.p ≤ b.span) (hn : NduOk (knot b.uu) b.span u (b.p + 1) b.ndu) (i : Nat) :
    b.getBasis i = ok (piece (knot b.uu) b.span u b.p i) := by
  unfold Bspline.getBasis
  by_cases h : i + b.p ≥ b.span ∧ i ≤ b.span
  · rw [if_pos h, Arr2.get_ok (by omega) (by omega), hn.val b.p _ (by omega) (by omega)]
    congr 2; omega
  · rw [if_neg h, piece_zero _ _ _ _ _ (by omega)]

/-- all basis functions sum to one on the span -/
theorem piece_sum_all {uu : List α} (hs : SortedKnots uu) {s p : Nat} (u : α) (hlt : knot uu s < knot uu (s + 1)) (h1 : p ≤ s)
    (h2 : s + p + 1 < uu.length) : ∑ i ∈ Finset.range (uu.length - 1 - p), piece (knot uu) s u p i = 1 := by
  rw [← piece_sum hs u hlt p h1 (by omega)]
  rw [← Finset.sum_subset (s₁ := Finset.Ico (s - p) (s + 1))]
  · rw [Finset.sum_Ico_eq_sum_range, show s + 1 - (s - p) = p + 1 by omega]
  · intro i hi
    rw [Finset.mem_Ico] at hi
    exact Finset.mem_range.2 (by omega)
  · intro i _ hi
    rw [Finset.mem_Ico] at hi
    exact piece_zero _ _ _ _ _ (by omega)

/-- C33: on non-decreasing knots and for `u` in the parametric range, `calc_basis` succeeds and `get_basis(i)` is the i-th B-spline of the
Cox–de Boor recursion, for every basis function; the values are non-negative and sum to one.  The previous contents of the structure do
not matter. -/
theorem C33_calc_basis {b : Bspline α} (hw : b.WF) (hs : SortedKnots b.uu) {u : α} (h1 : knot b.uu b.p ≤ u) (h2 : u < knot b.uu b.numBasis)
    (h3 : knot b.uu b.p < knot b.uu (b.p + 1)) :
    ∃ b', b.calcBasis u = ok b' ∧ b'.WF ∧ b'.uu = b.uu ∧ b'.p = b.p ∧ b'.pp = b.pp ∧
      (∀ i, i < b.numBasis → b'.getBasis i = ok (coxDeBoor (knot b.uu) u b.p i)) ∧
      (∀ i, i < b.numBasis → 0 ≤ coxDeBoor (knot b.uu) u b.p i) ∧
      ∑ i ∈ Finset.range b.numBasis, coxDeBoor (knot b.uu) u b.p i = 1 := by
  have hlen := hw.len
  unfold Bspline.numBasis at *
  have hu1 : b.uMin ≤ u := (hw.min_le _ (knot_mem (by omega : b.p < b.uu.length))).trans h1
  have hu2 : u ≤ b.uMax := h2.le.trans (hw.le_max _ (knot_mem (by omega)))
  have h1' : knot b.uu b.p < u ∨ (u = knot b.uu b.p ∧ u < knot b.uu (b.p + 1)) := by
    rcases lt_or_eq_of_le h1 with h | h
    · exact Or.inl h
    · right; rw [← h]; exact ⟨rfl, h3⟩
  obtain ⟨s, e, g1, g2, g3, g4⟩ := C33_find_span hlen h1' h2
  obtain ⟨ndu, left, right, e2, hn⟩ := basisFuns_spec { b with span := s } u g1 (show s + b.p < b.uu.length by omega)
  have hcb : b.calcBasis u = ok { b with span := s, ndu, left, right } := by
    unfold Bspline.calcBasis
    rw [if_neg (by rintro (h | h) <;> [exact absurd h (not_lt.2 hu1); exact absurd h (not_lt.2 hu2)]), e, ok_bind]
    exact e2
  have hcox : ∀ i, i < b.uu.length - 1 - b.p → coxDeBoor (knot b.uu) u b.p i = piece (knot b.uu) s u b.p i := by
    intro i hi
    exact coxDeBoor_eq_piece hs g3 g4 (by omega) b.p i (by omega)
  refine ⟨_, hcb, ⟨hw.deg, hw.len, hw.min_le, hw.le_max, hw.min_mem, hw.max_mem⟩, rfl, rfl, rfl, ?_, ?_, ?_⟩
  · intro i hi
    rw [hcox i hi]
    exact getBasis_eq (b := { b with span := s, ndu, left, right }) g1 hn i
  · intro i hi
    rw [hcox i hi]
    exact piece_nonneg hs g3 g4.le b.p i (by omega)
  · rw [Finset.sum_congr rfl (fun i hi => hcox i (Finset.mem_range.1 hi))]
    exact piece_sum_all hs u (lt_of_le_of_lt g3 g4) g1 (by omega)

/-- the last piece at a clamped end -/
theorem piece_end {uu : List α} {s : Nat} (hlt : knot uu s < knot uu (s + 1)) : ∀ (k i : Nat),
    (∀ t, t ≤ k → knot uu (s + 1 + t) = knot uu (s + 1)) → piece (knot uu) s (knot uu (s + 1)) k i = if i = s then 1 else 0
  | 0, i, _ => rfl
  | k + 1, i, hk => by
    rw [piece, piece_end hlt k i (fun t ht => hk t (by omega)), piece_end hlt k (i + 1) (fun t ht => hk t (by omega))]
    by_cases h : i = s
    · subst h
      rw [if_pos rfl, if_neg (by omega), mul_zero, add_zero, mul_one, show i + k + 1 = i + 1 + k by omega, hk k (by omega),
        div_self (sub_pos.2 hlt).ne']
    · rw [if_neg h, mul_zero, zero_add]
      by_cases h' : i + 1 = s
      · rw [show i + k + 2 = s + 1 + k by omega, hk k (by omega), sub_self, zero_div, zero_mul]
      · rw [if_neg h', mul_zero]

/-- C33: at the right end of the parametric range the values are still non-negative and sum to one, and for clamped knots (the last `p+1`
knots equal) the last basis function is one and the others vanish. -/
theorem C33_calc_basis_end {b : Bspline α} (hw : b.WF) (hs : SortedKnots b.uu) (h3 : knot b.uu (b.numBasis - 1) < knot b.uu b.numBasis) :
    ∃ (b' : Bspline α) (f : Nat → α), b.calcBasis (knot b.uu b.numBasis) = ok b' ∧ b'.WF ∧ b'.uu = b.uu ∧ b'.p = b.p ∧ b'.pp = b.pp ∧
      (∀ i, i < b.numBasis → b'.getBasis i = ok (f i) ∧ 0 ≤ f i) ∧ ∑ i ∈ Finset.range b.numBasis, f i = 1 ∧
      (knot b.uu (b.uu.length - 1) = knot b.uu b.numBasis → ∀ i, i < b.numBasis → f i = if i = b.numBasis - 1 then 1 else 0) := by
  have hlen := hw.len
  unfold Bspline.numBasis at *
  have hm : knot b.uu (b.uu.length - 1 - b.p) ∈ b.uu := knot_mem (by omega)
  have e := C33_find_span_end hlen (le_refl (knot b.uu (b.uu.length - 1 - b.p)))
  have g1 : b.p ≤ b.uu.length - 1 - b.p - 1 := by omega
  have hsucc : b.uu.length - 1 - b.p - 1 + 1 = b.uu.length - 1 - b.p := by omega
  set u := knot b.uu (b.uu.length - 1 - b.p)
  set s := b.uu.length - 1 - b.p - 1
  obtain ⟨ndu, left, right, e2, hn⟩ := basisFuns_spec { b with span := s } u g1 (show s + b.p < b.uu.length by omega)
  have hcb : b.calcBasis u = ok { b with span := s, ndu, left, right } := by
    unfold Bspline.calcBasis
    rw [if_neg (by rintro (h | h) <;> [exact absurd h (not_lt.2 (hw.min_le _ hm)); exact absurd h (not_lt.2 (hw.le_max _ hm))]), e, ok_bind]
    exact e2
  have hlt : knot b.uu s < knot b.uu (s + 1) := by rw [hsucc]; exact h3
  refine ⟨_, piece (knot b.uu) s u b.p, hcb, ⟨hw.deg, hw.len, hw.min_le, hw.le_max, hw.min_mem, hw.max_mem⟩, rfl, rfl, rfl, ?_, ?_, ?_⟩
  · intro i hi
    exact ⟨getBasis_eq (b := { b with span := s, ndu, left, right }) g1 hn i,
      piece_nonneg hs h3.le (le_of_eq (by rw [hsucc])) b.p i (by omega)⟩
  · exact piece_sum_all hs u hlt g1 (by omega)
  · intro hc i hi
    have := piece_end hlt b.p i (by
      intro t ht
      rw [hsucc]
      apply le_antisymm
      · exact (hs _ _ (by omega) (by omega)).trans hc.le
      · exact hs _ _ (by omega) (by omega))
    rw [hsucc] at this
    exact this

/-- C33: values outside of the knots are rejected. -/
theorem C33_out_of_range {b : Bspline α} (hw : b.WF) {u : α} (h : (∀ x ∈ b.uu, u < x) ∨ (∀ x ∈ b.uu, x < u)) :
    b.calcBasis u = err "u is out of range" := by
  unfold Bspline.calcBasis
  rw [if_pos]
  rcases h with h | h
  · left; exact h _ hw.min_mem
  · right; exact h _ hw.max_mem

/-- For knots that are not clamped, `calc_basis` accepts values outside of the parametric range and returns extrapolated (here negative)
values: degree 1, knots 0, 1, 2, 3 and `u = 0` give the values 2 and -1 (the B-splines vanish there or are zero). -/
theorem C33_unclamped_counterexample :
    ((do
      let b ← Bspline.new 1 ([0, 1, 2, 3] : List ℚ)
      let b ← b.calcBasis 0
      let x ← b.getBasis 0
      let y ← b.getBasis 1
      ok (x, y)) : Res (ℚ × ℚ)) = ok (2, -1) ∧
    coxDeBoor (knot ([0, 1, 2, 3] : List ℚ)) 0 1 0 = 0 ∧ coxDeBoor (knot ([0, 1, 2, 3] : List ℚ)) 0 1 1 = 0 := by
  decide +kernel

/-- knots differ by nothing or by at least 1e-14 -/
def SeparatedKnots (uu : List α) : Prop := ∀ i j, i < uu.length → j < uu.length → knot uu i = knot uu j ∨ 1e-14 ≤ |knot uu i - knot uu j|

theorem recursiveNn_eq {uu : List α} {uMax u : α} (hsep : SeparatedKnots uu) (hu : u ≤ uMax - 1e-14) :
    ∀ (p i : Nat), i + p + 1 < uu.length → recursiveNn uu uMax p i u = ok (coxDeBoor (knot uu) u p i)
  | 0, i, hi => by
    rw [recursiveNn]
    have hnn : ¬ |u - uMax| < 1e-14 := by
      rw [abs_of_nonpos (by have : (0 : α) ≤ 1e-14 := by norm_num
                            linarith)]
      linarith
    rw [if_neg hnn]
    rw [knot_vget (by omega), ok_bind, coxDeBoor]
    by_cases h1 : knot uu i ≤ u
    · rw [if_pos h1, knot_vget (by omega), ok_bind]
      by_cases h2 : u < knot uu (i + 1)
      · rw [if_pos h2, if_pos ⟨h1, h2⟩]
      · rw [if_neg h2, if_neg (fun h => h2 h.2)]
    · rw [if_neg h1, if_neg (fun h => h1 h.1)]
  | p + 1, i, hi => by
    rw [recursiveNn]
    have hnn : ¬ |u - uMax| < 1e-14 := by
      rw [abs_of_nonpos (by have : (0 : α) ≤ 1e-14 := by norm_num
                            linarith)]
      linarith
    rw [if_neg hnn]
    rw [knot_vget (by omega), ok_bind, knot_vget (by omega), ok_bind, knot_vget (by omega), ok_bind, knot_vget (by omega), ok_bind,
      recursiveNn_eq hsep hu p i (by omega), recursiveNn_eq hsep hu p (i + 1) (by omega)]
    have hpos : (0 : α) < 1e-14 := by norm_num
    have key : ∀ (k l : Nat) (n : α), k < uu.length → l < uu.length → ∃ nd : α × α,
        (if |knot uu k - knot uu l| < 1e-14 then ok (0, 1) else (do
          let n ← ok n
          ok (n, knot uu k - knot uu l)) : Res (α × α)) = ok nd ∧ nd.1 / nd.2 = n / (knot uu k - knot uu l) := by
      intro k l n hk hl
      rcases hsep k l hk hl with h | h
      · refine ⟨(0, 1), if_pos (by rw [h, sub_self, abs_zero]; exact hpos), ?_⟩
        rw [h, sub_self, div_zero, zero_div]
      · exact ⟨(n, knot uu k - knot uu l), by rw [if_neg (not_lt.2 h), ok_bind], rfl⟩
    obtain ⟨nd1, e1, q1⟩ := key (i + (p + 1)) i (coxDeBoor (knot uu) u p i) (by omega) (by omega)
    obtain ⟨nd2, e2, q2⟩ := key (i + (p + 1) + 1) (i + 1) (coxDeBoor (knot uu) u p (i + 1)) (by omega) (by omega)
    rw [e1, ok_bind, e2, ok_bind, coxDeBoor, mul_div_assoc, mul_div_assoc, q1, q2]
    congr 1
    rw [show i + p + 1 = i + (p + 1) by omega, show i + p + 2 = i + (p + 1) + 1 by omega]
    ring

/-- C33: the recursive evaluation gives the B-splines, too (away from the right end and for knots that differ by zero or at least 1e-14). -/
theorem C33_recursive_basis {b : Bspline α} (hw : b.WF) (hsep : SeparatedKnots b.uu) {u : α} (h1 : b.uMin ≤ u) (h2 : u ≤ b.uMax - 1e-14)
    {i : Nat} (hi : i < b.numBasis) : b.recursiveBasis u i = ok (coxDeBoor (knot b.uu) u b.p i) := by
  unfold Bspline.recursiveBasis
  have hpos : (0 : α) < 1e-14 := by norm_num
  rw [if_neg (by rintro (h | h) <;> linarith)]
  unfold Bspline.numBasis at hi
  have := hw.len
  exact recursiveNn_eq hsep h2 b.p i (by omega)

theorem accumulatePoint_spec {ndim idx : Nat} {w : α} {pp : List (List α)} {P f : Nat → α} {cc row : List α} (hr : pp[(idx : Nat)]? = some row)
    (hrow : IsVec row ndim P) (hc : IsVec cc ndim f) :
    ∃ cc', accumulatePoint ndim w pp idx cc = ok cc' ∧ IsVec cc' ndim (fun j => f j + w * P j) := by
  unfold accumulatePoint
  obtain ⟨cc', e, h⟩ := fillVec (g := fun j => f j + w * P j) hc (le_refl ndim) (lo := 0) (body := fun j cc => do
    let row ← vget pp idx
    let x ← vget row j
    let c ← vget cc j
    vset cc j (c + w * x))
    (by
      intro k l f' _ hk hl hf
      rw [vget_of hr, ok_bind, hrow.vget hk, ok_bind, hl.vget hk, ok_bind, hf k (le_refl _)])
  exact ⟨cc', e, h.congr (fun i hi => if_pos ⟨Nat.zero_le _, hi⟩)⟩

/-- C33: `calc_point` returns the combination of the control points with the B-splines as weights, with or without recursion. -/
theorem C33_calc_point {b : Bspline α} (hw : b.WF) (hs : SortedKnots b.uu) {u : α} (h1 : knot b.uu b.p ≤ u) (h2 : u < knot b.uu b.numBasis)
    (h3 : knot b.uu b.p < knot b.uu (b.p + 1)) {ndim : Nat} {P : Nat → Nat → α} (hpl : b.pp.length = b.numBasis)
    (hpp : ∀ i, i < b.numBasis → ∃ row, b.pp[(i : Nat)]? = some row ∧ IsVec row ndim (P i)) {cc : List α} (hcc : cc.length = ndim)
    (recursive : Bool) (hrec : recursive = true → SeparatedKnots b.uu ∧ u ≤ b.uMax - 1e-14) :
    ∃ b' cc', b.calcPoint cc u recursive = ok (b', cc') ∧
      IsVec cc' ndim (fun j => ∑ i ∈ Finset.range b.numBasis, coxDeBoor (knot b.uu) u b.p i * P i j) := by
  have hlen := hw.len
  have hnb : 0 < b.numBasis := by unfold Bspline.numBasis; omega
  unfold Bspline.calcPoint
  dsimp only
  rw [if_neg (by simpa using hpl)]
  obtain ⟨p0, hp0, hv0⟩ := hpp 0 hnb
  rw [vget_of hp0, ok_bind, hv0.len, if_neg (by simpa using hcc)]
  have hz : IsVec (List.replicate cc.length (0 : α)) ndim (fun _ => 0) := by rw [hcc]; exact isVec_replicate _ _
  cases recursive with
  | true =>
    obtain ⟨hsep, hu⟩ := hrec rfl
    rw [if_pos rfl]
    have hu1 : b.uMin ≤ u := (hw.min_le _ (knot_mem (by omega : b.p < b.uu.length))).trans h1
    obtain ⟨cc', e, h⟩ := forRange_spec (f := fun idx cc => do
        let basis ← b.recursiveBasis u idx
        accumulatePoint ndim basis b.pp idx cc)
      (fun k c => IsVec c ndim (fun j => ∑ i ∈ Finset.range k, coxDeBoor (knot b.uu) u b.p i * P i j)) (Nat.zero_le b.numBasis)
      (s := List.replicate cc.length (0 : α)) (hz.congr (fun i _ => by simp))
      (by
        intro k c _ hk hc
        rw [C33_recursive_basis hw hsep hu1 hu hk, ok_bind]
        obtain ⟨row, hr, hv⟩ := hpp k hk
        obtain ⟨c', e, h⟩ := accumulatePoint_spec (w := coxDeBoor (knot b.uu) u b.p k) hr hv hc
        exact ⟨c', e, h.congr (fun j _ => by rw [Finset.sum_range_succ])⟩)
    exact ⟨b, cc', by rw [e, ok_bind], h⟩
  | false =>
    rw [if_neg (by simp)]
    unfold Bspline.numBasis at *
    have h1' : knot b.uu b.p < u ∨ (u = knot b.uu b.p ∧ u < knot b.uu (b.p + 1)) := by
      rcases lt_or_eq_of_le h1 with h | h
      · exact Or.inl h
      · right; rw [← h]; exact ⟨rfl, h3⟩
    obtain ⟨s, e, g1, g2, g3, g4⟩ := C33_find_span hlen h1' h2
    obtain ⟨ndu, left, right, e2, hn⟩ := basisFuns_spec b u g1 (by omega)
    rw [e, ok_bind, e2, ok_bind]
    dsimp only
    have hsub : subUsize s b.p = ok (s - b.p) := by simp [subUsize, g1]
    obtain ⟨cc', e3, h⟩ := forRange_spec (f := fun i cc => do
        let s ← subUsize s b.p
        let w ← Arr2.get (b.p + 1) (b.p + 1) ndu i b.p
        accumulatePoint ndim w b.pp (s + i) cc)
      (fun k c => IsVec c ndim (fun j => ∑ i ∈ Finset.range k, piece (knot b.uu) s u b.p (s - b.p + i) * P (s - b.p + i) j))
      (Nat.zero_le (b.p + 1)) (s := List.replicate cc.length (0 : α)) (hz.congr (fun i _ => by simp))
      (by
        intro k c _ hk hc
        rw [hsub, ok_bind, Arr2.get_ok hk (by omega), ok_bind, hn.val b.p k (by omega) (by omega)]
        obtain ⟨row, hr, hv⟩ := hpp (s - b.p + k) (by omega)
        obtain ⟨c', e, h⟩ := accumulatePoint_spec (w := piece (knot b.uu) s u b.p (s - b.p + k)) hr hv hc
        exact ⟨c', e, h.congr (fun j _ => by rw [Finset.sum_range_succ])⟩)
    refine ⟨_, cc', by rw [e3, ok_bind], h.congr (fun j hj => ?_)⟩
    have hcox : ∀ i, i < b.uu.length - 1 - b.p → coxDeBoor (knot b.uu) u b.p i = piece (knot b.uu) s u b.p i := by
      intro i hi
      exact coxDeBoor_eq_piece hs g3 g4 (by omega) b.p i (by omega)
    rw [Finset.sum_congr (g := fun i => piece (knot b.uu) s u b.p i * P i j) (s₁ := Finset.range (b.uu.length - 1 - b.p)) rfl
      (fun i hi => by rw [hcox i (Finset.mem_range.1 hi)])]
    rw [← Finset.sum_subset (s₁ := Finset.Ico (s - b.p) (s + 1)) (s₂ := Finset.range (b.uu.length - 1 - b.p))]
    · rw [Finset.sum_Ico_eq_sum_range, show s + 1 - (s - b.p) = b.p + 1 by omega]
    · intro i hi
      rw [Finset.mem_Ico] at hi
      exact Finset.mem_range.2 (by omega)
    · intro i _ hi
      rw [Finset.mem_Ico] at hi
      rw [piece_zero _ _ _ _ _ (by omega), zero_mul]

/-- C33: the point lies in the bounding box of the control points (convex combination). -/
theorem C33_bounding_box {b : Bspline α} (hw : b.WF) (hs : SortedKnots b.uu) {u : α} (h1 : knot b.uu b.p ≤ u) (h2 : u < knot b.uu b.numBasis)
    (h3 : knot b.uu b.p < knot b.uu (b.p + 1)) {x : Nat → α} {lo hi : α} (hx : ∀ i, i < b.numBasis → lo ≤ x i ∧ x i ≤ hi) :
    lo ≤ ∑ i ∈ Finset.range b.numBasis, coxDeBoor (knot b.uu) u b.p i * x i ∧
      ∑ i ∈ Finset.range b.numBasis, coxDeBoor (knot b.uu) u b.p i * x i ≤ hi := by
  obtain ⟨_, _, _, _, _, _, _, hnn, hsum⟩ := C33_calc_basis hw hs h1 h2 h3
  constructor
  · calc lo = ∑ i ∈ Finset.range b.numBasis, coxDeBoor (knot b.uu) u b.p i * lo := by rw [← Finset.sum_mul, hsum, one_mul]
      _ ≤ _ := Finset.sum_le_sum (fun i hi' => by
        have := Finset.mem_range.1 hi'
        exact mul_le_mul_of_nonneg_left (hx i this).1 (hnn i this))
  · calc _ ≤ ∑ i ∈ Finset.range b.numBasis, coxDeBoor (knot b.uu) u b.p i * hi := Finset.sum_le_sum (fun i hi' => by
        have := Finset.mem_range.1 hi'
        exact mul_le_mul_of_nonneg_left (hx i this).2 (hnn i this))
      _ = hi := by rw [← Finset.sum_mul, hsum, one_mul]

/-- the hypotheses are met: a clamped quadratic knot vector with an inner knot -/
example : SortedKnots ([0, 0, 0, 1, 3, 3, 3] : List ℚ) ∧ SeparatedKnots ([0, 0, 0, 1, 3, 3, 3] : List ℚ) ∧
    knot ([0, 0, 0, 1, 3, 3, 3] : List ℚ) 2 < knot ([0, 0, 0, 1, 3, 3, 3] : List ℚ) 3 := by
  refine ⟨?_, ?_, by decide +kernel⟩
  · have : ∀ j, j < 7 → ∀ i, i ≤ j → knot ([0, 0, 0, 1, 3, 3, 3] : List ℚ) i ≤ knot ([0, 0, 0, 1, 3, 3, 3] : List ℚ) j := by decide +kernel
    exact fun i j h1 h2 => this j h2 i h1
  · have : ∀ i, i < 7 → ∀ j, j < 7 → knot ([0, 0, 0, 1, 3, 3, 3] : List ℚ) i = knot ([0, 0, 0, 1, 3, 3, 3] : List ℚ) j ∨
      (1e-14 : ℚ) ≤ |knot ([0, 0, 0, 1, 3, 3, 3] : List ℚ) i - knot ([0, 0, 0, 1, 3, 3, 3] : List ℚ) j| := by decide +kernel
    exact fun i j h1 h2 => this i h1 j h2

example : ((do
      let b ← Bspline.new 2 ([0, 0, 0, 1, 3, 3, 3] : List ℚ)
      let b ← b.calcBasis (1 / 2)
      let x ← b.getBasis 0
      let y ← b.getBasis 1
      let z ← b.getBasis 2
      let w ← b.getBasis 3
      ok [x, y, z, w]) : Res (List ℚ)) = ok [1 / 4, 2 / 3, 1 / 12, 0] := by decide +kernel

end Props

end Russell.Lab
