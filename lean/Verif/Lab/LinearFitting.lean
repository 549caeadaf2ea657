import Verif.Prelude
import Mathlib.Algebra.Order.Field.Basic
import Mathlib.Algebra.Order.BigOperators.Group.List
import Mathlib.Algebra.Order.Ring.Abs
import Mathlib.Algebra.Ring.Hom.Defs
import Mathlib.Data.Rat.Cast.Order
import Mathlib.Tactic.FieldSimp
import Mathlib.Tactic.LinearCombination
import Mathlib.Tactic.Linarith
import Mathlib.Tactic.Ring
import Mathlib.Tactic.Positivity

/-!
# Linear fitting (property C39)

Model of `linear_fitting` (/repo/russell_lab/src/algo/linear_fitting.rs).  `T` is the type of the data (a commutative ring, e.g. the
integers) and `cast : T →+* α` the conversion to floating-point numbers, which are modelled by an ordered field.
-/

namespace Russell.Lab

open Russell

/-- a slope: a number or `f64::INFINITY` -/
inductive Slope (α : Type) where
  | fin (m : α)
  | inf
  deriving DecidableEq

variable {T α : Type} [CommRing T] [Field α] [LinearOrder α]

/-- The four sums (/repo/russell_lab/src/algo/linear_fitting.rs:56-65): (Σx, Σy, Σxy, Σxx) in the data type -/
def fitSums (x y : List T) : Res (T × T × T × T) :=
  forRange 0 x.length ((0 : T), (0 : T), (0 : T), (0 : T)) fun i s => do
    let xi ← vget x i
    let yi ← vget y i
    .ok (s.1 + xi, s.2.1 + yi, s.2.2.1 + xi * yi, s.2.2.2 + xi * xi)

/-- The parameters from the sums (/repo/russell_lab/src/algo/linear_fitting.rs:74-93) -/
def fitParams (n sx sy sxy sxx : α) (passThroughZero : Bool) : α × Slope α :=
  if passThroughZero then
    if sxx = 0 then (0, Slope.inf) else (0, Slope.fin (sxy / sxx))
  else
    let den := sx * sx - n * sxx
    if den = 0 then (0, Slope.inf)
    else ((sx * sxy - sxx * sy) / den, Slope.fin ((sx * sy - n * sxy) / den))

/-- `linear_fitting` (/repo/russell_lab/src/algo/linear_fitting.rs:45-94) -/
def linearFitting (cast : T →+* α) (x y : List T) (passThroughZero : Bool) : Res (α × Slope α) :=
  if y.length ≠ x.length then .err "arrays must have the same lengths"
  else do
    let s ← fitSums x y
    .ok (fitParams (x.length : α) (cast s.1) (cast s.2.1) (cast s.2.2.1) (cast s.2.2.2) passThroughZero)

/-! ## specification -/

/-- sum of the squared residuals of the line `c + m x` over the data -/
def sse (cast : T →+* α) (x y : List T) (c m : α) : α :=
  ((x.zip y).map fun p => (cast p.2 - (c + m * cast p.1)) ^ 2).sum

/-- `Σ g(x_i, y_i)` -/
def dsum {β : Type} [AddCommMonoid β] (g : T → T → β) (x y : List T) : β := ((x.zip y).map fun p => g p.1 p.2).sum

theorem dsum_cons {β : Type} [AddCommMonoid β] (g : T → T → β) (a b : T) (x y : List T) : dsum g (a :: x) (b :: y) = g a b + dsum g x y := by
  simp [dsum]

theorem dsum_nonneg [IsStrictOrderedRing α] {g : T → T → α} (hg : ∀ a b, 0 ≤ g a b) (x y : List T) : 0 ≤ dsum g x y := by
  unfold dsum
  apply List.sum_nonneg
  intro a ha
  obtain ⟨p, _, rfl⟩ := List.mem_map.1 ha
  exact hg _ _

theorem fitSums_eq {x y : List T} (h : y.length = x.length) :
    fitSums x y = .ok (dsum (fun a _ => a) x y, dsum (fun _ b => b) x y, dsum (fun a b => a * b) x y, dsum (fun a _ => a * a) x y) := by
  unfold fitSums
  obtain ⟨s, e, hs⟩ := forRange_spec (f := fun i (s : T × T × T × T) => do
      let xi ← vget x i
      let yi ← vget y i
      Res.ok (s.1 + xi, s.2.1 + yi, s.2.2.1 + xi * yi, s.2.2.2 + xi * xi))
    (fun k s => s = (dsum (fun a _ => a) (x.take k) (y.take k), dsum (fun _ b => b) (x.take k) (y.take k),
      dsum (fun a b => a * b) (x.take k) (y.take k), dsum (fun a _ => a * a) (x.take k) (y.take k)))
    (Nat.zero_le x.length) (s := (0, 0, 0, 0)) (by simp [dsum])
    (by
      rintro k s _ hk rfl
      refine ⟨_, by rw [vget_lt hk, Res.ok_bind, vget_lt (by omega : k < y.length), Res.ok_bind], ?_⟩
      have h1 : ∀ {β : Type} [AddCommMonoid β] (g : T → T → β), dsum g (x.take (k + 1)) (y.take (k + 1)) =
          dsum g (x.take k) (y.take k) + g x[k] (y[k]'(by omega)) := by
        intro β _ g
        rw [List.take_succ_eq_append_getElem hk, List.take_succ_eq_append_getElem (by omega : k < y.length)]
        unfold dsum
        rw [List.zip_append (by simp; omega)]
        simp
      rw [h1, h1, h1, h1])
  rw [e, hs, List.take_length, List.take_of_length_le (le_of_eq h)]

theorem cast_dsum (cast : T →+* α) (g : T → T → T) (x y : List T) : cast (dsum g x y) = dsum (fun a b => cast (g a b)) x y := by
  unfold dsum
  rw [map_list_sum, List.map_map]; rfl

/-- all the sums are polynomial in the parameters -/
theorem sse_expand (cast : T →+* α) : ∀ {x y : List T}, y.length = x.length → ∀ c m : α,
    sse cast x y c m = dsum (fun _ b => cast b ^ 2) x y - 2 * c * dsum (fun _ b => cast b) x y - 2 * m * dsum (fun a b => cast (a * b)) x y
      + x.length * c ^ 2 + 2 * c * m * dsum (fun a _ => cast a) x y + m ^ 2 * dsum (fun a _ => cast (a * a)) x y
  | [], [], _, c, m => by simp [sse, dsum]
  | a :: x, [], h, _, _ => by simp at h
  | [], b :: y, h, _, _ => by simp at h
  | a :: x, b :: y, h, c, m => by
    have ih := sse_expand cast (x := x) (y := y) (by simpa using h) c m
    have h1 : sse cast (a :: x) (b :: y) c m = (cast b - (c + m * cast a)) ^ 2 + sse cast x y c m := by simp [sse]
    rw [h1, ih]
    simp only [dsum_cons, List.length_cons, map_mul, Nat.cast_add, Nat.cast_one]
    ring

/-- the quadratic form of the normal equations -/
theorem quad_expand (cast : T →+* α) : ∀ {x y : List T}, y.length = x.length → ∀ c m : α,
    dsum (fun a _ => (c + m * cast a) ^ 2) x y =
      x.length * c ^ 2 + 2 * c * m * dsum (fun a _ => cast a) x y + m ^ 2 * dsum (fun a _ => cast (a * a)) x y
  | [], [], _, c, m => by simp [dsum]
  | a :: x, [], h, _, _ => by simp at h
  | [], b :: y, h, _, _ => by simp at h
  | a :: x, b :: y, h, c, m => by
    have ih := quad_expand cast (x := x) (y := y) (by simpa using h) c m
    rw [dsum_cons, ih]
    simp only [dsum_cons, List.length_cons, map_mul, Nat.cast_add, Nat.cast_one]
    ring

/-- a sum of squares vanishes only if every term does -/
theorem dsum_sq_eq_zero [IsStrictOrderedRing α] (g : T → α) : ∀ {x y : List T}, y.length = x.length →
    dsum (fun a _ => g a ^ 2) x y = 0 → ∀ a ∈ x, g a = 0
  | [], _, _, _ => by simp
  | a :: x, [], h, _ => by simp at h
  | a :: x, b :: y, h, h0 => by
    rw [dsum_cons] at h0
    have h1 : 0 ≤ dsum (fun a _ => g a ^ 2) x y := dsum_nonneg (fun a b => sq_nonneg _) x y
    have h2 : 0 ≤ g a ^ 2 := sq_nonneg _
    intro a' ha'
    rcases List.mem_cons.1 ha' with rfl | hm
    · exact pow_eq_zero_iff (two_ne_zero) |>.1 (by linarith)
    · exact dsum_sq_eq_zero g (by simpa using h) (by linarith) a' hm

theorem dsum_const (cast : T →+* α) {a : α} : ∀ {x y : List T}, y.length = x.length → (∀ b ∈ x, cast b = a) →
    dsum (fun a _ => cast a) x y = x.length * a ∧ dsum (fun a _ => cast (a * a)) x y = x.length * (a * a)
  | [], _, _, _ => by simp [dsum]
  | b :: x, [], h, _ => by simp at h
  | b :: x, d :: y, h, hc => by
    obtain ⟨h1, h2⟩ := dsum_const cast (x := x) (y := y) (by simpa using h) (fun b hb => hc b (List.mem_cons_of_mem _ hb))
    rw [dsum_cons, dsum_cons, h1, h2, map_mul, hc b List.mem_cons_self]
    simp only [List.length_cons, Nat.cast_add, Nat.cast_one]
    constructor <;> ring

variable [IsStrictOrderedRing α]

theorem linearFitting_eq {cast : T →+* α} {x y : List T} (h : y.length = x.length) (p : Bool) :
    linearFitting cast x y p = .ok (fitParams (x.length : α) (dsum (fun a _ => cast a) x y) (dsum (fun _ b => cast b) x y)
      (dsum (fun a b => cast (a * b)) x y) (dsum (fun a _ => cast (a * a)) x y) p) := by
  unfold linearFitting
  rw [if_neg (by simpa using h), fitSums_eq h, Res.ok_bind]
  simp only [cast_dsum]

/-- non-negative discriminant -/
theorem den_nonpos (cast : T →+* α) {x y : List T} (h : y.length = x.length) :
    dsum (fun a _ => cast a) x y * dsum (fun a _ => cast a) x y - x.length * dsum (fun a _ => cast (a * a)) x y ≤ 0 := by
  rcases Nat.eq_zero_or_pos x.length with h0 | h0
  · have hx := List.length_eq_zero_iff.1 h0
    subst hx
    simp [dsum]
  · have hq := quad_expand cast h (- dsum (fun a _ => cast a) x y) (x.length : α)
    have h1 : 0 ≤ dsum (fun a _ => (-dsum (fun a _ => cast a) x y + (x.length : α) * cast a) ^ 2) x y :=
      dsum_nonneg (fun _ _ => sq_nonneg _) x y
    rw [hq] at h1
    have h2 : (0 : α) < x.length := by exact_mod_cast h0
    by_contra hc
    push Not at hc
    have := mul_pos h2 hc
    nlinarith

/-- C39: arrays of different lengths are rejected, and only those. -/
theorem C39_length (cast : T →+* α) (x y : List T) (p : Bool) :
    (linearFitting cast x y p = .err "arrays must have the same lengths" ↔ x.length ≠ y.length) ∧ linearFitting cast x y p ≠ .panic := by
  by_cases h : y.length = x.length
  · rw [linearFitting_eq h]; simp [h]
  · unfold linearFitting; rw [if_pos h]; simp [Ne.symm h]

/-- C39: the line returned minimises the sum of squared residuals among all lines and is the only minimiser. -/
theorem C39_least_squares {cast : T →+* α} {x y : List T} {c m : α}
    (h : linearFitting cast x y false = .ok (c, Slope.fin m)) (c' m' : α) :
    sse cast x y c m ≤ sse cast x y c' m' ∧ (sse cast x y c' m' = sse cast x y c m → c' = c ∧ m' = m) := by
  by_cases hl : y.length = x.length
  swap
  · unfold linearFitting at h; rw [if_pos hl] at h; cases h
  rw [linearFitting_eq hl] at h
  have hd := den_nonpos cast hl
  have hq := quad_expand cast hl (c' - c) (m' - m)
  have hq0 : 0 ≤ dsum (fun a _ => ((c' - c) + (m' - m) * cast a) ^ 2) x y := dsum_nonneg (fun _ _ => sq_nonneg _) x y
  rw [sse_expand cast hl, sse_expand cast hl]
  rw [hq] at hq0
  simp only [fitParams, Bool.false_eq_true, if_false] at h
  generalize dsum (fun a _ => cast a) x y = sx at *
  generalize dsum (fun _ b => cast b) x y = sy at *
  generalize dsum (fun a b => cast (a * b)) x y = sxy at *
  generalize dsum (fun a _ => cast (a * a)) x y = sxx at *
  generalize dsum (fun _ b => cast b ^ 2) x y = syy at *
  generalize (x.length : α) = n at *
  by_cases hden : sx * sx - n * sxx = 0
  · rw [if_pos hden] at h; simp at h
  rw [if_neg hden] at h
  simp only [Res.ok.injEq, Prod.mk.injEq, Slope.fin.injEq] at h
  obtain ⟨hc, hm⟩ := h
  rw [div_eq_iff hden] at hc hm
  -- the two normal equations
  have e1 : n * c + sx * m = sy := by
    apply mul_left_cancel₀ hden; linear_combination (-n) * hc - sx * hm
  have e2 : sx * c + sxx * m = sxy := by
    apply mul_left_cancel₀ hden; linear_combination (-sx) * hc - sxx * hm
  have key : (syy - 2 * c' * sy - 2 * m' * sxy + n * c' ^ 2 + 2 * c' * m' * sx + m' ^ 2 * sxx) -
      (syy - 2 * c * sy - 2 * m * sxy + n * c ^ 2 + 2 * c * m * sx + m ^ 2 * sxx) =
      n * (c' - c) ^ 2 + 2 * (c' - c) * (m' - m) * sx + (m' - m) ^ 2 * sxx := by
    rw [← e1, ← e2]; ring
  refine ⟨by linarith, fun heq => ?_⟩
  have hz : n * (c' - c) ^ 2 + 2 * (c' - c) * (m' - m) * sx + (m' - m) ^ 2 * sxx = 0 := by linarith
  have hpos : 0 < n * sxx - sx * sx := lt_of_le_of_ne (by linarith) (fun h => hden (by linarith))
  have hm0 : (m' - m) ^ 2 * (n * sxx - sx * sx) = 0 := by
    have h1 : (n * (c' - c) + (m' - m) * sx) ^ 2 + (m' - m) ^ 2 * (n * sxx - sx * sx) = 0 := by
      linear_combination n * hz
    have h2 : 0 ≤ (n * (c' - c) + (m' - m) * sx) ^ 2 := sq_nonneg _
    have h3 : 0 ≤ (m' - m) ^ 2 * (n * sxx - sx * sx) := mul_nonneg (sq_nonneg _) hpos.le
    linarith
  have hm1 : m' - m = 0 := by
    rcases mul_eq_zero.1 hm0 with h | h
    · exact pow_eq_zero_iff two_ne_zero |>.1 h
    · exact absurd h hpos.ne'
  refine ⟨?_, by linarith⟩
  rw [hm1] at hz
  have hn : n ≠ 0 := by
    rintro rfl
    have : 0 ≤ sx * sx := mul_self_nonneg _
    simp at hpos; linarith
  have h4 : (c' - c) ^ 2 = 0 := by
    apply mul_left_cancel₀ hn; linear_combination hz
  have := pow_eq_zero_iff two_ne_zero |>.1 h4
  linarith

/-- C39: with `pass_through_zero` the intercept is zero and the slope is the unique minimiser among the lines through the origin. -/
theorem C39_through_zero {cast : T →+* α} {x y : List T} {c m : α}
    (h : linearFitting cast x y true = .ok (c, Slope.fin m)) :
    c = 0 ∧ ∀ m', sse cast x y 0 m ≤ sse cast x y 0 m' ∧ (sse cast x y 0 m' = sse cast x y 0 m → m' = m) := by
  by_cases hl : y.length = x.length
  swap
  · unfold linearFitting at h; rw [if_pos hl] at h; cases h
  rw [linearFitting_eq hl] at h
  have hq0 : 0 ≤ dsum (fun a _ => ((0 : α) + 1 * cast a) ^ 2) x y := dsum_nonneg (fun _ _ => sq_nonneg _) x y
  rw [quad_expand cast hl] at hq0
  simp only [fitParams, if_true] at h
  by_cases hden : dsum (fun a _ => cast (a * a)) x y = 0
  · rw [if_pos hden] at h; simp at h
  rw [if_neg hden] at h
  simp only [Res.ok.injEq, Prod.mk.injEq, Slope.fin.injEq] at h
  refine ⟨h.1.symm, fun m' => ?_⟩
  have hm := h.2
  rw [sse_expand cast hl, sse_expand cast hl]
  generalize dsum (fun a _ => cast a) x y = sx at *
  generalize dsum (fun _ b => cast b) x y = sy at *
  generalize dsum (fun a b => cast (a * b)) x y = sxy at *
  generalize dsum (fun a _ => cast (a * a)) x y = sxx at *
  generalize dsum (fun _ b => cast b ^ 2) x y = syy at *
  have e1 : sxy = m * sxx := by rw [← hm]; field_simp
  have hpos : 0 < sxx := lt_of_le_of_ne (by linarith) (Ne.symm hden)
  have h3 : 0 ≤ (m' - m) ^ 2 * sxx := mul_nonneg (sq_nonneg _) hpos.le
  rw [e1]
  refine ⟨by linarith, fun heq => ?_⟩
  have h4 : (m' - m) ^ 2 * sxx = 0 := by linarith
  rcases mul_eq_zero.1 h4 with h5 | h5
  · have := pow_eq_zero_iff two_ne_zero |>.1 h5; linarith
  · exact absurd h5 hden

/-- C39: the slope is infinite exactly when no unique line exists: all abscissae coincide (or, through the origin, all vanish). -/
theorem C39_degenerate (cast : T →+* α) {x y : List T} (hl : x.length = y.length) :
    (linearFitting cast x y false = .ok (0, Slope.inf) ↔ ∀ a ∈ x, ∀ b ∈ x, cast a = cast b) ∧
    (linearFitting cast x y true = .ok (0, Slope.inf) ↔ ∀ a ∈ x, cast a = 0) := by
  have hl := hl.symm
  constructor
  · rw [linearFitting_eq hl]
    simp only [fitParams, Bool.false_eq_true, if_false]
    have hi : ((if dsum (fun a _ => cast a) x y * dsum (fun a _ => cast a) x y - (x.length : α) * dsum (fun a _ => cast (a * a)) x y = 0
        then ((0 : α), Slope.inf) else ((dsum (fun a _ => cast a) x y * dsum (fun a b => cast (a * b)) x y -
          dsum (fun a _ => cast (a * a)) x y * dsum (fun _ b => cast b) x y) /
          (dsum (fun a _ => cast a) x y * dsum (fun a _ => cast a) x y - (x.length : α) * dsum (fun a _ => cast (a * a)) x y),
          Slope.fin ((dsum (fun a _ => cast a) x y * dsum (fun _ b => cast b) x y - (x.length : α) * dsum (fun a b => cast (a * b)) x y) /
          (dsum (fun a _ => cast a) x y * dsum (fun a _ => cast a) x y - (x.length : α) * dsum (fun a _ => cast (a * a)) x y)))) = (0, Slope.inf)) ↔
        dsum (fun a _ => cast a) x y * dsum (fun a _ => cast a) x y - (x.length : α) * dsum (fun a _ => cast (a * a)) x y = 0 := by
      split <;> simp_all
    rw [Res.ok.injEq, hi]
    constructor
    · intro h0 a ha b hb
      have hn : (x.length : α) ≠ 0 := by
        have : 0 < x.length := List.length_pos_of_mem ha
        exact_mod_cast this.ne'
      have hq := quad_expand cast hl (- dsum (fun a _ => cast a) x y) (x.length : α)
      have hz : dsum (fun a _ => (-dsum (fun a _ => cast a) x y + (x.length : α) * cast a) ^ 2) x y = 0 := by
        rw [hq]; linear_combination (-(x.length : α)) * h0
      have h1 := dsum_sq_eq_zero (fun a => -dsum (fun a _ => cast a) x y + (x.length : α) * cast a) hl hz
      have h2 := h1 a ha
      have h3 := h1 b hb
      apply mul_left_cancel₀ hn
      linear_combination h2 - h3
    · intro h
      rcases x with _ | ⟨a, x⟩
      · simp [dsum]
      · obtain ⟨h1, h2⟩ := dsum_const cast (a := cast a) hl (fun b hb => h b hb a List.mem_cons_self)
        rw [h1, h2]; ring
  · rw [linearFitting_eq hl]
    simp only [fitParams, if_true]
    have hi : ((if dsum (fun a _ => cast (a * a)) x y = 0 then ((0 : α), Slope.inf) else
        (0, Slope.fin (dsum (fun a b => cast (a * b)) x y / dsum (fun a _ => cast (a * a)) x y))) = (0, Slope.inf)) ↔
        dsum (fun a _ => cast (a * a)) x y = 0 := by
      split <;> simp_all
    rw [Res.ok.injEq, hi]
    constructor
    · intro h0
      refine dsum_sq_eq_zero (fun a => cast a) hl ?_
      rw [← h0]; congr 1; funext a b; rw [map_mul]; ring
    · intro h
      obtain ⟨_, h2⟩ := dsum_const cast (a := 0) hl h
      rw [h2]; simp

/-- the hypotheses are met: the data (0,1), (1,3), (2,5) over the integers are fitted by `1 + 2 x` -/
example : linearFitting (Int.castRingHom ℚ) [0, 1, 2] [1, 3, 5] false = .ok (1, Slope.fin 2) := by
  rw [linearFitting_eq (x := [0, 1, 2]) (y := [1, 3, 5]) rfl]
  norm_num [fitParams, dsum]

/-- through the origin, with a non-exact fit -/
example : linearFitting (Int.castRingHom ℚ) [1, 2] [1, 3] true = .ok (0, Slope.fin (7 / 5)) := by
  rw [linearFitting_eq (x := [1, 2]) (y := [1, 3]) rfl]
  norm_num [fitParams, dsum]

/-- a degenerate data set -/
example : linearFitting (Int.castRingHom ℚ) [2, 2] [1, 3] false = .ok (0, Slope.inf) :=
  (C39_degenerate (Int.castRingHom ℚ) (x := [2, 2]) (y := [1, 3]) rfl).1.2 (by
    intro a ha b hb
    simp only [List.mem_cons, List.not_mem_nil, or_false, or_self] at ha hb
    rw [ha, hb])

end Russell.Lab
