import Verif.Prelude
import Mathlib.Algebra.Order.Field.Basic
import Mathlib.Algebra.Order.BigOperators.Group.List
import Mathlib.Data.Real.Sqrt
import Mathlib.Order.WithBot
import Mathlib.Tactic.Linarith
import Mathlib.Tactic.Ring
import Mathlib.Tactic.FieldSimp

/-!
# Descriptive statistics (property C44)

Model of `Statistics` (/repo/russell_stat/src/statistics.rs).  The data are already converted to numbers of an ordered field; the square
root is a parameter.  `f64::INFINITY` is `⊤` of `WithTop α` and `f64::NEG_INFINITY` is `⊥` of `WithBot α`.
-/

namespace Russell.Stat

open Russell Res

/-- `Statistics` (/repo/russell_stat/src/statistics.rs:4-16) -/
structure Statistics (α : Type) where
  min : WithTop α
  max : WithBot α
  mean : α
  std_dev : α
  deriving DecidableEq

variable {α : Type} [Field α] [LinearOrder α]

/-- the loop (/repo/russell_stat/src/statistics.rs:69-84); the state is (min, max, corrector, variance) -/
def statLoop (mean : α) : List α → WithTop α → WithBot α → α → α → WithTop α × WithBot α × α × α
  | [], mn, mx, c, v => (mn, mx, c, v)
  | x :: l, mn, mx, c, v =>
    let mn := if (x : WithTop α) < mn then (x : WithTop α) else mn
    let mx := if (x : WithBot α) > mx then (x : WithBot α) else mx
    let diff := x - mean
    statLoop mean l mn mx (c + diff) (v + diff * diff)

/-- `Statistics::new` (/repo/russell_stat/src/statistics.rs:41-97) -/
def Statistics.new (sqrt : α → α) (x : List α) : Statistics α :=
  match x with
  | [] => { min := (0 : α), max := (0 : α), mean := 0, std_dev := 0 }
  | [a] => { min := a, max := a, mean := a, std_dev := 0 }
  | _ =>
    let sum := x.foldl (fun acc curr => acc + curr) 0
    let n := (x.length : α)
    let mean := sum / n
    let r := statLoop mean x ⊤ ⊥ 0 0
    let variance := (r.2.2.2 - r.2.2.1 * r.2.2.1 / n) / (n - 1)
    { min := r.1, max := r.2.1, mean, std_dev := sqrt variance }

variable [IsStrictOrderedRing α]

/-- sum of squared deviations from `m` -/
def sumSq (x : List α) (m : α) : α := (x.map fun t => (t - m) ^ 2).sum

omit [IsStrictOrderedRing α] in
theorem statLoop_min (mean : α) : ∀ (l : List α) (mn : WithTop α) (mx : WithBot α) (c v : α),
    ((statLoop mean l mn mx c v).1 = mn ∨ ∃ x ∈ l, (statLoop mean l mn mx c v).1 = x) ∧ (statLoop mean l mn mx c v).1 ≤ mn ∧
      ∀ x ∈ l, (statLoop mean l mn mx c v).1 ≤ x
  | [], mn, mx, c, v => ⟨Or.inl rfl, le_refl _, by simp⟩
  | a :: l, mn, mx, c, v => by
    rw [statLoop]
    obtain ⟨h1, h2, h3⟩ := statLoop_min mean l (if (a : WithTop α) < mn then (a : WithTop α) else mn)
      (if (a : WithBot α) > mx then (a : WithBot α) else mx) (c + (a - mean)) (v + (a - mean) * (a - mean))
    have hle : (if (a : WithTop α) < mn then (a : WithTop α) else mn) ≤ a ∧ (if (a : WithTop α) < mn then (a : WithTop α) else mn) ≤ mn := by
      split
      · rename_i h; exact ⟨le_refl _, h.le⟩
      · rename_i h; exact ⟨not_lt.1 h, le_refl _⟩
    refine ⟨?_, h2.trans hle.2, ?_⟩
    · rcases h1 with h1 | ⟨x, hx, h1⟩
      · rw [h1]
        split
        · right; exact ⟨a, List.mem_cons_self, rfl⟩
        · left; rfl
      · right; exact ⟨x, List.mem_cons_of_mem _ hx, h1⟩
    · intro x hx
      rcases List.mem_cons.1 hx with rfl | hx
      · exact h2.trans hle.1
      · exact h3 x hx

omit [IsStrictOrderedRing α] in
theorem statLoop_max (mean : α) : ∀ (l : List α) (mn : WithTop α) (mx : WithBot α) (c v : α),
    ((statLoop mean l mn mx c v).2.1 = mx ∨ ∃ x ∈ l, (statLoop mean l mn mx c v).2.1 = x) ∧ mx ≤ (statLoop mean l mn mx c v).2.1 ∧
      ∀ x ∈ l, (x : WithBot α) ≤ (statLoop mean l mn mx c v).2.1
  | [], mn, mx, c, v => ⟨Or.inl rfl, le_refl _, by simp⟩
  | a :: l, mn, mx, c, v => by
    rw [statLoop]
    obtain ⟨h1, h2, h3⟩ := statLoop_max mean l (if (a : WithTop α) < mn then (a : WithTop α) else mn)
      (if (a : WithBot α) > mx then (a : WithBot α) else mx) (c + (a - mean)) (v + (a - mean) * (a - mean))
    have hle : (a : WithBot α) ≤ (if (a : WithBot α) > mx then (a : WithBot α) else mx) ∧ mx ≤ (if (a : WithBot α) > mx then (a : WithBot α) else mx) := by
      split
      · rename_i h; exact ⟨le_refl _, (gt_iff_lt.1 h).le⟩
      · rename_i h; exact ⟨not_lt.1 h, le_refl _⟩
    refine ⟨?_, hle.2.trans h2, ?_⟩
    · rcases h1 with h1 | ⟨x, hx, h1⟩
      · rw [h1]
        split
        · right; exact ⟨a, List.mem_cons_self, rfl⟩
        · left; rfl
      · right; exact ⟨x, List.mem_cons_of_mem _ hx, h1⟩
    · intro x hx
      rcases List.mem_cons.1 hx with rfl | hx
      · exact hle.1.trans h2
      · exact h3 x hx

omit [IsStrictOrderedRing α] in
theorem statLoop_sums (mean : α) : ∀ (l : List α) (mn : WithTop α) (mx : WithBot α) (c v : α),
    (statLoop mean l mn mx c v).2.2 = (c + l.sum - l.length * mean, v + sumSq l mean)
  | [], mn, mx, c, v => by simp [statLoop, sumSq]
  | a :: l, mn, mx, c, v => by
    rw [statLoop]
    rw [statLoop_sums mean l]
    unfold sumSq
    simp only [List.map_cons, List.sum_cons, List.length_cons]
    push_cast
    refine Prod.ext ?_ ?_ <;> dsimp only <;> ring

omit [LinearOrder α] [IsStrictOrderedRing α] in
theorem foldl_sum (l : List α) : ∀ s : α, l.foldl (fun acc curr => acc + curr) s = s + l.sum := by
  induction l with
  | nil => simp
  | cons a l ih => intro s; rw [List.foldl_cons, ih, List.sum_cons, add_assoc]

/-- C44: for two or more data, `min` and `max` are the extremes, `mean` the average and `std_dev` the square root of the unbiased sample
variance: the correcting term vanishes in exact arithmetic. -/
theorem C44_statistics (sqrt : α → α) {x : List α} (hx : 2 ≤ x.length) :
    (∃ m ∈ x, (Statistics.new sqrt x).min = m ∧ ∀ y ∈ x, m ≤ y) ∧ (∃ m ∈ x, (Statistics.new sqrt x).max = m ∧ ∀ y ∈ x, y ≤ m) ∧
    (Statistics.new sqrt x).mean = x.sum / x.length ∧
    (Statistics.new sqrt x).std_dev = sqrt (sumSq x (x.sum / x.length) / (x.length - 1)) := by
  match x, hx with
  | a :: b :: l, hx =>
    set x := a :: b :: l with hxdef
    have hn : (x.length : α) ≠ 0 := by exact_mod_cast (by omega : x.length ≠ 0)
    have hmean : x.foldl (fun acc curr => acc + curr) 0 / (x.length : α) = x.sum / x.length := by rw [foldl_sum, zero_add]
    have e : Statistics.new sqrt x = ⟨(statLoop (x.sum / x.length) x ⊤ ⊥ 0 0).1, (statLoop (x.sum / x.length) x ⊤ ⊥ 0 0).2.1,
        x.sum / x.length, sqrt (sumSq x (x.sum / x.length) / (x.length - 1))⟩ := by
      rw [hxdef, Statistics.new, ← hxdef]
      · rw [hmean, statLoop_sums]
        congr 2
        rw [mul_div_cancel₀ _ hn]
        ring
      · simp
      · simp
    rw [e]
    obtain ⟨h1, _, h3⟩ := statLoop_min (x.sum / x.length) x ⊤ ⊥ 0 0
    obtain ⟨g1, _, g3⟩ := statLoop_max (x.sum / x.length) x ⊤ ⊥ 0 0
    refine ⟨?_, ?_, rfl, rfl⟩
    · rcases h1 with h1 | ⟨m, hm, h1⟩
      · have := h3 a List.mem_cons_self
        rw [h1] at this
        exact absurd this (by simp)
      · refine ⟨m, hm, h1, fun y hy => ?_⟩
        have := h3 y hy
        rw [h1] at this
        exact WithTop.coe_le_coe.1 this
    · rcases g1 with h1 | ⟨m, hm, h1⟩
      · have := g3 a List.mem_cons_self
        rw [h1] at this
        exact absurd this (by simp)
      · refine ⟨m, hm, h1, fun y hy => ?_⟩
        have := g3 y hy
        rw [h1] at this
        exact WithBot.coe_le_coe.1 this

omit [IsStrictOrderedRing α] in
/-- C44: the cases of no datum and of a single one -/
theorem C44_small (sqrt : α → α) (a : α) : Statistics.new sqrt ([] : List α) = ⟨((0 : α) : WithTop α), ((0 : α) : WithBot α), 0, 0⟩ ∧
    Statistics.new sqrt [a] = ⟨(a : WithTop α), (a : WithBot α), a, 0⟩ := ⟨rfl, rfl⟩

theorem sumSq_nonneg (x : List α) (m : α) : 0 ≤ sumSq x m := by
  unfold sumSq
  apply List.sum_nonneg
  intro t ht
  obtain ⟨y, _, rfl⟩ := List.mem_map.1 ht
  exact sq_nonneg _

/-- C44: the variance under the square root is not negative, so that no NaN arises, and the mean lies between the extremes. -/
theorem C44_variance_nonneg {x : List α} (hx : 2 ≤ x.length) : 0 ≤ sumSq x (x.sum / x.length) / (x.length - 1) := by
  apply div_nonneg (sumSq_nonneg _ _)
  have : (1 : α) ≤ x.length := by exact_mod_cast (by omega : 1 ≤ x.length)
  linarith

theorem sum_bounds {x : List α} {lo hi : α} (h : ∀ y ∈ x, lo ≤ y ∧ y ≤ hi) : x.length * lo ≤ x.sum ∧ x.sum ≤ x.length * hi := by
  induction x with
  | nil => simp
  | cons a l ih =>
    obtain ⟨h1, h2⟩ := ih (fun y hy => h y (List.mem_cons_of_mem _ hy))
    have := h a List.mem_cons_self
    rw [List.sum_cons, List.length_cons]
    push_cast
    constructor <;> linarith

/-- C44: the mean lies between any bounds of the data. -/
theorem C44_mean_between (sqrt : α → α) {x : List α} (hx : 2 ≤ x.length) {lo hi : α} (h : ∀ y ∈ x, lo ≤ y ∧ y ≤ hi) :
    lo ≤ (Statistics.new sqrt x).mean ∧ (Statistics.new sqrt x).mean ≤ hi := by
  rw [(C44_statistics sqrt hx).2.2.1]
  have hn : (0 : α) < x.length := by exact_mod_cast (by omega : 0 < x.length)
  obtain ⟨h1, h2⟩ := sum_bounds h
  rw [le_div_iff₀ hn, div_le_iff₀ hn]
  constructor <;> linarith

theorem sumSq_eq_zero {x : List α} {m : α} (h : sumSq x m = 0) : ∀ y ∈ x, y = m := by
  induction x with
  | nil => simp
  | cons a l ih =>
    unfold sumSq at h
    rw [List.map_cons, List.sum_cons] at h
    have h1 := sq_nonneg (a - m)
    have h2 := sumSq_nonneg l m
    unfold sumSq at h2
    have ha : (a - m) ^ 2 = 0 := by linarith
    have hl : sumSq l m = 0 := by unfold sumSq; linarith
    intro y hy
    rcases List.mem_cons.1 hy with rfl | hy
    · exact sub_eq_zero.1 (pow_eq_zero_iff two_ne_zero |>.1 ha)
    · exact ih hl y hy

/-- C44: over the reals the standard deviation is not negative, its square is the variance, and it vanishes only for equal data. -/
theorem C44_std_dev {x : List ℝ} (hx : 2 ≤ x.length) :
    0 ≤ (Statistics.new Real.sqrt x).std_dev ∧
    (Statistics.new Real.sqrt x).std_dev ^ 2 = sumSq x (x.sum / x.length) / (x.length - 1) ∧
    ((Statistics.new Real.sqrt x).std_dev = 0 ↔ ∀ y ∈ x, ∀ z ∈ x, y = z) := by
  have hv := C44_variance_nonneg hx
  rw [(C44_statistics Real.sqrt hx).2.2.2]
  have h1 : (0 : ℝ) < x.length - 1 := by
    have : (2 : ℝ) ≤ x.length := by exact_mod_cast hx
    linarith
  refine ⟨Real.sqrt_nonneg _, Real.sq_sqrt hv, ?_⟩
  rw [Real.sqrt_eq_zero hv, div_eq_zero_iff, or_iff_left h1.ne']
  constructor
  · intro h y hy z hz
    rw [sumSq_eq_zero h y hy, sumSq_eq_zero h z hz]
  · intro h
    match x, hx with
    | a :: l, hx =>
      have hall : ∀ y ∈ a :: l, y = a := fun y hy => h y hy a List.mem_cons_self
      have hmean : (a :: l).sum / ((a :: l).length : ℝ) = a := by
        obtain ⟨b1, b2⟩ := sum_bounds (x := a :: l) (lo := a) (hi := a) (fun y hy => ⟨(hall y hy).ge, (hall y hy).le⟩)
        have hne : (((a :: l).length : Nat) : ℝ) ≠ 0 := by rw [List.length_cons]; positivity
        rw [le_antisymm b2 b1, mul_div_cancel_left₀ _ hne]
      rw [hmean]
      unfold sumSq
      apply List.sum_eq_zero
      intro t ht
      obtain ⟨y, hy, rfl⟩ := List.mem_map.1 ht
      rw [hall y hy, sub_self, zero_pow two_ne_zero]

example : Statistics.new (fun v : ℚ => v) [1, 2, 6] = { min := (1 : ℚ), max := (6 : ℚ), mean := 3, std_dev := 7 } := by decide +kernel

end Russell.Stat
