import Verif.Prelude
import Mathlib.Order.Defs.LinearOrder
import Mathlib.Data.Nat.Find
import Mathlib.Tactic.Push
import Mathlib.Tactic.ByContra
import Mathlib.Order.Basic
import Mathlib.Algebra.Order.Group.Int

/-!
# Model of `find_min_max` and `find_valleys_and_peaks` (russell_lab/src/base) and C21, C22
-/

namespace Russell.Lab

open Russell Russell.Res

set_option linter.unusedSectionVars false

variable {α : Type} [LinearOrder α]

/-- `usize::MAX` -/
def usizeMax : Nat := 18446744073709551615

/-- the update of the two indices (/repo/russell_lab/src/base/find_min_max.rs:49-53,
find_valleys_and_peaks.rs:102-106) -/
def minMaxStep (x : List α) (i : Nat) (s : Nat × Nat) : Res (Nat × Nat) := do
  let xi ← vget x i
  let xmin ← vget x s.1
  if xi < xmin then ok (i, s.2)
  else do
    let xmax ← vget x s.2
    if xi > xmax then ok (s.1, i) else ok s

/-- `find_min_max` (/repo/russell_lab/src/base/find_min_max.rs:37-58) -/
def findMinMax (x : List α) : Res (Nat × Nat) :=
  match x.length with
  | 0 => ok (usizeMax, usizeMax)
  | 1 => ok (0, 0)
  | n => forRange 1 n (0, 0) fun i s => minMaxStep x i s

/-- the state of the loop of `find_valleys_and_peaks` -/
structure VpState where
  valleys : List Nat
  peaks : List Nat
  mm : Nat × Nat
  down : Bool
  up : Bool
  deriving DecidableEq, Repr

/-- the direction logic (/repo/russell_lab/src/base/find_valleys_and_peaks.rs:80-101) -/
def vpStep (x : List α) (i : Nat) (s : VpState) : Res VpState := do
  let xi ← vget x i
  let xp ← vget x (i - 1)
  if s.down then
    if xi > xp then ok { s with down := false, up := true, valleys := s.valleys ++ [i - 1] } else ok s
  else if s.up then
    if xi < xp then ok { s with down := true, up := false, peaks := s.peaks ++ [i - 1] } else ok s
  else
    if xi < xp then ok { s with down := true }
    else if xi > xp then ok { s with up := true }
    else ok s

/-- `find_valleys_and_peaks` (/repo/russell_lab/src/base/find_valleys_and_peaks.rs:49-111) -/
def findValleysAndPeaks (x : List α) : Res (List Nat × List Nat × Nat × Nat) :=
  match x.length with
  | 0 => do let mm ← findMinMax x; ok ([], [], mm)
  | 1 => do let mm ← findMinMax x; ok ([], [], mm)
  | 2 => do let mm ← findMinMax x; ok ([], [], mm)
  | 3 => do
    let mm ← findMinMax x
    let x0 ← vget x 0
    let x1 ← vget x 1
    let x2 ← vget x 2
    if x0 > x1 ∧ x1 < x2 then ok ([1], [], mm)
    else if x0 < x1 ∧ x1 > x2 then ok ([], [1], mm)
    else ok ([], [], mm)
  | n => do
    let s ← forRange 1 n { valleys := [], peaks := [], mm := (0, 0), down := false, up := false } fun i s => do
      let s ← vpStep x i s
      let mm ← minMaxStep x i s.mm
      ok { s with mm := mm }
    ok (s.valleys, s.peaks, s.mm)

/-! ## C21 -/

/-- Specification: `i` is the first index at which `x` is least with respect to the relation `lt`. -/
def IsFirst (lt : α → α → Prop) (x : List α) (i : Nat) : Prop :=
  ∃ v, x[i]? = some v ∧ (∀ (k : Nat) w, x[k]? = some w → ¬ lt w v) ∧ (∀ k w, k < i → x[k]? = some w → lt v w)

/-- the same restricted to the first `n` entries -/
def FirstUpTo (lt : α → α → Prop) (x : List α) (n i : Nat) : Prop :=
  ∃ v, x[i]? = some v ∧ i < n ∧ (∀ k w, k < n → x[k]? = some w → ¬ lt w v) ∧ (∀ k w, k < i → x[k]? = some w → lt v w)

theorem FirstUpTo.all {lt : α → α → Prop} {x : List α} {i : Nat} (h : FirstUpTo lt x x.length i) : IsFirst lt x i := by
  obtain ⟨v, h1, -, h2, h3⟩ := h
  exact ⟨v, h1, fun k w hk => h2 k w (List.getElem?_eq_some_iff.1 hk).1 hk, h3⟩

theorem minMaxStep_spec {x : List α} {i : Nat} {s : Nat × Nat} (hi : i < x.length) (h1 : FirstUpTo (· < ·) x i s.1)
    (h2 : FirstUpTo (· > ·) x i s.2) :
    ∃ s', minMaxStep x i s = ok s' ∧ FirstUpTo (· < ·) x (i + 1) s'.1 ∧ FirstUpTo (· > ·) x (i + 1) s'.2 := by
  obtain ⟨v, a1, a2, a3, a4⟩ := h1
  obtain ⟨w, b1, b2, b3, b4⟩ := h2
  have hx : x[i]? = some x[i] := List.getElem?_eq_getElem hi
  have hvw : ¬ w < v := a3 s.2 w b2 b1
  have hb := b3 s.1 v a2 a1
  simp only [minMaxStep, vget_of hx, vget_of a1, vget_of b1, ok_bind]
  have hcase : ∀ k, k < i + 1 → k < i ∨ k = i := fun k hk => by omega
  by_cases hlt : x[i] < v
  · rw [if_pos hlt]
    refine ⟨_, rfl, ⟨x[i], hx, by simp, ?_, ?_⟩, ⟨w, b1, by simp only; omega, ?_, b4⟩⟩
    · intro k u hk hu
      rcases hcase k hk with h | rfl
      · have := a3 k u h hu
        exact fun hc => this (lt_trans hc hlt)
      · rw [hx] at hu; cases hu; exact lt_irrefl _
    · intro k u hk hu
      exact lt_of_lt_of_le hlt (not_lt.1 (a3 k u hk hu))
    · intro k u hk hu
      rcases hcase k hk with h | rfl
      · exact b3 k u h hu
      · rw [hx] at hu; cases hu
        exact fun hc => absurd (lt_trans hc hlt) hvw
  · rw [if_neg hlt]
    have hmin : FirstUpTo (· < ·) x (i + 1) s.1 := by
      refine ⟨v, a1, by omega, ?_, a4⟩
      intro k u hk hu
      rcases hcase k hk with h | rfl
      · exact a3 k u h hu
      · rw [hx] at hu; cases hu; exact hlt
    by_cases hgt : x[i] > w
    · rw [if_pos hgt]
      refine ⟨_, rfl, hmin, x[i], hx, by simp, ?_, ?_⟩
      · intro k u hk hu
        rcases hcase k hk with h | rfl
        · have := b3 k u h hu
          exact fun hc => this (lt_trans hgt hc)
        · rw [hx] at hu; cases hu; exact lt_irrefl _
      · intro k u hk hu
        have := b3 k u hk hu
        exact lt_of_le_of_lt (not_lt.1 this) hgt
    · rw [if_neg hgt]
      refine ⟨_, rfl, hmin, w, b1, by omega, ?_, b4⟩
      intro k u hk hu
      rcases hcase k hk with h | rfl
      · exact b3 k u h hu
      · rw [hx] at hu; cases hu; exact hgt

theorem first_one {lt : α → α → Prop} (hirr : ∀ a, ¬ lt a a) {x : List α} (h : 1 ≤ x.length) : FirstUpTo lt x 1 0 := by
  refine ⟨x[0], List.getElem?_eq_getElem h, by omega, ?_, fun k w hk => by omega⟩
  intro k w hk hw
  rw [show k = 0 by omega, List.getElem?_eq_getElem h] at hw
  cases hw
  exact hirr _

/-- C21: `find_min_max` returns the first minimum and the first maximum. -/
theorem C21_find_min_max (x : List α) :
    (x = [] → findMinMax x = ok (usizeMax, usizeMax)) ∧
    (x ≠ [] → ∃ i j, findMinMax x = ok (i, j) ∧ IsFirst (· < ·) x i ∧ IsFirst (· > ·) x j) := by
  constructor
  · rintro rfl; rfl
  · intro hne
    have hlen : 1 ≤ x.length := List.length_pos_iff.2 hne
    have h1 := first_one (lt := (· < · : α → α → Prop)) lt_irrefl hlen
    have h2 := first_one (lt := (· > · : α → α → Prop)) lt_irrefl hlen
    by_cases hl : x.length = 1
    · refine ⟨0, 0, ?_, FirstUpTo.all (by rw [hl]; exact h1), FirstUpTo.all (by rw [hl]; exact h2)⟩
      simp only [findMinMax, hl]
    · obtain ⟨s, e, k1, k2⟩ := forRange_spec (f := fun i s => minMaxStep x i s)
        (fun i s => FirstUpTo (· < ·) x i s.1 ∧ FirstUpTo (· > ·) x i s.2) hlen (s := (0, 0)) ⟨h1, h2⟩
        (fun k s _ hk h => minMaxStep_spec hk h.1 h.2)
      refine ⟨s.1, s.2, ?_, k1.all, k2.all⟩
      unfold findMinMax
      split
      · omega
      · omega
      · exact e

example : findMinMax [(3 : Int), 1, 4, 1, 4] = ok (1, 2) := rfl

/-! ## C22 -/

/-- Specification: `i` is the last index of a plateau `a..i` that lies strictly below (for `lt = <`) or above (`lt = >`) the
two neighbouring values. -/
def Turn (lt : α → α → Prop) (x : List α) (i : Nat) : Prop :=
  ∃ a, 0 < a ∧ a ≤ i ∧ (∀ k, a ≤ k → k ≤ i → x[k]? = x[i]?) ∧
    ∃ u v w, x[a - 1]? = some u ∧ x[i]? = some v ∧ x[i + 1]? = some w ∧ lt v u ∧ lt v w

/-- a valley: `Turn (<)`; a peak: `Turn (>)` -/
def Valley (x : List α) : Nat → Prop := Turn (· < ·) x
def Peak (x : List α) : Nat → Prop := Turn (· > ·) x

/-- the last change before index `i` went in the direction `lt` -/
def Moving (lt : α → α → Prop) (x : List α) (i : Nat) : Prop :=
  ∃ a, 0 < a ∧ a ≤ i ∧ (∀ k, a ≤ k → k ≤ i → x[k]? = x[i]?) ∧
    ∃ u v, x[a - 1]? = some u ∧ x[i]? = some v ∧ lt v u

theorem turn_iff {lt : α → α → Prop} {x : List α} {i : Nat} {v w : α} (hv : x[i]? = some v) (hw : x[i + 1]? = some w) :
    Turn lt x i ↔ Moving lt x i ∧ lt v w := by
  constructor
  · rintro ⟨a, h1, h2, h3, u, v', w', e1, e2, e3, l1, l2⟩
    rw [hv] at e2; cases e2
    rw [hw] at e3; cases e3
    exact ⟨⟨a, h1, h2, h3, u, v, e1, hv, l1⟩, l2⟩
  · rintro ⟨⟨a, h1, h2, h3, u, v', e1, e2, l1⟩, l2⟩
    rw [hv] at e2; cases e2
    exact ⟨a, h1, h2, h3, u, v, w, e1, hv, hw, l1, l2⟩

theorem moving_succ {lt : α → α → Prop} {x : List α} {i : Nat} {v w : α} (hv : x[i]? = some v)
    (hw : x[i + 1]? = some w) : Moving lt x (i + 1) ↔ lt w v ∨ (w = v ∧ Moving lt x i) := by
  constructor
  · rintro ⟨a, h1, h2, h3, u, w', e1, e2, l1⟩
    rw [hw] at e2; cases e2
    by_cases ha : a = i + 1
    · subst ha
      rw [Nat.add_sub_cancel, hv] at e1; cases e1
      exact Or.inl l1
    · have hi := h3 i (by omega) (by omega)
      rw [hv, hw] at hi
      have hvw := Option.some.inj hi
      subst hvw
      refine Or.inr ⟨rfl, a, h1, by omega, ?_, u, v, e1, hv, l1⟩
      intro k hk hk'
      rw [h3 k hk (by omega), hw, hv]
  · rintro (h | ⟨rfl, a, h1, h2, h3, u, v', e1, e2, l1⟩)
    · refine ⟨i + 1, by omega, le_refl _, ?_, v, w, by simpa using hv, hw, h⟩
      intro k hk hk'
      rw [show k = i + 1 by omega]
    · rw [hv] at e2; cases e2
      refine ⟨a, h1, by omega, ?_, u, w, e1, hw, l1⟩
      intro k hk hk'
      by_cases hki : k = i + 1
      · rw [hki]
      · rw [h3 k hk (by omega), hv, hw]

theorem not_moving_zero {lt : α → α → Prop} {x : List α} : ¬ Moving lt x 0 := by
  rintro ⟨a, h1, h2, -⟩; omega

open Classical in
/-- the loop invariant of the direction logic -/
structure VpInv (x : List α) (i : Nat) (s : VpState) : Prop where
  down : s.down = true ↔ Moving (· < ·) x (i - 1)
  up : s.up = true ↔ Moving (· > ·) x (i - 1)
  excl : ¬ (s.down = true ∧ s.up = true)
  valleys : s.valleys = (List.range (i - 1)).filter fun k => Valley x k
  peaks : s.peaks = (List.range (i - 1)).filter fun k => Peak x k
  min : FirstUpTo (· < ·) x i s.mm.1
  max : FirstUpTo (· > ·) x i s.mm.2

open Classical in
theorem vpStep_spec {x : List α} {i : Nat} {s : VpState} (hi0 : 1 ≤ i) (hi : i < x.length) (h : VpInv x i s) :
    ∃ s', (do
      let s ← vpStep x i s
      let mm ← minMaxStep x i s.mm
      ok { s with mm := mm }) = ok s' ∧ VpInv x (i + 1) s' := by
  obtain ⟨i, rfl⟩ := Nat.exists_eq_add_of_le' hi0
  have hv : x[i]? = some x[i] := List.getElem?_eq_getElem (by omega)
  have hw : x[i + 1]? = some x[i + 1] := List.getElem?_eq_getElem hi
  obtain ⟨d, u, ex, vs, ps, mn, mx⟩ := h
  rw [Nat.add_sub_cancel] at d u vs ps
  have key : ∃ s1, vpStep x (i + 1) s = ok s1 ∧ s1.mm = s.mm ∧ (s1.down = true ↔ Moving (· < ·) x (i + 1)) ∧
      (s1.up = true ↔ Moving (· > ·) x (i + 1)) ∧ ¬ (s1.down = true ∧ s1.up = true) ∧
      (s1.valleys = (List.range (i + 1)).filter fun k => Valley x k) ∧
      (s1.peaks = (List.range (i + 1)).filter fun k => Peak x k) := by
    have hd := moving_succ (lt := (· < · : α → α → Prop)) hv hw
    have hu := moving_succ (lt := (· > · : α → α → Prop)) hv hw
    have tv : Valley x i ↔ _ := turn_iff (lt := (· < · : α → α → Prop)) hv hw
    have tp : Peak x i ↔ _ := turn_iff (lt := (· > · : α → α → Prop)) hv hw
    simp only [vpStep, vget_of hw, Nat.add_sub_cancel, vget_of hv, ok_bind, List.range_succ, List.filter_append, ← vs, ← ps,
      List.filter_cons, List.filter_nil, decide_eq_true_eq]
    rcases lt_trichotomy x[i + 1] x[i] with hlt | heq | hgt
    · have n1 : ¬ x[i + 1] > x[i] := not_lt.2 (le_of_lt hlt)
      have n2 : ¬ x[i + 1] = x[i] := ne_of_lt hlt
      have n3 : ¬ x[i] < x[i + 1] := n1
      simp only [gt_iff_lt, if_neg n3, if_pos hlt]
      rw [hd, hu, tv, tp]
      cases hdn : s.down <;> cases hup : s.up <;> simp_all
    · have n1 : ¬ x[i + 1] > x[i] := not_lt.2 (le_of_eq heq)
      have n2 : ¬ x[i + 1] < x[i] := not_lt.2 (le_of_eq heq.symm)
      simp only [gt_iff_lt, if_neg (show ¬ x[i] < x[i + 1] from n1), if_neg n2]
      rw [hd, hu, tv, tp]
      cases hdn : s.down <;> cases hup : s.up <;> simp_all
    · have n1 : ¬ x[i + 1] < x[i] := not_lt.2 (le_of_lt hgt)
      have n2 : ¬ x[i + 1] = x[i] := ne_of_gt hgt
      simp only [gt_iff_lt, if_neg n1, if_pos hgt]
      rw [hd, hu, tv, tp]
      cases hdn : s.down <;> cases hup : s.up <;> simp_all
  obtain ⟨s1, e1, hmm, k1, k2, k3, k4, k5⟩ := key
  obtain ⟨mm, e2, m1, m2⟩ := minMaxStep_spec (s := s1.mm) hi (by rw [hmm]; exact mn) (by rw [hmm]; exact mx)
  refine ⟨{ s1 with mm := mm }, by rw [e1, ok_bind, e2, ok_bind], k1, k2, k3, k4, k5, m1, m2⟩

theorem turn_range {lt : α → α → Prop} {x : List α} {i : Nat} (h : Turn lt x i) : 1 ≤ i ∧ i + 1 < x.length := by
  obtain ⟨a, h1, h2, -, u, v, w, -, -, e, -⟩ := h
  exact ⟨by omega, (List.getElem?_eq_some_iff.1 e).1⟩

open Classical in
/-- C22: the valleys and peaks returned are exactly the last indices of the plateaus strictly below (above) both neighbours, in
increasing order; the two global indices are the first minimum and the first maximum. -/
theorem C22_valleys_and_peaks (x : List α) (hne : x ≠ []) :
    ∃ vs ps i j, findValleysAndPeaks x = ok (vs, ps, i, j) ∧
      (∀ k, k ∈ vs ↔ Valley x k) ∧ (∀ k, k ∈ ps ↔ Peak x k) ∧ vs.Pairwise (· < ·) ∧ ps.Pairwise (· < ·) ∧
      IsFirst (· < ·) x i ∧ IsFirst (· > ·) x j := by
  obtain ⟨i, j, hmm, hmin, hmax⟩ := (C21_find_min_max x).2 hne
  have hlen : 1 ≤ x.length := List.length_pos_iff.2 hne
  have small : x.length ≤ 2 → (∀ k, k ∈ ([] : List Nat) ↔ Valley x k) ∧ (∀ k, k ∈ ([] : List Nat) ↔ Peak x k) := by
    intro h2
    constructor
    · intro k
      refine ⟨by simp, fun h => ?_⟩
      have := turn_range h; omega
    · intro k
      refine ⟨by simp, fun h => ?_⟩
      have := turn_range h; omega
  by_cases h1 : x.length = 1
  · refine ⟨[], [], i, j, ?_, (small (by omega)).1, (small (by omega)).2, List.Pairwise.nil, List.Pairwise.nil, hmin, hmax⟩
    simp only [findValleysAndPeaks, h1, hmm, ok_bind]
  by_cases h2 : x.length = 2
  · refine ⟨[], [], i, j, ?_, (small (by omega)).1, (small (by omega)).2, List.Pairwise.nil, List.Pairwise.nil, hmin, hmax⟩
    simp only [findValleysAndPeaks, h2, hmm, ok_bind]
  by_cases h3 : x.length = 3
  · have e0 : x[0]? = some x[0] := List.getElem?_eq_getElem (by omega)
    have e1 : x[1]? = some x[1] := List.getElem?_eq_getElem (by omega)
    have e2 : x[2]? = some x[2] := List.getElem?_eq_getElem (by omega)
    have only1 : ∀ {lt : α → α → Prop} k, Turn lt x k → k = 1 := fun k h => by have := turn_range h; omega
    have t1 : ∀ {lt : α → α → Prop}, (Turn lt x 1 ↔ lt x[1] x[0] ∧ lt x[1] x[2]) := by
      intro lt
      rw [turn_iff e1 e2, moving_succ e0 e1]
      constructor
      · rintro ⟨h | ⟨-, h⟩, h'⟩
        · exact ⟨h, h'⟩
        · exact absurd h not_moving_zero
      · rintro ⟨h, h'⟩; exact ⟨Or.inl h, h'⟩
    have tv := t1 (lt := (· < ·))
    have tp := t1 (lt := (· > ·))
    have hv : ∀ k, Valley x k ↔ k = 1 ∧ x[1] < x[0] ∧ x[1] < x[2] := by
      intro k
      refine ⟨fun h => ⟨only1 k h, ?_⟩, ?_⟩
      · have := only1 k h; subst this; exact tv.1 h
      · rintro ⟨rfl, h⟩; exact tv.2 h
    have hp : ∀ k, Peak x k ↔ k = 1 ∧ x[1] > x[0] ∧ x[1] > x[2] := by
      intro k
      refine ⟨fun h => ⟨only1 k h, ?_⟩, ?_⟩
      · have := only1 k h; subst this; exact tp.1 h
      · rintro ⟨rfl, h⟩; exact tp.2 h
    simp only [findValleysAndPeaks, h3, hmm, ok_bind, vget_of e0, vget_of e1, vget_of e2]
    by_cases c1 : x[0] > x[1] ∧ x[1] < x[2]
    · rw [if_pos c1]
      refine ⟨_, _, _, _, rfl, ?_, ?_, by simp, by simp, hmin, hmax⟩
      · intro k; rw [hv]; simp only [List.mem_singleton]; exact ⟨fun h => ⟨h, c1⟩, fun h => h.1⟩
      · intro k; rw [hp]; simp only [List.not_mem_nil, false_iff]; rintro ⟨-, h, -⟩; exact lt_asymm h c1.1
    · rw [if_neg c1]
      by_cases c2 : x[0] < x[1] ∧ x[1] > x[2]
      · rw [if_pos c2]
        refine ⟨_, _, _, _, rfl, ?_, ?_, by simp, by simp, hmin, hmax⟩
        · intro k; rw [hv]; simp only [List.not_mem_nil, false_iff]; rintro ⟨-, h, -⟩; exact lt_asymm h c2.1
        · intro k; rw [hp]; simp only [List.mem_singleton]; exact ⟨fun h => ⟨h, c2⟩, fun h => h.1⟩
      · rw [if_neg c2]
        refine ⟨_, _, _, _, rfl, ?_, ?_, by simp, by simp, hmin, hmax⟩
        · intro k; rw [hv]; simp only [List.not_mem_nil, false_iff]; rintro ⟨-, h⟩; exact c1 h
        · intro k; rw [hp]; simp only [List.not_mem_nil, false_iff]; rintro ⟨-, h⟩; exact c2 h
  · obtain ⟨s, e, inv⟩ := forRange_spec (f := fun i s => do
        let s ← vpStep x i s
        let mm ← minMaxStep x i s.mm
        ok { s with mm := mm }) (fun i s => VpInv x i s) hlen
        (s := { valleys := [], peaks := [], mm := (0, 0), down := false, up := false })
        ⟨by simp [not_moving_zero], by simp [not_moving_zero], by simp, by simp, by simp,
          first_one lt_irrefl hlen, first_one (lt := (· > ·)) lt_irrefl hlen⟩
        (fun k s h1 hk h => vpStep_spec h1 hk h)
    refine ⟨s.valleys, s.peaks, s.mm.1, s.mm.2, ?_, ?_, ?_, ?_, ?_, inv.min.all, inv.max.all⟩
    · unfold findValleysAndPeaks
      split
      · omega
      · omega
      · omega
      · omega
      · rw [e, ok_bind]
    · intro k
      rw [inv.valleys]
      simp only [List.mem_filter, List.mem_range, decide_eq_true_eq, and_iff_right_iff_imp]
      intro h
      have := turn_range h; omega
    · intro k
      rw [inv.peaks]
      simp only [List.mem_filter, List.mem_range, decide_eq_true_eq, and_iff_right_iff_imp]
      intro h
      have := turn_range h; omega
    · rw [inv.valleys]; exact List.Pairwise.filter _ List.pairwise_lt_range
    · rw [inv.peaks]; exact List.Pairwise.filter _ List.pairwise_lt_range

open Classical in
/-- between two turns of one kind there is a turn of the other kind -/
theorem turn_between {lt : α → α → Prop} (htri : ∀ a b, ¬ lt a b → ¬ lt b a → a = b) (hirr : ∀ a, ¬ lt a a)
    (hasym : ∀ a b, lt a b → ¬ lt b a) {x : List α} {i j : Nat} (hi : Turn lt x i) (hj : Turn lt x j) (hij : i < j) :
    ∃ p, i < p ∧ p < j ∧ Turn (fun a b => lt b a) x p := by
  have hjr := turn_range hj
  obtain ⟨-, -, -, -, -, v, w, -, hv, hw, -, hvw⟩ := hi
  obtain ⟨a, ha0, haj, hconst, u', v', w', hu', hv', -, huv', -⟩ := hj
  have ha : x[a]? = some v' := by rw [hconst a (le_refl _) haj, hv']
  -- `k` is a step in the direction `lt`, after `i + 1`
  have hex : ∃ k, i + 1 < k ∧ k ≤ j ∧ ∃ p q, x[k - 1]? = some p ∧ x[k]? = some q ∧ lt q p := by
    refine ⟨a, ?_, haj, u', v', hu', ha, huv'⟩
    by_contra hc
    by_cases hai : a = i + 1
    · subst hai
      rw [Nat.add_sub_cancel, hv] at hu'; cases hu'
      rw [hw] at ha; cases ha
      exact hasym _ _ hvw huv'
    · -- then `i` and `i + 1` are on the plateau of `j`
      have e1 := hconst i (by omega) (by omega)
      have e2 := hconst (i + 1) (by omega) (by omega)
      rw [hv] at e1; rw [hw, ← e1] at e2
      cases e2
      exact hirr _ hvw
  -- the first such step
  obtain ⟨hk1, hk2, p, q, hp, hq, hpq⟩ := Nat.find_spec hex
  have hmin : ∀ k, k < Nat.find hex → ¬ (i + 1 < k ∧ k ≤ j ∧ ∃ p q, x[k - 1]? = some p ∧ x[k]? = some q ∧ lt q p) :=
    fun k hk => Nat.find_min hex hk
  generalize Nat.find hex = k at *
  -- the last step in the other direction up to `k - 1`
  let P : Nat → Prop := fun b => i + 1 ≤ b ∧ ∃ p q, x[b - 1]? = some p ∧ x[b]? = some q ∧ lt p q
  have hP : P (i + 1) := ⟨le_refl _, v, w, by simpa using hv, hw, hvw⟩
  have hb := Nat.findGreatest_spec (P := P) (n := k - 1) (show i + 1 ≤ k - 1 by omega) hP
  have hbmax : ∀ b, Nat.findGreatest P (k - 1) < b → b ≤ k - 1 → ¬ P b := fun b h1 h2 => Nat.findGreatest_is_greatest h1 h2
  have hble := Nat.findGreatest_le (P := P) (k - 1)
  generalize Nat.findGreatest P (k - 1) = b at *
  obtain ⟨hb1, p1, q1, hp1, hq1, hpq1⟩ := hb
  -- constant from `b` to `k - 1`
  have hc : ∀ d, b + d ≤ k - 1 → x[b + d]? = some q1 := by
    intro d
    induction d with
    | zero => intro _; exact hq1
    | succ d ih =>
      intro hd
      have h0 := ih (by omega)
      have hlt : b + (d + 1) < x.length := by omega
      have h1 : x[b + (d + 1)]? = some x[b + (d + 1)] := List.getElem?_eq_getElem hlt
      have n1 : ¬ lt x[b + (d + 1)] q1 := by
        intro hc
        exact hmin (b + (d + 1)) (by omega) ⟨by omega, by omega, q1, _, by
          rw [show b + (d + 1) - 1 = b + d by omega]; exact h0, h1, hc⟩
      have n2 : ¬ lt q1 x[b + (d + 1)] := by
        intro hc
        exact hbmax (b + (d + 1)) (by omega) hd ⟨by omega, q1, _, by
          rw [show b + (d + 1) - 1 = b + d by omega]; exact h0, h1, hc⟩
      rw [h1, htri _ _ n1 n2]
  have hk : x[k - 1]? = some q1 := by
    have := hc (k - 1 - b) (by omega)
    rwa [show b + (k - 1 - b) = k - 1 by omega] at this
  have hpq' : p = q1 := Option.some.inj (hp.symm.trans hk)
  subst hpq'
  refine ⟨k - 1, by omega, by omega, b, by omega, hble, ?_, p1, p, q, hp1, hk, ?_, hpq1, hpq⟩
  · intro t ht ht'
    have := hc (t - b) (by omega)
    rw [show b + (t - b) = t by omega] at this
    rw [this, hk]
  · rw [show k - 1 + 1 = k by omega]; exact hq

/-- C22: valleys and peaks alternate. -/
theorem C22_alternate (x : List α) (i j : Nat) (hij : i < j) :
    (Valley x i → Valley x j → ∃ p, i < p ∧ p < j ∧ Peak x p) ∧
    (Peak x i → Peak x j → ∃ p, i < p ∧ p < j ∧ Valley x p) := by
  constructor
  · intro h1 h2
    exact turn_between (fun a b h1 h2 => le_antisymm (not_lt.1 h2) (not_lt.1 h1)) lt_irrefl (fun a b => lt_asymm) h1 h2 hij
  · intro h1 h2
    exact turn_between (lt := (· > ·)) (fun a b h1 h2 => le_antisymm (not_lt.1 h1) (not_lt.1 h2)) lt_irrefl
      (fun a b h => lt_asymm h) h1 h2 hij

example : findValleysAndPeaks [(5 : Int), 2, 2, 7, 7, 1, 3] = ok ([2, 5], [4], 5, 3) := rfl

end Russell.Lab
