import Verif.Lab.Dense
import Mathlib.Algebra.Field.Basic
import Mathlib.Algebra.BigOperators.Group.List.Basic
import Mathlib.Algebra.CharZero.Defs
import Mathlib.Data.Nat.Cast.Basic
import Mathlib.Tactic.FieldSimp
import Mathlib.Tactic.Ring
import Mathlib.Data.Rat.Cast.CharZero

/-!
# `NumVector` (/repo/russell_lab/src/vector/num_vector.rs), property C24

A vector is the list of its values. `cast::<usize, T>` is the canonical map from the naturals.
-/

namespace Russell.Lab

open Russell Russell.Res

variable {α : Type}

/-- `mapped_linspace` (/repo/russell_lab/src/vector/num_vector.rs:297-320), for a pure function -/
def mappedLinspace [Zero α] [Add α] [Sub α] [Mul α] [Div α] [NatCast α] (start stop : α) (count : Nat) (function : α → α) :
    Res (List α) :=
  let res := List.replicate count (0 : α)
  if count = 0 then ok res
  else do
    let res ← vset res 0 (function start)
    if count = 1 then ok res
    else do
      let c1 ← subUsize count 1
      let res ← vset res c1 (function stop)
      if count = 2 then ok res
      else do
        let c1 ← subUsize count 1
        let step := (stop - start) / (c1 : α)
        forRange 1 count res fun i res => vset res i (function (start + (i : α) * step))

/-- `linspace` (/repo/russell_lab/src/vector/num_vector.rs:249-269) -/
def linspace [Zero α] [Add α] [Sub α] [Mul α] [Div α] [NatCast α] (start stop : α) (count : Nat) : Res (List α) :=
  let res := List.replicate count (0 : α)
  if count = 0 then ok res
  else do
    let res ← vset res 0 start
    if count = 1 then ok res
    else do
      let c1 ← subUsize count 1
      let res ← vset res c1 stop
      if count = 2 then ok res
      else do
        let c1 ← subUsize count 1
        let step := (stop - start) / (c1 : α)
        forRange 1 count res fun i res => vset res i (start + (i : α) * step)

/-- `slice.windows(2)` -/
def windows2 : List α → List (α × α)
  | a :: b :: t => (a, b) :: windows2 (b :: t)
  | _ => []

/-- `get_differences` (/repo/russell_lab/src/vector/num_vector.rs:640-647) -/
def getDifferences [Sub α] (u : List α) : List α := (windows2 u).map fun w => w.2 - w.1

/-- `iter().scan(state, |state, diff| { *state = *state + *diff; Some(*state) })` -/
def scanAdd [Add α] : α → List α → List α
  | _, [] => []
  | s, d :: t => (s + d) :: scanAdd (s + d) t

/-- `get_cumulative_sum` (/repo/russell_lab/src/vector/num_vector.rs:670-700) -/
def getCumulativeSum [Zero α] [Add α] (u : List α) : Option α → List α
  | some s => s :: scanAdd s u
  | none => scanAdd 0 u

/-- `split2(u, v)` (/repo/russell_lab/src/vector/num_vector.rs:475-479): returns the new contents of `u` and `v`, given their
lengths -/
def split2 (data : List α) (nu nv : Nat) : Res (List α × List α) :=
  if nu + nv ≠ data.length then panic
  else do
    let a ← vslice data 0 nu
    let b ← vslice data nu data.length
    ok (a, b)

/-- `join2(u, v)` (/repo/russell_lab/src/vector/num_vector.rs:503-507): the first `u.len()` values are overwritten by `u` and the
remaining ones by `v` -/
def join2 (data u v : List α) : Res (List α) :=
  if u.length + v.length ≠ data.length then panic
  else
    let d1 := u ++ data.drop u.length
    ok (d1.take u.length ++ v)

/-- **C24** `linspace(a, b, n)` never fails; it has `n` values, value `i` is `a + i·(b-a)/(n-1)` (for `n ≥ 2`), the first is `a`,
the last is `b`, and consecutive values differ by the constant `(b-a)/(n-1)`. `mapped_linspace` applies the function to these
values. -/
theorem C24_linspace [Field α] [CharZero α] (a b : α) (g : α → α) {n : Nat} (hn : 2 ≤ n) :
    ∃ l, linspace a b n = ok l ∧ l.length = n ∧
      (∀ i, i < n → l[i]? = some (a + (i : α) * ((b - a) / ((n - 1 : Nat) : α)))) ∧
      l[0]? = some a ∧ l[n - 1]? = some b ∧
      (∀ (i : Nat) (x y : α), l[i]? = some x → l[i + 1]? = some y → y - x = (b - a) / ((n - 1 : Nat) : α)) ∧
      mappedLinspace a b n g = ok (l.map g) := by
  have h1 : 1 ≤ n := by omega
  have hne : ((n - 1 : Nat) : α) ≠ 0 := Nat.cast_ne_zero.2 (by omega)
  have hlast : a + ((n - 1 : Nat) : α) * ((b - a) / ((n - 1 : Nat) : α)) = b := by
    field_simp; ring
  -- both functions follow the same pattern
  have key : ∀ g : α → α, ∃ l, mappedLinspace a b n g = ok l ∧
      IsVec l n (fun i => g (a + (i : α) * ((b - a) / ((n - 1 : Nat) : α)))) := by
    intro g
    obtain ⟨l1, e1, v1⟩ := (isVec_replicate n (0 : α)).vset (i := 0) (by omega) (g a)
    obtain ⟨l2, e2, v2⟩ := v1.vset (i := n - 1) (by omega) (g b)
    by_cases h2 : n = 2
    · refine ⟨l2, ?_, v2.congr ?_⟩
      · simp only [mappedLinspace]
        rw [if_neg (by omega), e1, ok_bind, if_neg (by omega)]
        simp only [subUsize, if_pos h1, ok_bind, e2]
        rw [if_pos h2]
      · intro i hi
        by_cases h3 : i = n - 1
        · rw [if_pos h3, h3, hlast]
        · have : i = 0 := by omega
          subst this
          rw [if_neg h3, if_pos rfl]; simp
    · obtain ⟨l3, e3, v3⟩ := fillVec (lo := 1) (hi := n)
        (g := fun i => g (a + (i : α) * ((b - a) / ((n - 1 : Nat) : α)))) v2 (Nat.le_refl n)
        (body := fun i res => vset res i (g (a + (i : α) * ((b - a) / ((n - 1 : Nat) : α)))))
        (fun k l f' _ _ _ _ => rfl)
      refine ⟨l3, ?_, v3.congr ?_⟩
      · simp only [mappedLinspace]
        rw [if_neg (by omega), e1, ok_bind, if_neg (by omega)]
        simp only [subUsize, if_pos h1, ok_bind, e2]
        rw [if_neg h2]
        exact e3
      · intro i hi
        by_cases h3 : 1 ≤ i ∧ i < n
        · rw [if_pos h3]
        · have : i = 0 := by omega
          subst this
          rw [if_neg (by omega), if_neg (by omega), if_pos rfl]; simp
  obtain ⟨l, e, hv⟩ := key id
  obtain ⟨lg, eg, hvg⟩ := key g
  have hlin : linspace a b n = mappedLinspace a b n id := rfl
  refine ⟨l, by rw [hlin, e], hv.len, hv.get, ?_, ?_, ?_, ?_⟩
  · rw [hv.get 0 (by omega)]; simp
  · rw [hv.get (n - 1) (by omega), id, hlast]
  · intro i x y hx hy
    have hi : i + 1 < n := by
      rw [← hv.len]; exact (List.getElem?_eq_some_iff.1 hy).1
    rw [hv.get i (by omega)] at hx
    rw [hv.get (i + 1) hi] at hy
    cases hx; cases hy
    simp only [id]; push_cast; ring
  · rw [eg]
    congr 1
    apply List.ext_getElem?
    intro k
    rw [List.getElem?_map]
    by_cases hk : k < n
    · rw [hvg.get k hk, hv.get k hk]; rfl
    · rw [List.getElem?_eq_none (by rw [hvg.len]; omega), List.getElem?_eq_none (by rw [hv.len]; omega)]; rfl

/-- **C24** `linspace` for fewer than two points. -/
theorem C24_linspace_small [Field α] (a b : α) : linspace a b 0 = ok [] ∧ linspace a b 1 = ok [a] := by
  constructor <;> simp [linspace, vset]

/-- **C24** The differences of a vector of length `n` are the `n-1` increments; the cumulative sum from the first value of the
increments of a non-empty vector gives the vector back, and the increments of a cumulative sum give the summands back. -/
theorem C24_differences [AddCommGroup α] (u : List α) (s : α) :
    (getDifferences u).length = u.length - 1 ∧
    (∀ (i : Nat) (x y : α), u[i]? = some x → u[i + 1]? = some y → (getDifferences u)[i]? = some (y - x)) ∧
    (∀ h t, u = h :: t → getCumulativeSum (getDifferences u) (some h) = u) ∧
    getDifferences (getCumulativeSum u (some s)) = u := by
  refine ⟨?_, ?_, ?_, ?_⟩
  · simp only [getDifferences, List.length_map]
    induction u with
    | nil => rfl
    | cons a t ih =>
      cases t with
      | nil => rfl
      | cons b t => simp only [windows2, List.length_cons] at ih ⊢; omega
  · intro i x y
    simp only [getDifferences]
    induction u generalizing i with
    | nil => simp
    | cons a t ih =>
      cases t with
      | nil => simp
      | cons b t =>
        cases i with
        | zero => intro h1 h2; simp_all [windows2]
        | succ i =>
          intro h1 h2
          simp only [windows2, List.map_cons, List.getElem?_cons_succ] at *
          exact ih i h1 h2
  · rintro h t rfl
    simp only [getCumulativeSum, List.cons.injEq, true_and, getDifferences]
    induction t generalizing h with
    | nil => rfl
    | cons b t ih =>
      simp only [windows2, List.map_cons, scanAdd, add_sub_cancel, List.cons.injEq, true_and]
      exact ih b
  · simp only [getCumulativeSum, getDifferences]
    induction u generalizing s with
    | nil => rfl
    | cons b t ih =>
      simp only [scanAdd, windows2, List.map_cons, add_sub_cancel_left, List.cons.injEq, true_and]
      exact ih (s + b)

/-- **C24** Value `i` of the cumulative sum is the start value (if any) plus the sum of the leading values. -/
theorem C24_cumulative [AddCommMonoid α] (u : List α) (s : α) :
    (getCumulativeSum u none).length = u.length ∧ (getCumulativeSum u (some s)).length = u.length + 1 ∧
    (∀ i, i < u.length → (getCumulativeSum u none)[i]? = some ((u.take (i + 1)).sum)) ∧
    (∀ i, i ≤ u.length → (getCumulativeSum u (some s))[i]? = some (s + (u.take i).sum)) := by
  have hlen : ∀ (u : List α) (s : α), (scanAdd s u).length = u.length := by
    intro u; induction u with
    | nil => intro s; rfl
    | cons a t ih => intro s; simp [scanAdd, ih]
  have hget : ∀ (u : List α) (s : α) i, i < u.length → (scanAdd s u)[i]? = some (s + (u.take (i + 1)).sum) := by
    intro u; induction u with
    | nil => intro s i h; simp at h
    | cons a t ih =>
      intro s i h
      cases i with
      | zero => simp [scanAdd]
      | succ i =>
        simp only [scanAdd, List.getElem?_cons_succ]
        rw [ih (s + a) i (by simpa using h)]
        simp [add_assoc]
  refine ⟨hlen u 0, by simp [getCumulativeSum, hlen], ?_, ?_⟩
  · intro i hi; simp only [getCumulativeSum]; rw [hget u 0 i hi, zero_add]
  · intro i hi
    cases i with
    | zero => simp [getCumulativeSum]
    | succ i => simp only [getCumulativeSum, List.getElem?_cons_succ]; exact hget u s i (by omega)

/-- **C24** `join2` and `split2` are inverse to each other; both panic unless the lengths add up. -/
theorem C24_split_join (data u v : List α) :
    (u.length + v.length = data.length →
      join2 data u v = ok (u ++ v) ∧ split2 (u ++ v) u.length v.length = ok (u, v)) ∧
    (∀ nu nv, nu + nv = data.length → ∃ a b, split2 data nu nv = ok (a, b) ∧ a.length = nu ∧ b.length = nv ∧ a ++ b = data) ∧
    (u.length + v.length ≠ data.length → join2 data u v = panic) ∧
    (∀ nu nv, nu + nv ≠ data.length → split2 data nu nv = panic) := by
  refine ⟨fun h => ⟨by simp [join2, h], by simp [split2, vslice]⟩, ?_, fun h => by simp [join2, h],
    fun nu nv h => by simp [split2, h]⟩
  intro nu nv h
  refine ⟨data.take nu, data.drop nu, ?_, by simp; omega, by simp; omega, List.take_append_drop _ _⟩
  have h1 : nu ≤ data.length := by omega
  have h2 : (data.drop nu).take (data.length - nu) = data.drop nu := by
    rw [List.take_of_length_le]; simp
  simp [split2, h, vslice, h1, h2]

example : linspace (2 : ℚ) 3 5 = ok [2, 9/4, 5/2, 11/4, 3] := by
  obtain ⟨l, e, h1, h2, _⟩ := C24_linspace (2 : ℚ) 3 id (n := 5) (by omega)
  rw [e]; congr 1
  apply List.ext_getElem?
  intro k
  rcases k with _ | _ | _ | _ | _ | k
  · rw [h2 0 (by omega)]; norm_num
  · rw [h2 1 (by omega)]; norm_num
  · rw [h2 2 (by omega)]; norm_num
  · rw [h2 3 (by omega)]; norm_num
  · rw [h2 4 (by omega)]; norm_num
  · rw [List.getElem?_eq_none (by omega)]; simp

example : getDifferences [1, 4, 9, (2 : Int)] = [3, 5, -7] ∧ getCumulativeSum [3, 5, -7] (some (1 : Int)) = [1, 4, 9, 2] ∧
    getCumulativeSum [1, 4, (9 : Int)] none = [1, 5, 14] := by decide

end Russell.Lab
