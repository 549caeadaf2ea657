import Verif.Prelude
import Mathlib.Order.WithBot
import Mathlib.Order.MinMax
import Mathlib.Data.Prod.Lex
import Mathlib.Data.List.Sort
import Mathlib.Data.List.NodupEquivFin
import Mathlib.Tactic.Order

/-!
# Model of the sorting helpers (russell_lab/src/base/sort.rs) and C19, C20
-/

namespace Russell.Lab

open Russell Russell.Res

section Tuples

variable {α : Type} [LinearOrder α]

/-- `sort2` (/repo/russell_lab/src/base/sort.rs:15-22) -/
def sort2 (x : α × α) : α × α :=
  if x.2 < x.1 then (x.2, x.1) else x

/-- `if x.1 < x.0 { swap }` on a triple -/
def swap3a (x : α × α × α) : α × α × α := if x.2.1 < x.1 then (x.2.1, x.1, x.2.2) else x
/-- `if x.2 < x.1 { swap }` on a triple -/
def swap3b (x : α × α × α) : α × α × α := if x.2.2 < x.2.1 then (x.1, x.2.2, x.2.1) else x

/-- `sort3` (/repo/russell_lab/src/base/sort.rs:35-48) -/
def sort3 (x : α × α × α) : α × α × α := swap3a (swap3b (swap3a x))

/-- `if x.1 < x.0 { swap }` on a quadruple -/
def swap4a (x : α × α × α × α) : α × α × α × α := if x.2.1 < x.1 then (x.2.1, x.1, x.2.2) else x
/-- `if x.2 < x.1 { swap }` on a quadruple -/
def swap4b (x : α × α × α × α) : α × α × α × α := if x.2.2.1 < x.2.1 then (x.1, x.2.2.1, x.2.1, x.2.2.2) else x
/-- `if x.3 < x.2 { swap }` on a quadruple -/
def swap4c (x : α × α × α × α) : α × α × α × α := if x.2.2.2 < x.2.2.1 then (x.1, x.2.1, x.2.2.2, x.2.2.1) else x

/-- `sort4` (/repo/russell_lab/src/base/sort.rs:61-83) -/
def sort4 (x : α × α × α × α) : α × α × α × α :=
  swap4a (swap4b (swap4a (swap4c (swap4b (swap4a x)))))

/-- the components of a pair, triple, quadruple, in order -/
def list2 (x : α × α) : List α := [x.1, x.2]
def list3 (x : α × α × α) : List α := [x.1, x.2.1, x.2.2]
def list4 (x : α × α × α × α) : List α := [x.1, x.2.1, x.2.2.1, x.2.2.2]

/-- C19: `sort2` sorts. -/
theorem C19_sort2 (x : α × α) : (list2 (sort2 x)).Pairwise (· ≤ ·) ∧ (list2 (sort2 x)).Perm (list2 x) := by
  obtain ⟨a, b⟩ := x
  unfold sort2
  split
  next h => exact ⟨by simpa [list2] using le_of_lt h, by simpa [list2] using List.Perm.swap _ _ _⟩
  next h => exact ⟨by simpa [list2] using h, List.Perm.refl _⟩

theorem swap3a_perm (x : α × α × α) : (list3 (swap3a x)).Perm (list3 x) := by
  unfold swap3a; split
  · exact List.Perm.swap _ _ _
  · exact List.Perm.refl _

theorem swap3b_perm (x : α × α × α) : (list3 (swap3b x)).Perm (list3 x) := by
  unfold swap3b; split
  · exact List.Perm.cons _ (List.Perm.swap _ _ _)
  · exact List.Perm.refl _

theorem swap3a_min (a b c : α) : swap3a (a, b, c) = (min a b, max a b, c) := by
  unfold swap3a; split
  next h => simp [min_eq_right (le_of_lt h), max_eq_left (le_of_lt h)]
  next h => simp [min_eq_left (not_lt.1 h), max_eq_right (not_lt.1 h)]

theorem swap3b_min (a b c : α) : swap3b (a, b, c) = (a, min b c, max b c) := by
  unfold swap3b; split
  next h => simp [min_eq_right (le_of_lt h), max_eq_left (le_of_lt h)]
  next h => simp [min_eq_left (not_lt.1 h), max_eq_right (not_lt.1 h)]

/-- C19: `sort3` sorts. -/
theorem C19_sort3 (x : α × α × α) : (list3 (sort3 x)).Pairwise (· ≤ ·) ∧ (list3 (sort3 x)).Perm (list3 x) := by
  constructor
  · obtain ⟨a, b, c⟩ := x
    have h : ((sort3 (a, b, c)).1 ≤ (sort3 (a, b, c)).2.1) ∧ ((sort3 (a, b, c)).2.1 ≤ (sort3 (a, b, c)).2.2) := by
      simp only [sort3, swap3a_min, swap3b_min]
      refine ⟨by simp, ?_⟩
      simp only [le_max_iff, max_le_iff, min_le_iff, le_refl, true_or, or_true, and_true]
      rcases le_total a b with h1 | h1 <;> simp [h1]
    simp only [list3, List.pairwise_cons, List.mem_cons, List.not_mem_nil, forall_eq_or_imp, or_false, forall_eq,
      IsEmpty.forall_iff, implies_true, List.Pairwise.nil, and_true]
    obtain ⟨h1, h2⟩ := h
    exact ⟨⟨h1, h1.trans h2⟩, h2⟩
  · exact (swap3a_perm _).trans ((swap3b_perm _).trans (swap3a_perm _))

theorem swap4a_perm (x : α × α × α × α) : (list4 (swap4a x)).Perm (list4 x) := by
  unfold swap4a; split
  · exact List.Perm.swap _ _ _
  · exact List.Perm.refl _

theorem swap4b_perm (x : α × α × α × α) : (list4 (swap4b x)).Perm (list4 x) := by
  unfold swap4b; split
  · exact List.Perm.cons _ (List.Perm.swap _ _ _)
  · exact List.Perm.refl _

theorem swap4c_perm (x : α × α × α × α) : (list4 (swap4c x)).Perm (list4 x) := by
  unfold swap4c; split
  · exact List.Perm.cons _ (List.Perm.cons _ (List.Perm.swap _ _ _))
  · exact List.Perm.refl _

theorem swap4a_min (a b c d : α) : swap4a (a, b, c, d) = (min a b, max a b, c, d) := by
  unfold swap4a; split
  next h => simp [min_eq_right (le_of_lt h), max_eq_left (le_of_lt h)]
  next h => simp [min_eq_left (not_lt.1 h), max_eq_right (not_lt.1 h)]

theorem swap4b_min (a b c d : α) : swap4b (a, b, c, d) = (a, min b c, max b c, d) := by
  unfold swap4b; split
  next h => simp [min_eq_right (le_of_lt h), max_eq_left (le_of_lt h)]
  next h => simp [min_eq_left (not_lt.1 h), max_eq_right (not_lt.1 h)]

theorem swap4c_min (a b c d : α) : swap4c (a, b, c, d) = (a, b, min c d, max c d) := by
  unfold swap4c; split
  next h => simp [min_eq_right (le_of_lt h), max_eq_left (le_of_lt h)]
  next h => simp [min_eq_left (not_lt.1 h), max_eq_right (not_lt.1 h)]

/-- C19: `sort4` sorts. -/
theorem C19_sort4 (x : α × α × α × α) : (list4 (sort4 x)).Pairwise (· ≤ ·) ∧ (list4 (sort4 x)).Perm (list4 x) := by
  constructor
  · obtain ⟨a, b, c, d⟩ := x
    have h : ((sort4 (a, b, c, d)).1 ≤ (sort4 (a, b, c, d)).2.1) ∧
        ((sort4 (a, b, c, d)).2.1 ≤ (sort4 (a, b, c, d)).2.2.1) ∧
        ((sort4 (a, b, c, d)).2.2.1 ≤ (sort4 (a, b, c, d)).2.2.2) := by
      simp only [sort4, swap4a_min, swap4b_min, swap4c_min]
      refine ⟨by simp, ?_, ?_⟩
      · simp only [le_max_iff, max_le_iff, min_le_iff, le_min_iff, le_refl, true_or, or_true, and_true, true_and, and_self]
        rcases le_total a b with h1 | h1 <;> rcases le_total b c with h2 | h2 <;> rcases le_total a c with h3 | h3 <;>
          simp [h1, h2, h3]
      · simp only [le_max_iff, max_le_iff, min_le_iff, le_refl, true_or, or_true, and_true, true_and]
        rcases le_total a b with h1 | h1 <;> rcases le_total b c with h2 | h2 <;> rcases le_total a c with h3 | h3 <;>
          first | (simp [h1, h2, h3]; done) | (simp [h1, h2, h3, h1.trans h2]; done) |
            simp [h1, h2, h3, h2.trans h1]
    simp only [list4, List.pairwise_cons, List.mem_cons, List.not_mem_nil, forall_eq_or_imp, or_false, forall_eq,
      IsEmpty.forall_iff, implies_true, List.Pairwise.nil, and_true]
    obtain ⟨h1, h2, h3⟩ := h
    exact ⟨⟨h1, h1.trans h2, (h1.trans h2).trans h3⟩, ⟨h2, h2.trans h3⟩, h3⟩
  · exact (swap4a_perm _).trans ((swap4b_perm _).trans ((swap4a_perm _).trans ((swap4c_perm _).trans
      ((swap4b_perm _).trans (swap4a_perm _)))))

example : sort4 ((3 : Int), 1, 2, 1) = (1, 1, 2, 3) := rfl

end Tuples

/-! ## argsort -/

section Argsort

variable {α : Type} [LinearOrder α]

/-- `f64` as seen by the comparison functions: `none` is NaN, `some` an element of a linear order (the two zeros compare equal
and are one element). -/
abbrev Float' (α : Type) := Option α

/-- `partial_cmp` of `f64` -/
def partialCmp : Float' α → Float' α → Option Ordering
  | some a, some b => some (compare a b)
  | _, _ => none

/-- `compare_f64` (/repo/russell_lab/src/base/sort.rs:86-96) -/
def compareF64 (a b : Float' α) : Ordering :=
  match partialCmp a b with
  | some o => o
  | none =>
    if a.isNone ∧ b.isNone then Ordering.eq
    else if a.isNone then Ordering.gt
    else Ordering.lt

/-- `indices.sort_by(cmp)`: stable sort with the comparator `cmp`. -/
def sortBy {β : Type} (cmp : β → β → Ordering) (l : List β) : List β := l.mergeSort fun a b => cmp a b ≠ Ordering.gt

/-- `x[i]` for an index known to be in range -/
def key (x : List (Float' α)) (i : Nat) : Float' α := x.getD i none

/-- `argsort_f64` (/repo/russell_lab/src/base/sort.rs:118-122). The comparator reads `x[i]` for `i < x.len()` only. -/
def argsortF64 (x : List (Float' α)) : List Nat :=
  sortBy (fun i j => compareF64 (key x i) (key x j)) (List.range x.length)

/-- `argsort2_f64` (/repo/russell_lab/src/base/sort.rs:165-170) -/
def argsort2F64 (y x : List (Float' α)) : Res (List Nat) :=
  if y.length ≠ x.length then panic
  else ok (sortBy (fun i j => (compareF64 (key y i) (key y j)).then (compareF64 (key x i) (key x j))) (List.range y.length))

/-- `argsort3_f64` (/repo/russell_lab/src/base/sort.rs:218-228) -/
def argsort3F64 (z y x : List (Float' α)) : Res (List Nat) :=
  if z.length ≠ y.length then panic
  else if z.length ≠ x.length then panic
  else ok (sortBy (fun i j => ((compareF64 (key z i) (key z j)).then (compareF64 (key y i) (key y j))).then
    (compareF64 (key x i) (key x j))) (List.range z.length))

/-- Specification order: NaN above everything. -/
def top (a : Float' α) : WithTop α := a

/-- The comparator is the comparison of the order with NaN on top. -/
theorem compareF64_eq (a b : Float' α) :
    compareF64 a b = if top a < top b then Ordering.lt else if top a = top b then Ordering.eq else Ordering.gt := by
  cases a with
  | none =>
    cases b with
    | none => rw [if_neg (lt_irrefl _), if_pos rfl]; rfl
    | some b =>
      have h1 : ¬ (top (none : Float' α) < top (some b)) := by
        show ¬ ((⊤ : WithTop α) < (b : WithTop α)); simp
      have h2 : ¬ (top (none : Float' α) = top (some b)) := by
        show ¬ ((⊤ : WithTop α) = (b : WithTop α)); simp
      rw [if_neg h1, if_neg h2]
      simp [compareF64, partialCmp]
  | some a =>
    cases b with
    | none =>
      have h1 : top (some a) < top (none : Float' α) := WithTop.coe_lt_top a
      rw [if_pos h1]
      simp [compareF64, partialCmp]
    | some b =>
      have h1 : top (some a) < top (some b) ↔ a < b := WithTop.coe_lt_coe
      have h2 : top (some a) = top (some b) ↔ a = b := WithTop.coe_inj
      simp only [compareF64, partialCmp, h1, h2]
      rcases lt_trichotomy a b with h | h | h
      · rw [if_pos h]; exact compare_lt_iff_lt.2 h
      · subst h; simp
      · rw [if_neg (not_lt.2 (le_of_lt h)), if_neg (ne_of_gt h)]; exact compare_gt_iff_gt.2 h

/-- stable sort of the indices by a key in a linear order -/
theorem sortBy_spec {κ : Type} [LinearOrder κ] (k : Nat → κ) (cmp : Nat → Nat → Ordering)
    (hc : ∀ i j, cmp i j = if k i < k j then Ordering.lt else if k i = k j then Ordering.eq else Ordering.gt) (n : Nat) :
    (sortBy cmp (List.range n)).Perm (List.range n) ∧
    (sortBy cmp (List.range n)).Pairwise fun i j => toLex (k i, i) < toLex (k j, j) := by
  have hle : ∀ i j, (decide (cmp i j ≠ Ordering.gt)) = decide (k i ≤ k j) := by
    intro i j
    rw [hc]
    rcases lt_trichotomy (k i) (k j) with h | h | h
    · simp [h, le_of_lt h]
    · simp [h]
    · simp [not_lt.2 (le_of_lt h), ne_of_gt h, not_le.2 h]
  have hfun : (fun i j => decide (cmp i j ≠ Ordering.gt)) = fun i j => decide (k i ≤ k j) := by
    funext i j; exact hle i j
  have hperm : (sortBy cmp (List.range n)).Perm (List.range n) := List.mergeSort_perm _ _
  refine ⟨hperm, ?_⟩
  have hnd : (sortBy cmp (List.range n)).Nodup := hperm.nodup_iff.2 List.nodup_range
  have htr : ∀ a b c : Nat, decide (k a ≤ k b) = true → decide (k b ≤ k c) = true → decide (k a ≤ k c) = true := by
    simp only [decide_eq_true_eq]; intro a b c h1 h2; exact le_trans h1 h2
  have htot : ∀ a b : Nat, (decide (k a ≤ k b) || decide (k b ≤ k a)) = true := by
    intro a b; simpa using le_total (k a) (k b)
  have hs : (sortBy cmp (List.range n)).Pairwise fun i j => k i ≤ k j := by
    have := List.pairwise_mergeSort (le := fun i j => decide (k i ≤ k j)) htr htot (List.range n)
    rw [sortBy, hfun]
    simpa using this
  rw [List.pairwise_iff_getElem] at hs ⊢
  intro p q hp hq hpq
  have hle := hs p q hp hq hpq
  rw [Prod.Lex.toLex_lt_toLex]
  rcases lt_or_eq_of_le hle with h | h
  · exact Or.inl h
  · refine Or.inr ⟨h, ?_⟩
    by_contra hlt
    have hne : (sortBy cmp (List.range n))[p] ≠ (sortBy cmp (List.range n))[q] := by
      intro he
      exact absurd ((List.Nodup.getElem_inj_iff hnd).1 he) (by omega)
    have hmem := fun r (hr : r < (sortBy cmp (List.range n)).length) => List.mem_range.1 (hperm.mem_iff.1 (List.getElem_mem hr))
    have hmp := hmem p hp
    have hmq := hmem q hq
    -- `[j, i]` is an ordered sublist of the range, so it keeps its order
    have hsub : [(sortBy cmp (List.range n))[q], (sortBy cmp (List.range n))[p]].Sublist (List.range n) := by
      have hlt' : (sortBy cmp (List.range n))[q] < (sortBy cmp (List.range n))[p] := by
        simp only [not_lt] at hlt
        exact lt_of_le_of_ne hlt (Ne.symm hne)
      have : [(sortBy cmp (List.range n))[q], (sortBy cmp (List.range n))[p]] = 
          List.filter (fun x => x = (sortBy cmp (List.range n))[q] ∨ x = (sortBy cmp (List.range n))[p]) (List.range n) := by
        apply List.Perm.eq_of_pairwise (le := (· < ·))
        · intro a b _ _ h1 h2; exact absurd h1 (lt_asymm h2)
        · simpa using hlt'
        · exact List.Pairwise.filter _ List.pairwise_lt_range
        · rw [List.perm_ext_iff_of_nodup (by simpa using ne_of_lt hlt') (List.Nodup.filter _ List.nodup_range)]
          intro a
          simp only [List.mem_cons, List.not_mem_nil, or_false, List.mem_filter, List.mem_range, decide_eq_true_eq]
          constructor
          · rintro (rfl | rfl)
            · exact ⟨hmq, Or.inl rfl⟩
            · exact ⟨hmp, Or.inr rfl⟩
          · rintro ⟨-, h⟩; exact h
      rw [this]
      exact List.filter_sublist
    have hsub' := List.sublist_mergeSort (le := fun i j => decide (k i ≤ k j)) htr htot
      (ys := [(sortBy cmp (List.range n))[q], (sortBy cmp (List.range n))[p]]) (by simp [h]) hsub
    rw [← hfun] at hsub'
    change List.Sublist _ (sortBy cmp (List.range n)) at hsub'
    -- positions in a list without repetitions
    obtain ⟨f, hf⟩ := List.sublist_iff_exists_orderEmbedding_getElem?_eq.1 hsub'
    have h0 := hf 0
    have h1 := hf 1
    simp only [List.getElem?_cons_zero, List.getElem?_cons_succ] at h0 h1
    have e0 : q = f 0 := by
      have := h0.symm
      obtain ⟨hb, e⟩ := List.getElem?_eq_some_iff.1 this
      exact ((List.Nodup.getElem_inj_iff hnd).1 e).symm
    have e1 : p = f 1 := by
      have := h1.symm
      obtain ⟨hb, e⟩ := List.getElem?_eq_some_iff.1 this
      exact ((List.Nodup.getElem_inj_iff hnd).1 e).symm
    have : f 0 < f 1 := f.lt_iff_lt.2 (by omega)
    omega

/-- C20: `argsort_f64` returns a permutation of the indices, sorted by value (NaN last), ties in index order. -/
theorem C20_argsort (x : List (Float' α)) :
    (argsortF64 x).Perm (List.range x.length) ∧
    (argsortF64 x).Pairwise fun i j => toLex (top (key x i), i) < toLex (top (key x j), j) := by
  exact sortBy_spec (fun i => top (key x i)) _ (fun i j => compareF64_eq _ _) _

/-- C20: `argsort2_f64` sorts by `y`, then `x`, then index; arrays of different lengths panic. -/
theorem C20_argsort2 (y x : List (Float' α)) :
    (y.length ≠ x.length → argsort2F64 y x = panic) ∧
    (y.length = x.length → ∃ r, argsort2F64 y x = ok r ∧ r.Perm (List.range x.length) ∧
      r.Pairwise fun i j => toLex (toLex (top (key y i), top (key x i)), i) < toLex (toLex (top (key y j), top (key x j)), j)) := by
  constructor
  · intro h; simp [argsort2F64, h]
  · intro h
    refine ⟨_, by rw [argsort2F64, if_neg (not_not.2 h)], ?_⟩
    rw [← h]
    refine sortBy_spec (fun i => toLex (top (key y i), top (key x i))) _ ?_ _
    intro i j
    simp only [compareF64_eq, Prod.Lex.toLex_lt_toLex, toLex_inj, Prod.mk.injEq]
    rcases lt_trichotomy (top (key y i)) (top (key y j)) with h1 | h1 | h1
    · simp [h1]
    · simp [h1]
    · simp [not_lt.2 (le_of_lt h1), ne_of_gt h1]

/-- C20: `argsort3_f64` sorts by `z`, then `y`, then `x`, then index. -/
theorem C20_argsort3 (z y x : List (Float' α)) :
    (z.length ≠ y.length ∨ z.length ≠ x.length → argsort3F64 z y x = panic) ∧
    (z.length = y.length → z.length = x.length → ∃ r, argsort3F64 z y x = ok r ∧ r.Perm (List.range x.length) ∧
      r.Pairwise fun i j =>
        toLex (toLex (top (key z i), toLex (top (key y i), top (key x i))), i) <
        toLex (toLex (top (key z j), toLex (top (key y j), top (key x j))), j)) := by
  constructor
  · intro h
    unfold argsort3F64
    split
    · rfl
    · rw [if_pos (by omega)]
  · intro h h'
    refine ⟨_, by rw [argsort3F64, if_neg (not_not.2 h), if_neg (not_not.2 h')], ?_⟩
    rw [← h']
    refine sortBy_spec (fun i => toLex (top (key z i), toLex (top (key y i), top (key x i)))) _ ?_ _
    intro i j
    simp only [compareF64_eq, Prod.Lex.toLex_lt_toLex, toLex_inj, Prod.mk.injEq]
    rcases lt_trichotomy (top (key z i)) (top (key z j)) with h1 | h1 | h1
    · simp [h1]
    · rcases lt_trichotomy (top (key y i)) (top (key y j)) with h2 | h2 | h2
      · simp [h1, h2]
      · simp [h1, h2]
      · simp [h1, not_lt.2 (le_of_lt h2), ne_of_gt h2]
    · simp [not_lt.2 (le_of_lt h1), ne_of_gt h1]

/-- C20: the comparator given to `sort_by` is a total order comparison (so `sort_by` cannot panic because of it):
antisymmetric in the sense of `Ordering.swap`, and transitive. -/
theorem C20_comparator (a b c : Float' α) :
    compareF64 b a = (compareF64 a b).swap ∧
    (compareF64 a b ≠ Ordering.gt → compareF64 b c ≠ Ordering.gt → compareF64 a c ≠ Ordering.gt) := by
  constructor
  · simp only [compareF64_eq]
    rcases lt_trichotomy (top a) (top b) with h | h | h
    · simp [h, not_lt.2 (le_of_lt h), ne_of_gt h]
    · simp [h]
    · simp [h, not_lt.2 (le_of_lt h), ne_of_gt h]
  · have key : ∀ u v : Float' α, compareF64 u v ≠ Ordering.gt ↔ top u ≤ top v := by
      intro u v
      rw [compareF64_eq]
      rcases lt_trichotomy (top u) (top v) with h | h | h
      · simp [h, le_of_lt h]
      · simp [h]
      · simp [not_lt.2 (le_of_lt h), ne_of_gt h, not_le.2 h]
    rw [key, key, key]
    exact le_trans

example : argsortF64 [some (2 : Int), none, some 1, some 2] = [2, 0, 3, 1] := by
  simp [argsortF64, sortBy, List.mergeSort, List.MergeSort.Internal.splitInTwo, List.range_succ, List.merge, key, compareF64,
    partialCmp, compareOfLessAndEq, compare]

end Argsort

end Russell.Lab
