import Verif.Prelude
import Mathlib.Algebra.Order.Floor.Semiring
import Mathlib.Algebra.Order.Field.Basic
import Mathlib.Data.Rat.Floor
import Mathlib.Data.Rat.Cast.Order
import Mathlib.Data.List.Sort
import Mathlib.Data.List.NodupEquivFin
import Mathlib.Tactic.Linarith
import Mathlib.Tactic.Ring
import Mathlib.Tactic.NormNum

/-!
# Quantiles, quartiles and outliers (properties C42, C43)

Model of /repo/russell_stat/src/{quantile,quartiles,inter_quartile_range,outliers}.rs.  `T` is the type of the data, `α` an ordered field
with floor in place of `f64`, and `cast : T → α` is `to_f64().unwrap()`.
-/

namespace Russell.Stat

open Russell Res

variable {T α : Type} [LinearOrder T] [Field α] [LinearOrder α] [FloorSemiring α]

/-- `quantile` (/repo/russell_stat/src/quantile.rs:52-76).  `as usize` of a non-negative integral number is `Nat.floor`/`Nat.ceil`. -/
def quantile (cast : T → α) (data : List T) (q : α) : Res α :=
  let n := data.length
  if n = 0 then panic
  else if q < 0 ∨ q > 1 then panic
  else do
    let index := q * ((n - 1 : Nat) : α)
    let lower_index := ⌊index⌋₊
    let upper_index := ⌈index⌉₊
    let fraction := index - (lower_index : α)
    let lo ← vget data lower_index
    let hi ← vget data upper_index
    ok (cast lo + fraction * (cast hi - cast lo))

/-- `data.sort_by(|a, b| a.partial_cmp(b).unwrap())` -/
def sortData (data : List T) : List T := data.mergeSort fun a b => decide (a ≤ b)

/-- `quartiles` (/repo/russell_stat/src/quartiles.rs:42-62); returns the sorted slice, too -/
def quartiles (cast : T → α) (data : List T) : Res (List T × α × α × α) :=
  if data.length = 0 then panic
  else do
    let data := sortData data
    let q1 ← quantile cast data (1 / 4)
    let q2 ← quantile cast data (1 / 2)
    let q3 ← quantile cast data (3 / 4)
    ok (data, q1, q2, q3)

/-- `inter_quartile_range` (/repo/russell_stat/src/inter_quartile_range.rs:49-55) -/
def interQuartileRange (cast : T → α) (data : List T) : Res (List T × α) := do
  let r ← quartiles cast data
  ok (r.1, r.2.2.2 - r.2.1)

/-- `data.iter().copied().enumerate()` sorted by value (/repo/russell_stat/src/outliers.rs:58-61) -/
def indexedSorted (data : List T) : List (Nat × T) :=
  (data.zipIdx.map fun p => (p.2, p.1)).mergeSort fun a b => decide (a.2 ≤ b.2)

/-- `outliers` (/repo/russell_stat/src/outliers.rs:53-84) -/
def outliers (cast : T → α) (data : List T) : Res (List (Nat × T)) := do
  let indexed := indexedSorted data
  let sorted := indexed.map Prod.snd
  let r ← quartiles cast sorted
  let q1 := r.2.1
  let q3 := r.2.2.2
  let iqr := q3 - q1
  let lower := q1 - 3 / 2 * iqr
  let upper := q3 + 3 / 2 * iqr
  forList indexed [] fun p acc => if cast p.2 < lower ∨ cast p.2 > upper then ok (acc ++ [p]) else ok acc

variable [IsStrictOrderedRing α]

/-! ## specification: piecewise linear interpolation of the sorted values -/

/-- the piecewise linear function through the points `(k, d k)` -/
def lerp (d : Nat → α) (t : α) : α := d ⌊t⌋₊ + (t - ⌊t⌋₊) * (d ⌈t⌉₊ - d ⌊t⌋₊)

theorem lerp_nat (d : Nat → α) (k : Nat) : lerp d (k : α) = d k := by
  unfold lerp
  rw [Nat.floor_natCast, Nat.ceil_natCast, sub_self, zero_mul, add_zero]

theorem lerp_mem {d : Nat → α} {t : α} (ht : 0 ≤ t) (h : d ⌊t⌋₊ ≤ d ⌈t⌉₊) : d ⌊t⌋₊ ≤ lerp d t ∧ lerp d t ≤ d ⌈t⌉₊ := by
  unfold lerp
  have h1 := Nat.floor_le ht
  have h2 := Nat.lt_floor_add_one t
  have h3 : 0 ≤ d ⌈t⌉₊ - d ⌊t⌋₊ := sub_nonneg.2 h
  constructor
  · have := mul_nonneg (sub_nonneg.2 h1) h3
    linarith
  · have : (t - ⌊t⌋₊) * (d ⌈t⌉₊ - d ⌊t⌋₊) ≤ 1 * (d ⌈t⌉₊ - d ⌊t⌋₊) := mul_le_mul_of_nonneg_right (by linarith) h3
    linarith

theorem floor_ceil_cases (t : α) (ht : 0 ≤ t) : (t = (⌊t⌋₊ : α) ∧ ⌈t⌉₊ = ⌊t⌋₊) ∨ (((⌊t⌋₊ : α) < t) ∧ ⌈t⌉₊ = ⌊t⌋₊ + 1) := by
  rcases lt_or_eq_of_le (Nat.floor_le ht) with h | h
  · right
    refine ⟨h, ?_⟩
    apply le_antisymm (Nat.ceil_le_floor_add_one t)
    exact Nat.lt_ceil.2 h
  · left
    refine ⟨h.symm, ?_⟩
    have := Nat.ceil_natCast (R := α) ⌊t⌋₊
    rw [h] at this
    exact this

theorem lerp_mono {d : Nat → α} {N : Nat} (hd : ∀ i j, i ≤ j → j ≤ N → d i ≤ d j) {s t : α} (h0 : 0 ≤ s) (hst : s ≤ t) (htN : t ≤ N) :
    lerp d s ≤ lerp d t := by
  have ht0 : 0 ≤ t := h0.trans hst
  have hcN : ⌈t⌉₊ ≤ N := Nat.ceil_le.2 htN
  have hfc : ⌊t⌋₊ ≤ ⌈t⌉₊ := Nat.floor_le_ceil t
  have hff : ⌊s⌋₊ ≤ ⌊t⌋₊ := Nat.floor_mono hst
  rcases Nat.lt_or_eq_of_le hff with hlt | heq
  · have h1 : ⌈s⌉₊ ≤ ⌊t⌋₊ := (Nat.ceil_le_floor_add_one s).trans hlt
    have m1 := (lerp_mem (d := d) h0 (hd _ _ (Nat.floor_le_ceil s) (by omega))).2
    have m2 := (lerp_mem (d := d) ht0 (hd _ _ hfc hcN)).1
    exact m1.trans ((hd _ _ h1 (by omega)).trans m2)
  · rcases floor_ceil_cases s h0 with ⟨e1, e2⟩ | ⟨e1, e2⟩
    · have m2 := (lerp_mem (d := d) ht0 (hd _ _ hfc hcN)).1
      rw [← heq, ← lerp_nat d ⌊s⌋₊, ← e1] at m2
      exact m2
    · rcases floor_ceil_cases t ht0 with ⟨g1, g2⟩ | ⟨g1, g2⟩
      · exfalso
        rw [← heq] at g1
        linarith
      · unfold lerp
        rw [e2, g2, heq]
        have : 0 ≤ d (⌊t⌋₊ + 1) - d ⌊t⌋₊ := sub_nonneg.2 (hd _ _ (by omega) (by omega))
        have := mul_le_mul_of_nonneg_right (sub_le_sub_right hst (⌊t⌋₊ : α)) this
        linarith

/-! ## quantile -/

/-- a non-decreasing list -/
def Sorted (l : List T) : Prop := l.Pairwise (· ≤ ·)

/-- value of the `k`-th datum -/
def datum (cast : T → α) (data : List T) (k : Nat) : α := (data[k]?.map cast).getD 0

omit [LinearOrder T] [LinearOrder α] [FloorSemiring α] [IsStrictOrderedRing α] in
theorem datum_eq (cast : T → α) {data : List T} {k : Nat} (h : k < data.length) : datum cast data k = cast data[k] := by
  simp [datum, h]

omit [FloorSemiring α] [IsStrictOrderedRing α] in
theorem datum_mono {cast : T → α} (hc : Monotone cast) {data : List T} (hs : Sorted data) {i j : Nat} (hij : i ≤ j) (hj : j < data.length) :
    datum cast data i ≤ datum cast data j := by
  rw [datum_eq cast (by omega), datum_eq cast hj]
  rcases Nat.lt_or_eq_of_le hij with h | h
  · exact hc (List.pairwise_iff_getElem.1 hs i j (by omega) hj h)
  · subst h; exact le_refl _

theorem index_bounds {n : Nat} {q : α} (hq0 : 0 ≤ q) (hq1 : q ≤ 1) : 0 ≤ q * ((n - 1 : Nat) : α) ∧ q * ((n - 1 : Nat) : α) ≤ ((n - 1 : Nat) : α) := by
  have hn : (0 : α) ≤ ((n - 1 : Nat) : α) := Nat.cast_nonneg _
  exact ⟨mul_nonneg hq0 hn, by have := mul_le_mul_of_nonneg_right hq1 hn; linarith⟩

/-- C42: `quantile` panics exactly for empty data or `q` outside of [0, 1]; otherwise it is the linear interpolation at `q (n-1)` of the
data numbered from zero. -/
theorem C42_quantile (cast : T → α) (data : List T) (q : α) :
    ((data = [] ∨ q < 0 ∨ 1 < q) → quantile cast data q = panic) ∧
    (data ≠ [] → 0 ≤ q → q ≤ 1 → quantile cast data q = ok (lerp (datum cast data) (q * ((data.length - 1 : Nat) : α)))) := by
  unfold quantile
  constructor
  · rintro (h | h)
    · subst h; rfl
    · dsimp only
      split
      · rfl
      · rfl
  · intro hne h0 h1
    have hn : data.length ≠ 0 := by simpa using hne
    obtain ⟨b1, b2⟩ := index_bounds (n := data.length) h0 h1
    have hc : ⌈q * ((data.length - 1 : Nat) : α)⌉₊ < data.length := by
      have := Nat.ceil_le.2 b2
      omega
    have hf := lt_of_le_of_lt (Nat.floor_le_ceil (q * ((data.length - 1 : Nat) : α))) hc
    dsimp only
    rw [if_neg hn, if_neg (by rintro (h | h) <;> linarith), vget_lt hf, ok_bind, vget_lt hc, ok_bind]
    unfold lerp
    rw [datum_eq cast hf, datum_eq cast hc]

/-- C42: on sorted data the quantile is monotone in `q`, lies between the smallest and the largest value, and takes these at 0 and 1. -/
theorem C42_quantile_sorted {cast : T → α} (hc : Monotone cast) {data : List T} (hs : Sorted data) (hne : data ≠ []) :
    ∃ Q : α → α, (∀ q, 0 ≤ q → q ≤ 1 → quantile cast data q = ok (Q q)) ∧
      (∀ p q, 0 ≤ p → p ≤ q → q ≤ 1 → Q p ≤ Q q) ∧
      (∀ x, data[0]? = some x → Q 0 = cast x) ∧ (∀ x, data[data.length - 1]? = some x → Q 1 = cast x) := by
  have hn : data.length ≠ 0 := by simpa using hne
  refine ⟨fun q => lerp (datum cast data) (q * ((data.length - 1 : Nat) : α)), fun q h0 h1 => (C42_quantile cast data q).2 hne h0 h1, ?_, ?_, ?_⟩
  · intro p q h0 hpq h1
    refine lerp_mono (N := data.length - 1) (fun i j hij hj => datum_mono hc hs hij (by omega)) (index_bounds h0 (hpq.trans h1)).1 ?_
      (index_bounds (h0.trans hpq) h1).2
    exact mul_le_mul_of_nonneg_right hpq (Nat.cast_nonneg _)
  · intro x hx
    dsimp only
    rw [zero_mul, ← Nat.cast_zero, lerp_nat]
    simp [datum, hx]
  · intro x hx
    dsimp only
    rw [one_mul, lerp_nat]
    simp [datum, hx]

/-- C42: the quantile passes through the data: at `q = k / (n-1)` it is the k-th smallest value. -/
theorem C42_quantile_node (cast : T → α) {data : List T} {k : Nat} (hk : k < data.length) (hn : 1 < data.length) :
    quantile cast data ((k : α) / ((data.length - 1 : Nat) : α)) = ok (cast data[k]) := by
  have hpos : (0 : α) < ((data.length - 1 : Nat) : α) := by exact_mod_cast (by omega : 0 < data.length - 1)
  rw [(C42_quantile cast data _).2 (by rintro rfl; simp at hk) (div_nonneg (Nat.cast_nonneg _) hpos.le)
    ((div_le_one hpos).2 (by exact_mod_cast (by omega : k ≤ data.length - 1))), div_mul_cancel₀ _ hpos.ne', lerp_nat, datum_eq cast hk]

/-! ## quartiles -/

omit [Field α] [LinearOrder α] [FloorSemiring α] [IsStrictOrderedRing α] in
theorem sortData_sorted (data : List T) : Sorted (sortData data) := by
  have := List.pairwise_mergeSort (le := fun a b : T => decide (a ≤ b)) (by simp; intro a b c; exact le_trans)
    (by simp; intro a b; exact le_total a b) data
  simpa [Sorted, sortData] using this

omit [Field α] [LinearOrder α] [FloorSemiring α] [IsStrictOrderedRing α] in
theorem sortData_perm (data : List T) : (sortData data).Perm data := List.mergeSort_perm _ _

omit [Field α] [LinearOrder α] [FloorSemiring α] [IsStrictOrderedRing α] in
theorem sorted_unique {l l' : List T} (h : l.Perm l') (h1 : Sorted l) (h2 : Sorted l') : l = l' :=
  h.eq_of_pairwise (fun _ _ _ _ => le_antisymm) h1 h2

/-- C42: `quartiles` panics exactly for empty data; otherwise it sorts the data and returns three ordered values between the extremes; the
result does not depend on the order of the data. -/
theorem C42_quartiles {cast : T → α} (hc : Monotone cast) (data : List T) :
    (data = [] → quartiles cast data = panic) ∧
    (data ≠ [] → ∃ sorted q1 q2 q3, quartiles cast data = ok (sorted, q1, q2, q3) ∧ Sorted sorted ∧ sorted.Perm data ∧
      quantile cast sorted (1 / 4) = ok q1 ∧ quantile cast sorted (1 / 2) = ok q2 ∧ quantile cast sorted (3 / 4) = ok q3 ∧
      q1 ≤ q2 ∧ q2 ≤ q3 ∧ (∀ lo, (∀ x ∈ data, lo ≤ cast x) → lo ≤ q1) ∧ (∀ hi, (∀ x ∈ data, cast x ≤ hi) → q3 ≤ hi) ∧
      ∀ data', data'.Perm data → quartiles cast data' = ok (sorted, q1, q2, q3)) := by
  constructor
  · rintro rfl; rfl
  · intro hne
    have hp := sortData_perm data
    have hne' : sortData data ≠ [] := by
      intro h; rw [h] at hp; exact hne hp.nil_eq.symm
    obtain ⟨Q, e, mono, q0, q1'⟩ := C42_quantile_sorted hc (sortData_sorted data) hne'
    have hn : data.length ≠ 0 := by simpa using hne
    have hlen : (sortData data).length ≠ 0 := by simpa using hne'
    have main : ∀ data' : List T, data'.Perm data → quartiles cast data' = ok (sortData data, Q (1 / 4), Q (1 / 2), Q (3 / 4)) := by
      intro data' hd
      unfold quartiles
      rw [if_neg (by rw [hd.length_eq]; exact hn)]
      dsimp only
      rw [sorted_unique ((sortData_perm data').trans (hd.trans hp.symm)) (sortData_sorted _) (sortData_sorted _),
        e _ (by norm_num) (by norm_num), ok_bind, e _ (by norm_num) (by norm_num), ok_bind, e _ (by norm_num) (by norm_num), ok_bind]
    refine ⟨_, _, _, _, main data (List.Perm.refl _), sortData_sorted _, hp, e _ (by norm_num) (by norm_num), e _ (by norm_num) (by norm_num),
      e _ (by norm_num) (by norm_num), mono _ _ (by norm_num) (by norm_num) (by norm_num), mono _ _ (by norm_num) (by norm_num) (by norm_num),
      ?_, ?_, main⟩
    · intro lo hlo
      refine le_trans ?_ (mono 0 (1 / 4) (le_refl _) (by norm_num) (by norm_num))
      have h0 : 0 < (sortData data).length := by omega
      rw [q0 _ (List.getElem?_eq_getElem h0)]
      exact hlo _ (hp.mem_iff.1 (List.getElem_mem h0))
    · intro hi hhi
      refine le_trans (mono (3 / 4) 1 (by norm_num) (by norm_num) (le_refl _)) ?_
      have h0 : (sortData data).length - 1 < (sortData data).length := by omega
      rw [q1' _ (List.getElem?_eq_getElem h0)]
      exact hhi _ (hp.mem_iff.1 (List.getElem_mem h0))

/-- C42: the second quartile is the median: the middle value of an odd number of data and the mean of the two middle values of an even
number. -/
theorem C42_median (cast : T → α) (sorted : List T) (m : Nat) :
    (∀ h : sorted.length = 2 * m + 1, quantile cast sorted (1 / 2) = ok (cast sorted[m])) ∧
    (∀ h : sorted.length = 2 * m + 2, quantile cast sorted (1 / 2) = ok ((cast sorted[m] + cast sorted[m + 1]) / 2)) := by
  constructor
  · intro h
    rw [(C42_quantile cast sorted (1 / 2)).2 (by rintro rfl; simp at h) (by norm_num) (by norm_num)]
    have : (1 / 2 : α) * ((sorted.length - 1 : Nat) : α) = (m : α) := by
      rw [h, Nat.add_sub_cancel]; push_cast; ring
    rw [this, lerp_nat, datum_eq cast]
  · intro h
    rw [(C42_quantile cast sorted (1 / 2)).2 (by rintro rfl; simp at h) (by norm_num) (by norm_num)]
    have : (1 / 2 : α) * ((sorted.length - 1 : Nat) : α) = (m : α) + 1 / 2 := by
      rw [h, show 2 * m + 2 - 1 = 2 * m + 1 by omega]; push_cast; ring
    have hf : ⌊(m : α) + 1 / 2⌋₊ = m := by
      rw [Nat.floor_eq_iff (by positivity)]
      constructor <;> linarith
    have hcl : ⌈(m : α) + 1 / 2⌉₊ = m + 1 := by
      rcases floor_ceil_cases ((m : α) + 1 / 2) (by positivity) with ⟨h1, _⟩ | ⟨_, h2⟩
      · rw [hf] at h1; exfalso; linarith
      · rw [h2, hf]
    rw [this]
    unfold lerp
    rw [hf, hcl, datum_eq cast (by omega), datum_eq cast (by omega)]
    congr 1
    ring

/-- C42: the inter-quartile range is not negative. -/
theorem C42_inter_quartile_range {cast : T → α} (hc : Monotone cast) {data : List T} (hne : data ≠ []) :
    ∃ sorted q1 q2 q3, quartiles cast data = ok (sorted, q1, q2, q3) ∧ interQuartileRange cast data = ok (sorted, q3 - q1) ∧ 0 ≤ q3 - q1 := by
  obtain ⟨sorted, q1, q2, q3, e, _, _, _, _, _, h1, h2, _⟩ := (C42_quartiles hc data).2 hne
  exact ⟨sorted, q1, q2, q3, e, by unfold interQuartileRange; rw [e, ok_bind], by linarith⟩

/-- the hypotheses are met -/
example : Sorted ([7, 15, 36, 39, 40, 41] : List ℚ) ∧ Monotone (fun x : ℚ => x) := ⟨by unfold Sorted; decide +kernel, fun _ _ h => h⟩

example : quartiles (fun x : ℚ => x) [41, 7] = ok ([7, 41], 31 / 2, 24, 65 / 2) := by
  have hs : sortData ([41, 7] : List ℚ) = [7, 41] := by
    unfold sortData
    simp [List.mergeSort, List.MergeSort.Internal.splitInTwo, List.merge]
    norm_num
  unfold quartiles
  rw [if_neg (by simp), hs]
  decide +kernel

/-! ## outliers -/

/-- order of the result: by value, equal values by position -/
def LexLe (a b : Nat × T) : Prop := a.2 < b.2 ∨ (a.2 = b.2 ∧ a.1 < b.1)

omit [LinearOrder T] in
theorem forList_filter (p : Nat × T → Prop) [DecidablePred p] : ∀ (l acc : List (Nat × T)),
    forList l acc (fun x acc => if p x then ok (acc ++ [x]) else ok acc) = ok (acc ++ l.filter p)
  | [], acc => by simp [forList]
  | x :: l, acc => by
    rw [forList]
    by_cases h : p x
    · rw [if_pos h, ok_bind, forList_filter p l, List.filter_cons_of_pos (by simpa using h)]; simp
    · rw [if_neg h, ok_bind, forList_filter p l, List.filter_cons_of_neg (by simpa using h)]

/-- the indexed data -/
def indexed (data : List T) : List (Nat × T) := data.zipIdx.map fun p => (p.2, p.1)

omit [LinearOrder T] in
theorem mem_indexed {data : List T} {p : Nat × T} : p ∈ indexed data ↔ data[p.1]? = some p.2 := by
  unfold indexed
  constructor
  · intro h
    obtain ⟨q, hq, rfl⟩ := List.mem_map.1 h
    exact List.mem_zipIdx_iff_getElem?.1 hq
  · intro h
    exact List.mem_map.2 ⟨(p.2, p.1), List.mem_zipIdx_iff_getElem?.2 h, rfl⟩

omit [LinearOrder T] in
theorem indexed_fst (data : List T) : (indexed data).map Prod.fst = List.range data.length := by
  unfold indexed
  rw [List.map_map]
  have : (Prod.fst ∘ fun p : T × Nat => (p.2, p.1)) = Prod.snd := rfl
  rw [this, List.zipIdx_map_snd, List.range'_eq_map_range]
  simp

omit [LinearOrder T] in
theorem indexed_snd (data : List T) : (indexed data).map Prod.snd = data := by
  unfold indexed
  rw [List.map_map]
  have : (Prod.snd ∘ fun p : T × Nat => (p.2, p.1)) = Prod.fst := rfl
  rw [this, List.zipIdx_map_fst]

omit [LinearOrder T] in
theorem indexed_increasing (data : List T) : (indexed data).Pairwise fun a b => a.1 < b.1 := by
  rw [← List.pairwise_map (f := Prod.fst) (R := (· < ·)), indexed_fst]
  exact List.pairwise_lt_range

theorem indexedSorted_perm (data : List T) : (indexedSorted data).Perm (indexed data) := List.mergeSort_perm _ _

theorem indexedSorted_lex (data : List T) : (indexedSorted data).Pairwise LexLe := by
  have htr : ∀ a b c : Nat × T, decide (a.2 ≤ b.2) = true → decide (b.2 ≤ c.2) = true → decide (a.2 ≤ c.2) = true := by
    simp only [decide_eq_true_eq]; exact fun a b c => le_trans
  have htot : ∀ a b : Nat × T, (decide (a.2 ≤ b.2) || decide (b.2 ≤ a.2)) = true := by
    simp only [Bool.or_eq_true, decide_eq_true_eq]; exact fun a b => le_total _ _
  have hs := List.pairwise_mergeSort htr htot (indexed data)
  have hnd : (indexedSorted data).Nodup := by
    rw [(indexedSorted_perm data).nodup_iff]
    exact (indexed_increasing data).imp (fun h e => by rw [e] at h; exact lt_irrefl _ h)
  rw [List.pairwise_iff_getElem] at hs ⊢
  intro i j hi hj hij
  have hle : (indexedSorted data)[i].2 ≤ (indexedSorted data)[j].2 := by
    exact of_decide_eq_true (hs i j hi hj hij)
  rcases lt_or_eq_of_le hle with h | h
  · exact Or.inl h
  · right
    refine ⟨h, ?_⟩
    by_contra hn
    push Not at hn
    set a := (indexedSorted data)[i] with ha
    set b := (indexedSorted data)[j] with hb
    have hab : a ≠ b := by
      intro e
      have := (List.Nodup.getElem_inj_iff hnd).1 e
      omega
    have hlt : b.1 < a.1 := lt_of_le_of_ne hn (fun e => hab (Prod.ext e.symm h))
    -- in the original order b comes before a
    have hsub : [b, a].Sublist (indexed data) := by
      have ma : a ∈ indexed data := (indexedSorted_perm data).mem_iff.1 (List.getElem_mem hi)
      have mb : b ∈ indexed data := (indexedSorted_perm data).mem_iff.1 (List.getElem_mem hj)
      obtain ⟨ia, hia, ea⟩ := List.getElem_of_mem ma
      obtain ⟨ib, hib, eb⟩ := List.getElem_of_mem mb
      have hlt' : ib < ia := by
        by_contra hc
        push Not at hc
        rcases Nat.lt_or_eq_of_le hc with hc | hc
        · have := List.pairwise_iff_getElem.1 (indexed_increasing data) ia ib hia hib hc
          rw [ea, eb] at this
          omega
        · subst hc; rw [ea] at eb; exact hab eb
      rw [← ea, ← eb]
      have h1 : [(indexed data)[ib]].Sublist ((indexed data).take ia) := by
        rw [List.singleton_sublist]
        exact List.mem_take_iff_getElem.2 ⟨ib, by omega, rfl⟩
      have h2 : [(indexed data)[ia]].Sublist ((indexed data).drop ia) := by
        rw [List.singleton_sublist, List.drop_eq_getElem_cons hia]
        exact List.mem_cons_self
      have := h1.append h2
      rwa [List.take_append_drop] at this
    have hsub' : [b, a].Sublist (indexedSorted data) :=
      List.sublist_mergeSort htr htot (by
        rw [List.pairwise_pair]
        simp [h]) hsub
    -- but a comes before b in the result
    obtain ⟨f, hf⟩ := List.sublist_iff_exists_fin_orderEmbedding_get_eq.1 hsub'
    have e0 := hf ⟨0, by simp⟩
    have e1 := hf ⟨1, by simp⟩
    simp only [List.get_eq_getElem, List.getElem_cons_zero, List.getElem_cons_succ] at e0 e1
    have k0 : (f ⟨0, by simp⟩).val = j := ((List.Nodup.getElem_inj_iff hnd).1 (hb.symm.trans e0)).symm
    have k1 : (f ⟨1, by simp⟩).val = i := ((List.Nodup.getElem_inj_iff hnd).1 (ha.symm.trans e1)).symm
    have : f ⟨0, by simp⟩ < f ⟨1, by simp⟩ := f.lt_iff_lt.2 (by simp)
    have : (f ⟨0, by simp⟩).val < (f ⟨1, by simp⟩).val := this
    omega

theorem LexLe.trans' {a b c : Nat × T} (h1 : LexLe a b) (h2 : LexLe b c) : LexLe a c := by
  rcases h1 with h1 | ⟨h1, h1'⟩ <;> rcases h2 with h2 | ⟨h2, h2'⟩
  · exact Or.inl (h1.trans h2)
  · exact Or.inl (h2 ▸ h1)
  · exact Or.inl (h1 ▸ h2)
  · exact Or.inr ⟨h1.trans h2, h1'.trans h2'⟩

/-- C43: the outliers are exactly the data below `q1 - 1.5 iqr` or above `q3 + 1.5 iqr`, each one once with its position, ordered by value
and by position for equal values; the quartiles are those of the data.  Empty data panic. -/
theorem C43_outliers {cast : T → α} (hc : Monotone cast) (data : List T) :
    (data = [] → outliers cast data = panic) ∧
    (data ≠ [] → ∃ sorted q1 q2 q3 r, quartiles cast data = ok (sorted, q1, q2, q3) ∧ outliers cast data = ok r ∧
      (∀ i v, (i, v) ∈ r ↔ data[i]? = some v ∧ (cast v < q1 - 3 / 2 * (q3 - q1) ∨ cast v > q3 + 3 / 2 * (q3 - q1))) ∧
      r.Pairwise LexLe ∧ r.Nodup) := by
  have hperm : ((indexedSorted data).map Prod.snd).Perm data := by
    have := (indexedSorted_perm data).map Prod.snd
    rwa [indexed_snd] at this
  constructor
  · rintro rfl
    unfold outliers
    dsimp only
    rw [List.perm_nil.1 hperm, (C42_quartiles hc []).1 rfl]
    rfl
  · intro hne
    obtain ⟨sorted, q1, q2, q3, e, _, _, _, _, _, _, _, _, _, hind⟩ := (C42_quartiles hc data).2 hne
    have hl := indexedSorted_lex data
    refine ⟨sorted, q1, q2, q3,
      (indexedSorted data).filter fun p => decide (cast p.2 < q1 - 3 / 2 * (q3 - q1) ∨ cast p.2 > q3 + 3 / 2 * (q3 - q1)), e, ?_, ?_, ?_, ?_⟩
    · unfold outliers
      dsimp only
      rw [hind _ hperm, ok_bind]
      dsimp only
      rw [forList_filter]
      rfl
    · intro i v
      rw [List.mem_filter, (indexedSorted_perm data).mem_iff, mem_indexed]
      simp
    · exact hl.filter _
    · refine (hl.filter _).imp (fun {a b} h e => ?_)
      subst e
      rcases h with h | h
      · exact lt_irrefl _ h
      · exact lt_irrefl _ h.2

/-- C43: the values of the outliers do not depend on the order of the data. -/
theorem C43_order {cast : T → α} (hc : Monotone cast) {data data' : List T} (hp : data'.Perm data) {r r' : List (Nat × T)}
    (h : outliers cast data = ok r) (h' : outliers cast data' = ok r') : r'.map Prod.snd = r.map Prod.snd := by
  have key : ∀ d : List T, ((indexedSorted d).map Prod.snd).Perm d := by
    intro d
    have := (indexedSorted_perm d).map Prod.snd
    rwa [indexed_snd] at this
  have hsame : (indexedSorted data').map Prod.snd = (indexedSorted data).map Prod.snd := by
    refine sorted_unique ((key data').trans (hp.trans (key data).symm)) ?_ ?_
    all_goals
      unfold Sorted
      rw [List.pairwise_map]
      refine (indexedSorted_lex _).imp (fun {a b} h => ?_)
      rcases h with h | h
      · exact h.le
      · exact h.1.le
  unfold outliers at h h'
  dsimp only at h h'
  rw [hsame] at h'
  obtain ⟨q, e, h⟩ := bind_eq_ok.1 h
  rw [e, ok_bind] at h'
  rw [forList_filter] at h h'
  injection h with h
  injection h' with h'
  rw [← h, ← h', List.nil_append, List.nil_append]
  have : ∀ (l : List (Nat × T)) (p : T → Bool), (l.filter fun x => p x.2).map Prod.snd = (l.map Prod.snd).filter p := by
    intro l p
    rw [List.filter_map]
    rfl
  rw [this _ (fun v => decide (cast v < _ ∨ cast v > _)), this _ (fun v => decide (cast v < _ ∨ cast v > _)), hsame]

end Russell.Stat
