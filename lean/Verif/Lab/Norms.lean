import Verif.Lab.Dense
import Mathlib.Algebra.Order.Field.Basic
import Mathlib.Algebra.Order.BigOperators.Group.List
import Mathlib.Algebra.Order.BigOperators.Group.Finset
import Mathlib.Algebra.BigOperators.Fin
import Mathlib.Tactic.Linarith
import Mathlib.Tactic.Positivity
import Mathlib.Tactic.FieldSimp
import Mathlib.Analysis.Real.Sqrt

/-!
# Vector norms and scaled error measures (russell_lab/src/vector)

The BLAS routines `idamax`, `dasum` and `dnrm2` are modelled by their reference definitions; the square root is a
parameter. Exact arithmetic.
-/

namespace Russell.Lab

open Russell Russell.Res

variable {α : Type}

/-- `enum Norm` (/repo/russell_lab/src/base/enums.rs:5-74) -/
inductive Norm where
  | euc | fro | inf | max | one
  deriving DecidableEq, Repr

section
variable [Field α] [LinearOrder α]

/-- `cblas_idamax(n, x, 1)`: the position of the first entry of largest absolute value (zero for `n = 0`) -/
def idamax (x : List α) : Nat :=
  (List.range x.length).foldl (fun best i => if |x.getD i 0| > |x.getD best 0| then i else best) 0

/-- `cblas_dasum(n, x, 1)` -/
def dasum (x : List α) : α := x.foldl (fun acc v => acc + |v|) 0

/-- `cblas_dnrm2(n, x, 1)` -/
def dnrm2 (sqrt : α → α) (x : List α) : α := sqrt (x.foldl (fun acc v => acc + v * v) 0)

/-- the `match kind` of `vec_norm` and `vec_norm_chunk` (/repo/russell_lab/src/vector/vec_norm.rs:42-49,
vec_norm_chunk.rs:54-61) -/
def normOf (sqrt : α → α) (v : List α) : Norm → Res α
  | .euc => ok (dnrm2 sqrt v)
  | .fro => ok (dnrm2 sqrt v)
  | .inf => do ok |← vget v (idamax v)|
  | .max => do ok |← vget v (idamax v)|
  | .one => ok (dasum v)

/-- `vec_norm` (/repo/russell_lab/src/vector/vec_norm.rs:36-51) -/
def vecNorm (sqrt : α → α) (v : List α) (kind : Norm) : Res α := do
  let n ← toI32 v.length
  if n = 0 then ok 0 else normOf sqrt v kind

/-- `find_index_abs_max` (/repo/russell_lab/src/base/auxiliary_blas.rs:65-72) -/
def findIndexAbsMax (x : List α) : Res Nat := do
  let _ ← toI32 x.length
  ok (idamax x)

/-- `vec_norm_chunk` (/repo/russell_lab/src/vector/vec_norm_chunk.rs:45-63) -/
def vecNormChunk (sqrt : α → α) (v : List α) (kind : Norm) (start stop : Nat) : Res α :=
  if v.length = 0 then ok 0
  else if ¬ start < stop then Res.panic
  else if ¬ stop ≤ v.length then Res.panic
  else do
    let slice ← vslice v start stop
    let _ ← toI32 slice.length
    normOf sqrt slice kind

/-- `vec_max_abs_diff` (/repo/russell_lab/src/vector/vec_max_abs_diff.rs:30-44) -/
def vecMaxAbsDiff (u v : List α) : Res (Nat × α) :=
  let m := u.length
  if v.length ≠ m then err "vectors are incompatible"
  else
    forRange 0 m ((0 : Nat), (0 : α)) fun i s => do
      let a ← vget u i
      let b ← vget v i
      let d := |a - b|
      if d > s.2 then ok (i, d) else ok s

/-- `vec_max_scaled` (/repo/russell_lab/src/vector/vec_max_scaled.rs:26-37); `lowest` is `f64::MIN` -/
def vecMaxScaled (lowest : α) (v v0 : List α) (one : α) : Res α :=
  let m := v.length
  if v0.length ≠ m then Res.panic
  else if m = 0 then ok 0
  else
    forRange 0 m lowest fun i res => do
      let a ← vget v i
      let b ← vget v0 i
      ok (max res (|a| / (one + |b|)))

/-- `vec_rms_scaled` (/repo/russell_lab/src/vector/vec_rms_scaled.rs:30-42) -/
def vecRmsScaled (sqrt : α → α) (v v0 : List α) (absTol relTol : α) : Res α :=
  let m := v.length
  if v0.length ≠ m then Res.panic
  else if m = 0 then ok 0
  else do
    let sum ← forRange 0 m (0 : α) fun i sum => do
      let a ← vget v i
      let b ← vget v0 i
      let den := absTol + relTol * |b|
      ok (sum + a * a / (den * den))
    ok (sqrt (sum / (m : α)))

/-! ### properties -/

/-- `m` is the largest absolute value in `l` (zero when there is none) -/
def IsMaxAbs (l : List α) (m : α) : Prop := (∀ v ∈ l, |v| ≤ m) ∧ (m = 0 ∨ ∃ v ∈ l, |v| = m)

theorem IsMaxAbs.unique [IsStrictOrderedRing α] {l : List α} {m m' : α} (h : IsMaxAbs l m) (h' : IsMaxAbs l m') (hm : 0 ≤ m) (hm' : 0 ≤ m') : m = m' := by
  obtain ⟨a, b⟩ := h
  obtain ⟨a', b'⟩ := h'
  apply le_antisymm
  · rcases b with rfl | ⟨v, hv, rfl⟩
    · exact hm'
    · exact a' v hv
  · rcases b' with rfl | ⟨v, hv, rfl⟩
    · exact hm
    · exact a v hv

theorem idamax_spec {x : List α} (hx : x ≠ []) :
    idamax x < x.length ∧ (∀ i, i < x.length → |x.getD i 0| ≤ |x.getD (idamax x) 0|) ∧
      ∀ i, i < idamax x → |x.getD i 0| < |x.getD (idamax x) 0| := by
  have hpos : 0 < x.length := List.length_pos_iff.2 hx
  have key : ∀ m, m ≤ x.length → ∀ b, b = (List.range m).foldl
      (fun best i => if |x.getD i 0| > |x.getD best 0| then i else best) 0 →
      (b < x.length ∧ b ≤ m) ∧ (∀ i, i < m → |x.getD i 0| ≤ |x.getD b 0|) ∧ ∀ i, i < b → |x.getD i 0| < |x.getD b 0| := by
    intro m
    induction m with
    | zero => intro _ b hb; subst hb; exact ⟨⟨hpos, le_refl _⟩, by simp, by simp⟩
    | succ m ih =>
      intro hm b hb
      rw [List.range_succ, List.foldl_append] at hb
      obtain ⟨⟨c1, c1'⟩, c2, c3⟩ := ih (by omega) _ rfl
      generalize (List.range m).foldl (fun best i => if |x.getD i 0| > |x.getD best 0| then i else best) 0 = p at hb c1 c1' c2 c3
      simp only [List.foldl_cons, List.foldl_nil] at hb
      by_cases h : |x.getD m 0| > |x.getD p 0|
      · rw [if_pos h] at hb
        subst hb
        refine ⟨⟨by omega, by omega⟩, ?_, ?_⟩
        · intro i hi
          rcases Nat.lt_succ_iff_lt_or_eq.1 hi with h1 | rfl
          · exact le_of_lt (lt_of_le_of_lt (c2 i h1) h)
          · exact le_refl _
        · intro i hi
          exact lt_of_le_of_lt (c2 i hi) h
      · rw [if_neg h] at hb
        subst hb
        refine ⟨⟨c1, by omega⟩, ?_, c3⟩
        intro i hi
        rcases Nat.lt_succ_iff_lt_or_eq.1 hi with h1 | rfl
        · exact c2 i h1
        · exact not_lt.1 h
  obtain ⟨⟨a, -⟩, b, c⟩ := key x.length (le_refl _) (idamax x) rfl
  exact ⟨a, b, c⟩

theorem maxNorm_spec {x : List α} (hx : x ≠ []) :
    ∃ m, (do ok |← vget x (idamax x)| : Res α) = ok m ∧ (∀ v ∈ x, |v| ≤ m) ∧ ∃ v ∈ x, |v| = m := by
  obtain ⟨a, b, -⟩ := idamax_spec hx
  have hg : x.getD (idamax x) 0 = x[idamax x] := by simp [List.getD, a]
  refine ⟨|x[idamax x]|, by rw [vget_lt a]; rfl, ?_, x[idamax x], List.getElem_mem a, rfl⟩
  intro v hv
  obtain ⟨i, hi, rfl⟩ := List.mem_iff_getElem.1 hv
  have := b i hi
  rw [hg] at this
  simpa [List.getD, hi] using this

/-- C56: the max and infinity norms are the largest absolute value. -/
theorem C56_norm_max [IsStrictOrderedRing α] (sqrt : α → α) (v : List α) (hn : v.length < 2147483648) :
    ∃ m, vecNorm sqrt v .max = ok m ∧ vecNorm sqrt v .inf = ok m ∧ IsMaxAbs v m ∧ 0 ≤ m := by
  unfold vecNorm
  rw [toI32_lt hn]
  simp only [ok_bind]
  by_cases h : v = []
  · subst h
    exact ⟨0, rfl, rfl, ⟨by simp, Or.inl rfl⟩, le_refl _⟩
  · have : ((v.length : Nat) : Int) ≠ 0 := by
      have := List.length_pos_iff.2 h; omega
    rw [if_neg this, if_neg this]
    obtain ⟨m, e, h1, v', h2, h3⟩ := maxNorm_spec h
    exact ⟨m, e, e, ⟨h1, Or.inr ⟨v', h2, h3⟩⟩, h3 ▸ abs_nonneg _⟩

theorem dasum_eq [IsStrictOrderedRing α] (v : List α) : dasum v = (v.map fun x => |x|).sum := by
  have : ∀ (l : List α) (z : α), l.foldl (fun acc v => acc + |v|) z = z + (l.map fun x => |x|).sum := by
    intro l
    induction l with
    | nil => simp
    | cons a l ih => intro z; simp [ih, add_assoc]
  rw [dasum, this, zero_add]

theorem sumsq_eq [IsStrictOrderedRing α] (v : List α) : v.foldl (fun acc v => acc + v * v) 0 = (v.map fun x => x * x).sum := by
  have : ∀ (l : List α) (z : α), l.foldl (fun acc v => acc + v * v) z = z + (l.map fun x => x * x).sum := by
    intro l
    induction l with
    | nil => simp
    | cons a l ih => intro z; simp [ih, add_assoc]
  rw [this, zero_add]

/-- `sqrt` is a square root on the non-negative numbers -/
def IsSqrt (sqrt : α → α) : Prop := ∀ t, 0 ≤ t → 0 ≤ sqrt t ∧ sqrt t * sqrt t = t

theorem sum_nonneg_of {β : Type} [IsStrictOrderedRing α] {l : List β} {f : β → α} (h : ∀ x ∈ l, 0 ≤ f x) : 0 ≤ (l.map f).sum := by
  apply List.sum_nonneg
  intro y hy
  obtain ⟨x, hx, rfl⟩ := List.mem_map.1 hy
  exact h x hx

/-- C56: the one norm is the sum of the absolute values and the Euclidean norm is the root of the sum of the squares. -/
theorem C56_norm_sum [IsStrictOrderedRing α] {sqrt : α → α} (hs : IsSqrt sqrt) (v : List α) (hn : v.length < 2147483648) :
    vecNorm sqrt v .one = ok (v.map fun x => |x|).sum ∧
    ∃ e, vecNorm sqrt v .euc = ok e ∧ vecNorm sqrt v .fro = ok e ∧ 0 ≤ e ∧ e * e = (v.map fun x => x * x).sum := by
  unfold vecNorm
  rw [toI32_lt hn]
  simp only [ok_bind]
  by_cases h : v = []
  · subst h
    exact ⟨rfl, 0, rfl, rfl, le_refl _, by simp⟩
  · have : ((v.length : Nat) : Int) ≠ 0 := by
      have := List.length_pos_iff.2 h; omega
    rw [if_neg this, if_neg this, if_neg this]
    refine ⟨by rw [normOf, dasum_eq], dnrm2 sqrt v, rfl, rfl, ?_⟩
    rw [dnrm2, sumsq_eq]
    exact hs _ (sum_nonneg_of fun x _ => mul_self_nonneg x)

/-- C56: every norm vanishes exactly on the zero vector. -/
theorem C56_norm_zero [IsStrictOrderedRing α] {sqrt : α → α} (hs : IsSqrt sqrt) (v : List α) (hn : v.length < 2147483648)
    (kind : Norm) : vecNorm sqrt v kind = ok 0 ↔ ∀ x ∈ v, x = 0 := by
  obtain ⟨m, h1, h2, h3, h4⟩ := C56_norm_max sqrt v hn
  obtain ⟨h5, e, h6, h7, h8, h9⟩ := C56_norm_sum hs v hn
  have hmax : m = 0 ↔ ∀ x ∈ v, x = 0 := by
    constructor
    · rintro rfl x hx
      exact abs_eq_zero.1 (le_antisymm (h3.1 x hx) (abs_nonneg _))
    · intro h
      rcases h3.2 with rfl | ⟨x, hx, rfl⟩
      · rfl
      · rw [h x hx, abs_zero]
  have hzero : ∀ f : α → α, (∀ x, 0 ≤ f x) → (∀ x, f x = 0 ↔ x = 0) → ((v.map f).sum = 0 ↔ ∀ x ∈ v, x = 0) := by
    intro f hf0 hf
    clear * - hf0 hf
    induction v with
    | nil => simp
    | cons a l ih =>
      rw [List.map_cons, List.sum_cons, List.forall_mem_cons, ← ih, ← hf a]
      exact add_eq_zero_iff_of_nonneg (hf0 a) (sum_nonneg_of fun x _ => hf0 x)
  have hone := hzero (fun x => |x|) abs_nonneg (fun x => abs_eq_zero)
  have heuc : e = 0 ↔ ∀ x ∈ v, x = 0 := by
    rw [← hzero (fun x => x * x) mul_self_nonneg (fun x => mul_self_eq_zero), ← h9, mul_self_eq_zero]
  cases kind
  · rw [h6, Res.ok.injEq]; exact heuc
  · rw [h7, Res.ok.injEq]; exact heuc
  · rw [h2, Res.ok.injEq]; exact hmax
  · rw [h1, Res.ok.injEq]; exact hmax
  · rw [h5, Res.ok.injEq]; exact hone

/-- C56: a chunk has the norm of the vector made of its entries; chunks that are empty or reach outside panic. -/
theorem C56_norm_chunk (sqrt : α → α) (v : List α) (hn : v.length < 2147483648) (kind : Norm) (start stop : Nat) :
    (v ≠ [] → start < stop → stop ≤ v.length →
      vecNormChunk sqrt v kind start stop = vecNorm sqrt ((v.drop start).take (stop - start)) kind) ∧
    (v ≠ [] → ¬ (start < stop ∧ stop ≤ v.length) → vecNormChunk sqrt v kind start stop = Res.panic) ∧
    (v = [] → vecNormChunk sqrt v kind start stop = ok 0) := by
  refine ⟨?_, ?_, ?_⟩
  · intro h0 h1 h2
    unfold vecNormChunk vecNorm
    rw [if_neg (by have := List.length_pos_iff.2 h0; omega), if_neg (not_not.2 h1), if_neg (not_not.2 h2), vslice,
      if_pos ⟨by omega, h2⟩, ok_bind]
    have hl : ((v.drop start).take (stop - start)).length = stop - start := by simp; omega
    rw [hl, toI32_lt (by omega), ok_bind, ok_bind, if_neg (by omega)]
  · intro h0 h
    unfold vecNormChunk
    rw [if_neg (by have := List.length_pos_iff.2 h0; omega)]
    by_cases h1 : start < stop
    · rw [if_neg (not_not.2 h1), if_pos (fun h2 => h ⟨h1, h2⟩)]
    · rw [if_pos h1]
  · rintro rfl; rfl

/-- C56: `vec_max_abs_diff` finds the largest difference and the first place where it occurs; it is zero exactly for equal
vectors; vectors of different lengths are rejected. -/
theorem C56_max_abs_diff [IsStrictOrderedRing α] (u v : List α) :
    (v.length ≠ u.length → vecMaxAbsDiff u v = err "vectors are incompatible") ∧
    (v.length = u.length → ∃ k d, vecMaxAbsDiff u v = ok (k, d) ∧
      (∀ i, i < u.length → |u.getD i 0 - v.getD i 0| ≤ d) ∧ (d = 0 ↔ u = v) ∧
      (d ≠ 0 → k < u.length ∧ |u.getD k 0 - v.getD k 0| = d ∧ ∀ i, i < k → |u.getD i 0 - v.getD i 0| < d)) := by
  constructor
  · intro h; unfold vecMaxAbsDiff; dsimp only; rw [if_pos h]
  · intro h
    unfold vecMaxAbsDiff
    dsimp only
    rw [if_neg (not_not.2 h)]
    obtain ⟨⟨k, d⟩, e, h1, h2, h3⟩ := forRange_spec (f := fun i (s : Nat × α) => do
        let a ← vget u i
        let b ← vget v i
        let d := |a - b|
        if d > s.2 then ok (i, d) else ok s)
      (fun m s => (∀ i, i < m → |u.getD i 0 - v.getD i 0| ≤ s.2) ∧ 0 ≤ s.2 ∧
        (s.2 ≠ 0 → s.1 < m ∧ |u.getD s.1 0 - v.getD s.1 0| = s.2 ∧ ∀ i, i < s.1 → |u.getD i 0 - v.getD i 0| < s.2))
      (Nat.zero_le u.length) (s := ((0 : Nat), (0 : α))) ⟨by simp, le_refl _, by simp⟩ (by
        rintro m ⟨k, d⟩ - hm ⟨i1, i2, i3⟩
        dsimp only at i1 i2 i3 ⊢
        have hmv : m < v.length := by omega
        rw [vget_lt hm, ok_bind, vget_lt hmv, ok_bind]
        have hd : |u.getD m 0 - v.getD m 0| = |u[m] - v[m]| := by simp [List.getD, hm, hmv]
        by_cases hc : |u[m] - v[m]| > d
        · rw [if_pos hc]
          refine ⟨_, rfl, ?_, abs_nonneg _, ?_⟩
          · intro i hi
            rcases Nat.lt_succ_iff_lt_or_eq.1 hi with h' | rfl
            · exact le_of_lt (lt_of_le_of_lt (i1 i h') hc)
            · exact le_of_eq hd
          · intro _
            exact ⟨Nat.lt_succ_self _, hd, fun i hi => lt_of_le_of_lt (i1 i hi) hc⟩
        · rw [if_neg hc]
          refine ⟨_, rfl, ?_, i2, ?_⟩
          · intro i hi
            rcases Nat.lt_succ_iff_lt_or_eq.1 hi with h' | rfl
            · exact i1 i h'
            · rw [hd]; exact not_lt.1 hc
          · intro hne
            obtain ⟨a, b, c⟩ := i3 hne
            exact ⟨by omega, b, c⟩)
    refine ⟨k, d, e, h1, ?_, h3⟩
    constructor
    · intro hd
      dsimp only at hd h1
      apply List.ext_getElem h.symm
      intro i hu hv
      have := h1 i hu
      rw [hd] at this
      have h0 := abs_eq_zero.1 (le_antisymm this (abs_nonneg _))
      simpa [List.getD, hu, hv, sub_eq_zero] using h0
    · rintro rfl
      by_contra hne
      obtain ⟨a, b, -⟩ := h3 hne
      simp at b
      exact hne b.symm

/-- C56: `vec_max_scaled` is the largest of the scaled absolute values, for every start value that is not positive. -/
theorem C56_max_scaled [IsStrictOrderedRing α] {lowest : α} (hlow : lowest ≤ 0) (v v0 : List α) {one : α} (h1 : 0 < one)
    (hl : v0.length = v.length) : ∃ m, vecMaxScaled lowest v v0 one = ok m ∧ 0 ≤ m ∧
      (∀ i, i < v.length → |v.getD i 0| / (one + |v0.getD i 0|) ≤ m) ∧
      (v ≠ [] → ∃ i, i < v.length ∧ |v.getD i 0| / (one + |v0.getD i 0|) = m) := by
  unfold vecMaxScaled
  dsimp only
  rw [if_neg (not_not.2 hl)]
  by_cases h0 : v = []
  · subst h0; exact ⟨0, rfl, le_refl _, by simp, by simp⟩
  have hpos := List.length_pos_iff.2 h0
  rw [if_neg (by omega)]
  have hq : ∀ i, 0 ≤ |v.getD i 0| / (one + |v0.getD i 0|) := fun i =>
    div_nonneg (abs_nonneg _) (add_nonneg (le_of_lt h1) (abs_nonneg _))
  obtain ⟨m, e, i1, i2⟩ := forRange_spec (f := fun i res => do
        let a ← vget v i
        let b ← vget v0 i
        ok (max res (|a| / (one + |b|))))
    (fun k m => (∀ i, i < k → |v.getD i 0| / (one + |v0.getD i 0|) ≤ m) ∧
      ((k = 0 ∧ m = lowest) ∨ ∃ i, i < k ∧ |v.getD i 0| / (one + |v0.getD i 0|) = m))
    (Nat.zero_le v.length) (s := lowest) ⟨by simp, Or.inl ⟨rfl, rfl⟩⟩ (by
      rintro k m - hk ⟨j1, j2⟩
      have hk0 : k < v0.length := by omega
      rw [vget_lt hk, ok_bind, vget_lt hk0, ok_bind]
      have hd : |v.getD k 0| / (one + |v0.getD k 0|) = |v[k]| / (one + |v0[k]|) := by simp [List.getD, hk, hk0]
      refine ⟨_, rfl, ?_, Or.inr ?_⟩
      · intro i hi
        rcases Nat.lt_succ_iff_lt_or_eq.1 hi with h' | rfl
        · exact le_trans (j1 i h') (le_max_left _ _)
        · rw [hd]; exact le_max_right _ _
      · rcases le_total m (|v[k]| / (one + |v0[k]|)) with hc | hc
        · exact ⟨k, Nat.lt_succ_self _, by rw [hd, max_eq_right hc]⟩
        · rw [max_eq_left hc]
          rcases j2 with ⟨rfl, rfl⟩ | ⟨i, hi, ei⟩
          · exact ⟨0, Nat.lt_succ_self _, le_antisymm (by rw [hd]; exact hc) (le_trans hlow (hq 0))⟩
          · exact ⟨i, by omega, ei⟩)
  refine ⟨m, e, ?_, i1, fun _ => ?_⟩
  · exact le_trans (hq 0) (i1 0 hpos)
  · rcases i2 with ⟨h, -⟩ | h
    · omega
    · exact h

/-- C56: `vec_rms_scaled` is the root of the mean of the squares of the scaled components, so it is zero exactly for the
zero vector and at most one when every component is within its tolerance. -/
theorem C56_rms_scaled [IsStrictOrderedRing α] {sqrt : α → α} (hs : IsSqrt sqrt) (v v0 : List α) {absTol relTol : α}
    (ha : 0 < absTol) (hr : 0 ≤ relTol) (hl : v0.length = v.length) :
    ∃ e, vecRmsScaled sqrt v v0 absTol relTol = ok e ∧ 0 ≤ e ∧
      (v.length : α) * (e * e) =
        ∑ i ∈ Finset.range v.length, (v.getD i 0 / (absTol + relTol * |v0.getD i 0|)) ^ 2 ∧
      (e = 0 ↔ ∀ x ∈ v, x = 0) ∧
      ((∀ i, i < v.length → |v.getD i 0| ≤ absTol + relTol * |v0.getD i 0|) → e ≤ 1) := by
  have hden : ∀ i, 0 < absTol + relTol * |v0.getD i 0| := fun i =>
    add_pos_of_pos_of_nonneg ha (mul_nonneg hr (abs_nonneg _))
  have main : ∃ e, vecRmsScaled sqrt v v0 absTol relTol = ok e ∧ 0 ≤ e ∧
      (v.length : α) * (e * e) =
        ∑ i ∈ Finset.range v.length, (v.getD i 0 / (absTol + relTol * |v0.getD i 0|)) ^ 2 ∧ (v = [] → e = 0) := by
    unfold vecRmsScaled
    dsimp only
    rw [if_neg (not_not.2 hl)]
    by_cases h0 : v = []
    · subst h0; exact ⟨0, rfl, le_refl _, by simp, fun _ => rfl⟩
    have hpos := List.length_pos_iff.2 h0
    rw [if_neg (by omega)]
    obtain ⟨s, e, rfl⟩ := forRange_spec (f := fun i sum => do
          let a ← vget v i
          let b ← vget v0 i
          let den := absTol + relTol * |b|
          ok (sum + a * a / (den * den)))
      (fun k s => s = ∑ i ∈ Finset.range k, (v.getD i 0 / (absTol + relTol * |v0.getD i 0|)) ^ 2)
      (Nat.zero_le v.length) (s := (0 : α)) (by simp) (by
        rintro k s - hk rfl
        have hk0 : k < v0.length := by omega
        dsimp only
        rw [vget_lt hk, ok_bind, vget_lt hk0, ok_bind]
        refine ⟨_, rfl, ?_⟩
        rw [Finset.sum_range_succ, div_pow]
        simp [List.getD, hk, hk0, pow_two])
    rw [e, ok_bind]
    have hn : (0 : α) < v.length := by exact_mod_cast hpos
    have hsum : 0 ≤ ∑ i ∈ Finset.range v.length, (v.getD i 0 / (absTol + relTol * |v0.getD i 0|)) ^ 2 :=
      Finset.sum_nonneg fun i _ => sq_nonneg _
    obtain ⟨g1, g2⟩ := hs _ (div_nonneg hsum hn.le)
    refine ⟨_, rfl, g1, ?_, fun h => absurd h h0⟩
    rw [g2, mul_div_cancel₀ _ hn.ne']
  obtain ⟨e, h1, h2, h3, h4⟩ := main
  refine ⟨e, h1, h2, h3, ?_, ?_⟩
  · constructor
    · intro he x hx
      obtain ⟨i, hi, rfl⟩ := List.mem_iff_getElem.1 hx
      rw [he, mul_zero, mul_zero] at h3
      have := (Finset.sum_eq_zero_iff_of_nonneg fun i _ => sq_nonneg _).1 h3.symm i (Finset.mem_range.2 hi)
      have := pow_eq_zero_iff (two_ne_zero) |>.1 this
      rcases div_eq_zero_iff.1 this with h | h
      · simpa [List.getD, hi] using h
      · exact absurd h (hden i).ne'
    · intro h
      by_cases h0 : v = []
      · exact h4 h0
      have hn : (0 : α) < v.length := by exact_mod_cast List.length_pos_iff.2 h0
      have : ∑ i ∈ Finset.range v.length, (v.getD i 0 / (absTol + relTol * |v0.getD i 0|)) ^ 2 = 0 := by
        apply Finset.sum_eq_zero
        intro i hi
        have hi := Finset.mem_range.1 hi
        have := h _ (List.getElem_mem hi)
        simp [List.getD, hi, this]
      rw [this] at h3
      rcases mul_eq_zero.1 h3 with h | h
      · exact absurd h hn.ne'
      · exact mul_self_eq_zero.1 h
  · intro h
    by_cases h0 : v = []
    · rw [h4 h0]; exact zero_le_one
    have hn : (0 : α) < v.length := by exact_mod_cast List.length_pos_iff.2 h0
    have hle : ∑ i ∈ Finset.range v.length, (v.getD i 0 / (absTol + relTol * |v0.getD i 0|)) ^ 2 ≤ (v.length : α) := by
      have : ∑ i ∈ Finset.range v.length, (v.getD i 0 / (absTol + relTol * |v0.getD i 0|)) ^ 2 ≤
          ∑ i ∈ Finset.range v.length, (1 : α) := by
        apply Finset.sum_le_sum
        intro i hi
        have hi := Finset.mem_range.1 hi
        rw [sq_le_one_iff_abs_le_one, abs_div, abs_of_pos (hden i), div_le_one (hden i)]
        exact h i hi
      simpa using this
    rw [← h3] at hle
    have : e * e ≤ 1 := by
      by_contra hc
      push Not at hc
      have := mul_lt_mul_of_pos_left hc hn
      rw [mul_one] at this
      exact absurd hle (not_le.2 this)
    by_contra hc
    push Not at hc
    nlinarith

end

/-- a vector with a tie: the first of the two largest entries counts -/
example : idamax ([1, -3, 3, 2] : List ℚ) = 1 := by decide +kernel

example : vecMaxAbsDiff ([1, -3, 3, 2] : List ℚ) [1, 0, 0, 2] = ok (1, 3) := by decide +kernel

example : vecNormChunk (fun t : ℚ => t) [1, -3, 3, -4] .one 1 3 = ok 6 := by decide +kernel

example : IsSqrt Real.sqrt := fun _ h => ⟨Real.sqrt_nonneg _, Real.mul_self_sqrt h⟩

example : vecMaxScaled (-1000) ([1, -3, 3, 2] : List ℚ) [1, 0, 2, 3] 1 = ok 3 := by decide +kernel

end Russell.Lab
