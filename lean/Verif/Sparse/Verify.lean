import Verif.Sparse.CooProps
import Verif.Lab.Norms
import Verif.Lab.Kernels

/-!
# Verification of a linear system (russell_sparse/src/verify_lin_sys.rs)
-/

namespace Russell.Sparse

open Russell Russell.Res Russell.Lab

variable {α κ ρ : Type}

/-- `struct VerifyLinSys` (/repo/russell_sparse/src/verify_lin_sys.rs:9-14) -/
structure VerifyLinSys (ρ : Type) where
  maxAbsA : ρ
  maxAbsAx : ρ
  maxAbsDiff : ρ
  relativeError : ρ
  deriving DecidableEq, Repr

/-- `vec_update` (/repo/russell_lab/src/vector/vec_update.rs:38-48), `complex_vec_update` -/
def vecUpdate [Add α] [Mul α] (v : List α) (alpha : α) (u : List α) : Res (List α) :=
  let n := v.length
  if u.length ≠ n then err "vectors are incompatible"
  else do
    let _ ← toI32 n
    ok (blasAxpy n alpha u v)

/-- `VerifyLinSys::from` (/repo/russell_sparse/src/verify_lin_sys.rs:60-96) -/
def verifyFrom [Field α] [LinearOrder α] (mat : Coo α) (x rhs : List α) : Res (VerifyLinSys α) :=
  if x.length ≠ mat.ncol then err "x.dim() must be equal to ncol"
  else if rhs.length ≠ mat.nrow then err "rhs.dim() must be equal to nrow"
  else do
    let values ← mat.getValues
    if values.length < 1 then err "matrix is empty"
    else do
      let idx ← findIndexAbsMax values
      let a ← vget values idx
      let maxAbsA := |a|
      let ax ← (mat.matVecMul (List.replicate mat.nrow 0) 1 x).unwrap
      let maxAbsAx ← vecNorm (fun t => t) ax .max
      let ax ← (vecUpdate ax (-1) rhs).unwrap
      let maxAbsDiff ← vecNorm (fun t => t) ax .max
      ok { maxAbsA, maxAbsAx, maxAbsDiff, relativeError := maxAbsDiff / (maxAbsA + 1) }

/-- the running maximum `if abs > max { max = abs }` (/repo/russell_sparse/src/verify_lin_sys.rs:119-125,
/repo/russell_lab/src/vector/complex_vec_norm.rs:57-64) -/
def runningMax [Zero ρ] [LT ρ] [DecidableLT ρ] (norm : κ → ρ) (v : List κ) : Res ρ :=
  forRange 0 v.length (0 : ρ) fun k m => do
    let z ← vget v k
    let abs := norm z
    if abs > m then ok abs else ok m

/-- `VerifyLinSys::from_complex` (/repo/russell_sparse/src/verify_lin_sys.rs:104-146); the complex numbers are `κ`, their
absolute values are in `ρ`. Nothing is assumed of `κ` and `ρ`, so that they may contain NaN. -/
def verifyFromComplex [Zero κ] [One κ] [Neg κ] [Add κ] [Mul κ] [Zero ρ] [One ρ] [Add ρ] [Div ρ] [LT ρ] [DecidableLT ρ]
    (norm : κ → ρ) (mat : Coo κ) (x rhs : List κ) : Res (VerifyLinSys ρ) :=
  if x.length ≠ mat.ncol then err "x.dim() must be equal to ncol"
  else if rhs.length ≠ mat.nrow then err "rhs.dim() must be equal to nrow"
  else do
    let values ← mat.getValues
    if values.length < 1 then err "matrix is empty"
    else do
      let maxAbsA ← runningMax norm values
      let ax ← (mat.matVecMul (List.replicate mat.nrow 0) 1 x).unwrap
      let maxAbsAx ← runningMax norm ax
      let ax ← (vecUpdate ax (-1) rhs).unwrap
      let maxAbsDiff ← runningMax norm ax
      ok { maxAbsA, maxAbsAx, maxAbsDiff, relativeError := maxAbsDiff / (maxAbsA + 1) }

/-! ### properties -/

/-- component `i` of `A x`, `A` given by its entries -/
def axOf [CommSemiring α] (sym : Sym) (es : List (Entry α)) (ncol : Nat) (x : List α) (i : Nat) : α :=
  ∑ k ∈ Finset.range ncol, denseOf sym es i k * x.getD k 0

theorem Coo.getValues_spec {c : Coo α} {es : List (Entry α)} (h : c.Rep es) : c.getValues = ok (es.map fun e => e.2.2) := by
  unfold Coo.getValues vslice
  rw [h.nnz, if_pos ⟨Nat.zero_le _, by rw [h.lenX]; exact h.le⟩]
  congr 1
  apply List.ext_getElem?
  intro k
  rw [List.drop_zero, Nat.sub_zero, List.getElem?_take, List.getElem?_map]
  by_cases hk : k < es.length
  · rw [if_pos hk, h.entX k hk]; simp [hk]
  · rw [if_neg hk]; simp [Nat.not_lt.1 hk]

theorem Coo.ax_spec [CommSemiring α] {c : Coo α} {es : List (Entry α)} (h : c.Rep es) {x : List α} (hx : x.length = c.ncol) :
    c.matVecMul (List.replicate c.nrow 0) 1 x = ok ((List.range c.nrow).map (axOf c.symmetric es c.ncol x)) := by
  obtain ⟨v', a, e, hl, ha, h1, -⟩ := (C09_coo_matVecMul h (List.replicate c.nrow 0) x 1).2 (by omega) (by simp)
  rw [e]
  congr 1
  rw [List.length_replicate] at hl
  apply List.ext_getElem?
  intro r
  by_cases hr : r < c.nrow
  · obtain ⟨f, hf, hv⟩ := h1 r hr
    obtain ⟨a', ea', hd⟩ := Coo.asDense_spec h
    rw [ha] at ea'
    cases ea'
    rw [hv]
    simp only [List.getElem?_map, List.getElem?_range hr, Option.map_some, one_mul, axOf]
    congr 1
    apply Finset.sum_congr rfl
    intro k hk
    have hk := Finset.mem_range.1 hk
    have h2 := hd.get r k hr hk
    rw [hf k hk, Res.ok.injEq] at h2
    rw [h2]
  · have : (List.map (axOf c.symmetric es c.ncol x) (List.range c.nrow))[r]? = none := by simp [Nat.not_lt.1 hr]
    rw [this]
    simp [hl, Nat.not_lt.1 hr]

theorem vecUpdate_spec [CommRing α] {n : Nat} (hn : n < 2147483648) (f : Nat → α) {u : List α} (hu : u.length = n) :
    vecUpdate ((List.range n).map f) (-1) u = ok ((List.range n).map fun i => f i - u.getD i 0) := by
  unfold vecUpdate
  dsimp only
  rw [if_neg (by simp [hu]), List.length_map, List.length_range, toI32_lt hn, ok_bind]
  congr 1
  unfold blasAxpy
  rw [List.take_of_length_le (by omega), List.take_of_length_le (by simp), List.drop_of_length_le (by simp), List.append_nil]
  apply List.ext_getElem?
  intro k
  by_cases hk : k < n
  · simp [hk, hu, List.getD]
    ring
  · simp [hk, hu]

/-- C16: `from` succeeds on every non-empty matrix with vectors of the right size; the maxima are those of the components
of `A x` and of `A x - rhs`; the error is zero exactly when `A x = rhs`. -/
theorem C16_verify [Field α] [LinearOrder α] [IsStrictOrderedRing α] {c : Coo α} {es : List (Entry α)} (h : c.Rep es)
    (he : es ≠ []) (hcap : es.length < 2147483648) {x rhs : List α} (hx : x.length = c.ncol) (hr : rhs.length = c.nrow) :
    ∃ v a, verifyFrom c x rhs = ok v ∧ c.asDense = ok a ∧ IsDense a c.nrow c.ncol (denseOf c.symmetric es) ∧
      IsMaxAbs ((List.range c.nrow).map fun i => ∑ k ∈ Finset.range c.ncol, denseOf c.symmetric es i k * x.getD k 0) v.maxAbsAx ∧
      IsMaxAbs ((List.range c.nrow).map fun i =>
        (∑ k ∈ Finset.range c.ncol, denseOf c.symmetric es i k * x.getD k 0) - rhs.getD i 0) v.maxAbsDiff ∧
      IsMaxAbs (es.map fun e => e.2.2) v.maxAbsA ∧
      0 ≤ v.maxAbsA ∧ 0 ≤ v.maxAbsAx ∧ 0 ≤ v.maxAbsDiff ∧
      v.relativeError = v.maxAbsDiff / (v.maxAbsA + 1) ∧
      (v.maxAbsDiff = 0 ↔ ∀ i, i < c.nrow →
        (∑ k ∈ Finset.range c.ncol, denseOf c.symmetric es i k * x.getD k 0) = rhs.getD i 0) ∧
      (v.relativeError = 0 ↔ v.maxAbsDiff = 0) := by
  obtain ⟨a, ea, ha⟩ := Coo.asDense_spec h
  have hvne : (es.map fun e => e.2.2) ≠ [] := by simpa using he
  obtain ⟨m, em, hm1, v0, hm2, hm3⟩ := maxNorm_spec hvne
  obtain ⟨m1, e1, -, h1, p1⟩ := C56_norm_max (fun t => t) ((List.range c.nrow).map (axOf c.symmetric es c.ncol x))
    (by simpa using h.fitsI)
  obtain ⟨m2, e2, -, h2, p2⟩ := C56_norm_max (fun t => t) ((List.range c.nrow).map fun i => axOf c.symmetric es c.ncol x i - rhs.getD i 0)
    (by simpa using h.fitsI)
  rw [Res.bind_eq_ok] at em
  obtain ⟨w, ew, ew'⟩ := em
  have hwm : |w| = m := by cases ew'; rfl
  have hm0 : 0 ≤ m := hwm ▸ abs_nonneg w
  have hrun : verifyFrom c x rhs = ok { maxAbsA := m, maxAbsAx := m1, maxAbsDiff := m2, relativeError := m2 / (m + 1) } := by
    unfold verifyFrom
    rw [if_neg (not_not.2 hx), if_neg (not_not.2 hr), Coo.getValues_spec h, ok_bind,
      if_neg (by have := List.length_pos_iff.2 he; simp; omega), findIndexAbsMax, List.length_map, toI32_lt hcap, ok_bind, ok_bind,
      ew, ok_bind, Coo.ax_spec h hx, unwrap_ok, ok_bind, e1, ok_bind, vecUpdate_spec h.fitsI _ hr, unwrap_ok, ok_bind, e2, ok_bind, hwm]
  have hdiff : m2 = 0 ↔ ∀ i, i < c.nrow → axOf c.symmetric es c.ncol x i = rhs.getD i 0 := by
    constructor
    · rintro rfl i hi
      have := h2.1 (axOf c.symmetric es c.ncol x i - rhs.getD i 0) (List.mem_map.2 ⟨i, List.mem_range.2 hi, rfl⟩)
      exact sub_eq_zero.1 (abs_eq_zero.1 (le_antisymm this (abs_nonneg _)))
    · intro hh
      rcases h2.2 with h' | ⟨v, hv, hvm⟩
      · exact h'
      · obtain ⟨i, hi, rfl⟩ := List.mem_map.1 hv
        rw [← hvm, hh i (List.mem_range.1 hi), sub_self, abs_zero]
  refine ⟨_, a, hrun, ea, ha, h1, h2, ⟨hm1, Or.inr ⟨v0, hm2, hm3⟩⟩, hm0, p1, p2, rfl, hdiff, ?_⟩
  dsimp only
  rw [div_eq_zero_iff]
  constructor
  · rintro (h | h)
    · exact h
    · linarith
  · intro h; exact Or.inl h

/-- C16: wrong sizes and empty matrices are rejected with an error. -/
theorem C16_errors [Field α] [LinearOrder α] {c : Coo α} {es : List (Entry α)} (h : c.Rep es) {x rhs : List α}
    (hbad : x.length ≠ c.ncol ∨ rhs.length ≠ c.nrow ∨ es = []) : ∃ msg, verifyFrom c x rhs = err msg := by
  unfold verifyFrom
  by_cases h1 : x.length ≠ c.ncol
  · exact ⟨_, by rw [if_pos h1]⟩
  rw [if_neg h1]
  by_cases h2 : rhs.length ≠ c.nrow
  · exact ⟨_, by rw [if_pos h2]⟩
  rw [if_neg h2]
  rcases hbad with hb | hb | hb
  · exact absurd hb h1
  · exact absurd hb h2
  · subst hb
    rw [Coo.getValues_spec h, ok_bind]
    exact ⟨_, by rw [if_pos (by simp)]⟩

theorem denseOf_cons [AddCommMonoid α] (sym : Sym) (e : Entry α) (es : List (Entry α)) (r k : Nat) :
    denseOf sym (e :: es) r k = (if Hits sym e r k then e.2.2 else 0) + denseOf sym es r k := by
  rw [denseOf_eq_sum, denseOf_eq_sum, List.map_cons, List.sum_cons]

theorem denseOf_no_hit [AddCommMonoid α] {sym : Sym} {es : List (Entry α)} {r k : Nat} (h : ∀ e ∈ es, ¬ Hits sym e r k) :
    denseOf sym es r k = 0 := by
  induction es with
  | nil => rfl
  | cons e es ih =>
    rw [denseOf_cons, if_neg (h e (List.mem_cons_self ..)), zero_add]
    exact ih fun e' he' => h e' (List.mem_cons_of_mem _ he')

theorem denseOf_hits [AddCommMonoid α] {sym : Sym} {es : List (Entry α)} (ht : ∀ e ∈ es, InTriangle sym e.1 e.2.1)
    (hnd : es.Pairwise fun e e' => ¬ (e.1 = e'.1 ∧ e.2.1 = e'.2.1)) (r k : Nat) :
    (∃ e ∈ es, Hits sym e r k ∧ denseOf sym es r k = e.2.2) ∨ denseOf sym es r k = 0 ∧ ∀ e ∈ es, ¬ Hits sym e r k := by
  induction es with
  | nil => right; simp [denseOf]
  | cons e es ih =>
    rw [List.pairwise_cons] at hnd
    obtain ⟨hn1, hn2⟩ := hnd
    by_cases hh : Hits sym e r k
    · left
      refine ⟨e, List.mem_cons_self .., hh, ?_⟩
      rw [denseOf_cons, if_pos hh, denseOf_no_hit, add_zero]
      intro e' he' hh'
      have t1 := ht e (List.mem_cons_self ..)
      have t2 := ht e' (List.mem_cons_of_mem _ he')
      apply hn1 e' he'
      unfold Hits at hh hh'
      unfold InTriangle at t1 t2
      rcases hh with ⟨a, b⟩ | ⟨hs, a, b⟩ <;> rcases hh' with ⟨a', b'⟩ | ⟨hs', a', b'⟩
      · exact ⟨by omega, by omega⟩
      · rcases hs' with rfl | rfl
        · have := t1.1 rfl; have := t2.1 rfl; exact ⟨by omega, by omega⟩
        · have := t1.2 rfl; have := t2.2 rfl; exact ⟨by omega, by omega⟩
      · rcases hs with rfl | rfl
        · have := t1.1 rfl; have := t2.1 rfl; exact ⟨by omega, by omega⟩
        · have := t1.2 rfl; have := t2.2 rfl; exact ⟨by omega, by omega⟩
      · exact ⟨by omega, by omega⟩
    · rcases ih (fun e' he' => ht e' (List.mem_cons_of_mem _ he')) hn2 with ⟨e', he', h1, h2⟩ | ⟨h1, h2⟩
      · left
        exact ⟨e', List.mem_cons_of_mem _ he', h1, by rw [denseOf_cons, if_neg hh, zero_add, h2]⟩
      · right
        refine ⟨by rw [denseOf_cons, if_neg hh, zero_add, h1], ?_⟩
        intro e' he'
        rcases List.mem_cons.1 he' with rfl | h
        · exact hh
        · exact h2 e' h

/-- C16: without repeated positions `max_abs_a` is the largest absolute value of the matrix. -/
theorem C16_max_abs_a [Field α] [LinearOrder α] [IsStrictOrderedRing α] {c : Coo α} {es : List (Entry α)} (h : c.Rep es)
    (ht : ∀ e ∈ es, InTriangle c.symmetric e.1 e.2.1)
    (hnd : es.Pairwise fun e e' => ¬ (e.1 = e'.1 ∧ e.2.1 = e'.2.1))
    {x rhs : List α} {v : VerifyLinSys α} (hcap : es.length < 2147483648) (hv : verifyFrom c x rhs = ok v) :
    (∀ i j, i < c.nrow → j < c.ncol → |denseOf c.symmetric es i j| ≤ v.maxAbsA) ∧
      ∃ i j, i < c.nrow ∧ j < c.ncol ∧ |denseOf c.symmetric es i j| = v.maxAbsA := by
  have hgood : ¬ (x.length ≠ c.ncol ∨ rhs.length ≠ c.nrow ∨ es = []) := by
    intro hb
    obtain ⟨m, hm⟩ := C16_errors h hb
    rw [hm] at hv; cases hv
  push Not at hgood
  obtain ⟨g1, g2, g3⟩ := hgood
  obtain ⟨v', a, e, -, -, -, -, hm, p, -⟩ := C16_verify h g3 hcap g1 g2
  rw [hv] at e
  cases e
  constructor
  · intro i j _ _
    rcases denseOf_hits ht hnd i j with ⟨e, he, -, hd⟩ | ⟨hd, -⟩
    · rw [hd]; exact hm.1 _ (List.mem_map.2 ⟨e, he, rfl⟩)
    · rw [hd, abs_zero]; exact p
  · obtain ⟨e0, he0, hmax⟩ : ∃ e ∈ es, |e.2.2| = v.maxAbsA := by
      rcases hm.2 with h0 | ⟨w, hw, hwm⟩
      · obtain ⟨e0, he0⟩ := List.exists_mem_of_ne_nil es g3
        exact ⟨e0, he0, le_antisymm (hm.1 _ (List.mem_map.2 ⟨e0, he0, rfl⟩)) (by rw [h0]; exact abs_nonneg _)⟩
      · obtain ⟨e0, he0, rfl⟩ := List.mem_map.1 hw
        exact ⟨e0, he0, hwm⟩
    refine ⟨e0.1, e0.2.1, h.rangeI e0 he0, h.rangeJ e0 he0, ?_⟩
    rcases denseOf_hits ht hnd e0.1 e0.2.1 with ⟨e, he, hh, hd⟩ | ⟨-, hno⟩
    · -- the entry that is hit is `e0` itself
      have : e = e0 := by
        by_contra hne
        have t1 := ht e he
        have t2 := ht e0 he0
        have hsame : e.1 = e0.1 ∧ e.2.1 = e0.2.1 := by
          unfold Hits at hh
          unfold InTriangle at t1 t2
          rcases hh with hh | ⟨hs, a, b⟩
          · exact hh
          · rcases hs with hs | hs
            · have := t1.1 hs; have := t2.1 hs; exact ⟨by omega, by omega⟩
            · have := t1.2 hs; have := t2.2 hs; exact ⟨by omega, by omega⟩
        have hsym : Std.Symm (fun e e' : Entry α => ¬ (e.1 = e'.1 ∧ e.2.1 = e'.2.1)) :=
          ⟨fun a b hab h => hab ⟨h.1.symm, h.2.symm⟩⟩
        exact hnd.forall he he0 hne hsame
      rw [hd, this]; exact hmax
    · exact absurd (Or.inl ⟨rfl, rfl⟩) (hno e0 he0)

/-- C16: with repeated positions (which the COO format adds up) `max_abs_a` is not the largest absolute value of the
matrix: here the matrix is `[0.5]`, stored as `100.5 - 100`, and the relative error of a wrong solution shrinks accordingly. -/
theorem C16_duplicates_counterexample : ∃ (c0 c1 c2 : Coo ℚ) (a : NumMatrix ℚ), Coo.new 1 1 2 Sym.no = ok c0 ∧
    c0.put 0 0 (201/2) = .ok c1 ∧ c1.put 0 0 (-100) = .ok c2 ∧ c2.asDense = ok a ∧ a.data = [1/2] ∧
    verifyFrom c2 [2] [3] = ok { maxAbsA := 201/2, maxAbsAx := 1, maxAbsDiff := 2, relativeError := 4/203 } := by
  refine ⟨_, _, _, ⟨1, 1, [1/2]⟩, rfl, rfl, rfl, ?_, rfl, ?_⟩ <;> decide +kernel

/-! ### the complex version -/

theorem runningMax_spec [Field ρ] [LinearOrder ρ] (norm : κ → ρ) (hn : ∀ z, 0 ≤ norm z) (v : List κ) :
    ∃ m, runningMax norm v = ok m ∧ 0 ≤ m ∧ (∀ z ∈ v, norm z ≤ m) ∧ (m = 0 ∨ ∃ z ∈ v, norm z = m) := by
  obtain ⟨m, e, h1, h2, h3⟩ := forRange_spec (f := fun k m => do
      let z ← vget v k
      let abs := norm z
      if abs > m then ok abs else ok m)
    (fun k m => 0 ≤ m ∧ (∀ i (h : i < v.length), i < k → norm v[i] ≤ m) ∧ (m = 0 ∨ ∃ z ∈ v, norm z = m))
    (Nat.zero_le v.length) (s := (0 : ρ)) ⟨le_refl _, by simp, Or.inl rfl⟩ (by
      rintro k m - hk ⟨i1, i2, i3⟩
      rw [vget_lt hk, ok_bind]
      dsimp only
      by_cases hc : norm v[k] > m
      · rw [if_pos hc]
        refine ⟨_, rfl, hn _, ?_, Or.inr ⟨v[k], List.getElem_mem hk, rfl⟩⟩
        intro i hi hik
        rcases Nat.lt_succ_iff_lt_or_eq.1 hik with h | rfl
        · exact le_of_lt (lt_of_le_of_lt (i2 i hi h) hc)
        · exact le_refl _
      · rw [if_neg hc]
        refine ⟨_, rfl, i1, ?_, i3⟩
        intro i hi hik
        rcases Nat.lt_succ_iff_lt_or_eq.1 hik with h | rfl
        · exact i2 i hi h
        · exact not_lt.1 hc)
  refine ⟨m, e, h1, ?_, h3⟩
  intro z hz
  obtain ⟨i, hi, rfl⟩ := List.mem_iff_getElem.1 hz
  exact h2 i hi hi

/-- C16: the complex version, for exact complex numbers with an absolute value. -/
theorem C16_verify_complex [CommRing κ] [Field ρ] [LinearOrder ρ] [IsStrictOrderedRing ρ] {norm : κ → ρ}
    (hn : ∀ z, 0 ≤ norm z) (hz : ∀ z, norm z = 0 ↔ z = 0) {c : Coo κ} {es : List (Entry κ)} (h : c.Rep es)
    (he : es ≠ []) {x rhs : List κ} (hx : x.length = c.ncol) (hr : rhs.length = c.nrow) :
    ∃ v, verifyFromComplex norm c x rhs = ok v ∧
      (∀ i, i < c.nrow → norm (∑ k ∈ Finset.range c.ncol, denseOf c.symmetric es i k * x.getD k 0) ≤ v.maxAbsAx) ∧
      (∀ i, i < c.nrow →
        norm ((∑ k ∈ Finset.range c.ncol, denseOf c.symmetric es i k * x.getD k 0) - rhs.getD i 0) ≤ v.maxAbsDiff) ∧
      (∀ e ∈ es, norm e.2.2 ≤ v.maxAbsA) ∧
      v.relativeError = v.maxAbsDiff / (v.maxAbsA + 1) ∧
      (v.maxAbsDiff = 0 ↔ ∀ i, i < c.nrow →
        (∑ k ∈ Finset.range c.ncol, denseOf c.symmetric es i k * x.getD k 0) = rhs.getD i 0) ∧
      (v.relativeError = 0 ↔ v.maxAbsDiff = 0) := by
  obtain ⟨m, e0, p0, h0, -⟩ := runningMax_spec norm hn (es.map fun e => e.2.2)
  obtain ⟨m1, e1, p1, h1, -⟩ := runningMax_spec norm hn ((List.range c.nrow).map (axOf c.symmetric es c.ncol x))
  obtain ⟨m2, e2, p2, h2, h2'⟩ := runningMax_spec norm hn
    ((List.range c.nrow).map fun i => axOf c.symmetric es c.ncol x i - rhs.getD i 0)
  have hrun : verifyFromComplex norm c x rhs =
      ok { maxAbsA := m, maxAbsAx := m1, maxAbsDiff := m2, relativeError := m2 / (m + 1) } := by
    unfold verifyFromComplex
    rw [if_neg (not_not.2 hx), if_neg (not_not.2 hr), Coo.getValues_spec h, ok_bind,
      if_neg (by have := List.length_pos_iff.2 he; simp; omega), e0, ok_bind, Coo.ax_spec h hx, unwrap_ok, ok_bind, e1,
      ok_bind, vecUpdate_spec h.fitsI _ hr, unwrap_ok, ok_bind, e2, ok_bind]
  refine ⟨_, hrun, ?_, ?_, ?_, rfl, ?_, ?_⟩
  · intro i hi; exact h1 _ (List.mem_map.2 ⟨i, List.mem_range.2 hi, rfl⟩)
  · intro i hi; exact h2 _ (List.mem_map.2 ⟨i, List.mem_range.2 hi, rfl⟩)
  · intro e he'; exact h0 _ (List.mem_map.2 ⟨e, he', rfl⟩)
  · dsimp only
    constructor
    · rintro rfl i hi
      have := h2 (axOf c.symmetric es c.ncol x i - rhs.getD i 0) (List.mem_map.2 ⟨i, List.mem_range.2 hi, rfl⟩)
      exact sub_eq_zero.1 ((hz _).1 (le_antisymm this (hn _)))
    · intro hh
      rcases h2' with h' | ⟨v, hv, hvm⟩
      · exact h'
      · obtain ⟨i, hi, rfl⟩ := List.mem_map.1 hv
        rw [← hvm]
        exact (hz _).2 (sub_eq_zero.2 (hh i (List.mem_range.1 hi)))
  · dsimp only
    rw [div_eq_zero_iff]
    constructor
    · rintro (h | h)
      · exact h
      · linarith
    · intro h; exact Or.inl h

/-- numbers with a NaN (`none`): operations propagate it, comparisons with it are false -/
def NanQ := Option ℚ

namespace NanQ
instance : DecidableEq NanQ := inferInstanceAs (DecidableEq (Option ℚ))
instance : Zero NanQ := ⟨some 0⟩
instance : One NanQ := ⟨some 1⟩
def map2 (f : ℚ → ℚ → ℚ) : NanQ → NanQ → NanQ
  | some a, some b => some (f a b)
  | _, _ => none
instance : Add NanQ := ⟨map2 (· + ·)⟩
instance : Mul NanQ := ⟨map2 (· * ·)⟩
instance : Div NanQ := ⟨map2 (· / ·)⟩
instance : Neg NanQ := ⟨fun x => Option.map (fun a : ℚ => -a) x⟩
def lt : NanQ → NanQ → Bool
  | some a, some b => decide (a < b)
  | _, _ => false
instance : LT NanQ := ⟨fun a b => lt a b = true⟩
instance : DecidableLT NanQ := fun a b => inferInstanceAs (Decidable (lt a b = true))
def abs : NanQ → NanQ := fun x => Option.map (fun a : ℚ => |a|) x
def nan : NanQ := none
def of (a : ℚ) : NanQ := some a
end NanQ

/-- C16: the running maximum of the complex version skips NaN: a solution that is NaN is reported with zero error. (The
complex numbers are taken on the real axis here.) -/
theorem C16_nan_counterexample : ∃ (c0 c1 : Coo NanQ), Coo.new 1 1 1 Sym.no = ok c0 ∧ c0.put 0 0 (NanQ.of 2) = .ok c1 ∧
    verifyFromComplex NanQ.abs c1 [NanQ.nan] [NanQ.of 3] =
      ok { maxAbsA := NanQ.of 2, maxAbsAx := 0, maxAbsDiff := 0, relativeError := 0 } := by
  refine ⟨_, _, rfl, rfl, ?_⟩
  decide +kernel

/-- the system `[[2,1],[1,3]] x = [4, 7]` in lower storage: `x = [1,2]` solves it, `x = [1,1]` does not -/
example : (do
    let c0 : Coo ℚ ← Coo.new 2 2 4 Sym.yesLower
    match (c0.put 0 0 2).andThen fun c => (c.put 1 0 1).andThen fun c => c.put 1 1 3 with
    | .ok c => do
      let v ← verifyFrom c [1, 2] [4, 7]
      let w ← verifyFrom c [1, 1] [4, 7]
      ok (v, w)
    | _ => Res.panic) =
    ok ({ maxAbsA := 3, maxAbsAx := 7, maxAbsDiff := 0, relativeError := 0 },
      { maxAbsA := 3, maxAbsAx := 4, maxAbsDiff := 3, relativeError := 3/4 }) := by decide +kernel

end Russell.Sparse
