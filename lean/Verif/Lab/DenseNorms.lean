import Verif.Lab.BlasOps

/-!
# Matrix norms, differences, complex parts (property C101)

The LAPACK routine `dlange` is modelled by its published contract; the square root is a parameter. Exact arithmetic. A complex number is
the pair of its parts.
-/

namespace Russell.Lab

open Russell Russell.Res Russell.Sparse

variable {α β : Type}

section

variable [Field β] [LinearOrder β]

/-- the largest of `f 0`, …, `f (n-1)`, starting at zero -/
def maxUpTo (n : Nat) (f : Nat → β) : β := (List.range n).foldl (fun s i => max s (f i)) 0

/-- `dlange`, `zlange`: norm of an `m × n` matrix with leading dimension `lda`; `ab` is the absolute value of an entry. The workspace is
used for the infinity norm. -/
def lange [Zero α] (ab : α → β) (sqrt : β → β) (norm : Char) (m n : Int) (a : List α) (lda : Int) (work : List β) : Res β :=
  if lda < max 1 m ∨ m < 0 ∨ n < 0 ∨ ¬ InArray a lda.toNat m.toNat n.toNat then Res.panic
  else
    let e := fun i j => ab (a.getD (i + j * lda.toNat) 0)
    if norm = 'M' then ok (maxUpTo n.toNat fun j => maxUpTo m.toNat fun i => e i j)
    else if norm = 'O' then ok (maxUpTo n.toNat fun j => ∑ i ∈ Finset.range m.toNat, e i j)
    else if norm = 'I' then if work.length < m.toNat then Res.panic else ok (maxUpTo m.toNat fun i => ∑ j ∈ Finset.range n.toNat, e i j)
    else if norm = 'F' then ok (sqrt (∑ i ∈ Finset.range m.toNat, ∑ j ∈ Finset.range n.toNat, e i j * e i j))
    else Res.panic

/-- `kind as i32` (/repo/russell_lab/src/base/enums.rs:5-74, internal/constants.rs) -/
def Norm.code : Norm → Int
  | .euc => 0
  | .fro => 1
  | .inf => 2
  | .max => 3
  | .one => 4

/-- `c_dlange`, `c_zlange` (/repo/russell_lab/c_code/interface_blas.c:133-159) -/
def cLange [Zero α] (ab : α → β) (sqrt : β → β) (norm_code : Int) (m n : Int) (a : List α) (lda : Int) (work : List β) : Res β :=
  let norm := if norm_code = 0 ∨ norm_code = 1 then 'F' else if norm_code = 2 then 'I' else if norm_code = 3 then 'M' else 'O'
  lange ab sqrt norm m n a lda work

/-- `mat_norm`, `complex_mat_norm` (/repo/russell_lab/src/matrix/mat_norm.rs:42-53, complex_mat_norm.rs:49-61) -/
def matNorm [Zero α] (ab : α → β) (sqrt : β → β) (a : NumMatrix α) (kind : Norm) : Res β :=
  let m := a.nrow
  let n := a.ncol
  if m = 0 ∨ n = 0 then ok 0
  else do
    let m_i32 ← toI32 m
    let n_i32 ← toI32 n
    let lda := m_i32
    let work := if kind = Norm.inf then List.replicate m 0 else []
    cLange ab sqrt kind.code m_i32 n_i32 a.data lda work

/-- `mat_max_abs_diff` (/repo/russell_lab/src/matrix/mat_max_abs_diff.rs:37-54) -/
def matMaxAbsDiff (a b : NumMatrix β) : Res (Nat × Nat × β) :=
  if b.nrow ≠ a.nrow ∨ b.ncol ≠ a.ncol then err "matrices are incompatible"
  else forRange 0 a.nrow ((0 : Nat), (0 : Nat), (0 : β)) fun i s => forRange 0 a.ncol s fun j s => do
    let x ← a.get i j
    let y ← b.get i j
    let abs_diff := |x - y|
    ok (if abs_diff > s.2.2 then (i, j, abs_diff) else s)

/-- `vec_norm_diff` (/repo/russell_lab/src/vector/vec_norm_diff.rs:29-38) -/
def vecNormDiff (sqrt : β → β) (u v : List β) (kind : Norm) : Res β :=
  let n := v.length
  if u.length ≠ n then Res.panic
  else if n = 0 then ok 0
  else do
    let diff ← (arrayOp (· - ·) (List.replicate n 0) u v).unwrap
    vecNorm sqrt diff kind

/-- `vec_max_scaled_diff` (/repo/russell_lab/src/vector/vec_max_scaled_diff.rs:14-26); `lowest` is `f64::MIN` -/
def vecMaxScaledDiff (lowest : β) (u v s : List β) : Res β :=
  let n := v.length
  if u.length ≠ n then Res.panic
  else if s.length ≠ n then Res.panic
  else if n = 0 then ok 0
  else forRange 0 n lowest fun i res => do
    let x ← vget u i
    let y ← vget v i
    let z ← vget s i
    ok (max res (|x - y| / (1 + |z|)))

/-- `vec_rms_scaled_diff` (/repo/russell_lab/src/vector/vec_rms_scaled_diff.rs:36-49) -/
def vecRmsScaledDiff (sqrt : β → β) (u v : List β) (abs_tol rel_tol : β) : Res β :=
  let n := v.length
  if u.length ≠ n then Res.panic
  else if n = 0 then ok 0
  else do
    let sum ← forRange 0 n (0 : β) fun i sum => do
      let x ← vget u i
      let y ← vget v i
      let sci := abs_tol + rel_tol * max |x| |y|
      let diff := x - y
      ok (sum + diff * diff / (sci * sci))
    ok (sqrt (sum / (n : β)))

end

/-- `complex_vec_zip` (/repo/russell_lab/src/vector/complex_vec_zip.rs:28-38) -/
def complexVecZip (v : List (β × β)) (real imag : List β) : Res (List (β × β)) :=
  let dim := v.length
  if real.length ≠ dim ∨ imag.length ≠ dim then err "vectors are incompatible"
  else forRange 0 dim v fun i v => do
    let r ← vget real i
    let z ← vget v i
    let v ← vset v i (r, z.2)
    let m ← vget imag i
    let z ← vget v i
    vset v i (z.1, m)

/-- `complex_vec_unzip` (/repo/russell_lab/src/vector/complex_vec_unzip.rs:34-44) -/
def complexVecUnzip (real imag : List β) (v : List (β × β)) : Res (List β × List β) :=
  let dim := v.length
  if real.length ≠ dim ∨ imag.length ≠ dim then err "vectors are incompatible"
  else forRange 0 dim (real, imag) fun i s => do
    let z ← vget v i
    let r ← vset s.1 i z.1
    let m ← vset s.2 i z.2
    ok (r, m)

/-- `complex_mat_zip` (/repo/russell_lab/src/matrix/complex_mat_zip.rs:25-38) -/
def complexMatZip (a : NumMatrix (β × β)) (real imag : NumMatrix β) : Res (NumMatrix (β × β)) :=
  if real.nrow ≠ a.nrow ∨ real.ncol ≠ a.ncol ∨ imag.nrow ≠ a.nrow ∨ imag.ncol ≠ a.ncol then err "matrices are incompatible"
  else
    let nrow := a.nrow
    let ncol := a.ncol
    forRange 0 nrow a fun i a => forRange 0 ncol a fun j a => do
      let r ← real.get i j
      let m ← imag.get i j
      a.set i j (r, m)

/-- `complex_mat_unzip` (/repo/russell_lab/src/matrix/complex_mat_unzip.rs:35-49) -/
def complexMatUnzip (real imag : NumMatrix β) (a : NumMatrix (β × β)) : Res (NumMatrix β × NumMatrix β) :=
  if real.nrow ≠ a.nrow ∨ real.ncol ≠ a.ncol ∨ imag.nrow ≠ a.nrow ∨ imag.ncol ≠ a.ncol then err "matrices are incompatible"
  else
    forRange 0 a.nrow (real, imag) fun i s => forRange 0 a.ncol s fun j s => do
      let z ← a.get i j
      let r ← s.1.set i j z.1
      let m ← s.2.set i j z.2
      ok (r, m)

/-! ## Proofs -/

section

variable [Field β] [LinearOrder β]

theorem maxUpTo_spec (n : Nat) (f : Nat → β) :
    0 ≤ maxUpTo n f ∧ (∀ i < n, f i ≤ maxUpTo n f) ∧ (maxUpTo n f = 0 ∨ ∃ i < n, f i = maxUpTo n f) := by
  induction n with
  | zero => exact ⟨le_refl _, fun i hi => absurd hi (by omega), Or.inl rfl⟩
  | succ n ih =>
    obtain ⟨a, b, c⟩ := ih
    have e : maxUpTo (n + 1) f = max (maxUpTo n f) (f n) := by simp [maxUpTo, List.range_succ]
    rw [e]
    refine ⟨le_trans a (le_max_left _ _), fun i hi => ?_, ?_⟩
    · rcases Nat.lt_succ_iff_lt_or_eq.1 hi with h | rfl
      · exact le_trans (b i h) (le_max_left _ _)
      · exact le_max_right _ _
    · rcases le_total (maxUpTo n f) (f n) with h | h
      · rw [max_eq_right h]; exact Or.inr ⟨n, by omega, rfl⟩
      · rw [max_eq_left h]
        rcases c with c | ⟨i, hi, ei⟩
        · exact Or.inl c
        · exact Or.inr ⟨i, by omega, ei⟩

/-- the value `v` is the largest of finitely many -/
def IsLargest (n : Nat) (f : Nat → β) (v : β) : Prop := (∀ i < n, f i ≤ v) ∧ ∃ i < n, f i = v

theorem maxUpTo_largest {n : Nat} (hn : 0 < n) {f : Nat → β} (hf : ∀ i, 0 ≤ f i) : IsLargest n f (maxUpTo n f) := by
  obtain ⟨a, b, c⟩ := maxUpTo_spec n f
  refine ⟨b, ?_⟩
  rcases c with c | c
  · exact ⟨0, hn, le_antisymm (b 0 hn) (by rw [c]; exact hf 0)⟩
  · exact c

theorem maxUpTo_congr {n : Nat} {f g : Nat → β} (h : ∀ i < n, f i = g i) : maxUpTo n f = maxUpTo n g := by
  unfold maxUpTo
  have : ∀ (l : List Nat) (s : β), (∀ i ∈ l, i < n) → l.foldl (fun s i => max s (f i)) s = l.foldl (fun s i => max s (g i)) s := by
    intro l
    induction l with
    | nil => intro s _; rfl
    | cons x l ih =>
      intro s hl
      simp only [List.foldl_cons]
      rw [h x (hl x (by simp)), ih _ fun i hi => hl i (by simp [hi])]
  exact this _ _ fun i hi => List.mem_range.1 hi

variable [IsStrictOrderedRing β]

/-- **C101** The norms of a matrix that is not empty: `One` is the largest absolute column sum, `Inf` the largest absolute row sum, `Max`
the largest absolute entry, `Fro` and `Euc` the root of the sum of squares. The workspace is sufficient. -/
theorem C101_mat_norm [Zero α] {ab : α → β} (hab : ∀ x, 0 ≤ ab x) {sqrt : β → β} (hs : IsSqrt sqrt) {m n : Nat} (hm : m < 2147483648)
    (hn : n < 2147483648) (hm0 : 0 < m) (hn0 : 0 < n) {a : NumMatrix α} {A : Nat → Nat → α} (ha : IsDense a m n A) :
    (∃ v, matNorm ab sqrt a .one = ok v ∧ IsLargest n (fun j => ∑ i ∈ Finset.range m, ab (A i j)) v) ∧
    (∃ v, matNorm ab sqrt a .inf = ok v ∧ IsLargest m (fun i => ∑ j ∈ Finset.range n, ab (A i j)) v) ∧
    (∃ v, matNorm ab sqrt a .max = ok v ∧ (∀ i j, i < m → j < n → ab (A i j) ≤ v) ∧ ∃ i j, i < m ∧ j < n ∧ ab (A i j) = v) ∧
    (∃ v, matNorm ab sqrt a .fro = ok v ∧ matNorm ab sqrt a .euc = ok v ∧ 0 ≤ v ∧
      v * v = ∑ i ∈ Finset.range m, ∑ j ∈ Finset.range n, ab (A i j) * ab (A i j)) := by
  have start : ∀ kind, matNorm ab sqrt a kind =
      cLange ab sqrt kind.code m n a.data m (if kind = Norm.inf then List.replicate m 0 else []) := by
    intro kind
    unfold matNorm
    simp only [ha.nrow, ha.ncol]
    rw [if_neg (by omega), toI32_lt hm, ok_bind, toI32_lt hn, ok_bind]
  have pre : ¬ ((m : Int) < max 1 (m : Int) ∨ (m : Int) < 0 ∨ (n : Int) < 0 ∨ ¬ InArray a.data m m n) := by
    simp [ha.inArray]; omega
  have ge : ∀ i j, i < m → j < n → ab (a.data.getD (i + j * m) 0) = ab (A i j) := fun i j hi hj => by rw [ha.getD' hi hj]
  refine ⟨⟨_, ?_, maxUpTo_largest hn0 fun j => Finset.sum_nonneg fun i _ => hab _⟩,
    ⟨_, ?_, maxUpTo_largest hm0 fun i => Finset.sum_nonneg fun j _ => hab _⟩,
    ⟨maxUpTo n fun j => maxUpTo m fun i => ab (A i j), ?_, ?_, ?_⟩,
    ⟨sqrt (∑ i ∈ Finset.range m, ∑ j ∈ Finset.range n, ab (A i j) * ab (A i j)), ?_, ?_, ?_⟩⟩
  · rw [start]
    simp only [cLange, lange, Norm.code, Int.toNat_natCast]
    rw [if_neg pre]
    simp only [reduceIte, Int.reduceEq, or_self, Char.reduceEq]
    congr 1
    exact maxUpTo_congr fun j hj => Finset.sum_congr rfl fun i hi => ge i j (Finset.mem_range.1 hi) hj
  · rw [start]
    simp only [cLange, lange, Norm.code, Int.toNat_natCast]
    rw [if_neg pre]
    simp only [reduceIte, Int.reduceEq, or_self, Char.reduceEq, List.length_replicate, lt_irrefl]
    congr 1
    exact maxUpTo_congr fun i hi => Finset.sum_congr rfl fun j hj => ge i j hi (Finset.mem_range.1 hj)
  · rw [start]
    simp only [cLange, lange, Norm.code, Int.toNat_natCast]
    rw [if_neg pre]
    simp only [reduceIte, Int.reduceEq, or_self]
    congr 1
    exact maxUpTo_congr fun j hj => maxUpTo_congr fun i hi => ge i j hi hj
  · intro i j hi hj
    exact le_trans ((maxUpTo_spec m fun i => ab (A i j)).2.1 i hi) ((maxUpTo_spec n fun j => maxUpTo m fun i => ab (A i j)).2.1 j hj)
  · obtain ⟨j, hj, ej⟩ := (maxUpTo_largest hn0 (f := fun j => maxUpTo m fun i => ab (A i j)) fun j => (maxUpTo_spec m _).1).2
    obtain ⟨i, hi, ei⟩ := (maxUpTo_largest hm0 (f := fun i => ab (A i j)) fun i => hab _).2
    exact ⟨i, j, hi, hj, Eq.trans ei ej⟩
  · rw [start]
    simp only [cLange, lange, Norm.code, Int.toNat_natCast]
    rw [if_neg pre]
    simp only [reduceIte, Int.reduceEq, Char.reduceEq, or_true]
    congr 2
    exact Finset.sum_congr rfl fun i hi => Finset.sum_congr rfl fun j hj => by
      rw [ge i j (Finset.mem_range.1 hi) (Finset.mem_range.1 hj)]
  · rw [start]
    simp only [cLange, lange, Norm.code, Int.toNat_natCast]
    rw [if_neg pre]
    simp only [reduceIte, Int.reduceEq, Char.reduceEq, true_or]
    congr 2
    exact Finset.sum_congr rfl fun i hi => Finset.sum_congr rfl fun j hj => by
      rw [ge i j (Finset.mem_range.1 hi) (Finset.mem_range.1 hj)]
  · exact hs _ (Finset.sum_nonneg fun i _ => Finset.sum_nonneg fun j _ => mul_self_nonneg _)

omit [IsStrictOrderedRing β] in
/-- **C101** the norm of an empty matrix is zero -/
theorem C101_mat_norm_empty [Zero α] (ab : α → β) (sqrt : β → β) (a : NumMatrix α) (h : a.nrow = 0 ∨ a.ncol = 0) (kind : Norm) :
    matNorm ab sqrt a kind = ok 0 := by
  unfold matNorm
  exact if_pos h

/-- position `(i, j)` comes before `(k, l)` in the order of the loops -/
def Before (i j k l : Nat) : Prop := i < k ∨ i = k ∧ j < l

/-- **C101** `mat_max_abs_diff` returns the largest absolute difference and the first place (row by row) where it occurs; it is zero exactly
for equal matrices, and then the place is `(0, 0)`. -/
theorem C101_mat_max_abs_diff {m n : Nat} {a b : NumMatrix β} {A B : Nat → Nat → β} (ha : IsDense a m n A) (hb : IsDense b m n B) :
    ∃ i j d, matMaxAbsDiff a b = ok (i, j, d) ∧ (∀ k l, k < m → l < n → |A k l - B k l| ≤ d) ∧
      (d = 0 ↔ ∀ k l, k < m → l < n → A k l = B k l) ∧
      (d ≠ 0 → i < m ∧ j < n ∧ |A i j - B i j| = d ∧ ∀ k l, k < m → l < n → Before k l i j → |A k l - B k l| < d) ∧ (d = 0 → i = 0 ∧ j = 0) := by
  unfold matMaxAbsDiff
  rw [ha.nrow, ha.ncol, hb.nrow, hb.ncol, if_neg (by simp)]
  obtain ⟨⟨i, j, d⟩, e, h1, h2, h3, h4⟩ := forRange_spec (f := fun i (s : Nat × Nat × β) => forRange 0 n s fun j s => do
      let x ← a.get i j
      let y ← b.get i j
      let abs_diff := |x - y|
      ok (if abs_diff > s.2.2 then (i, j, abs_diff) else s))
    (fun t s => (∀ k l, k < t → l < n → |A k l - B k l| ≤ s.2.2) ∧ 0 ≤ s.2.2 ∧
      (s.2.2 ≠ 0 → s.1 < t ∧ s.2.1 < n ∧ |A s.1 s.2.1 - B s.1 s.2.1| = s.2.2 ∧
        ∀ k l, k < m → l < n → Before k l s.1 s.2.1 → |A k l - B k l| < s.2.2) ∧ (s.2.2 = 0 → s.1 = 0 ∧ s.2.1 = 0))
    (Nat.zero_le m) (s := ((0 : Nat), (0 : Nat), (0 : β))) ⟨by simp, le_refl _, by simp, by simp⟩ (by
      intro i s _ hi ⟨i1, i2, i3, i4⟩
      obtain ⟨s', e', j1, j2, j3, j4⟩ := forRange_spec (f := fun j (s : Nat × Nat × β) => do
          let x ← a.get i j
          let y ← b.get i j
          let abs_diff := |x - y|
          ok (if abs_diff > s.2.2 then (i, j, abs_diff) else s))
        (fun t s => (∀ k l, (k < i ∧ l < n ∨ k = i ∧ l < t) → |A k l - B k l| ≤ s.2.2) ∧ 0 ≤ s.2.2 ∧
          (s.2.2 ≠ 0 → s.1 < i + 1 ∧ s.2.1 < n ∧ |A s.1 s.2.1 - B s.1 s.2.1| = s.2.2 ∧
            ∀ k l, k < m → l < n → Before k l s.1 s.2.1 → |A k l - B k l| < s.2.2) ∧ (s.2.2 = 0 → s.1 = 0 ∧ s.2.1 = 0))
        (Nat.zero_le n) (s := s) ⟨fun k l h => i1 k l (by omega) (by omega), i2, fun h => by
          obtain ⟨a, b⟩ := i3 h; exact ⟨by omega, b⟩, i4⟩ (by
          intro j s _ hj ⟨k1, k2, k3, k4⟩
          rw [ha.get i j hi hj, ok_bind, hb.get i j hi hj, ok_bind]
          dsimp only
          by_cases hc : |A i j - B i j| > s.2.2
          · rw [if_pos hc]
            refine ⟨_, rfl, ?_, abs_nonneg _, ?_, ?_⟩
            · intro k l hkl
              dsimp only
              by_cases h : k = i ∧ l = j
              · rw [h.1, h.2]
              · exact le_trans (k1 k l (by omega)) (le_of_lt hc)
            · intro _
              refine ⟨Nat.lt_succ_self _, hj, rfl, fun k l hk hl hb => ?_⟩
              refine lt_of_le_of_lt (k1 k l ?_) hc
              unfold Before at hb
              dsimp only at hb
              omega
            · intro h; dsimp only at h; rw [h] at hc; exact absurd hc (not_lt.2 k2)
          · rw [if_neg hc]
            refine ⟨_, rfl, ?_, k2, k3, k4⟩
            intro k l hkl
            by_cases h : k = i ∧ l = j
            · rw [h.1, h.2]; exact not_lt.1 hc
            · exact k1 k l (by omega))
      exact ⟨s', e', fun k l hk hl => j1 k l (by omega), j2, j3, j4⟩)
  refine ⟨i, j, d, e, h1, ?_, h3, h4⟩
  constructor
  · intro hd k l hk hl
    have := h1 k l hk hl
    dsimp only at hd this
    rw [hd] at this
    exact sub_eq_zero.1 (abs_eq_zero.1 (le_antisymm this (abs_nonneg _)))
  · intro hAB
    by_contra hne
    obtain ⟨x, y, z, -⟩ := h3 hne
    dsimp only at x y z hne
    rw [hAB i j x y, sub_self, abs_zero] at z
    exact hne z.symm

omit [IsStrictOrderedRing β] in
/-- **C101** `vec_norm_diff` is the norm of the difference; vectors of different lengths make it panic. -/
theorem C101_vec_norm_diff (sqrt : β → β) (u v : List β) (kind : Norm) (hv : v.length < 2147483648) :
    (u.length = v.length → vecNormDiff sqrt u v kind = vecNorm sqrt (List.zipWith (· - ·) u v) kind) ∧
    (u.length ≠ v.length → vecNormDiff sqrt u v kind = Res.panic) := by
  constructor
  · intro h
    unfold vecNormDiff
    dsimp only
    rw [if_neg (by simp [h])]
    by_cases h0 : v.length = 0
    · rw [if_pos h0]
      rw [h0] at h
      rw [List.length_eq_zero_iff] at h h0
      subst h; subst h0
      rfl
    · rw [if_neg h0, (C29_array_op (fun x y : β => x - y) (List.replicate v.length 0) u v).1 (by simp [h]) (by simp)]
      rfl
  · intro h
    unfold vecNormDiff
    exact if_pos h

/-- **C101** `vec_max_scaled_diff` is the largest of `|uᵢ - vᵢ| / (1 + |sᵢ|)`. -/
theorem C101_vec_max_scaled_diff {lowest : β} (hlow : lowest ≤ 0) {n : Nat} (hn : 0 < n) {u v s : List β} {U V S : Nat → β}
    (hu : IsVec u n U) (hv : IsVec v n V) (hs : IsVec s n S) :
    ∃ r, vecMaxScaledDiff lowest u v s = ok r ∧ IsLargest n (fun i => |U i - V i| / (1 + |S i|)) r := by
  unfold vecMaxScaledDiff
  simp only [hu.len, hv.len, hs.len]
  rw [if_neg (by simp), if_neg (by simp), if_neg (by omega)]
  have hq : ∀ i, 0 ≤ |U i - V i| / (1 + |S i|) := fun i => div_nonneg (abs_nonneg _) (by positivity)
  obtain ⟨r, e, h1, h2⟩ := forRange_spec (f := fun i res => do
      let x ← vget u i
      let y ← vget v i
      let z ← vget s i
      ok (max res (|x - y| / (1 + |z|))))
    (fun t r => (∀ i < t, |U i - V i| / (1 + |S i|) ≤ r) ∧ ((t = 0 ∧ r = lowest) ∨ ∃ i < t, |U i - V i| / (1 + |S i|) = r))
    (Nat.zero_le n) (s := lowest) ⟨by simp, Or.inl ⟨rfl, rfl⟩⟩ (by
      intro t r _ ht ⟨j1, j2⟩
      rw [hu.vget ht, ok_bind, hv.vget ht, ok_bind, hs.vget ht, ok_bind]
      refine ⟨_, rfl, fun i hi => ?_, Or.inr ?_⟩
      · rcases Nat.lt_succ_iff_lt_or_eq.1 hi with h | rfl
        · exact le_trans (j1 i h) (le_max_left _ _)
        · exact le_max_right _ _
      · rcases le_total r (|U t - V t| / (1 + |S t|)) with h | h
        · exact ⟨t, by omega, (max_eq_right h).symm⟩
        · rw [max_eq_left h]
          rcases j2 with ⟨-, rfl⟩ | ⟨i, hi, ei⟩
          · exact ⟨t, by omega, le_antisymm h (le_trans hlow (hq t))⟩
          · exact ⟨i, by omega, ei⟩)
  refine ⟨r, e, h1, ?_⟩
  rcases h2 with ⟨h, -⟩ | h
  · omega
  · exact h

/-- **C101** `vec_rms_scaled_diff` is the root of the mean of the squares of the scaled differences; it is symmetric in its two vectors. -/
theorem C101_vec_rms_scaled_diff {sqrt : β → β} (hs : IsSqrt sqrt) {n : Nat} {u v : List β} {U V : Nat → β} (hu : IsVec u n U)
    (hv : IsVec v n V) (abs_tol rel_tol : β) :
    ∃ r, vecRmsScaledDiff sqrt u v abs_tol rel_tol = ok r ∧ vecRmsScaledDiff sqrt v u abs_tol rel_tol = ok r ∧ 0 ≤ r ∧
      (n : β) * (r * r) = ∑ i ∈ Finset.range n, ((U i - V i) / (abs_tol + rel_tol * max |U i| |V i|)) ^ 2 := by
  have key : ∀ (u v : List β) (U V : Nat → β), IsVec u n U → IsVec v n V → vecRmsScaledDiff sqrt u v abs_tol rel_tol =
      ok (if n = 0 then 0 else sqrt ((∑ i ∈ Finset.range n, ((U i - V i) / (abs_tol + rel_tol * max |U i| |V i|)) ^ 2) / (n : β))) := by
    intro u v U V hu hv
    unfold vecRmsScaledDiff
    simp only [hu.len, hv.len]
    rw [if_neg (by simp)]
    by_cases h0 : n = 0
    · rw [if_pos h0, if_pos h0]
    rw [if_neg h0, if_neg h0]
    obtain ⟨r, e, h⟩ := forRange_spec (f := fun i sum => do
        let x ← vget u i
        let y ← vget v i
        let sci := abs_tol + rel_tol * max |x| |y|
        let diff := x - y
        ok (sum + diff * diff / (sci * sci)))
      (fun t r => r = ∑ i ∈ Finset.range t, ((U i - V i) / (abs_tol + rel_tol * max |U i| |V i|)) ^ 2) (Nat.zero_le n) (s := 0) (by simp) (by
        intro t r _ ht hr
        rw [hu.vget ht, ok_bind, hv.vget ht, ok_bind]
        refine ⟨_, rfl, ?_⟩
        rw [Finset.sum_range_succ, ← hr, div_pow, pow_two, pow_two])
    rw [e, ok_bind, h]
  refine ⟨_, key u v U V hu hv, ?_, ?_, ?_⟩
  · rw [key v u V U hv hu]
    congr 3
    refine congrArg (· / (n : β)) (Finset.sum_congr rfl fun i _ => ?_)
    rw [max_comm, ← neg_sub (U i) (V i), neg_div, neg_sq]
  · split
    · exact le_refl _
    · exact (hs _ (div_nonneg (Finset.sum_nonneg fun i _ => sq_nonneg _) (Nat.cast_nonneg _))).1
  · by_cases h0 : n = 0
    · subst h0; simp
    · rw [if_neg h0, (hs _ (div_nonneg (Finset.sum_nonneg fun i _ => sq_nonneg _) (Nat.cast_nonneg _))).2]
      have : (n : β) ≠ 0 := Nat.cast_ne_zero.2 h0
      field_simp

end

theorem fillTwo {n : Nat} {u v : List β} {U V F G : Nat → β} (hu : IsVec u n U) (hv : IsVec v n V)
    {f : Nat → List β × List β → Res (List β × List β)}
    (hf : ∀ i s, i < n → f i s = (vset s.1 i (F i) >>= fun r => vset s.2 i (G i) >>= fun m => ok (r, m))) :
    ∃ s, forRange 0 n (u, v) f = ok s ∧ IsVec s.1 n F ∧ IsVec s.2 n G := by
  obtain ⟨s, e, h1, h2⟩ := forRange_spec (f := f)
    (fun t s => IsVec s.1 n (fun i => if i < t then F i else U i) ∧ IsVec s.2 n (fun i => if i < t then G i else V i)) (Nat.zero_le n)
    (s := (u, v)) ⟨hu.congr fun i _ => by simp, hv.congr fun i _ => by simp⟩ (by
      intro t s _ ht ⟨h1, h2⟩
      rw [hf t s ht]
      obtain ⟨r, er, hr⟩ := h1.vset ht (F t)
      obtain ⟨m, em, hm⟩ := h2.vset ht (G t)
      have step : ∀ (P Q : Nat → β) (i : Nat), (if i = t then P t else if i < t then P i else Q i) = if i < t + 1 then P i else Q i := by
        intro P Q i
        by_cases hi : i = t
        · subst hi; rw [if_pos rfl, if_pos (by omega)]
        · rw [if_neg hi]
          by_cases h2 : i < t
          · rw [if_pos h2, if_pos (by omega)]
          · rw [if_neg h2, if_neg (by omega)]
      exact ⟨(r, m), by rw [er, ok_bind, em, ok_bind], hr.congr fun i _ => step F U i, hm.congr fun i _ => step G V i⟩)
  exact ⟨s, e, h1.congr fun i hi => by rw [if_pos hi], h2.congr fun i hi => by rw [if_pos hi]⟩

/-- **C101** `complex_vec_zip` followed by `complex_vec_unzip` gives the two vectors back, and zipping the parts of a complex vector gives
the vector; other lengths are rejected. -/
theorem C101_vec_zip {n : Nat} {v : List (β × β)} {real imag x y : List β} {Z : Nat → β × β} {R M X Y : Nat → β} (hv : IsVec v n Z)
    (hr : IsVec real n R) (hm : IsVec imag n M) (hx : IsVec x n X) (hy : IsVec y n Y) :
    (∃ z, complexVecZip v real imag = ok z ∧ IsVec z n (fun i => (R i, M i)) ∧ complexVecUnzip x y z = ok (real, imag)) ∧
    (∃ p q, complexVecUnzip x y v = ok (p, q) ∧ complexVecZip v p q = ok v) ∧
    (∀ w : List (β × β), w.length ≠ n → complexVecZip w real imag = err "vectors are incompatible" ∧
      complexVecUnzip real imag w = err "vectors are incompatible") := by
  have zip : ∀ (r m : List β) (R M : Nat → β), IsVec r n R → IsVec m n M → ∃ z, complexVecZip v r m = ok z ∧ IsVec z n fun i => (R i, M i) := by
    intro r m R M hr hm
    unfold complexVecZip
    dsimp only
    rw [hr.len, hm.len, hv.len, if_neg (by simp)]
    obtain ⟨z, e, h⟩ := forRange_spec (f := fun i v => do
        let r ← vget r i
        let z ← vget v i
        let v ← vset v i (r, z.2)
        let m ← vget m i
        let z ← vget v i
        vset v i (z.1, m)) (fun t z => IsVec z n fun i => if i < t then (R i, M i) else Z i) (Nat.zero_le n) (s := v)
      (hv.congr fun i _ => by simp) (by
        intro t z _ ht hz
        rw [hr.vget ht, ok_bind, hz.vget ht, ok_bind, if_neg (by omega)]
        obtain ⟨z1, e1, h1⟩ := hz.vset ht (R t, (Z t).2)
        rw [e1, ok_bind, hm.vget ht, ok_bind, h1.vget ht, ok_bind, if_pos rfl]
        obtain ⟨z2, e2, h2⟩ := h1.vset ht (R t, M t)
        refine ⟨z2, e2, h2.congr fun i _ => ?_⟩
        by_cases hi : i = t
        · subst hi; rw [if_pos rfl, if_pos (by omega)]
        · rw [if_neg hi, if_neg hi]
          by_cases h2 : i < t
          · rw [if_pos h2, if_pos (by omega)]
          · rw [if_neg h2, if_neg (by omega)])
    exact ⟨z, e, h.congr fun i hi => by rw [if_pos hi]⟩
  have unzip : ∀ (z : List (β × β)) (Z : Nat → β × β), IsVec z n Z → ∃ p q, complexVecUnzip x y z = ok (p, q) ∧
      IsVec p n (fun i => (Z i).1) ∧ IsVec q n (fun i => (Z i).2) := by
    intro z Z hz
    unfold complexVecUnzip
    dsimp only
    rw [hx.len, hy.len, hz.len, if_neg (by simp)]
    obtain ⟨s, e, h1, h2⟩ := fillTwo hx hy (F := fun i => (Z i).1) (G := fun i => (Z i).2) (f := fun i s => do
        let z ← vget z i
        let r ← vset s.1 i z.1
        let m ← vset s.2 i z.2
        ok (r, m)) (fun i s hi => by rw [hz.vget hi, ok_bind])
    exact ⟨s.1, s.2, e, h1, h2⟩
  refine ⟨?_, ?_, ?_⟩
  · obtain ⟨z, e, hz⟩ := zip real imag R M hr hm
    obtain ⟨p, q, e2, hp, hq⟩ := unzip z _ hz
    refine ⟨z, e, hz, ?_⟩
    rw [e2, hp.unique hr, hq.unique hm]
  · obtain ⟨p, q, e2, hp, hq⟩ := unzip v Z hv
    obtain ⟨z, e, hz⟩ := zip p q _ _ hp hq
    exact ⟨p, q, e2, by rw [e, hz.unique hv]⟩
  · intro w hw
    unfold complexVecZip complexVecUnzip
    dsimp only
    rw [hr.len, hm.len, if_pos (by tauto), if_pos (by tauto)]
    exact ⟨rfl, rfl⟩

/-- **C101** `complex_mat_zip` gives the matrix with the given parts, `complex_mat_unzip` the two parts; other dimensions are rejected. -/
theorem C101_mat_zip {m n : Nat} {a : NumMatrix (β × β)} {real imag : NumMatrix β} {Z : Nat → Nat → β × β} {R M : Nat → Nat → β}
    (ha : IsDense a m n Z) (hr : IsDense real m n R) (hm : IsDense imag m n M) :
    (∃ z, complexMatZip a real imag = ok z ∧ IsDense z m n fun i j => (R i j, M i j)) ∧
    (∃ p q, complexMatUnzip real imag a = ok (p, q) ∧ IsDense p m n (fun i j => (Z i j).1) ∧ IsDense q m n (fun i j => (Z i j).2)) ∧
    (∀ b : NumMatrix (β × β), ¬ (b.nrow = m ∧ b.ncol = n) → complexMatZip b real imag = err "matrices are incompatible" ∧
      complexMatUnzip real imag b = err "matrices are incompatible") := by
  have cong : ∀ {γ : Type} {d : NumMatrix γ} {f g : Nat → Nat → γ}, IsDense d m n f → (∀ i j, i < m → j < n → f i j = g i j) → IsDense d m n g :=
    fun h e => ⟨h.nrow, h.ncol, h.len, fun i j hi hj => by rw [h.get i j hi hj, e i j hi hj]⟩
  have step : ∀ {γ : Type} (P Q : Nat → Nat → γ) (i t k l : Nat), l < n →
      (if k = i ∧ l = t then P i t else if k < i ∨ k = i ∧ l < t then P k l else Q k l) =
        if k < i ∨ k = i ∧ l < t + 1 then P k l else Q k l := by
    intro γ P Q i t k l _
    by_cases h : k = i ∧ l = t
    · obtain ⟨rfl, rfl⟩ := h; rw [if_pos ⟨rfl, rfl⟩, if_pos (by omega)]
    · rw [if_neg h]
      by_cases h2 : k < i ∨ k = i ∧ l < t
      · rw [if_pos h2, if_pos (by omega)]
      · rw [if_neg h2, if_neg (by omega)]
  refine ⟨?_, ?_, ?_⟩
  · unfold complexMatZip
    dsimp only
    rw [hr.nrow, hr.ncol, hm.nrow, hm.ncol, ha.nrow, ha.ncol, if_neg (by simp)]
    obtain ⟨z, e, h⟩ := forRange_spec (f := fun i a => forRange 0 n a fun j a => do
        let r ← real.get i j
        let m ← imag.get i j
        a.set i j (r, m)) (fun t z => IsDense z m n fun i j => if i < t then (R i j, M i j) else Z i j) (Nat.zero_le m) (s := a)
      (cong ha fun i j _ _ => by simp) (by
        intro i z _ hi hz
        obtain ⟨z', e', h'⟩ := forRange_spec (f := fun j a => do
            let r ← real.get i j
            let m ← imag.get i j
            a.set i j (r, m)) (fun t z => IsDense z m n fun k l => if k < i ∨ k = i ∧ l < t then (R k l, M k l) else Z k l) (Nat.zero_le n)
          (s := z) (cong hz fun k l _ _ => by simp) (by
            intro t z _ ht hz
            rw [hr.get i t hi ht, ok_bind, hm.get i t hi ht, ok_bind]
            obtain ⟨z', e', h'⟩ := hz.set hi ht (R i t, M i t)
            exact ⟨z', e', cong h' fun k l _ hl => step (fun k l => (R k l, M k l)) Z i t k l hl⟩)
        refine ⟨z', e', cong h' fun k l _ hl => ?_⟩
        by_cases h : k < i + 1
        · rw [if_pos h, if_pos (by omega)]
        · rw [if_neg h, if_neg (by omega)])
    exact ⟨z, e, cong h fun i j hi _ => by rw [if_pos hi]⟩
  · unfold complexMatUnzip
    rw [hr.nrow, hr.ncol, hm.nrow, hm.ncol, ha.nrow, ha.ncol, if_neg (by simp)]
    obtain ⟨z, e, h, g⟩ := forRange_spec (f := fun i s => forRange 0 n s fun j s => do
        let z ← a.get i j
        let r ← s.1.set i j z.1
        let m ← s.2.set i j z.2
        ok (r, m)) (fun t s => IsDense s.1 m n (fun i j => if i < t then (Z i j).1 else R i j) ∧
          IsDense s.2 m n (fun i j => if i < t then (Z i j).2 else M i j)) (Nat.zero_le m) (s := (real, imag))
      ⟨cong hr fun i j _ _ => by simp, cong hm fun i j _ _ => by simp⟩ (by
        intro i z _ hi ⟨hz, hz'⟩
        obtain ⟨z', e', h', g'⟩ := forRange_spec (f := fun j s => do
            let z ← a.get i j
            let r ← s.1.set i j z.1
            let m ← s.2.set i j z.2
            ok (r, m)) (fun t s => IsDense s.1 m n (fun k l => if k < i ∨ k = i ∧ l < t then (Z k l).1 else R k l) ∧
              IsDense s.2 m n (fun k l => if k < i ∨ k = i ∧ l < t then (Z k l).2 else M k l)) (Nat.zero_le n)
          (s := z) ⟨cong hz fun k l _ _ => by simp, cong hz' fun k l _ _ => by simp⟩ (by
            intro t s _ ht ⟨hs, hs'⟩
            rw [ha.get i t hi ht, ok_bind]
            obtain ⟨p, e1, h1⟩ := hs.set hi ht (Z i t).1
            obtain ⟨q, e2, h2⟩ := hs'.set hi ht (Z i t).2
            rw [e1, ok_bind, e2, ok_bind]
            exact ⟨(p, q), rfl, cong h1 fun k l _ hl => step (fun k l => (Z k l).1) R i t k l hl,
              cong h2 fun k l _ hl => step (fun k l => (Z k l).2) M i t k l hl⟩)
        have fin : ∀ (P Q : Nat → Nat → β) (k l : Nat), l < n →
            (if k < i ∨ k = i ∧ l < n then P k l else Q k l) = if k < i + 1 then P k l else Q k l := by
          intro P Q k l hl
          by_cases h : k < i + 1
          · rw [if_pos h, if_pos (by omega)]
          · rw [if_neg h, if_neg (by omega)]
        exact ⟨z', e', cong h' fun k l _ hl => fin (fun k l => (Z k l).1) R k l hl,
          cong g' fun k l _ hl => fin (fun k l => (Z k l).2) M k l hl⟩)
    exact ⟨z.1, z.2, e, cong h fun i j hi _ => by rw [if_pos hi], cong g fun i j hi _ => by rw [if_pos hi]⟩
  · intro b hb
    unfold complexMatZip complexMatUnzip
    rw [hr.nrow, hr.ncol, hm.nrow, hm.ncol, if_pos (by tauto), if_pos (by tauto)]
    exact ⟨rfl, rfl⟩

/-- largest difference: the first of two equal ones -/
example : matMaxAbsDiff (⟨2, 2, [1, 2, 3, 4]⟩ : NumMatrix ℚ) ⟨2, 2, [1, 4, 5, 4]⟩ = ok (0, 1, 2) := by decide +kernel

/-- norms, scaled differences, complex parts -/
example : matNorm (fun x : ℚ => |x|) id (⟨2, 2, [1, -2, 3, 4]⟩ : NumMatrix ℚ) .one = ok 7 ∧
    matNorm (fun x : ℚ => |x|) id (⟨2, 2, [1, -2, 3, 4]⟩ : NumMatrix ℚ) .inf = ok 6 ∧
    matNorm (fun x : ℚ => |x|) id (⟨2, 2, [1, -2, 3, 4]⟩ : NumMatrix ℚ) .max = ok 4 ∧
    vecMaxScaledDiff (-1000 : ℚ) [1, 2] [3, 2] [1, 0] = ok 1 ∧ vecNormDiff id [(1 : ℚ), 5] [3, 2] .one = ok 5 ∧
    complexVecZip [((0 : ℚ), (0 : ℚ)), (0, 0)] [1, 2] [3, 4] = ok [(1, 3), (2, 4)] := by
  refine ⟨?_, ?_, ?_, ?_, ?_, ?_⟩ <;> decide +kernel

end Russell.Lab
