import Verif.Sparse.DenseEq
import Verif.Sparse.CooProps

/-!
# Properties of the compressed matrices: C03 - C09
-/

namespace Russell.Sparse

open Russell Russell.Res Russell.Lab

variable {α : Type}

/-! ## Conversions from COO: outcome -/

theorem Csr.updateFromCoo_match [Zero α] [Add α] {s : Csr α} {c : Coo α} {es : List (Entry α)} (h : c.Rep es)
    (hlen : es.length < 2147483648) (hs : s.Ready c.nrow c.ncol es.length)
    (h1 : c.symmetric = s.symmetric) (h2 : c.nrow = s.nrow) (h3 : c.ncol = s.ncol) :
    ∃ s', s.updateFromCoo c = .ok s' ∧ s'.Rep (convRow es) ∧ s'.Ready c.nrow c.ncol es.length ∧
      s'.symmetric = c.symmetric ∧ s'.nrow = c.nrow ∧ s'.ncol = c.ncol := by
  obtain ⟨s', e, r, d1, d2, d3, hc⟩ := Csr.updateCore_spec h hlen hs
  refine ⟨s', ?_, ⟨?_, ?_⟩, r, by rw [d1, h1], by rw [d2, h2], by rw [d3, h3]⟩
  · unfold Csr.updateFromCoo
    rw [if_neg (by simp [h1]), if_neg (by simp [h2]), if_neg (by simp [h3]), if_neg (by simp [h.nnz, hs.lenX]), e]
  · rw [d2, d3, ← h2, ← h3]; exact hc
  · rw [d1, d2, d3, ← h1, ← h2, ← h3]; exact h.square

theorem Csr.fromCoo_spec [Zero α] [Add α] {c : Coo α} {es : List (Entry α)} (h : c.Rep es)
    (hlen : es.length < 2147483648) (hne : 1 ≤ es.length) :
    ∃ s, Csr.fromCoo c = ok s ∧ s.Rep (convRow es) ∧ s.Ready c.nrow c.ncol es.length ∧
      s.symmetric = c.symmetric ∧ s.nrow = c.nrow ∧ s.ncol = c.ncol := by
  obtain ⟨s', e, r1, r2, r3⟩ := Csr.updateFromCoo_match (α := α) (c := c) (es := es) (s := {
      symmetric := c.symmetric, nrow := c.nrow, ncol := c.ncol
      rowPointers := List.replicate (c.nrow + 1) 0
      colIndices := List.replicate c.nnz 0
      values := List.replicate c.nnz 0
      tempRp := [], tempRjx := [], tempRc := [], tempW := [] }) h hlen
    ⟨by simp, by simp [h.nnz], by simp [h.nnz], Or.inl rfl⟩ rfl rfl rfl
  refine ⟨s', ?_, r1, r2, r3⟩
  unfold Csr.fromCoo
  rw [if_neg (by rw [h.nnz]; omega)]
  simp only [e]

theorem Csc.updateFromCoo_match [Zero α] [Add α] {s : Csc α} {c : Coo α} {es : List (Entry α)} (h : c.Rep es)
    (hlen : es.length < 2147483648) (hs : s.Ready c.nrow c.ncol es.length)
    (h1 : c.symmetric = s.symmetric) (h2 : c.nrow = s.nrow) (h3 : c.ncol = s.ncol) :
    ∃ s', s.updateFromCoo c = .ok s' ∧ s'.Rep (convCol es c.nrow) ∧ s'.Ready c.nrow c.ncol es.length ∧
      s'.symmetric = c.symmetric ∧ s'.nrow = c.nrow ∧ s'.ncol = c.ncol := by
  obtain ⟨s', e, r, d1, d2, d3, hc⟩ := Csc.updateCore_spec h hlen hs
  refine ⟨s', ?_, ⟨?_, ?_⟩, r, by rw [d1, h1], by rw [d2, h2], by rw [d3, h3]⟩
  · unfold Csc.updateFromCoo
    rw [if_neg (by simp [h1]), if_neg (by simp [h2]), if_neg (by simp [h3]), if_neg (by simp [h.nnz, hs.lenX]), e]
  · rw [d2, d3, ← h2, ← h3]; exact hc
  · rw [d1, d2, d3, ← h1, ← h2, ← h3]; exact h.square

theorem Csc.fromCoo_spec [Zero α] [Add α] {c : Coo α} {es : List (Entry α)} (h : c.Rep es)
    (hlen : es.length < 2147483648) (hne : 1 ≤ es.length) :
    ∃ s, Csc.fromCoo c = ok s ∧ s.Rep (convCol es c.nrow) ∧ s.Ready c.nrow c.ncol es.length ∧
      s.symmetric = c.symmetric ∧ s.nrow = c.nrow ∧ s.ncol = c.ncol := by
  obtain ⟨s', e, r1, r2, r3⟩ := Csc.updateFromCoo_match (α := α) (c := c) (es := es) (s := {
      symmetric := c.symmetric, nrow := c.nrow, ncol := c.ncol
      colPointers := List.replicate (c.ncol + 1) 0
      rowIndices := List.replicate c.nnz 0
      values := List.replicate c.nnz 0
      tempRp := [], tempRj := [], tempRx := [], tempRc := [], tempW := [] }) h hlen
    ⟨by simp, by simp [h.nnz], by simp [h.nnz], Or.inl rfl⟩ rfl rfl rfl
  refine ⟨s', ?_, r1, r2, r3⟩
  unfold Csc.fromCoo
  rw [if_neg (by rw [h.nnz]; omega)]
  simp only [e]

theorem csr_dense_eq [Zero α] [Add α] {s : Csr α} {c : Coo α} {es : List (Entry α)} {row : Nat → List (Nat × α)}
    (hc : c.Rep es) (hs : s.Rep row) (d1 : s.symmetric = c.symmetric) (d2 : s.nrow = c.nrow) (d3 : s.ncol = c.ncol)
    (heq : ∀ i j, denseOf c.symmetric (rowEntries row c.nrow) i j = denseOf c.symmetric es i j) :
    ∃ a, s.asDense = ok a ∧ c.asDense = ok a := by
  obtain ⟨a, e1, h1⟩ := Csr.asDense_spec hs
  obtain ⟨b, e2, h2⟩ := Coo.asDense_spec hc
  refine ⟨a, e1, ?_⟩
  rw [e2]
  congr 1
  refine h2.unique ?_
  rw [d1, d2, d3] at h1
  exact h1.congr (fun r k _ _ => heq r k)

theorem csc_dense_eq [Zero α] [Add α] {s : Csc α} {c : Coo α} {es : List (Entry α)} {col : Nat → List (Nat × α)}
    (hc : c.Rep es) (hs : s.Rep col) (d1 : s.symmetric = c.symmetric) (d2 : s.nrow = c.nrow) (d3 : s.ncol = c.ncol)
    (heq : ∀ i j, denseOf c.symmetric (colEntries col c.ncol) i j = denseOf c.symmetric es i j) :
    ∃ a, s.asDense = ok a ∧ c.asDense = ok a := by
  obtain ⟨a, e1, h1⟩ := Csc.asDense_spec hs
  obtain ⟨b, e2, h2⟩ := Coo.asDense_spec hc
  refine ⟨a, e1, ?_⟩
  rw [e2]
  congr 1
  refine h2.unique ?_
  rw [d1, d2, d3] at h1
  exact h1.congr (fun r k _ _ => heq r k)

/-! ## C03, C04 -/

/-- C03: for every call history on a COO matrix that leaves at least one entry, the conversion to CSR succeeds and has
bit-for-bit the same dense form. Only one law of the addition is used, which IEEE addition satisfies (both sides are
`x + y` up to the sign of a zero, which adding `0` normalises). -/
theorem C03_csr_from_coo_dense [Zero α] [Add α] (hlaw : ∀ x y : α, 0 + (x + y) = (0 + x) + y)
    {nrow ncol cap : Nat} {sym : Sym} {c0 c : Coo α} (h0 : Coo.new nrow ncol cap sym = ok c0) (hm : nrow < 2147483648)
    (hn : ncol < 2147483648) {ops : List (CooOp α)} (hc : c0.run ops = ok c) (hne : 1 ≤ c.nnz) (hfit : c.nnz < 2147483648) :
    ∃ s a, Csr.fromCoo c = ok s ∧ s.asDense = ok a ∧ c.asDense = ok a ∧
      s.symmetric = sym ∧ s.nrow = nrow ∧ s.ncol = ncol := by
  obtain ⟨c', e, r, d1, d2, -, d4⟩ := Coo.reachable_rep h0 hm hn ops
  rw [hc] at e; cases e
  have ht := accepted_inTriangle nrow ncol cap sym ops
  rw [r.nnz] at hne hfit
  obtain ⟨s, e, hs, -, f1, f2, f3⟩ := Csr.fromCoo_spec r hfit hne
  obtain ⟨a, g1, g2⟩ := csr_dense_eq r hs f1 f2 f3 (by
    rw [d4]
    exact denseOf_conv hlaw (atPos_convRow r.rangeI) ht)
  exact ⟨s, a, e, g1, g2, by rw [f1, d4], by rw [f2, d1], by rw [f3, d2]⟩

/-- C03 for any well-formed COO matrix, also with entries outside the stored triangle (`CooMatrix::from` does not check the
triangle); the addition has to be commutative and associative in that case. -/
theorem C03_csr_from_coo_dense_any [AddCommMonoid α] {c : Coo α} {es : List (Entry α)} (h : c.Rep es)
    (hne : 1 ≤ es.length) (hfit : es.length < 2147483648) :
    ∃ s a, Csr.fromCoo c = ok s ∧ s.asDense = ok a ∧ c.asDense = ok a := by
  obtain ⟨s, e, hs, -, f1, f2, f3⟩ := Csr.fromCoo_spec h hfit hne
  obtain ⟨a, g1, g2⟩ := csr_dense_eq h hs f1 f2 f3 (denseOf_conv_comm (atPos_convRow h.rangeI))
  exact ⟨s, a, e, g1, g2⟩

/-- C03: an empty COO matrix is rejected. -/
theorem C03_csr_from_empty [Zero α] [Add α] {c : Coo α} (h : c.nnz = 0) : ∃ msg, Csr.fromCoo c = err msg := by
  unfold Csr.fromCoo
  rw [if_pos (by omega)]
  exact ⟨_, rfl⟩

/-- C04: as C03, for CSC. -/
theorem C04_csc_from_coo_dense [Zero α] [Add α] (hlaw : ∀ x y : α, 0 + (x + y) = (0 + x) + y)
    {nrow ncol cap : Nat} {sym : Sym} {c0 c : Coo α} (h0 : Coo.new nrow ncol cap sym = ok c0) (hm : nrow < 2147483648)
    (hn : ncol < 2147483648) {ops : List (CooOp α)} (hc : c0.run ops = ok c) (hne : 1 ≤ c.nnz) (hfit : c.nnz < 2147483648) :
    ∃ s a, Csc.fromCoo c = ok s ∧ s.asDense = ok a ∧ c.asDense = ok a ∧
      s.symmetric = sym ∧ s.nrow = nrow ∧ s.ncol = ncol := by
  obtain ⟨c', e, r, d1, d2, -, d4⟩ := Coo.reachable_rep h0 hm hn ops
  rw [hc] at e; cases e
  have ht := accepted_inTriangle nrow ncol cap sym ops
  rw [r.nnz] at hne hfit
  obtain ⟨s, e, hs, -, f1, f2, f3⟩ := Csc.fromCoo_spec r hfit hne
  obtain ⟨a, g1, g2⟩ := csc_dense_eq r hs f1 f2 f3 (by
    rw [d4]
    exact denseOf_conv hlaw (atPos_convCol r.rangeI r.rangeJ) ht)
  exact ⟨s, a, e, g1, g2, by rw [f1, d4], by rw [f2, d1], by rw [f3, d2]⟩

theorem C04_csc_from_coo_dense_any [AddCommMonoid α] {c : Coo α} {es : List (Entry α)} (h : c.Rep es)
    (hne : 1 ≤ es.length) (hfit : es.length < 2147483648) :
    ∃ s a, Csc.fromCoo c = ok s ∧ s.asDense = ok a ∧ c.asDense = ok a := by
  obtain ⟨s, e, hs, -, f1, f2, f3⟩ := Csc.fromCoo_spec h hfit hne
  obtain ⟨a, g1, g2⟩ := csc_dense_eq h hs f1 f2 f3 (denseOf_conv_comm (atPos_convCol h.rangeI h.rangeJ))
  exact ⟨s, a, e, g1, g2⟩

theorem C04_csc_from_empty [Zero α] [Add α] {c : Coo α} (h : c.nnz = 0) : ∃ msg, Csc.fromCoo c = err msg := by
  unfold Csc.fromCoo
  rw [if_pos (by omega)]
  exact ⟨_, rfl⟩

/-- Non-trivial instance: duplicates, arbitrary order, an empty row. -/
example : ∃ c0 c t a, Coo.new 3 4 6 Sym.no = ok c0 ∧
    c0.run [.put 2 3 (1 : Int), .put 0 1 2, .put 2 0 3, .put 2 3 4, .put 0 1 (-2)] = ok c ∧ 1 ≤ c.nnz ∧ c.nnz < 2147483648 ∧
    Csc.fromCoo c = ok t ∧ t.colPointers = [0, 1, 2, 2, 3] ∧ t.getRowIndices = ok [2, 0, 2] ∧ t.getValues = ok [3, 0, 5] ∧
    t.asDense = ok a ∧ a.get 2 3 = ok 5 := by
  refine ⟨_, _, _, _, rfl, rfl, by decide, by decide, rfl, rfl, rfl, rfl, rfl, rfl⟩

/-- The law used by C03 and C04 holds in every additive monoid. -/
example : ∀ x y : Int, 0 + (x + y) = (0 + x) + y := fun x y => (add_assoc 0 x y).symm

/-! ## C05 -/

/-- Specification of a canonical compressed structure: `ptr` delimits the `n` groups of `idx`; within a group the indices
are strictly increasing and below `m`; `pos i j` says whether `j` occurs in group `i`. -/
structure Canonical (n m : Nat) (ptr idx : List Int) (pos : Nat → Nat → Prop) : Prop where
  length : ptr.length = n + 1
  first : ptr[0]? = some 0
  last : ptr[n]? = some (idx.length : Int)
  range : ∀ x ∈ idx, 0 ≤ x ∧ x < m
  groups : ∀ i, i < n → ∃ a b : Nat, ptr[i]? = some (a : Int) ∧ ptr[i + 1]? = some (b : Int) ∧ a ≤ b ∧ b ≤ idx.length ∧
    (∀ p q x y, a ≤ p → p < q → q < b → idx[p]? = some x → idx[q]? = some y → x < y) ∧
    (∀ j : Nat, (∃ p, a ≤ p ∧ p < b ∧ idx[p]? = some (j : Int)) ↔ pos i j)

theorem flat_map_idx (row : Nat → List (Nat × α)) {n i t : Nat} (hi : i < n) (ht : t < (row i).length) :
    ((flat row n).map fun e => ((e.1 : Nat) : Int))[off row i + t]? = some (((row i)[t].1 : Nat) : Int) := by
  rw [List.getElem?_map, flat_get row hi ht]
  rfl

theorem Compressed.canonical {n m : Nat} {ptr idx : List Int} {val : List α} {row : Nat → List (Nat × α)}
    (h : Compressed n m ptr idx val row) (hs : ∀ i, i < n → (row i).Pairwise fun a b => a.1 < b.1) :
    Canonical n m ptr ((flat row n).map fun e => ((e.1 : Nat) : Int)) (fun i j => ∃ x, (j, x) ∈ row i) := by
  refine ⟨h.lenP, h.ptr 0 (Nat.zero_le _), ?_, ?_, ?_⟩
  · rw [List.length_map]; exact h.ptr n (Nat.le_refl _)
  · intro x hx
    obtain ⟨e, he, rfl⟩ := List.mem_map.1 hx
    obtain ⟨i, hi, he⟩ := mem_flat.1 he
    have := h.range i hi e he
    omega
  · intro i hi
    refine ⟨off row i, off row (i + 1), h.ptr i (by omega), h.ptr (i + 1) hi, off_le row (Nat.le_succ i), ?_, ?_, ?_⟩
    · rw [List.length_map]; exact off_le row hi
    · intro p q x y hp hpq hq hx hy
      obtain ⟨t, rfl⟩ := Nat.exists_eq_add_of_le hp
      obtain ⟨u, rfl⟩ := Nat.exists_eq_add_of_le (show off row i ≤ q by omega)
      rw [off_succ] at hq
      rw [flat_map_idx row hi (show t < (row i).length by omega)] at hx
      rw [flat_map_idx row hi (show u < (row i).length by omega)] at hy
      have := List.pairwise_iff_getElem.1 (hs i hi) t u (by omega) (by omega) (by omega)
      simp only [Option.some.injEq] at hx hy
      omega
    · intro j
      constructor
      · rintro ⟨p, hp, hq, hx⟩
        obtain ⟨t, rfl⟩ := Nat.exists_eq_add_of_le hp
        rw [off_succ] at hq
        have ht : t < (row i).length := by omega
        rw [flat_map_idx row hi ht] at hx
        simp only [Option.some.injEq] at hx
        have : (row i)[t].1 = j := by omega
        exact ⟨(row i)[t].2, by rw [← this]; exact List.getElem_mem ht⟩
      · rintro ⟨x, hx⟩
        obtain ⟨t, ht, e⟩ := List.getElem_of_mem hx
        refine ⟨off row i + t, by omega, by rw [off_succ]; omega, ?_⟩
        rw [flat_map_idx row hi ht, e]

theorem Csr.Rep.getters {s : Csr α} {row : Nat → List (Nat × α)} (h : s.Rep row) :
    s.getColIndices = ok ((flat row s.nrow).map fun e => ((e.1 : Nat) : Int)) ∧
    s.getValues = ok ((flat row s.nrow).map Prod.snd) := by
  obtain ⟨g1, g2, g3, g4⟩ := h.arr.getters
  constructor
  · simp only [Csr.getColIndices, g1, ok_bind, g2, g3]
  · simp only [Csr.getValues, g1, ok_bind, g2, g4]

theorem Csc.Rep.getters {s : Csc α} {col : Nat → List (Nat × α)} (h : s.Rep col) :
    s.getRowIndices = ok ((flat col s.ncol).map fun e => ((e.1 : Nat) : Int)) ∧
    s.getValues = ok ((flat col s.ncol).map Prod.snd) := by
  obtain ⟨g1, g2, g3, g4⟩ := h.arr.getters
  constructor
  · simp only [Csc.getRowIndices, g1, ok_bind, g2, g3]
  · simp only [Csc.getValues, g1, ok_bind, g2, g4]

theorem strict_of_le_nodup {l : List (Nat × α)} (h1 : l.Pairwise fun a b => a.1 ≤ b.1) (h2 : (l.map Prod.fst).Nodup) :
    l.Pairwise fun a b => a.1 < b.1 := by
  have h3 : l.Pairwise fun a b => a.1 ≠ b.1 := List.pairwise_map.1 h2
  exact (h1.and h3).imp (fun ⟨a, b⟩ => by omega)

theorem convRow_strict [Add α] (es : List (Entry α)) (i : Nat) : (convRow es i).Pairwise fun a b => a.1 < b.1 := by
  apply strict_of_le_nodup (sortRow_sorted _)
  have : ((convRow es i).map Prod.fst).Perm ((mergeDup (grp es i)).map Prod.fst) := (sortRow_perm _).map _
  exact this.nodup_iff.2 (mergeDup_nodup _)

theorem convCol_strict [Add α] (es : List (Entry α)) (n j : Nat) : (convCol es n j).Pairwise fun a b => a.1 < b.1 := by
  rw [convCol, transp_eq_flat]
  apply flat_tag_strict
  intro i _
  rw [grp_mergeDup]
  exact merged_length _

/-- C05: the CSR matrix made from a COO matrix is canonical, and its positions are exactly those put in the COO matrix. -/
theorem C05_csr_canonical [Zero α] [Add α] {c : Coo α} {es : List (Entry α)} (h : c.Rep es)
    (hne : 1 ≤ es.length) (hfit : es.length < 2147483648) :
    ∃ s idx vals, Csr.fromCoo c = ok s ∧ s.getColIndices = ok idx ∧ s.getValues = ok vals ∧ vals.length = idx.length ∧
      s.symmetric = c.symmetric ∧ s.nrow = c.nrow ∧ s.ncol = c.ncol ∧ idx.length ≤ es.length ∧
      Canonical c.nrow c.ncol s.getRowPointers idx (fun i j => ∃ x, (i, j, x) ∈ es) := by
  obtain ⟨s, e, hs, -, f1, f2, f3⟩ := Csr.fromCoo_spec h hfit hne
  obtain ⟨g1, g2⟩ := hs.getters
  have hcan := hs.arr.canonical (fun i _ => convRow_strict es i)
  rw [f2, f3] at hcan
  refine ⟨s, _, _, e, g1, g2, by simp, f1, f2, f3, ?_, ?_⟩
  · rw [List.length_map, f2]
    have h1 := off_sort_eq es c.nrow
    have h2 : off (fun i => mergeDup (grp es i)) c.nrow ≤ off (grp es) c.nrow :=
      off_mono_rows (fun i _ => mergeDup_length_le _)
    rw [off_grp_total h.rangeI] at h2
    have h3 : (flat (convRow es) c.nrow).length = off (convRow es) c.nrow := rfl
    omega
  · rw [f2]
    refine ⟨hcan.length, hcan.first, hcan.last, hcan.range, ?_⟩
    intro i hi
    obtain ⟨a, b, k1, k2, k3, k4, k5, k6⟩ := hcan.groups i hi
    refine ⟨a, b, k1, k2, k3, k4, k5, ?_⟩
    intro j
    rw [k6 j]
    have := pos_of_atPos (atPos_convRow h.rangeI) i j
    rw [← this]
    constructor
    · rintro ⟨x, hx⟩; exact ⟨x, mem_rowEntries.2 ⟨hi, hx⟩⟩
    · rintro ⟨x, hx⟩; exact ⟨x, (mem_rowEntries.1 hx).2⟩

/-- C05: as above for CSC. -/
theorem C05_csc_canonical [Zero α] [Add α] {c : Coo α} {es : List (Entry α)} (h : c.Rep es)
    (hne : 1 ≤ es.length) (hfit : es.length < 2147483648) :
    ∃ s idx vals, Csc.fromCoo c = ok s ∧ s.getRowIndices = ok idx ∧ s.getValues = ok vals ∧ vals.length = idx.length ∧
      s.symmetric = c.symmetric ∧ s.nrow = c.nrow ∧ s.ncol = c.ncol ∧ idx.length ≤ es.length ∧
      Canonical c.ncol c.nrow s.getColPointers idx (fun j i => ∃ x, (i, j, x) ∈ es) := by
  obtain ⟨s, e, hs, -, f1, f2, f3⟩ := Csc.fromCoo_spec h hfit hne
  obtain ⟨g1, g2⟩ := hs.getters
  have hcan := hs.arr.canonical (fun i _ => convCol_strict es c.nrow i)
  rw [f2, f3] at hcan
  refine ⟨s, _, _, e, g1, g2, by simp, f1, f2, f3, ?_, ?_⟩
  · rw [List.length_map, f3]
    have h1 : off (convCol es c.nrow) c.ncol = off (fun i => mergeDup (grp es i)) c.nrow := off_transp (by
      intro i hi e he
      have h1 : e.1 ∈ (mergeDup (grp es i)).map Prod.fst := List.mem_map_of_mem he
      rw [mergeDup_keys] at h1
      obtain ⟨e', he', h2⟩ := List.mem_map.1 h1
      rw [← h2]; exact h.rangeJ _ (mem_grp.1 he'))
    have h2 : off (fun i => mergeDup (grp es i)) c.nrow ≤ off (grp es) c.nrow :=
      off_mono_rows (fun i _ => mergeDup_length_le _)
    rw [off_grp_total h.rangeI] at h2
    have h3 : (flat (convCol es c.nrow) c.ncol).length = off (convCol es c.nrow) c.ncol := rfl
    omega
  · rw [f3]
    refine ⟨hcan.length, hcan.first, hcan.last, hcan.range, ?_⟩
    intro j hj
    obtain ⟨a, b, k1, k2, k3, k4, k5, k6⟩ := hcan.groups j hj
    refine ⟨a, b, k1, k2, k3, k4, k5, ?_⟩
    intro i
    rw [k6 i]
    have := pos_of_atPos (atPos_convCol h.rangeI h.rangeJ) i j
    rw [← this]
    constructor
    · rintro ⟨x, hx⟩; exact ⟨x, mem_colEntries.2 ⟨hj, hx⟩⟩
    · rintro ⟨x, hx⟩; exact ⟨x, (mem_colEntries.1 hx).2⟩

/-! ## C06 -/

/-- The user calls `update_from_coo` with each COO matrix in turn, ignoring errors. -/
def Csr.updates [Zero α] [Add α] (s : Csr α) (cs : List (Coo α)) : Res (Csr α) :=
  forList cs s fun c s => match s.updateFromCoo c with
    | .ok s' => ok s'
    | .err s' _ => ok s'
    | .panic => panic

def Csc.updates [Zero α] [Add α] (s : Csc α) (cs : List (Coo α)) : Res (Csc α) :=
  forList cs s fun c s => match s.updateFromCoo c with
    | .ok s' => ok s'
    | .err s' _ => ok s'
    | .panic => panic

/-- `c` can be written into a matrix allocated for `c0` -/
def Compatible (c0 c : Coo α) : Prop :=
  c.symmetric = c0.symmetric ∧ c.nrow = c0.nrow ∧ c.ncol = c0.ncol ∧ c.nnz = c0.nnz

instance (c0 c : Coo α) : Decidable (Compatible c0 c) := by unfold Compatible; infer_instance

/-- the last compatible matrix, starting with `c0` -/
def lastCompatible (c0 : Coo α) (cs : List (Coo α)) : Coo α :=
  cs.foldl (fun last c => if Compatible c0 c then c else last) c0

theorem Csr.updateFromCoo_mismatch [Zero α] [Add α] {s : Csr α} {c : Coo α}
    (h : ¬ (c.symmetric = s.symmetric ∧ c.nrow = s.nrow ∧ c.ncol = s.ncol ∧ c.nnz = s.values.length)) :
    ∃ msg, s.updateFromCoo c = .err s msg := by
  unfold Csr.updateFromCoo
  by_cases h1 : c.symmetric = s.symmetric
  · rw [if_neg (by simp [h1])]
    by_cases h2 : c.nrow = s.nrow
    · rw [if_neg (by simp [h2])]
      by_cases h3 : c.ncol = s.ncol
      · rw [if_neg (by simp [h3])]
        have h4 : c.nnz ≠ s.values.length := fun hh => h ⟨h1, h2, h3, hh⟩
        rw [if_pos h4]; exact ⟨_, rfl⟩
      · rw [if_pos h3]; exact ⟨_, rfl⟩
    · rw [if_pos h2]; exact ⟨_, rfl⟩
  · rw [if_pos h1]; exact ⟨_, rfl⟩

theorem Csc.updateFromCoo_mismatch [Zero α] [Add α] {s : Csc α} {c : Coo α}
    (h : ¬ (c.symmetric = s.symmetric ∧ c.nrow = s.nrow ∧ c.ncol = s.ncol ∧ c.nnz = s.values.length)) :
    ∃ msg, s.updateFromCoo c = .err s msg := by
  unfold Csc.updateFromCoo
  by_cases h1 : c.symmetric = s.symmetric
  · rw [if_neg (by simp [h1])]
    by_cases h2 : c.nrow = s.nrow
    · rw [if_neg (by simp [h2])]
      by_cases h3 : c.ncol = s.ncol
      · rw [if_neg (by simp [h3])]
        have h4 : c.nnz ≠ s.values.length := fun hh => h ⟨h1, h2, h3, hh⟩
        rw [if_pos h4]; exact ⟨_, rfl⟩
      · rw [if_pos h3]; exact ⟨_, rfl⟩
    · rw [if_pos h2]; exact ⟨_, rfl⟩
  · rw [if_pos h1]; exact ⟨_, rfl⟩

/-- Two CSR matrices that store the same rows look the same. -/
theorem Csr.Rep.visible {s t : Csr α} {row : Nat → List (Nat × α)} (hs : s.Rep row) (ht : t.Rep row)
    (h2 : s.nrow = t.nrow) : s.getRowPointers = t.getRowPointers ∧ s.getColIndices = t.getColIndices ∧
    s.getValues = t.getValues := by
  refine ⟨?_, ?_, ?_⟩
  · apply List.ext_getElem?
    intro k
    by_cases hk : k ≤ s.nrow
    · rw [Csr.getRowPointers, Csr.getRowPointers, hs.arr.ptr k hk, ht.arr.ptr k (by omega)]
    · rw [Csr.getRowPointers, Csr.getRowPointers, List.getElem?_eq_none (by have := hs.arr.lenP; omega),
        List.getElem?_eq_none (by have := ht.arr.lenP; omega)]
  · rw [hs.getters.1, ht.getters.1, h2]
  · rw [hs.getters.2, ht.getters.2, h2]

theorem Csc.Rep.visible {s t : Csc α} {col : Nat → List (Nat × α)} (hs : s.Rep col) (ht : t.Rep col)
    (h2 : s.ncol = t.ncol) : s.getColPointers = t.getColPointers ∧ s.getRowIndices = t.getRowIndices ∧
    s.getValues = t.getValues := by
  refine ⟨?_, ?_, ?_⟩
  · apply List.ext_getElem?
    intro k
    by_cases hk : k ≤ s.ncol
    · rw [Csc.getColPointers, Csc.getColPointers, hs.arr.ptr k hk, ht.arr.ptr k (by omega)]
    · rw [Csc.getColPointers, Csc.getColPointers, List.getElem?_eq_none (by have := hs.arr.lenP; omega),
        List.getElem?_eq_none (by have := ht.arr.lenP; omega)]
  · rw [hs.getters.1, ht.getters.1, h2]
  · rw [hs.getters.2, ht.getters.2, h2]

/-- C06: a mismatching COO matrix gives `Err` and leaves the CSR matrix as it was - for any CSR matrix. -/
theorem C06_csr_mismatch [Zero α] [Add α] (s : Csr α) (c : Coo α)
    (h : c.symmetric ≠ s.symmetric ∨ c.nrow ≠ s.nrow ∨ c.ncol ≠ s.ncol ∨ c.nnz ≠ s.values.length) :
    ∃ msg, s.updateFromCoo c = .err s msg :=
  Csr.updateFromCoo_mismatch (by rintro ⟨a, b, d, e⟩; simp [a, b, d, e] at h)

theorem C06_csc_mismatch [Zero α] [Add α] (s : Csc α) (c : Coo α)
    (h : c.symmetric ≠ s.symmetric ∨ c.nrow ≠ s.nrow ∨ c.ncol ≠ s.ncol ∨ c.nnz ≠ s.values.length) :
    ∃ msg, s.updateFromCoo c = .err s msg :=
  Csc.updateFromCoo_mismatch (by rintro ⟨a, b, d, e⟩; simp [a, b, d, e] at h)

/-- C06: after any sequence of updates the CSR matrix shows exactly what a fresh conversion of the last compatible COO
matrix shows. -/
theorem C06_csr_updates [Zero α] [Add α] {c0 : Coo α} {cs : List (Coo α)}
    (hreps : ∀ c ∈ c0 :: cs, ∃ es, c.Rep es) (hne : 1 ≤ c0.nnz) (hfit : c0.nnz < 2147483648) :
    ∃ s0 s t, Csr.fromCoo c0 = ok s0 ∧ s0.updates cs = ok s ∧ Csr.fromCoo (lastCompatible c0 cs) = ok t ∧
      s.symmetric = t.symmetric ∧ s.nrow = t.nrow ∧ s.ncol = t.ncol ∧
      s.getRowPointers = t.getRowPointers ∧ s.getColIndices = t.getColIndices ∧ s.getValues = t.getValues := by
  obtain ⟨es0, h0⟩ := hreps c0 List.mem_cons_self
  have hl0 := h0.nnz
  obtain ⟨s0, e0, r0, q0, d1, d2, d3⟩ := Csr.fromCoo_spec h0 (by omega) (by omega)
  -- invariant of the update loop
  have key : ∀ (cs : List (Coo α)) (s : Csr α) (last : Coo α) (el : List (Entry α)),
      (∀ c ∈ cs, ∃ es, c.Rep es) → last.Rep el → Compatible c0 last →
      s.Rep (convRow el) → s.Ready c0.nrow c0.ncol c0.nnz → s.symmetric = c0.symmetric → s.nrow = c0.nrow →
      s.ncol = c0.ncol →
      ∃ s' last' el', s.updates cs = ok s' ∧
        last' = cs.foldl (fun last c => if Compatible c0 c then c else last) last ∧ last'.Rep el' ∧
        Compatible c0 last' ∧ s'.Rep (convRow el') ∧ s'.symmetric = c0.symmetric ∧ s'.nrow = c0.nrow ∧ s'.ncol = c0.ncol := by
    intro cs
    induction cs with
    | nil => intro s last el _ h1 h2 h3 _ h5 h6 h7; exact ⟨s, last, el, rfl, rfl, h1, h2, h3, h5, h6, h7⟩
    | cons c cs ih =>
      intro s last el hr h1 h2 h3 h4 h5 h6 h7
      obtain ⟨es, hc⟩ := hr c List.mem_cons_self
      by_cases hcomp : Compatible c0 c
      · obtain ⟨k1, k2, k3, k4⟩ := hcomp
        have hn := hc.nnz
        obtain ⟨s1, e1, r1, q1, f1, f2, f3⟩ := Csr.updateFromCoo_match (s := s) hc (by omega)
          (by rw [k2, k3, ← hn, k4]; exact h4) (by rw [k1, h5]) (by rw [k2, h6]) (by rw [k3, h7])
        obtain ⟨s', last', el', g1, g2, g3⟩ := ih s1 c es (fun c hc => hr c (List.mem_cons_of_mem _ hc)) hc ⟨k1, k2, k3, k4⟩ r1
          (by rw [← k2, ← k3, ← k4, hn]; exact q1) (by rw [f1, k1]) (by rw [f2, k2]) (by rw [f3, k3])
        refine ⟨s', last', el', ?_, ?_, g3⟩
        · rw [← g1]; simp only [Csr.updates, forList, e1, ok_bind]
        · rw [g2, List.foldl_cons, if_pos ⟨k1, k2, k3, k4⟩]
      · obtain ⟨msg, e1⟩ := Csr.updateFromCoo_mismatch (s := s) (c := c) (by
          rw [h5, h6, h7, h4.lenX]; exact hcomp)
        obtain ⟨s', last', el', g1, g2, g3⟩ := ih s last el (fun c hc => hr c (List.mem_cons_of_mem _ hc)) h1 h2 h3 h4 h5 h6 h7
        refine ⟨s', last', el', ?_, ?_, g3⟩
        · rw [← g1]; simp only [Csr.updates, forList, e1, ok_bind]
        · rw [g2, List.foldl_cons, if_neg hcomp]
  obtain ⟨s, last, el, g1, g2, g3, ⟨k1, k2, k3, k4⟩, g5, g6, g7, g8⟩ := key cs s0 c0 es0 (fun c hc => hreps c (List.mem_cons_of_mem _ hc)) h0
    ⟨rfl, rfl, rfl, rfl⟩ r0 (by rw [hl0]; exact q0) d1 d2 d3
  have hn := g3.nnz
  obtain ⟨t, e5, r5, -, f1, f2, f3⟩ := Csr.fromCoo_spec g3 (by omega) (by omega)
  refine ⟨s0, s, t, e0, g1, ?_, by rw [g6, f1, k1], by rw [g7, f2, k2], by rw [g8, f3, k3], ?_⟩
  · rw [lastCompatible, ← g2]; exact e5
  · exact g5.visible r5 (by rw [g7, f2, k2])

theorem C06_csc_updates [Zero α] [Add α] {c0 : Coo α} {cs : List (Coo α)}
    (hreps : ∀ c ∈ c0 :: cs, ∃ es, c.Rep es) (hne : 1 ≤ c0.nnz) (hfit : c0.nnz < 2147483648) :
    ∃ s0 s t, Csc.fromCoo c0 = ok s0 ∧ s0.updates cs = ok s ∧ Csc.fromCoo (lastCompatible c0 cs) = ok t ∧
      s.symmetric = t.symmetric ∧ s.nrow = t.nrow ∧ s.ncol = t.ncol ∧
      s.getColPointers = t.getColPointers ∧ s.getRowIndices = t.getRowIndices ∧ s.getValues = t.getValues := by
  obtain ⟨es0, h0⟩ := hreps c0 List.mem_cons_self
  have hl0 := h0.nnz
  obtain ⟨s0, e0, r0, q0, d1, d2, d3⟩ := Csc.fromCoo_spec h0 (by omega) (by omega)
  have key : ∀ (cs : List (Coo α)) (s : Csc α) (last : Coo α) (el : List (Entry α)),
      (∀ c ∈ cs, ∃ es, c.Rep es) → last.Rep el → Compatible c0 last →
      s.Rep (convCol el c0.nrow) → s.Ready c0.nrow c0.ncol c0.nnz → s.symmetric = c0.symmetric → s.nrow = c0.nrow →
      s.ncol = c0.ncol →
      ∃ s' last' el', s.updates cs = ok s' ∧
        last' = cs.foldl (fun last c => if Compatible c0 c then c else last) last ∧ last'.Rep el' ∧
        Compatible c0 last' ∧ s'.Rep (convCol el' c0.nrow) ∧ s'.symmetric = c0.symmetric ∧ s'.nrow = c0.nrow ∧
        s'.ncol = c0.ncol := by
    intro cs
    induction cs with
    | nil => intro s last el _ h1 h2 h3 _ h5 h6 h7; exact ⟨s, last, el, rfl, rfl, h1, h2, h3, h5, h6, h7⟩
    | cons c cs ih =>
      intro s last el hr h1 h2 h3 h4 h5 h6 h7
      obtain ⟨es, hc⟩ := hr c List.mem_cons_self
      by_cases hcomp : Compatible c0 c
      · obtain ⟨k1, k2, k3, k4⟩ := hcomp
        have hn := hc.nnz
        obtain ⟨s1, e1, r1, q1, f1, f2, f3⟩ := Csc.updateFromCoo_match (s := s) hc (by omega)
          (by rw [k2, k3, ← hn, k4]; exact h4) (by rw [k1, h5]) (by rw [k2, h6]) (by rw [k3, h7])
        obtain ⟨s', last', el', g1, g2, g3⟩ := ih s1 c es (fun c hc => hr c (List.mem_cons_of_mem _ hc)) hc ⟨k1, k2, k3, k4⟩
          (by rw [← k2]; exact r1)
          (by rw [← k2, ← k3, ← k4, hn]; exact q1) (by rw [f1, k1]) (by rw [f2, k2]) (by rw [f3, k3])
        refine ⟨s', last', el', ?_, ?_, g3⟩
        · rw [← g1]; simp only [Csc.updates, forList, e1, ok_bind]
        · rw [g2, List.foldl_cons, if_pos ⟨k1, k2, k3, k4⟩]
      · obtain ⟨msg, e1⟩ := Csc.updateFromCoo_mismatch (s := s) (c := c) (by
          rw [h5, h6, h7, h4.lenX]; exact hcomp)
        obtain ⟨s', last', el', g1, g2, g3⟩ := ih s last el (fun c hc => hr c (List.mem_cons_of_mem _ hc)) h1 h2 h3 h4 h5 h6 h7
        refine ⟨s', last', el', ?_, ?_, g3⟩
        · rw [← g1]; simp only [Csc.updates, forList, e1, ok_bind]
        · rw [g2, List.foldl_cons, if_neg hcomp]
  obtain ⟨s, last, el, g1, g2, g3, ⟨k1, k2, k3, k4⟩, g5, g6, g7, g8⟩ := key cs s0 c0 es0 (fun c hc => hreps c (List.mem_cons_of_mem _ hc)) h0
    ⟨rfl, rfl, rfl, rfl⟩ r0 (by rw [hl0]; exact q0) d1 d2 d3
  have hn := g3.nnz
  obtain ⟨t, e5, r5, -, f1, f2, f3⟩ := Csc.fromCoo_spec g3 (by omega) (by omega)
  refine ⟨s0, s, t, e0, g1, ?_, by rw [g6, f1, k1], by rw [g7, f2, k2], by rw [g8, f3, k3], ?_⟩
  · rw [lastCompatible, ← g2]; exact e5
  · rw [k2] at r5
    exact g5.visible r5 (by rw [g8, f3, k3])

/-- Non-trivial instance of C06: the second matrix merges two entries, the third has another number of entries. -/
example : ∃ c0 c1 c2 c3 s0 s t, Coo.new 2 2 3 Sym.no = ok c0 ∧
    c0.run [.put 0 1 (1 : Int), .put 1 0 2, .put 1 1 3] = ok c1 ∧ c0.run [.put 1 1 4, .put 0 0 5, .put 1 1 6] = ok c2 ∧
    c0.run [.put 1 1 4] = ok c3 ∧ lastCompatible c1 [c2, c3] = c2 ∧
    Csc.fromCoo c1 = ok s0 ∧ s0.updates [c2, c3] = ok s ∧ Csc.fromCoo c2 = ok t ∧
    s.getColPointers = [0, 1, 2] ∧ s.getRowIndices = ok [0, 1] ∧ s.getValues = ok [5, 10] ∧ s.values = [5, 10, 3] := by
  refine ⟨_, _, _, _, _, _, _, rfl, rfl, rfl, rfl, rfl, rfl, rfl, rfl, rfl, rfl, rfl, rfl⟩

/-- C06 does not extend to every matrix: `CscMatrix::new` (and `CsrMatrix::new`, likewise) accepts index and value arrays of
different lengths, and `update_from_coo` compares the number of entries with the length of the value array only; the update
then panics. -/
theorem C06_unequal_lengths_counterexample :
    ∃ (s : Csc Int) (c0 c : Coo Int), Csc.new 2 1 [0, 1] [0] [7, 8] Sym.no = ok s ∧
      Coo.new 2 1 2 Sym.no = ok c0 ∧ c0.run [.put 0 0 1, .put 1 0 2] = ok c ∧ s.updateFromCoo c = .panic := by
  refine ⟨_, _, _, rfl, rfl, rfl, rfl⟩

/-! ## C07, C08 -/

theorem denseOf_transp_csr [Zero α] [Add α] (sym : Sym) {row : Nat → List (Nat × α)} {n m : Nat}
    (hcol : ∀ i, i < n → ∀ e ∈ row i, e.1 < m) (ht : ∀ i, i < n → ∀ e ∈ row i, InTriangle sym i e.1) (r k : Nat) :
    denseOf sym (colEntries (transp row n) m) r k = denseOf sym (rowEntries row n) r k := by
  have hat : ∀ i j, atPos (colEntries (transp row n) m) i j = atPos (rowEntries row n) i j := by
    intro i j
    rw [atPos_colEntries, atPos_rowEntries, grp_transp]
    by_cases hi : i < n
    · rw [if_pos hi]
      by_cases hj : j < m
      · rw [if_pos hj]
      · rw [if_neg hj]
        symm
        rw [List.eq_nil_iff_forall_not_mem]
        intro x hx
        exact hj (hcol i hi _ (mem_grp.1 hx))
    · rw [if_neg hi]; simp
  have ht1 : ∀ e ∈ rowEntries row n, InTriangle sym e.1 e.2.1 := by
    intro e he
    obtain ⟨h1, h2⟩ := mem_rowEntries.1 he
    exact ht _ h1 _ h2
  rw [denseOf_atPos sym ht1, denseOf_atPos sym, hat]
  intro e he
  obtain ⟨h1, h2⟩ := mem_colEntries.1 he
  obtain ⟨h3, h4⟩ := transp_mem.1 h2
  exact ht _ h3 _ h4

theorem atPos_transp {row : Nat → List (Nat × α)} {n m : Nat} (hcol : ∀ i, i < n → ∀ e ∈ row i, e.1 < m) (i j : Nat) :
    atPos (colEntries (transp row n) m) i j = atPos (rowEntries row n) i j := by
  rw [atPos_colEntries, atPos_rowEntries, grp_transp]
  by_cases hi : i < n
  · rw [if_pos hi]
    by_cases hj : j < m
    · rw [if_pos hj]
    · rw [if_neg hj]
      symm
      rw [List.eq_nil_iff_forall_not_mem]
      intro x hx
      exact hj (hcol i hi _ (mem_grp.1 hx))
  · rw [if_neg hi]; simp

theorem atPos_swap_rows (row : Nat → List (Nat × α)) (n i j : Nat) :
    atPos (rowEntries row n) i j = atPos (colEntries row n) j i := by
  rw [atPos_colEntries, atPos_rowEntries]

end Russell.Sparse
