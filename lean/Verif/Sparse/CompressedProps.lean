import Verif.Sparse.NewProps

/-!
# C07, C08 and the CSR/CSC part of C09
-/

namespace Russell.Sparse

open Russell Russell.Res Russell.Lab

variable {α : Type}

/-- Sorted (not necessarily strictly) indices within each group, in terms of the arrays returned by the getters. -/
def SortedGroups (n : Nat) (ptr idx : List Int) : Prop :=
  ∀ i, i < n → ∃ a b : Nat, ptr[i]? = some (a : Int) ∧ ptr[i + 1]? = some (b : Int) ∧ a ≤ b ∧ b ≤ idx.length ∧
    ∀ p q x y, a ≤ p → p < q → q < b → idx[p]? = some x → idx[q]? = some y → x ≤ y

theorem Compressed.sortedGroups {n m : Nat} {ptr idx : List Int} {val : List α} {row : Nat → List (Nat × α)}
    (h : Compressed n m ptr idx val row) (hs : ∀ i, i < n → (row i).Pairwise fun a b => a.1 ≤ b.1) :
    SortedGroups n ptr ((flat row n).map fun e => ((e.1 : Nat) : Int)) := by
  intro i hi
  refine ⟨off row i, off row (i + 1), h.ptr i (by omega), h.ptr (i + 1) hi, off_le row (Nat.le_succ i), ?_, ?_⟩
  · rw [List.length_map]; exact off_le row hi
  · intro p q x y hp hpq hq hx hy
    obtain ⟨t, rfl⟩ := Nat.exists_eq_add_of_le hp
    obtain ⟨u, rfl⟩ := Nat.exists_eq_add_of_le (show off row i ≤ q by omega)
    rw [off_succ] at hq
    rw [flat_map_idx row hi (show t < (row i).length by omega)] at hx
    rw [flat_map_idx row hi (show u < (row i).length by omega)] at hy
    have := List.pairwise_iff_getElem.1 (hs i hi) t u (by omega) (by omega) (by omega)
    simp only [Option.some.injEq] at hx hy
    omega

theorem off_transp_total {row : Nat → List (Nat × α)} {n m : Nat} (hcol : ∀ i, i < n → ∀ e ∈ row i, e.1 < m) :
    off (transp row n) m = off row n := off_transp hcol

/-- C07: `CscMatrix::from_csr` on a CSR matrix storing rows: no panic, the same size, kind, number of values and dense form
(over a commutative monoid), indices sorted within columns, first pointer 0. -/
theorem C07_from_csr [AddCommMonoid α] {s : Csr α} {row : Nat → List (Nat × α)} (h : s.Rep row) :
    ∃ t a vs vt ri, Csc.fromCsr s = ok t ∧ t.nrow = s.nrow ∧ t.ncol = s.ncol ∧ t.symmetric = s.symmetric ∧
      s.asDense = ok a ∧ t.asDense = ok a ∧
      s.getValues = ok vs ∧ t.getValues = ok vt ∧ vt.length = vs.length ∧
      t.getRowIndices = ok ri ∧ SortedGroups t.ncol t.getColPointers ri ∧ t.getColPointers[0]? = some 0 := by
  obtain ⟨t, e, ht, h1, h2, h3⟩ := Csc.fromCsr_spec h
  obtain ⟨a, ea, ha⟩ := Csr.asDense_spec h
  obtain ⟨b, eb, hb⟩ := Csc.asDense_spec ht
  obtain ⟨g1, g2⟩ := h.getters
  obtain ⟨g3, g4⟩ := ht.getters
  have hab : b = a := by
    refine (hb.congr ?_).unique (by rw [h2, h3]; exact ha)
    intro r c _ _
    rw [h1, h3]
    exact denseOf_congr_atPos _ (fun i j => by rw [atPos_transp h.arr.range]) r c
  subst hab
  refine ⟨t, b, _, _, _, e, h2, h3, h1, ea, eb, g2, g4, ?_, g3, ?_, ?_⟩
  · rw [List.length_map, List.length_map, h3]
    exact off_transp h.arr.range
  · exact ht.arr.sortedGroups (fun j _ => transp_sorted _ _ _)
  · exact ht.arr.ptr 0 (Nat.zero_le _)

/-- C07: as above for `CsrMatrix::from_csc`. -/
theorem C07_from_csc [AddCommMonoid α] {s : Csc α} {col : Nat → List (Nat × α)} (h : s.Rep col) :
    ∃ t a vs vt ci, Csr.fromCsc s = ok t ∧ t.nrow = s.nrow ∧ t.ncol = s.ncol ∧ t.symmetric = s.symmetric ∧
      s.asDense = ok a ∧ t.asDense = ok a ∧
      s.getValues = ok vs ∧ t.getValues = ok vt ∧ vt.length = vs.length ∧
      t.getColIndices = ok ci ∧ SortedGroups t.nrow t.getRowPointers ci ∧ t.getRowPointers[0]? = some 0 := by
  obtain ⟨t, e, ht, h1, h2, h3⟩ := Csr.fromCsc_spec h
  obtain ⟨a, ea, ha⟩ := Csc.asDense_spec h
  obtain ⟨b, eb, hb⟩ := Csr.asDense_spec ht
  obtain ⟨g1, g2⟩ := h.getters
  obtain ⟨g3, g4⟩ := ht.getters
  have hab : b = a := by
    refine (hb.congr ?_).unique (by rw [h2, h3]; exact ha)
    intro r c _ _
    rw [h1, h2]
    apply denseOf_congr_atPos
    intro i j
    rw [atPos_swap_rows, atPos_transp h.arr.range, ← atPos_swap_rows]
  subst hab
  refine ⟨t, b, _, _, _, e, h2, h3, h1, ea, eb, g2, g4, ?_, g3, ?_, ?_⟩
  · rw [List.length_map, List.length_map, h2]
    exact off_transp h.arr.range
  · exact ht.arr.sortedGroups (fun j _ => transp_sorted _ _ _)
  · exact ht.arr.ptr 0 (Nat.zero_le _)

/-- C07: the dense form is the same exactly, without any law for the addition (so also in floating point), when the entries
are in the triangle demanded by the storage kind. -/
theorem C07_from_csr_exact [Zero α] [Add α] {s : Csr α} {row : Nat → List (Nat × α)} (h : s.Rep row)
    (ht : ∀ i, i < s.nrow → ∀ e ∈ row i, InTriangle s.symmetric i e.1) :
    ∃ t a, Csc.fromCsr s = ok t ∧ s.asDense = ok a ∧ t.asDense = ok a := by
  obtain ⟨t, e, h', h1, h2, h3⟩ := Csc.fromCsr_spec h
  obtain ⟨a, ea, ha⟩ := Csr.asDense_spec h
  obtain ⟨b, eb, hb⟩ := Csc.asDense_spec h'
  have hab : b = a := by
    refine (hb.congr ?_).unique (by rw [h2, h3]; exact ha)
    intro r c _ _
    rw [h1, h3]
    exact denseOf_transp_csr _ h.arr.range ht r c
  subst hab
  exact ⟨t, b, e, ea, eb⟩

/-- C07 in terms of the constructor: any matrix accepted by `CsrMatrix::new` with first pointer 0. -/
theorem C07_new_from_csr [AddCommMonoid α] {nrow ncol : Nat} {ptr idx : List Int} {val : List α} {sym : Sym} {s : Csr α}
    (h : Csr.new nrow ncol ptr idx val sym = ok s) (hp : ∀ x ∈ ptr, x < 2147483648) (h0 : ptr[0]? = some 0)
    (hm : nrow < 2147483648) (hn : ncol < 2147483648) :
    ∃ t a, Csc.fromCsr s = ok t ∧ t.nrow = nrow ∧ t.ncol = ncol ∧ t.symmetric = sym ∧
      s.asDense = ok a ∧ t.asDense = ok a := by
  obtain ⟨hr, -⟩ := Csr.new_rep h hp h0 hm hn
  obtain ⟨t, a, -, -, -, e, h1, h2, h3, h4, h5, -⟩ := C07_from_csr hr
  obtain ⟨-, b⟩ := C13_csr_new_ok_iff nrow ncol ptr idx val sym hp hn
  obtain ⟨-, -, -, b4, b5, b6, -⟩ := b s h
  exact ⟨t, a, e, by rw [h1, b4], by rw [h2, b5], by rw [h3, b6], h4, h5⟩

theorem C07_new_from_csc [AddCommMonoid α] {nrow ncol : Nat} {ptr idx : List Int} {val : List α} {sym : Sym} {s : Csc α}
    (h : Csc.new nrow ncol ptr idx val sym = ok s) (hp : ∀ x ∈ ptr, x < 2147483648) (h0 : ptr[0]? = some 0)
    (hm : nrow < 2147483648) (hn : ncol < 2147483648) :
    ∃ t a, Csr.fromCsc s = ok t ∧ t.nrow = nrow ∧ t.ncol = ncol ∧ t.symmetric = sym ∧
      s.asDense = ok a ∧ t.asDense = ok a := by
  obtain ⟨hr, -⟩ := Csc.new_rep h hp h0 hm hn
  obtain ⟨t, a, -, -, -, e, h1, h2, h3, h4, h5, -⟩ := C07_from_csc hr
  obtain ⟨-, b⟩ := C13_csc_new_ok_iff nrow ncol ptr idx val sym hp hm
  obtain ⟨-, -, -, b4, b5, b6, -⟩ := b s h
  exact ⟨t, a, e, by rw [h1, b4], by rw [h2, b5], by rw [h3, b6], h4, h5⟩

/-- a valid matrix with an empty row, a duplicate position and trailing space -/
def exampleCsr : Csr Int :=
  { symmetric := Sym.no, nrow := 3, ncol := 3, rowPointers := [0, 3, 3, 4], colIndices := [0, 2, 2, 1, 77],
    values := [1, 2, 5, 3, 0], tempRp := [], tempRjx := [], tempRc := [], tempW := [] }

example : Csr.new 3 3 [0, 3, 3, 4] [0, 2, 2, 1, 77] [(1 : Int), 2, 5, 3, 0] Sym.no = ok exampleCsr := rfl
example : ∃ row, exampleCsr.Rep row :=
  ⟨_, (Csr.new_rep (ptr := [0, 3, 3, 4]) (idx := [0, 2, 2, 1, 77]) (val := [1, 2, 5, 3, 0]) (s := exampleCsr) (nrow := 3) (ncol := 3) (sym := Sym.no) rfl (by decide) rfl (by decide) (by decide)).1⟩
example : ∃ t, Csc.fromCsr exampleCsr = ok t ∧ t.colPointers = [0, 1, 2, 4] ∧ t.values = [1, 3, 2, 5] := ⟨_, rfl, rfl, rfl⟩

/-! ## C08 -/

theorem off_congr {β γ : Type} {row : Nat → List β} {row' : Nat → List γ} {n : Nat}
    (h : ∀ i, i < n → (row i).length = (row' i).length) : ∀ i, i ≤ n → off row i = off row' i := by
  intro i
  induction i with
  | zero => intro _; rfl
  | succ i ih => intro hi; rw [off_succ, off_succ, ih (by omega), h i hi]

/-- C08: CSR to CSC and back sorts each row stably (`sorted i` is the unique sorted rearrangement of row `i` keeping the order
of equal columns) and changes nothing else. -/
theorem C08_csr_roundtrip [Zero α] {s : Csr α} {row : Nat → List (Nat × α)} (h : s.Rep row) (sorted : Nat → List (Nat × α))
    (hsort : ∀ i, i < s.nrow → (sorted i).Pairwise fun a b => a.1 ≤ b.1)
    (hstable : ∀ i, i < s.nrow → ∀ j, (sorted i).filter (fun e => e.1 = j) = (row i).filter (fun e => e.1 = j)) :
    ∃ c t, Csc.fromCsr s = ok c ∧ Csr.fromCsc c = ok t ∧ t.nrow = s.nrow ∧ t.ncol = s.ncol ∧ t.symmetric = s.symmetric ∧
      t.getRowPointers = s.getRowPointers ∧
      t.getColIndices = ok ((flat sorted s.nrow).map fun e => ((e.1 : Nat) : Int)) ∧
      t.getValues = ok ((flat sorted s.nrow).map Prod.snd) := by
  obtain ⟨c, e1, hc, h1, h2, h3⟩ := Csc.fromCsr_spec h
  obtain ⟨t, e2, ht, h4, h5, h6⟩ := Csr.fromCsc_spec hc
  have hsr : ∀ i, i < s.nrow → sorted i = sortRow (row i) := by
    intro i hi
    apply sorted_grp_unique (hsort i hi) (sortRow_sorted _)
    intro j
    rw [grp_sortRow]
    have := hstable i hi j
    rw [← grp_eq_filter, ← grp_eq_filter] at this
    exact List.map_injective_iff.2 (fun a b h => (Prod.mk.inj h).2) this
  have hrow : ∀ i, i < t.nrow → transp (transp row s.nrow) c.ncol i = sorted i := by
    intro i hi
    rw [h5, h2] at hi
    rw [h3, transp_transp h.arr.range hi, hsr i hi]
  obtain ⟨g1, g2⟩ := ht.getters
  refine ⟨c, t, e1, e2, by rw [h5, h2], by rw [h6, h3], by rw [h4, h1], ?_, ?_, ?_⟩
  · apply List.ext_getElem?
    intro k
    rw [Csr.getRowPointers, Csr.getRowPointers]
    have hlen : t.rowPointers.length = s.rowPointers.length := by
      rw [ht.arr.lenP, h.arr.lenP, h5, h2]
    by_cases hk : k ≤ s.nrow
    · rw [ht.arr.ptr k (by omega), h.arr.ptr k hk]
      congr 2
      apply off_congr (n := s.nrow) _ k hk
      intro i hi
      rw [hrow i (by omega), hsr i hi]
      exact (sortRow_perm _).length_eq
    · rw [List.getElem?_eq_none, List.getElem?_eq_none]
      · rw [h.arr.lenP]; omega
      · rw [ht.arr.lenP]; omega
  · rw [g1, flat_congr hrow, h5, h2]
  · rw [g2, flat_congr hrow, h5, h2]

/-- C08: the round trip is the identity on what the getters return, when the columns are sorted within the rows. -/
theorem C08_csr_roundtrip_identity [Zero α] {s : Csr α} {row : Nat → List (Nat × α)} (h : s.Rep row)
    (hs : ∀ i, i < s.nrow → (row i).Pairwise fun a b => a.1 ≤ b.1) :
    ∃ c t, Csc.fromCsr s = ok c ∧ Csr.fromCsc c = ok t ∧ t.nrow = s.nrow ∧ t.ncol = s.ncol ∧ t.symmetric = s.symmetric ∧
      t.getRowPointers = s.getRowPointers ∧ t.getColIndices = s.getColIndices ∧ t.getValues = s.getValues := by
  obtain ⟨c, t, e1, e2, h1, h2, h3, h4, h5, h6⟩ := C08_csr_roundtrip h row hs (fun _ _ _ => rfl)
  obtain ⟨g1, g2⟩ := h.getters
  exact ⟨c, t, e1, e2, h1, h2, h3, h4, by rw [h5, g1], by rw [h6, g2]⟩

/-- C08 in terms of the constructor: `new` demands sorted columns, so with first pointer 0 the round trip is the identity. -/
theorem C08_new_csr_roundtrip [Zero α] {nrow ncol : Nat} {ptr idx : List Int} {val : List α} {sym : Sym} {s : Csr α}
    (h : Csr.new nrow ncol ptr idx val sym = ok s) (hp : ∀ x ∈ ptr, x < 2147483648) (h0 : ptr[0]? = some 0)
    (hm : nrow < 2147483648) (hn : ncol < 2147483648) :
    ∃ c t, Csc.fromCsr s = ok c ∧ Csr.fromCsc c = ok t ∧ t.nrow = s.nrow ∧ t.ncol = s.ncol ∧ t.symmetric = s.symmetric ∧
      t.getRowPointers = s.getRowPointers ∧ t.getColIndices = s.getColIndices ∧ t.getValues = s.getValues := by
  obtain ⟨h1, h2⟩ := Csr.new_rep h hp h0 hm hn
  exact C08_csr_roundtrip_identity h1 h2

/-- C08: CSC to CSR and back. -/
theorem C08_csc_roundtrip [Zero α] {s : Csc α} {col : Nat → List (Nat × α)} (h : s.Rep col) (sorted : Nat → List (Nat × α))
    (hsort : ∀ i, i < s.ncol → (sorted i).Pairwise fun a b => a.1 ≤ b.1)
    (hstable : ∀ i, i < s.ncol → ∀ j, (sorted i).filter (fun e => e.1 = j) = (col i).filter (fun e => e.1 = j)) :
    ∃ c t, Csr.fromCsc s = ok c ∧ Csc.fromCsr c = ok t ∧ t.nrow = s.nrow ∧ t.ncol = s.ncol ∧ t.symmetric = s.symmetric ∧
      t.getColPointers = s.getColPointers ∧
      t.getRowIndices = ok ((flat sorted s.ncol).map fun e => ((e.1 : Nat) : Int)) ∧
      t.getValues = ok ((flat sorted s.ncol).map Prod.snd) := by
  obtain ⟨c, e1, hc, h1, h2, h3⟩ := Csr.fromCsc_spec h
  obtain ⟨t, e2, ht, h4, h5, h6⟩ := Csc.fromCsr_spec hc
  have hsr : ∀ i, i < s.ncol → sorted i = sortRow (col i) := by
    intro i hi
    apply sorted_grp_unique (hsort i hi) (sortRow_sorted _)
    intro j
    rw [grp_sortRow]
    have := hstable i hi j
    rw [← grp_eq_filter, ← grp_eq_filter] at this
    exact List.map_injective_iff.2 (fun a b h => (Prod.mk.inj h).2) this
  have hrow : ∀ i, i < t.ncol → transp (transp col s.ncol) c.nrow i = sorted i := by
    intro i hi
    rw [h6, h3] at hi
    rw [h2, transp_transp h.arr.range hi, hsr i hi]
  obtain ⟨g1, g2⟩ := ht.getters
  refine ⟨c, t, e1, e2, by rw [h5, h2], by rw [h6, h3], by rw [h4, h1], ?_, ?_, ?_⟩
  · apply List.ext_getElem?
    intro k
    rw [Csc.getColPointers, Csc.getColPointers]
    have hlen : t.colPointers.length = s.colPointers.length := by
      rw [ht.arr.lenP, h.arr.lenP, h6, h3]
    by_cases hk : k ≤ s.ncol
    · rw [ht.arr.ptr k (by omega), h.arr.ptr k hk]
      congr 2
      apply off_congr (n := s.ncol) _ k hk
      intro i hi
      rw [hrow i (by omega), hsr i hi]
      exact (sortRow_perm _).length_eq
    · rw [List.getElem?_eq_none, List.getElem?_eq_none]
      · rw [h.arr.lenP]; omega
      · rw [ht.arr.lenP]; omega
  · rw [g1, flat_congr hrow, h6, h3]
  · rw [g2, flat_congr hrow, h6, h3]

theorem C08_csc_roundtrip_identity [Zero α] {s : Csc α} {col : Nat → List (Nat × α)} (h : s.Rep col)
    (hs : ∀ i, i < s.ncol → (col i).Pairwise fun a b => a.1 ≤ b.1) :
    ∃ c t, Csr.fromCsc s = ok c ∧ Csc.fromCsr c = ok t ∧ t.nrow = s.nrow ∧ t.ncol = s.ncol ∧ t.symmetric = s.symmetric ∧
      t.getColPointers = s.getColPointers ∧ t.getRowIndices = s.getRowIndices ∧ t.getValues = s.getValues := by
  obtain ⟨c, t, e1, e2, h1, h2, h3, h4, h5, h6⟩ := C08_csc_roundtrip h col hs (fun _ _ _ => rfl)
  obtain ⟨g1, g2⟩ := h.getters
  exact ⟨c, t, e1, e2, h1, h2, h3, h4, by rw [h5, g1], by rw [h6, g2]⟩

theorem C08_new_csc_roundtrip [Zero α] {nrow ncol : Nat} {ptr idx : List Int} {val : List α} {sym : Sym} {s : Csc α}
    (h : Csc.new nrow ncol ptr idx val sym = ok s) (hp : ∀ x ∈ ptr, x < 2147483648) (h0 : ptr[0]? = some 0)
    (hm : nrow < 2147483648) (hn : ncol < 2147483648) :
    ∃ c t, Csr.fromCsc s = ok c ∧ Csc.fromCsr c = ok t ∧ t.nrow = s.nrow ∧ t.ncol = s.ncol ∧ t.symmetric = s.symmetric ∧
      t.getColPointers = s.getColPointers ∧ t.getRowIndices = s.getRowIndices ∧ t.getValues = s.getValues := by
  obtain ⟨h1, h2⟩ := Csc.new_rep h hp h0 hm hn
  exact C08_csc_roundtrip_identity h1 h2

/-- The hypothesis on the first pointer is needed: `new` accepts pointers starting at 1, and the round trip then turns the
unused position 0 into a stored zero. -/
theorem C08_first_pointer_counterexample :
    ∃ s c t, Csr.new 1 2 [1, 2] [0, 1] [(7 : Int), 8] Sym.no = ok s ∧ Csc.fromCsr s = ok c ∧ Csr.fromCsc c = ok t ∧
      s.getRowPointers = [1, 2] ∧ t.getRowPointers = [0, 2] ∧ t.getValues = ok [0, 8] := by
  exact ⟨_, _, _, rfl, rfl, rfl, rfl, rfl, rfl⟩

example : ∃ c t, Csc.fromCsr exampleCsr = ok c ∧ Csr.fromCsc c = ok t ∧ t.colIndices = [0, 2, 2, 1] ∧
    t.values = [1, 2, 5, 3] := ⟨_, _, rfl, rfl, rfl, rfl⟩

/-! ## C09, CSR and CSC -/

/-- C09 (CSR): `mat_vec_mul` computes `alpha * A * u`, `A` being the dense form; wrong lengths give `Err`. -/
theorem C09_csr_matVecMul [CommSemiring α] {s : Csr α} {row : Nat → List (Nat × α)} (h : s.Rep row) (v u : List α)
    (alpha : α) :
    (u.length ≠ s.ncol ∨ v.length ≠ s.nrow → ∃ msg, s.matVecMul v alpha u = err msg) ∧
    (u.length = s.ncol → v.length = s.nrow → ∃ v' a, s.matVecMul v alpha u = ok v' ∧ v'.length = s.nrow ∧ s.asDense = ok a ∧
      ∀ r, r < s.nrow → ∃ f : Nat → α, (∀ k, k < s.ncol → a.get r k = ok (f k)) ∧
        v'[r]? = some (alpha * ∑ k ∈ Finset.range s.ncol, f k * u.getD k 0)) := by
  constructor
  · intro hb
    unfold Csr.matVecMul
    by_cases hu : u.length ≠ s.ncol
    · rw [if_pos hu]; exact ⟨_, rfl⟩
    · rw [if_neg hu, if_pos (by omega)]; exact ⟨_, rfl⟩
  · intro hu hv
    obtain ⟨a, ea, ha⟩ := Csr.asDense_spec h
    have hM := h.arr.range
    obtain ⟨v', h1, h2, h3⟩ := h.arr.mulAccum (sym := s.symmetric) (alpha := alpha) (u := u) (v0 := v.map fun _ => 0)
      (fun i e => (i, e.1, e.2)) (by intro i hi e he; simpa [hv] using hi)
      (by intro i hi e he; rw [hu]; exact hM i hi e he)
      (by
        intro ht i hi e he
        have := hM i hi e he
        have := h.square ht
        simp only [List.length_map]
        omega)
      (body := fun i j x v => Coo.mulMirror s.symmetric.triangular alpha u v i (asUsize j) x)
      (by
        intro i e a hi he
        simp only
        rw [asUsize_natCast (lt_trans (hM i hi e he) h.arr.fitsM)])
    simp only [List.length_map] at h2 h3
    refine ⟨v', a, by rw [Csr.matVecMul, if_neg (by omega), if_neg (by omega)]; exact h1, by omega, ea, ?_⟩
    intro r hr
    refine ⟨denseOf s.symmetric (rowEntries row s.nrow) r, fun k hk => ha.get r k hr hk, ?_⟩
    have := h3 r (by omega)
    rw [getD_zero_map, zero_add] at this
    rw [sum_dense_mul s.symmetric u s.ncol r (rowEntries row s.nrow)]
    · rw [show rowEntries row s.nrow = flat (fun i => (row i).map fun e => (i, e.1, e.2)) s.nrow from rfl, ← this]
      simp [show r < v'.length by omega]
    · intro ht e he
      obtain ⟨k1, k2⟩ := mem_rowEntries.1 he
      have := h.square ht
      omega
    · intro e he
      obtain ⟨k1, k2⟩ := mem_rowEntries.1 he
      exact hM _ k1 _ k2

/-- C09 (CSC): as above. -/
theorem C09_csc_matVecMul [CommSemiring α] {s : Csc α} {col : Nat → List (Nat × α)} (h : s.Rep col) (v u : List α)
    (alpha : α) :
    (u.length ≠ s.ncol ∨ v.length ≠ s.nrow → ∃ msg, s.matVecMul v alpha u = err msg) ∧
    (u.length = s.ncol → v.length = s.nrow → ∃ v' a, s.matVecMul v alpha u = ok v' ∧ v'.length = s.nrow ∧ s.asDense = ok a ∧
      ∀ r, r < s.nrow → ∃ f : Nat → α, (∀ k, k < s.ncol → a.get r k = ok (f k)) ∧
        v'[r]? = some (alpha * ∑ k ∈ Finset.range s.ncol, f k * u.getD k 0)) := by
  constructor
  · intro hb
    unfold Csc.matVecMul
    by_cases hu : u.length ≠ s.ncol
    · rw [if_pos hu]; exact ⟨_, rfl⟩
    · rw [if_neg hu, if_pos (by omega)]; exact ⟨_, rfl⟩
  · intro hu hv
    obtain ⟨a, ea, ha⟩ := Csc.asDense_spec h
    have hM := h.arr.range
    obtain ⟨v', h1, h2, h3⟩ := h.arr.mulAccum (sym := s.symmetric) (alpha := alpha) (u := u) (v0 := v.map fun _ => 0)
      (fun j e => (e.1, j, e.2)) (by intro i hi e he; simpa [hv] using hM i hi e he)
      (by intro i hi e he; rw [hu]; exact hi)
      (by
        intro ht i hi e he
        have := hM i hi e he
        have := h.square ht
        simp only [List.length_map]
        omega)
      (body := fun j i x v => Coo.mulMirror s.symmetric.triangular alpha u v (asUsize i) j x)
      (by
        intro i e a hi he
        simp only
        rw [asUsize_natCast (lt_trans (hM i hi e he) h.arr.fitsM)])
    simp only [List.length_map] at h2 h3
    refine ⟨v', a, by rw [Csc.matVecMul, if_neg (by omega), if_neg (by omega)]; exact h1, by omega, ea, ?_⟩
    intro r hr
    refine ⟨denseOf s.symmetric (colEntries col s.ncol) r, fun k hk => ha.get r k hr hk, ?_⟩
    have := h3 r (by omega)
    rw [getD_zero_map, zero_add] at this
    rw [sum_dense_mul s.symmetric u s.ncol r (colEntries col s.ncol)]
    · rw [show colEntries col s.ncol = flat (fun j => (col j).map fun e => (e.1, j, e.2)) s.ncol from rfl, ← this]
      simp [show r < v'.length by omega]
    · intro ht e he
      obtain ⟨k1, k2⟩ := mem_colEntries.1 he
      have := h.square ht
      have := hM _ k1 _ k2
      omega
    · intro e he
      obtain ⟨k1, k2⟩ := mem_colEntries.1 he
      exact k1

example : exampleCsr.matVecMul [9, 9, 9] 2 [1, 10, 100] = ok [1402, 0, 60] := rfl

end Russell.Sparse
