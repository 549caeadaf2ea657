import Verif.Sparse.CscConv

/-!
# Closed form of the counting transposition used by `from_csr` and `from_csc`
-/

namespace Russell.Sparse

open Russell Russell.Res Russell.Lab

variable {α : Type} {row : Nat → List (Nat × α)} {n m : Nat}

theorem trCount_spec {ap aj : List Int} {ax : List α} (h : Compressed n m ap aj ax row) {bp : List Int}
    (hbp : ∀ j, j < m → bp[j]? = some 0) :
    ∃ bp', trCount (off row n) aj bp = ok bp' ∧ bp'.length = bp.length ∧
      ∀ j, j < m → bp'[j]? = some (((transp row n j).length : Nat) : Int) := by
  have hV : ∀ j, j < m → asUsize ((j : Nat) : Int) = j := fun j hj => asUsize_natCast (lt_trans hj h.fitsM)
  have := forRange_spec (f := fun k (bp : List Int) => do
      let j ← vget aj k
      let x ← vget bp (asUsize j)
      let y ← addI32 x 1
      vset bp (asUsize j) y)
    (fun k w' => CntInv (encTag row n) m k w' ∧ w'.length = bp.length) (Nat.zero_le (off row n)) (s := bp)
    ⟨fun i hi => by simpa using hbp i hi, rfl⟩ (by
      rintro k w1 _ hk ⟨h1, h2⟩
      obtain ⟨i, t, hi, ht, rfl⟩ := off_find row hk
      have hk' : off row i + t < (encTag row n).length := by rw [encTag_length]; exact hk
      obtain ⟨x, e1, y, e2, w3, e3, h3, h4, -⟩ := h1.step hk' (encTag_lt h.range) (by rw [encTag_length]; exact h.fitsP)
      rw [encTag_get hi ht] at e1 e3
      refine ⟨w3, ?_, h3, by omega⟩
      simp only [vget_of (h.idx_get hi ht), ok_bind, hV _ (h.range i hi _ (List.getElem_mem ht)), e1, e2, e3])
  obtain ⟨w', h1, h2, h3⟩ := this
  refine ⟨w', h1, h3, ?_⟩
  intro j hj
  have := h2 j hj
  rw [← encTag_length, List.take_length, grp_encTag, List.length_map] at this
  exact this

theorem trCumsum_spec {β : Type} {col : Nat → List β} {bp : List Int} (hlen : off col m < 2147483648)
    (hbp : ∀ j, j < m → bp[j]? = some (((col j).length : Nat) : Int)) :
    ∃ bp', trCumsum m bp = ok (bp', ((off col m : Nat) : Int)) ∧ bp'.length = bp.length ∧
      ∀ j, j < m → bp'[j]? = some ((off col j : Nat) : Int) := by
  have := forRange_spec (f := fun j (s : List Int × Int) => do
      let (bp, sum) := s
      let temp ← vget bp j
      let bp ← vset bp j sum
      let sum ← addI32 sum temp
      ok (bp, sum))
    (fun k s => s.1.length = bp.length ∧ s.2 = ((off col k : Nat) : Int) ∧
      (∀ j, j < k → s.1[j]? = some ((off col j : Nat) : Int)) ∧
      (∀ j, k ≤ j → s.1[j]? = bp[j]?)) (Nat.zero_le m) (s := (bp, (0 : Int)))
    ⟨rfl, rfl, fun j hj => by omega, fun j _ => rfl⟩ (by
      rintro k ⟨bp1, sum⟩ _ hk ⟨h1, h2, h3, h4⟩
      simp only at h1 h2 h3 h4
      subst h2
      have hlt : k < bp.length := (List.getElem?_eq_some_iff.1 (hbp k hk)).1
      have hb := h4 k (Nat.le_refl _)
      rw [hbp k hk] at hb
      have hle := off_le col (show k + 1 ≤ m from hk)
      have hs := off_succ col k
      refine ⟨(bp1.set k ((off col k : Nat) : Int), ((off col (k + 1) : Nat) : Int)), ?_, by simp [h1], rfl, ?_, ?_⟩
      · simp only [vget_of hb, ok_bind]
        rw [vset_lt _ (by omega), ok_bind, addI32_nat (by omega), ok_bind, hs]
      · intro j hj
        simp only
        rw [List.getElem?_set]
        by_cases hkj : k = j
        · subst hkj; simp [h1, hlt]
        · rw [if_neg hkj]; exact h3 j (by omega)
      · intro j hj
        simp only
        rw [List.getElem?_set, if_neg (by omega)]
        exact h4 j (by omega))
  obtain ⟨⟨bp', sum⟩, h1, h2, h3, h4, -⟩ := this
  simp only at h2 h3 h4
  subst h3
  exact ⟨bp', h1, h2, h4⟩

theorem trWrite_spec {ap aj : List Int} {ax : List α} (h : Compressed n m ap aj ax row) {bp bi : List Int} {bx : List α}
    (hbp : ∀ j, j < m → bp[j]? = some ((off (transp row n) j : Nat) : Int))
    (hbi : off row n ≤ bi.length) (hbx : off row n ≤ bx.length) :
    ∃ bp' bi' bx', trWrite n ap aj ax bp bi bx = ok (bp', bi', bx') ∧ bi'.length = bi.length ∧
      bx'.length = bx.length ∧ bp'.length = bp.length ∧
      (∀ j, j < m → bp'[j]? = some ((off (transp row n) (j + 1) : Nat) : Int)) ∧
      (∀ j, m ≤ j → bp'[j]? = bp[j]?) ∧
      ∀ j, j < m → SegAt bi' (off (transp row n) j) ((transp row n j).map fun e => ((e.1 : Nat) : Int)) ∧
        SegAt bx' (off (transp row n) j) ((transp row n j).map Prod.snd) := by
  have hV : ∀ j, j < m → asUsize ((j : Nat) : Int) = j := fun j hj => asUsize_natCast (lt_trans hj h.fitsM)
  have hA : ∀ i, i < n → toI32 i = ok (i : Int) := fun i hi => toI32_lt (lt_trans hi h.fitsN)
  have := nested_spec (row := row) (n := n) (f := fun i (s : List Int × List Int × List α) => do
      let (bp, bi, bx) := s
      let lo ← vget ap i
      let hi ← vget ap (i + 1)
      forRange 0 (hi - lo).toNat (bp, bi, bx) fun t (s : List Int × List Int × List α) => do
        let (bp, bi, bx) := s
        let p := asUsize (lo + t)
        let j ← vget aj p
        let dest ← vget bp (asUsize j)
        let ii ← toI32 i
        let bi ← vset bi (asUsize dest) ii
        let x ← vget ax p
        let bx ← vset bx (asUsize dest) x
        let d ← vget bp (asUsize j)
        let d' ← addI32 d 1
        let bp ← vset bp (asUsize j) d'
        ok (bp, bi, bx))
    (fun k s => s.2.1.length = bi.length ∧ s.2.2.length = bx.length ∧ s.1.length = bp.length ∧
      (∀ j, m ≤ j → s.1[j]? = bp[j]?) ∧
      ScatInv (encTag row n) m k s.1 (view2 s.2.1 s.2.2)) (s := (bp, bi, bx))
    ⟨rfl, rfl, rfl, fun _ _ => rfl, by
      refine ⟨fun i hi => ?_, fun i hi t ht => absurd ht (by simp)⟩
      simp only [List.take_zero, grp_nil, List.length_nil, Nat.add_zero, off_encTag]
      exact hbp i hi⟩ (by
      rintro i ⟨bp1, bi1, bx1⟩ hi hI
      simp only [h.readP (show i ≤ n by omega), h.readP (show i + 1 ≤ n from hi), ok_bind, h.span i]
      have := forRange_spec (f := fun t (s : List Int × List Int × List α) => do
          let (bp, bi, bx) := s
          let p := asUsize (((off row i : Nat) : Int) + t)
          let j ← vget aj p
          let dest ← vget bp (asUsize j)
          let ii ← toI32 i
          let bi ← vset bi (asUsize dest) ii
          let x ← vget ax p
          let bx ← vset bx (asUsize dest) x
          let d ← vget bp (asUsize j)
          let d' ← addI32 d 1
          let bp ← vset bp (asUsize j) d'
          ok (bp, bi, bx))
        (fun t s => s.2.1.length = bi.length ∧ s.2.2.length = bx.length ∧ s.1.length = bp.length ∧
          (∀ j, m ≤ j → s.1[j]? = bp[j]?) ∧
          ScatInv (encTag row n) m (off row i + t) s.1 (view2 s.2.1 s.2.2))
        (lo := 0) (hi := (row i).length) (s := (bp1, bi1, bx1)) (by omega) (by simpa using hI) (by
          rintro t ⟨bp2, bi2, bx2⟩ _ ht ⟨h1, h2, h3, h5, h4⟩
          simp only at h1 h2 h3 h4 h5
          have hk : off row i + t < (encTag row n).length := by
            rw [encTag_length]; exact off_add_lt row hi ht
          obtain ⟨q, e1, e2, e3, e4, e5, e6⟩ := h4.step hk (encTag_lt h.range) (by rw [encTag_length]; exact h.fitsP)
          rw [encTag_get hi ht] at e1 e5 e6
          rw [encTag_length] at e2
          have hq1 : q < bi2.length := by omega
          have hq2 : q < bx2.length := by omega
          have hr := h.range i hi _ (List.getElem_mem ht)
          refine ⟨(bp2.set (row i)[t].1 ((q + 1 : Nat) : Int), bi2.set q (i : Int), bx2.set q (row i)[t].2), ?_, by simp [h1],
            by simp [h2], by simp [h3], ?_, ?_⟩
          · simp only [h.usizeP hi ht, vget_of (h.idx_get hi ht), vget_of (h.val_get hi ht), ok_bind, hV _ hr, e1, e3, hA i hi,
              vset_lt _ hq1, vset_lt _ hq2, e4, e5]
          · intro j hj
            simp only
            rw [List.getElem?_set, if_neg (by omega)]
            exact h5 j hj
          · apply e6
            · exact view2_set hq1 hq2
            · intro r hr; exact view2_set_ne hr)
      obtain ⟨s', h1, h2, h3, h4, h5, h6⟩ := this
      exact ⟨s', h1, h2, h3, h4, h5, h6⟩)
  obtain ⟨⟨bp', bi', bx'⟩, h1, h2, h3, h4, h6, h5⟩ := this
  refine ⟨bp', bi', bx', h1, h2, h3, h4, ?_, h6, fun j hj => scat_done h5 hj⟩
  intro j hj
  have := h5.1 j hj
  rw [← encTag_length, List.take_length, grp_encTag, List.length_map, off_encTag] at this
  rw [off_succ]
  exact this

theorem trShift_spec {β : Type} {col : Nat → List β} {bp : List Int} (hl : bp.length = m + 1)
    (hbp : ∀ j, j < m → bp[j]? = some ((off col (j + 1) : Nat) : Int)) :
    ∃ bp' last, trShift m bp = ok (bp', last) ∧ bp'.length = m + 1 ∧
      ∀ j, j ≤ m → bp'[j]? = some ((off col j : Nat) : Int) := by
  have := forRange_spec (f := fun j (s : List Int × Int) => do
      let (bp, last) := s
      let temp ← vget bp j
      let bp ← vset bp j last
      ok (bp, temp))
    (fun k s => s.1.length = m + 1 ∧ (k ≤ m → s.2 = ((off col k : Nat) : Int)) ∧
      (∀ j, j < k → s.1[j]? = some ((off col j : Nat) : Int)) ∧
      (∀ j, k ≤ j → s.1[j]? = bp[j]?)) (Nat.zero_le (m + 1)) (s := (bp, (0 : Int)))
    ⟨hl, fun _ => rfl, fun j hj => by omega, fun j _ => rfl⟩ (by
      rintro k ⟨bp1, last⟩ _ hk ⟨h1, h2, h3, h4⟩
      simp only at h1 h2 h3 h4
      have h2' := h2 (by omega)
      subst h2'
      have hlt : k < bp1.length := by omega
      refine ⟨(bp1.set k ((off col k : Nat) : Int), bp1[k]), ?_, by simp [h1], ?_, ?_, ?_⟩
      · simp only [vget_lt hlt, vset_lt _ hlt, ok_bind]
      · intro hk2
        have hb := h4 k (Nat.le_refl _)
        rw [hbp k (by omega), List.getElem?_eq_getElem hlt] at hb
        exact Option.some.inj hb
      · intro j hj
        simp only
        rw [List.getElem?_set]
        by_cases hkj : k = j
        · subst hkj; simp [hlt]
        · rw [if_neg hkj]; exact h3 j (by omega)
      · intro j hj
        simp only
        rw [List.getElem?_set, if_neg (by omega)]
        exact h4 j (by omega))
  obtain ⟨⟨bp', last⟩, h1, h2, -, h4, -⟩ := this
  exact ⟨bp', last, h1, h2, fun j hj => h4 j (by omega)⟩

/-- The transposition stores exactly the transposed rows, in row order within each column. -/
theorem transposeArrays_spec [Zero α] {ap aj : List Int} {ax : List α} (h : Compressed n m ap aj ax row) :
    ∃ bp bi bx, transposeArrays n m ap aj ax = ok (bp, bi, bx) ∧ Compressed m n bp bi bx (transp row n) ∧
      bi.length = off row n ∧ bx.length = off row n := by
  obtain ⟨g1, g2, -, -⟩ := h.getters
  have hot : off (transp row n) m = off row n := off_transp h.range
  obtain ⟨bp1, e1, l1, h1⟩ := trCount_spec h (bp := List.replicate (m + 1) 0) (by
    intro j hj; rw [List.getElem?_replicate, if_pos (by omega)])
  rw [List.length_replicate] at l1
  obtain ⟨bp2, e2, l2, h2⟩ := trCumsum_spec (col := transp row n) (by have := h.fitsP; omega) h1
  have e3 : toI32 (off row n) = ok ((off row n : Nat) : Int) := toI32_lt h.fitsP
  have e4 : vset bp2 m ((off row n : Nat) : Int) = ok (bp2.set m ((off row n : Nat) : Int)) := vset_lt _ (by omega)
  obtain ⟨bp5, bi, bx, e5, l5, l6, l7, h5, -, h7⟩ := trWrite_spec h (bp := bp2.set m ((off row n : Nat) : Int))
    (bi := List.replicate (off row n) 0) (bx := List.replicate (off row n) 0)
    (by
      intro j hj
      rw [List.getElem?_set, if_neg (by omega)]
      exact h2 j hj) (by simp) (by simp)
  rw [List.length_set, l2, l1] at l7
  obtain ⟨bp6, last, e6, l8, h8⟩ := trShift_spec l7 h5
  refine ⟨bp6, bi, bx, ?_, ⟨l8, h8, ?_, ?_, ?_, ?_, h.fitsM, h.fitsN⟩, by simpa using l5, by simpa using l6⟩
  · simp only [transposeArrays, g1, g2, ok_bind, e1, e2, e3, e4, e5, e6]
  · have := segAt_flat (l := bi) (n := m) (row := fun j => (transp row n j).map fun e => ((e.1 : Nat) : Int)) (by
        intro j hj
        rw [off_map (fun _ (e : Nat × α) => ((e.1 : Nat) : Int)) (transp row n) j]
        exact (h7 j hj).1)
    rw [flat_map (fun _ (e : Nat × α) => ((e.1 : Nat) : Int)) (transp row n) (fun e => ((e.1 : Nat) : Int))
      (fun _ _ => rfl)] at this
    exact this
  · have := segAt_flat (l := bx) (n := m) (row := fun j => (transp row n j).map Prod.snd) (by
        intro j hj
        rw [off_map (fun _ => Prod.snd) (transp row n) j]
        exact (h7 j hj).2)
    rw [flat_map (fun _ => Prod.snd) (transp row n) Prod.snd (fun _ _ => rfl)] at this
    exact this
  · intro j hj e he
    exact (transp_mem.1 he).1
  · rw [hot]; exact h.fitsP

theorem Csc.fromCsr_spec [Zero α] {s : Csr α} (h : s.Rep row) :
    ∃ c, Csc.fromCsr s = ok c ∧ c.Rep (transp row s.nrow) ∧ c.symmetric = s.symmetric ∧ c.nrow = s.nrow ∧
      c.ncol = s.ncol := by
  obtain ⟨bp, bi, bx, h1, h2, -, -⟩ := transposeArrays_spec h.arr
  refine ⟨{ symmetric := s.symmetric, nrow := s.nrow, ncol := s.ncol,
            colPointers := bp, rowIndices := bi, values := bx,
            tempRp := [], tempRj := [], tempRx := [], tempRc := [], tempW := [] }, ?_, ⟨h2, h.square⟩, rfl, rfl, rfl⟩
  simp only [Csc.fromCsr, h1, ok_bind]

theorem Csr.fromCsc_spec [Zero α] {s : Csc α} (h : s.Rep row) :
    ∃ c, Csr.fromCsc s = ok c ∧ c.Rep (transp row s.ncol) ∧ c.symmetric = s.symmetric ∧ c.nrow = s.nrow ∧
      c.ncol = s.ncol := by
  obtain ⟨bp, bi, bx, h1, h2, -, -⟩ := transposeArrays_spec h.arr
  refine ⟨{ symmetric := s.symmetric, nrow := s.nrow, ncol := s.ncol,
            rowPointers := bp, colIndices := bi, values := bx,
            tempRp := [], tempRjx := [], tempRc := [], tempW := [] }, ?_, ⟨h2, h.square⟩, rfl, rfl, rfl⟩
  simp only [Csr.fromCsc, h1, ok_bind]

end Russell.Sparse
