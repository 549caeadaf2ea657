import Verif.Sparse.CsrConv

/-!
# What a CSR / CSC matrix represents

`Csr.Rep s row`: the visible arrays of `s` store `row 0, row 1, ..` (lists of column/value pairs).
-/

namespace Russell.Sparse

open Russell Russell.Res Russell.Lab

variable {α : Type}

/-- compressed arrays `ptr/idx/val` hold `row 0 .. row (n-1)`, with indices below `m` -/
structure Compressed (n m : Nat) (ptr idx : List Int) (val : List α) (row : Nat → List (Nat × α)) : Prop where
  lenP : ptr.length = n + 1
  ptr : ∀ i, i ≤ n → ptr[i]? = some ((off row i : Nat) : Int)
  idx : SegAt idx 0 ((flat row n).map fun e => ((e.1 : Nat) : Int))
  val : SegAt val 0 ((flat row n).map Prod.snd)
  range : ∀ i, i < n → ∀ e ∈ row i, e.1 < m
  fitsP : off row n < 2147483648
  fitsN : n < 2147483648
  fitsM : m < 2147483648

/-- The CSR matrix stores the given rows. -/
structure Csr.Rep (s : Csr α) (row : Nat → List (Nat × α)) : Prop where
  arr : Compressed s.nrow s.ncol s.rowPointers s.colIndices s.values row
  square : s.symmetric.triangular = true → s.nrow = s.ncol

/-- The CSC matrix stores the given columns. -/
structure Csc.Rep (s : Csc α) (col : Nat → List (Nat × α)) : Prop where
  arr : Compressed s.ncol s.nrow s.colPointers s.rowIndices s.values col
  square : s.symmetric.triangular = true → s.nrow = s.ncol

/-- all entries, row by row -/
def rowEntries (row : Nat → List (Nat × α)) (n : Nat) : List (Entry α) :=
  flat (fun i => (row i).map fun e => (i, e.1, e.2)) n

/-- all entries, column by column -/
def colEntries (col : Nat → List (Nat × α)) (n : Nat) : List (Entry α) :=
  flat (fun j => (col j).map fun e => (e.1, j, e.2)) n

section Compressed

variable {n m : Nat} {ptr idx : List Int} {val : List α} {row : Nat → List (Nat × α)}

theorem Compressed.readP (h : Compressed n m ptr idx val row) {i : Nat} (hi : i ≤ n) :
    vget ptr i = ok ((off row i : Nat) : Int) := vget_of (h.ptr i hi)

theorem Compressed.span (_ : Compressed n m ptr idx val row) (i : Nat) :
    (((off row (i + 1) : Nat) : Int) - ((off row i : Nat) : Int)).toNat = (row i).length := by
  rw [off_succ]; omega

theorem Compressed.usizeP (h : Compressed n m ptr idx val row) {i t : Nat} (hi : i < n) (ht : t < (row i).length) :
    asUsize (((off row i : Nat) : Int) + (t : Int)) = off row i + t := by
  have := off_add_lt row hi ht
  have h2 := h.fitsP
  rw [show ((off row i : Nat) : Int) + (t : Int) = ((off row i + t : Nat) : Int) by omega]
  exact asUsize_natCast (by omega)

theorem Compressed.idx_get (h : Compressed n m ptr idx val row) {i t : Nat} (hi : i < n) (ht : t < (row i).length) :
    idx[off row i + t]? = some (((row i)[t].1 : Nat) : Int) := by
  have hlt := off_add_lt row hi ht
  have := h.idx (off row i + t) (by rw [List.length_map]; exact hlt)
  rw [Nat.zero_add] at this
  have h2 := flat_get row hi ht
  have h3 : off row i + t < (flat row n).length := hlt
  rw [List.getElem?_eq_getElem h3] at h2
  rw [this, List.getElem_map, ← Option.some.inj h2]

theorem Compressed.val_get (h : Compressed n m ptr idx val row) {i t : Nat} (hi : i < n) (ht : t < (row i).length) :
    val[off row i + t]? = some (row i)[t].2 := by
  have hlt := off_add_lt row hi ht
  have := h.val (off row i + t) (by rw [List.length_map]; exact hlt)
  rw [Nat.zero_add] at this
  have h2 := flat_get row hi ht
  have h3 : off row i + t < (flat row n).length := hlt
  rw [List.getElem?_eq_getElem h3] at h2
  rw [this, List.getElem_map, ← Option.some.inj h2]

theorem Compressed.usizeJ (h : Compressed n m ptr idx val row) {i t : Nat} (hi : i < n) (ht : t < (row i).length) :
    asUsize (((row i)[t].1 : Nat) : Int) = (row i)[t].1 :=
  asUsize_natCast (lt_trans (h.range i hi _ (List.getElem_mem ht)) h.fitsM)

/-- the compressed arrays determine the rows -/
theorem Compressed.unique (h : Compressed n m ptr idx val row) {row' : Nat → List (Nat × α)}
    (h' : Compressed n m ptr idx val row') {i : Nat} (hi : i < n) : row i = row' i := by
  have ho : ∀ i, i ≤ n → off row i = off row' i := by
    intro i hi
    have := h.ptr i hi
    rw [h'.ptr i hi] at this
    simpa using this.symm
  have hl : (row i).length = (row' i).length := by
    have h1 := ho i (by omega)
    have h2 := ho (i + 1) hi
    rw [off_succ, off_succ] at h2
    omega
  apply List.ext_getElem hl
  intro t h1 h2
  have a := h.idx_get hi h1
  have b := h'.idx_get hi h2
  rw [← ho i (by omega), a] at b
  have c := h.val_get hi h1
  have d := h'.val_get hi h2
  rw [← ho i (by omega), c] at d
  simp only [Option.some.injEq] at b d
  ext
  · omega
  · exact d

/-- Generic accumulation over the compressed arrays, as in `to_dense`. -/
theorem Compressed.accum [Zero α] [Add α] (h : Compressed n m ptr idx val row) {M N : Nat} {sym : Sym}
    (hsq : sym.triangular = true → M = N) (pos : Nat → Nat × α → Entry α)
    (hI : ∀ i, i < n → ∀ e ∈ row i, (pos i e).1 < M) (hJ : ∀ i, i < n → ∀ e ∈ row i, (pos i e).2.1 < N)
    {body : Nat → Int → α → NumMatrix α → Res (NumMatrix α)}
    (hb : ∀ i e a, i < n → e ∈ row i → body i (e.1 : Int) e.2 a =
      Coo.addMirror sym.triangular a (pos i e).1 (pos i e).2.1 (pos i e).2.2)
    {a : NumMatrix α} (ha : IsDense a M N (fun _ _ => 0)) :
    ∃ a', (forRange 0 n a fun i a => do
        let lo ← vget ptr i
        let hi ← vget ptr (i + 1)
        forRange 0 (hi - lo).toNat a fun t a => do
          let p := asUsize (lo + t)
          let j ← vget idx p
          let x ← vget val p
          body i j x a) = ok a' ∧
      IsDense a' M N (denseOf sym (flat (fun i => (row i).map (pos i)) n)) := by
  apply forRange_spec (fun k a => IsDense a M N (denseOf sym (flat (fun i => (row i).map (pos i)) k))) (Nat.zero_le n)
  · exact ha
  · intro k a _ hk hd
    simp only [h.readP (show k ≤ n by omega), h.readP (show k + 1 ≤ n from hk), ok_bind, h.span k]
    have := accum_spec hsq (es := (row k).map (pos k))
      (by intro e he; obtain ⟨e', he', rfl⟩ := List.mem_map.1 he; exact hI k hk e' he')
      (by intro e he; obtain ⟨e', he', rfl⟩ := List.mem_map.1 he; exact hJ k hk e' he')
      (body := fun t a => do
          let p := asUsize (((off row k : Nat) : Int) + t)
          let j ← vget idx p
          let x ← vget val p
          body k j x a)
      (by
        intro t ht a
        rw [List.length_map] at ht
        simp only [h.usizeP hk ht, vget_of (h.idx_get hk ht), vget_of (h.val_get hk ht), ok_bind, List.getElem_map]
        rw [hb k _ a hk (List.getElem_mem ht)]) hd
    rw [List.length_map] at this
    obtain ⟨a', h1, h2⟩ := this
    exact ⟨a', h1, by rw [flat_succ]; exact h2⟩

/-- Generic matrix-vector accumulation over the compressed arrays. -/
theorem Compressed.mulAccum [CommSemiring α] (h : Compressed n m ptr idx val row) {sym : Sym} {alpha : α} {u v0 : List α}
    (pos : Nat → Nat × α → Entry α)
    (hI : ∀ i, i < n → ∀ e ∈ row i, (pos i e).1 < v0.length) (hJ : ∀ i, i < n → ∀ e ∈ row i, (pos i e).2.1 < u.length)
    (hsq : sym.triangular = true → ∀ i, i < n → ∀ e ∈ row i, (pos i e).1 < u.length ∧ (pos i e).2.1 < v0.length)
    {body : Nat → Int → α → List α → Res (List α)}
    (hb : ∀ i e a, i < n → e ∈ row i → body i (e.1 : Int) e.2 a =
      Coo.mulMirror sym.triangular alpha u a (pos i e).1 (pos i e).2.1 (pos i e).2.2) :
    ∃ v', (forRange 0 n v0 fun i a => do
        let lo ← vget ptr i
        let hi ← vget ptr (i + 1)
        forRange 0 (hi - lo).toNat a fun t a => do
          let p := asUsize (lo + t)
          let j ← vget idx p
          let x ← vget val p
          body i j x a) = ok v' ∧ v'.length = v0.length ∧
      ∀ r, r < v0.length → v'.getD r 0 = v0.getD r 0 +
        alpha * ((flat (fun i => (row i).map (pos i)) n).map (contrib sym u r)).sum := by
  apply forRange_spec (fun k (v : List α) => v.length = v0.length ∧ ∀ r, r < v0.length → v.getD r 0 = v0.getD r 0 +
        alpha * ((flat (fun i => (row i).map (pos i)) k).map (contrib sym u r)).sum) (Nat.zero_le n)
  · exact ⟨rfl, fun r _ => by simp⟩
  · rintro k a _ hk ⟨hd1, hd2⟩
    simp only [h.readP (show k ≤ n by omega), h.readP (show k + 1 ≤ n from hk), ok_bind, h.span k]
    have := mulAccum_spec (sym := sym) (alpha := alpha) (u := u) (v0 := v0) (v := a) (es := (row k).map (pos k))
      (es0 := flat (fun i => (row i).map (pos i)) k)
      (by intro e he; obtain ⟨e', he', rfl⟩ := List.mem_map.1 he; exact hI k hk e' he')
      (by intro e he; obtain ⟨e', he', rfl⟩ := List.mem_map.1 he; exact hJ k hk e' he')
      (by intro ht e he; obtain ⟨e', he', rfl⟩ := List.mem_map.1 he; exact hsq ht k hk e' he')
      (body := fun t a => do
          let p := asUsize (((off row k : Nat) : Int) + t)
          let j ← vget idx p
          let x ← vget val p
          body k j x a)
      (by
        intro t ht a
        rw [List.length_map] at ht
        simp only [h.usizeP hk ht, vget_of (h.idx_get hk ht), vget_of (h.val_get hk ht), ok_bind, List.getElem_map]
        rw [hb k _ a hk (List.getElem_mem ht)]) hd1 hd2
    rw [List.length_map] at this
    obtain ⟨a', h1, h2, h3⟩ := this
    exact ⟨a', h1, h2, by rw [flat_succ]; exact h3⟩

/-- the getters -/
theorem Compressed.getters (h : Compressed n m ptr idx val row) :
    vget ptr n = ok ((off row n : Nat) : Int) ∧ asUsize ((off row n : Nat) : Int) = off row n ∧
    vslice idx 0 (off row n) = ok ((flat row n).map fun e => ((e.1 : Nat) : Int)) ∧
    vslice val 0 (off row n) = ok ((flat row n).map Prod.snd) := by
  refine ⟨h.readP (Nat.le_refl _), asUsize_natCast h.fitsP, ?_, ?_⟩
  · have := segAt_vslice h.idx (Nat.zero_le _)
    rw [List.length_map, Nat.zero_add] at this
    exact this
  · have := segAt_vslice h.val (Nat.zero_le _)
    rw [List.length_map, Nat.zero_add] at this
    exact this

end Compressed

theorem Csr.toDense_spec [Zero α] [Add α] {s : Csr α} {row : Nat → List (Nat × α)} (h : s.Rep row) (b : NumMatrix α)
    (hm : b.nrow = s.nrow) (hn : b.ncol = s.ncol) (hl : b.data.length = s.nrow * s.ncol) :
    ∃ a, s.toDense b = ok a ∧ IsDense a s.nrow s.ncol (denseOf s.symmetric (rowEntries row s.nrow)) := by
  have := h.arr.accum (sym := s.symmetric) h.square (fun i e => (i, e.1, e.2)) (fun i hi _ _ => hi) (h.arr.range)
    (body := fun i j x a => Coo.addMirror s.symmetric.triangular a i (asUsize j) x)
    (by
      intro i e a hi he
      simp only
      rw [asUsize_natCast (lt_trans (h.arr.range i hi e he) h.arr.fitsM)])
    (isDense_fill b s.nrow s.ncol hm hn hl 0)
  obtain ⟨a, h1, h2⟩ := this
  refine ⟨a, ?_, h2⟩
  rw [Csr.toDense, if_neg (by omega)]
  exact h1

theorem Csr.asDense_spec [Zero α] [Add α] {s : Csr α} {row : Nat → List (Nat × α)} (h : s.Rep row) :
    ∃ a, s.asDense = ok a ∧ IsDense a s.nrow s.ncol (denseOf s.symmetric (rowEntries row s.nrow)) := by
  obtain ⟨a, h1, h2⟩ := Csr.toDense_spec h (NumMatrix.new s.nrow s.ncol) rfl rfl (by simp [NumMatrix.new])
  exact ⟨a, by simp [Csr.asDense, h1], h2⟩

theorem Csc.toDense_spec [Zero α] [Add α] {s : Csc α} {col : Nat → List (Nat × α)} (h : s.Rep col) (b : NumMatrix α)
    (hm : b.nrow = s.nrow) (hn : b.ncol = s.ncol) (hl : b.data.length = s.nrow * s.ncol) :
    ∃ a, s.toDense b = ok a ∧ IsDense a s.nrow s.ncol (denseOf s.symmetric (colEntries col s.ncol)) := by
  have := h.arr.accum (sym := s.symmetric) h.square (fun j e => (e.1, j, e.2)) (h.arr.range) (fun i hi _ _ => hi)
    (body := fun j i x a => Coo.addMirror s.symmetric.triangular a (asUsize i) j x)
    (by
      intro i e a hi he
      simp only
      rw [asUsize_natCast (lt_trans (h.arr.range i hi e he) h.arr.fitsM)])
    (isDense_fill b s.nrow s.ncol hm hn hl 0)
  obtain ⟨a, h1, h2⟩ := this
  refine ⟨a, ?_, h2⟩
  rw [Csc.toDense, if_neg (by omega)]
  exact h1

theorem Csc.asDense_spec [Zero α] [Add α] {s : Csc α} {col : Nat → List (Nat × α)} (h : s.Rep col) :
    ∃ a, s.asDense = ok a ∧ IsDense a s.nrow s.ncol (denseOf s.symmetric (colEntries col s.ncol)) := by
  obtain ⟨a, h1, h2⟩ := Csc.toDense_spec h (NumMatrix.new s.nrow s.ncol) rfl rfl (by simp [NumMatrix.new])
  exact ⟨a, by simp [Csc.asDense, h1], h2⟩

/-! ## The update -/

/-- The sizes of the arrays and workspaces are those left by a conversion (or the workspaces are still unallocated). Their
contents are arbitrary. -/
structure Csr.Ready (s : Csr α) (nrow ncol nnz : Nat) : Prop where
  lenP : s.rowPointers.length = nrow + 1
  lenI : s.colIndices.length = nnz
  lenX : s.values.length = nnz
  ws : s.tempW.length = 0 ∨ (s.tempRp.length = nrow + 1 ∧ s.tempRjx.length = nnz ∧ s.tempRc.length = nrow ∧
    s.tempW.length = Nat.max nrow ncol)

/-- the rows stored by a conversion: duplicates merged, sorted by column -/
def convRow [Add α] (es : List (Entry α)) (i : Nat) : List (Nat × α) := sortRow (mergeDup (grp es i))

theorem convRow_mem [Add α] {es : List (Entry α)} {i j : Nat} :
    j ∈ (convRow es i).map Prod.fst ↔ j ∈ (grp es i).map Prod.fst := by
  rw [← mergeDup_keys (row := grp es i)]
  simp only [convRow, sortRow, List.mem_map, List.mem_mergeSort]

theorem off_mono_rows {β γ : Type} {row : Nat → List β} {row' : Nat → List γ} {n : Nat}
    (h : ∀ i, i < n → (row i).length ≤ (row' i).length) : off row n ≤ off row' n := by
  induction n with
  | zero => simp
  | succ n ih =>
    have h1 := ih (fun i hi => h i (by omega))
    have h2 := h n (by omega)
    rw [off_succ, off_succ]; omega

theorem off_sort_eq [Add α] (es : List (Entry α)) (i : Nat) :
    off (convRow es) i = off (fun i => mergeDup (grp es i)) i := by
  induction i with
  | zero => rfl
  | succ i ih => rw [off_succ, off_succ, ih, convRow, sortRow_length]

theorem Csr.updateCore_spec [Zero α] [Add α] {s : Csr α} {c : Coo α} {es : List (Entry α)} (h : c.Rep es)
    (hlen : es.length < 2147483648) (hs : s.Ready c.nrow c.ncol es.length) :
    ∃ s', s.updateCore c = ok s' ∧ s'.Ready c.nrow c.ncol es.length ∧ s'.symmetric = s.symmetric ∧ s'.nrow = s.nrow ∧
      s'.ncol = s.ncol ∧
      Compressed c.nrow c.ncol s'.rowPointers s'.colIndices s'.values (convRow es) := by
  -- workspaces
  have hws : ∃ rp rjx rc w, s.workspaces c.nrow c.ncol c.nnz = ok (rp, rjx, rc, w) ∧ rp.length = c.nrow + 1 ∧ rjx.length = es.length ∧
      rc.length = c.nrow ∧ w.length = Nat.max c.nrow c.ncol ∧ ∀ i, i < c.nrow → w[i]? = some 0 := by
    unfold Csr.workspaces
    by_cases h0 : s.tempW.length = 0
    · rw [if_pos h0]
      refine ⟨_, _, _, _, rfl, by simp, by simp [h.nnz], by simp, by simp, ?_⟩
      intro i hi
      rw [List.getElem?_replicate, if_pos (lt_of_lt_of_le hi (Nat.le_max_left _ _))]
    · rw [if_neg h0]
      rcases hs.ws with hw | ⟨h1, h2, h3, h4⟩
      · exact absurd hw h0
      · obtain ⟨w, e, hw, hl⟩ := fillFirst_spec (n := c.nrow) (v := 0) (w := s.tempW)
          (by rw [h4]; exact Nat.le_max_left _ _)
        exact ⟨_, _, _, _, by rw [e]; rfl, h1, h2, h3, by omega, hw⟩
  obtain ⟨rp, rjx, rc, w, e0, l1, l2, l3, l4, hw0⟩ := hws
  obtain ⟨w1, e1, hw1, lw1⟩ := countRows_spec h hlen hw0
  have htot : off (grp es) c.nrow = es.length := off_grp_total h.rangeI
  obtain ⟨rp2, w2, e2, lrp2, hrp2, hw2, lw2⟩ := rowPtrs_spec l1 hw1 (by omega)
  obtain ⟨rjx3, w3, e3, lr3, hseg3, lw3⟩ := Csr.scatter_spec h hlen l2 hw2
  have hmx : c.ncol ≤ Nat.max c.nrow c.ncol := Nat.le_max_right _ _
  obtain ⟨w4, e4, hw4, lw4⟩ := fillFirst_spec (n := c.ncol) (v := -1) (w := w3) (by omega)
  have hcol : ∀ i, i < c.nrow → ∀ e ∈ grp es i, e.1 < c.ncol := fun i _ e he => h.rangeJ _ (mem_grp.1 he)
  obtain ⟨rjx5, rc5, w5, e5, lr5, lrc5, lw5, hseg5, hrc5⟩ := Csr.dedup_spec hrp2 hseg3 hcol h.fitsJ (by omega) l3 hw4
  have hmle : off (fun i => mergeDup (grp es i)) c.nrow ≤ off (grp es) c.nrow :=
    off_mono_rows (fun i _ => mergeDup_length_le _)
  obtain ⟨bp6, e6, lbp6, hbp6⟩ := Csr.fixPtrs_spec (row := fun i => mergeDup (grp es i)) hs.lenP hrc5 (by omega)
  obtain ⟨rjx7, bj7, bx7, k7, e7, lr7, lbj7, lbx7, hbj7, hbx7⟩ := Csr.compress_spec (row := grp es)
    (mrow := fun i => mergeDup (grp es i)) (bj := s.colIndices) (bx := s.values) hrp2
    (fun i _ => mergeDup_length_le _) hrc5 hseg5 (by omega) (by omega) (by rw [hs.lenI]; omega) (by rw [hs.lenX]; omega)
  refine ⟨{ s with rowPointers := bp6, colIndices := bj7, values := bx7, tempRp := rp2, tempRjx := rjx7, tempRc := rc5,
                   tempW := w5 }, ?_, ?_, rfl, rfl, rfl, ?_⟩
  · simp only [Csr.updateCore, e0, e1, e2, e3, e4, e5, e6, e7, ok_bind]
  · refine ⟨lbp6, by simp only; rw [lbj7, hs.lenI], by simp only; rw [lbx7, hs.lenX], Or.inr ⟨lrp2, by simp only; omega, lrc5, ?_⟩⟩
    simp only; omega
  · refine ⟨lbp6, ?_, ?_, ?_, ?_, ?_, h.fitsI, h.fitsJ⟩
    · intro i hi
      rw [off_sort_eq]; exact hbp6 i hi
    · have : (List.map Prod.fst (List.map enc (flat (fun i => sortRow (mergeDup (grp es i))) c.nrow))) =
          List.map (fun e : Nat × α => ((e.1 : Nat) : Int)) (flat (convRow es) c.nrow) := by
        rw [List.map_map]; rfl
      rw [this] at hbj7; exact hbj7
    · have : (List.map Prod.snd (List.map enc (flat (fun i => sortRow (mergeDup (grp es i))) c.nrow))) =
          List.map Prod.snd (flat (convRow es) c.nrow) := by
        rw [List.map_map]; rfl
      rw [this] at hbx7; exact hbx7
    · intro i hi e he
      have h1 : e.1 ∈ (convRow es i).map Prod.fst := List.mem_map_of_mem he
      rw [convRow_mem] at h1
      obtain ⟨e', he', h2⟩ := List.mem_map.1 h1
      rw [← h2]; exact hcol i hi e' he'
    · rw [off_sort_eq]; omega

end Russell.Sparse
