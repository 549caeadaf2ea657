import Verif.Sparse.ConvProps

/-!
# C13: the constructors of the compressed matrices
-/

namespace Russell.Sparse

open Russell Russell.Res Russell.Lab

variable {α : Type}

/-- Specification: what the arrays of a compressed matrix with `n` groups and indices below `m` must satisfy. Pointers are
`i32` values, so they are below `2^31`. -/
structure WellFormed (n m : Nat) (ptr idx : List Int) (val : List α) : Prop where
  rows : 1 ≤ n
  cols : 1 ≤ m
  lenP : ptr.length = n + 1
  nnz : ∃ nnz : Nat, ptr[n]? = some (nnz : Int) ∧ 1 ≤ nnz ∧ nnz ≤ idx.length ∧ nnz ≤ val.length
  groups : ∀ i, i < n → ∃ a b : Nat, ptr[i]? = some (a : Int) ∧ ptr[i + 1]? = some (b : Int) ∧ a ≤ b ∧
    (∀ p, a ≤ p → p < b → ∃ j : Nat, idx[p]? = some (j : Int) ∧ j < m) ∧
    (∀ p x y, a ≤ p → p + 1 < b → idx[p]? = some x → idx[p + 1]? = some y → x ≤ y)

/-- the scan shared by both constructors -/
def scanArrays (m1 m2 m3 m4 m5 : String) (n : Nat) (m : Int) (ptr idx : List Int) : Res Unit :=
  forRange 0 n () fun i _ => do
    let a ← vget ptr i
    if a < 0 then err m1
    else do
      let b ← vget ptr (i + 1)
      if a > b then err m2
      else do
        let start := asUsize a
        let stop := asUsize b
        forRange start stop () fun p _ => do
          let j ← vget idx p
          if j < 0 then err m3
          else if j ≥ m then err m4
          else if p > start then do
            let j' ← vget idx (p - 1)
            if j' > j then err m5
            else ok ()
          else ok ()

theorem forRange_unit_ok {f : Nat → Unit → Res Unit} {lo hi : Nat} :
    forRange lo hi () f = ok () ↔ ∀ k, lo ≤ k → k < hi → f k () = ok () := by
  constructor
  · intro h k hk hk'
    have := forRange_ok (f := f) (fun i _ => ∀ k, lo ≤ k → k < i → f k () = ok ()) (lo := lo) (hi := hi) (s := ()) (r := ())
      (by omega) (fun k h1 h2 => by omega) (by
        intro i s s' h1 h2 h3 h4 k hk hk'
        by_cases hki : k = i
        · subst hki; exact h4
        · exact h3 k hk (by omega)) h
    exact this k hk hk'
  · intro h
    by_cases hle : lo ≤ hi
    · obtain ⟨s, e, _⟩ := forRange_spec (f := f) (fun _ _ => True) hle (s := ()) trivial (by
        intro k s h1 h2 _
        exact ⟨(), h k h1 h2, trivial⟩)
      exact e
    · exact forRange_empty (by omega)

theorem forRange_no_panic {σ : Type} {f : Nat → σ → Res σ} {lo hi : Nat} (h : ∀ k s, lo ≤ k → k < hi → f k s ≠ panic)
    (s : σ) : forRange lo hi s f ≠ panic := by
  by_cases hle : lo ≤ hi
  · obtain ⟨n, rfl⟩ := Nat.exists_eq_add_of_le hle
    clear hle
    induction n generalizing lo s with
    | zero => rw [forRange_empty (by omega)]; simp
    | succ n ih =>
      rw [forRange_step (by omega)]
      have := h lo s (by omega) (by omega)
      cases hf : f lo s with
      | ok s' =>
        rw [ok_bind, show lo + (n + 1) = lo + 1 + n by omega]
        exact ih s' (fun k s h1 h2 => h k s (by omega) (by omega))
      | err m => simp
      | panic => exact absurd hf this
  · rw [forRange_empty (by omega)]; simp

theorem scan_ok {m1 m2 m3 m4 m5 : String} {n m : Nat} {ptr idx : List Int} (hp : ∀ x ∈ ptr, x < 2147483648) :
    scanArrays m1 m2 m3 m4 m5 n (m : Int) ptr idx = ok () ↔
      ∀ i, i < n → ∃ a b : Nat, ptr[i]? = some (a : Int) ∧ ptr[i + 1]? = some (b : Int) ∧ a ≤ b ∧
        (∀ p, a ≤ p → p < b → ∃ j : Nat, idx[p]? = some (j : Int) ∧ j < m) ∧
        (∀ p x y, a ≤ p → p + 1 < b → idx[p]? = some x → idx[p + 1]? = some y → x ≤ y) := by
  unfold scanArrays
  rw [forRange_unit_ok]
  constructor
  · intro h i hi
    have hi' := h i (Nat.zero_le _) hi
    obtain ⟨a, e1, hi'⟩ := Res.bind_eq_ok.1 hi'
    by_cases ha : a < 0
    · rw [if_pos ha] at hi'; cases hi'
    rw [if_neg ha] at hi'
    obtain ⟨b, e2, hi'⟩ := Res.bind_eq_ok.1 hi'
    by_cases hab : a > b
    · rw [if_pos hab] at hi'; cases hi'
    rw [if_neg hab] at hi'
    rw [vget_eq_ok] at e1 e2
    obtain ⟨a', rfl⟩ := Int.eq_ofNat_of_zero_le (show 0 ≤ a by omega)
    obtain ⟨b', rfl⟩ := Int.eq_ofNat_of_zero_le (show 0 ≤ b by omega)
    have hA := hp _ (List.mem_of_getElem? e1)
    have hB := hp _ (List.mem_of_getElem? e2)
    rw [asUsize_natCast (by omega), asUsize_natCast (by omega)] at hi'
    rw [forRange_unit_ok] at hi'
    have hval : ∀ p, a' ≤ p → p < b' → ∃ j : Nat, idx[p]? = some (j : Int) ∧ j < m := by
      intro p h1 h2
      have hq := hi' p h1 h2
      obtain ⟨j, e3, hq⟩ := Res.bind_eq_ok.1 hq
      by_cases hj : j < 0
      · rw [if_pos hj] at hq; cases hq
      rw [if_neg hj] at hq
      by_cases hm : j ≥ (m : Int)
      · rw [if_pos hm] at hq; cases hq
      obtain ⟨j', rfl⟩ := Int.eq_ofNat_of_zero_le (show 0 ≤ j by omega)
      exact ⟨j', vget_eq_ok.1 e3, by omega⟩
    refine ⟨a', b', e1, e2, by omega, hval, ?_⟩
    intro p x y h1 h2 hx hy
    have hq := hi' (p + 1) (by omega) h2
    obtain ⟨j, hj, hm⟩ := hval (p + 1) (by omega) h2
    simp only [vget_of hj, ok_bind] at hq
    rw [if_neg (by omega), if_neg (by omega), if_pos (by omega)] at hq
    rw [show p + 1 - 1 = p by omega, vget_of hx, ok_bind] at hq
    rw [hy] at hj
    cases hj
    by_cases hgt : x > (j : Int)
    · rw [if_pos hgt] at hq; cases hq
    · omega
  · intro h i _ hi
    obtain ⟨a, b, e1, e2, hab, h3, h4⟩ := h i hi
    have hA := hp _ (List.mem_of_getElem? e1)
    have hB := hp _ (List.mem_of_getElem? e2)
    simp only [vget_of e1, vget_of e2, ok_bind]
    rw [if_neg (by omega), if_neg (by omega), asUsize_natCast (by omega), asUsize_natCast (by omega)]
    rw [forRange_unit_ok]
    intro p h5 h6
    obtain ⟨j, hj, hm⟩ := h3 p h5 h6
    simp only [vget_of hj, ok_bind]
    rw [if_neg (by omega), if_neg (by omega)]
    by_cases hpa : p > a
    · rw [if_pos hpa]
      obtain ⟨j', hj', hm'⟩ := h3 (p - 1) (by omega) (by omega)
      have := h4 (p - 1) j' j (by omega) (by omega) hj' (by rw [show p - 1 + 1 = p by omega]; exact hj)
      rw [vget_of hj', ok_bind, if_neg (by omega)]
    · rw [if_neg hpa]

theorem scan_no_panic {m1 m2 m3 m4 m5 : String} {n : Nat} {m : Int} {ptr idx : List Int} (hl : ptr.length = n + 1)
    (hp : ∀ x ∈ ptr, x < 2147483648) (hb : ∀ x ∈ ptr, x ≤ idx.length) :
    scanArrays m1 m2 m3 m4 m5 n m ptr idx ≠ panic := by
  unfold scanArrays
  apply forRange_no_panic
  intro i s _ hi
  have hmem : ∀ k (h : k < ptr.length), ptr[k] ∈ ptr := fun k h => List.getElem_mem h
  simp only [vget_lt (show i < ptr.length by omega), vget_lt (show i + 1 < ptr.length by omega), ok_bind]
  split
  · simp
  split
  · simp
  next h1 h2 =>
    have hA := hp _ (hmem i (by omega))
    have hB := hp _ (hmem (i + 1) (by omega))
    have hC := hb _ (hmem (i + 1) (by omega))
    generalize ptr[i] = a at *
    generalize ptr[i + 1] = b at *
    obtain ⟨a', rfl⟩ := Int.eq_ofNat_of_zero_le (show 0 ≤ a by omega)
    obtain ⟨b', rfl⟩ := Int.eq_ofNat_of_zero_le (show 0 ≤ b by omega)
    rw [asUsize_natCast (by omega), asUsize_natCast (by omega)]
    apply forRange_no_panic
    intro p s h3 h4
    simp only [vget_lt (show p < idx.length by omega), ok_bind]
    split
    · simp
    split
    · simp
    split
    · rw [vget_lt (show p - 1 < idx.length by omega), ok_bind]
      split <;> simp
    · simp

theorem Csr.new_eq (nrow ncol : Nat) (ptr idx : List Int) (val : List α) (sym : Sym) :
    ∃ m1 m2 m3 m4 m5 m6 m7 m8 m9 m10 m11, Csr.new nrow ncol ptr idx val sym =
      (if nrow < 1 then err m1
      else if ncol < 1 then err m2
      else if ptr.length ≠ nrow + 1 then err m3
      else do
        let nnz ← vget ptr nrow
        if nnz < 1 then err m4
        else if idx.length < asUsize nnz then err m5
        else if val.length < asUsize nnz then err m6
        else if sym ≠ Sym.no ∧ nrow ≠ ncol then err m11
        else do
          let n ← toI32 ncol
          scanArrays m7 m8 m9 m10 "column indices must be sorted in ascending order (within their row)" nrow n ptr idx
          ok { symmetric := sym, nrow := nrow, ncol := ncol, rowPointers := ptr, colIndices := idx, values := val,
               tempRp := [], tempRjx := [], tempRc := [], tempW := [] }) :=
  ⟨_, _, _, _, _, _, _, _, _, _, _, rfl⟩

theorem Csc.new_eq (nrow ncol : Nat) (ptr idx : List Int) (val : List α) (sym : Sym) :
    ∃ m1 m2 m3 m4 m5 m6 m7 m8 m9 m10 m11, Csc.new nrow ncol ptr idx val sym =
      (if nrow < 1 then err m1
      else if ncol < 1 then err m2
      else if ptr.length ≠ ncol + 1 then err m3
      else do
        let nnz ← vget ptr ncol
        if nnz < 1 then err m4
        else if idx.length < asUsize nnz then err m5
        else if val.length < asUsize nnz then err m6
        else if sym ≠ Sym.no ∧ nrow ≠ ncol then err m11
        else do
          let m ← toI32 nrow
          scanArrays m7 m8 m9 m10 "row indices must be sorted in ascending order (within their column)" ncol m ptr idx
          ok { symmetric := sym, nrow := nrow, ncol := ncol, colPointers := ptr, rowIndices := idx, values := val,
               tempRp := [], tempRj := [], tempRx := [], tempRc := [], tempW := [] }) :=
  ⟨_, _, _, _, _, _, _, _, _, _, _, rfl⟩

/-- C13: `CsrMatrix::new` returns `Ok` exactly for well-formed arrays (square for symmetric kinds), and then stores them as
given. `ptr` holds `i32` values. -/
theorem C13_csr_new_ok_iff (nrow ncol : Nat) (ptr idx : List Int) (val : List α) (sym : Sym)
    (hp : ∀ x ∈ ptr, x < 2147483648) (hn : ncol < 2147483648) :
    ((∃ s, Csr.new nrow ncol ptr idx val sym = ok s) ↔
      WellFormed nrow ncol ptr idx val ∧ (sym ≠ Sym.no → nrow = ncol)) ∧
    (∀ s, Csr.new nrow ncol ptr idx val sym = ok s →
      s.getRowPointers = ptr ∧ s.colIndices = idx ∧ s.values = val ∧ s.nrow = nrow ∧ s.ncol = ncol ∧ s.symmetric = sym ∧
      s.tempW = []) := by
  obtain ⟨m1, m2, m3, m4, m5, m6, m7, m8, m9, m10, m11, e⟩ := Csr.new_eq nrow ncol ptr idx val sym
  rw [e]
  by_cases h1 : nrow < 1
  · rw [if_pos h1]; exact ⟨⟨by simp, fun h => absurd h.1.rows (by omega)⟩, by simp⟩
  rw [if_neg h1]
  by_cases h2 : ncol < 1
  · rw [if_pos h2]; exact ⟨⟨by simp, fun h => absurd h.1.cols (by omega)⟩, by simp⟩
  rw [if_neg h2]
  by_cases h3 : ptr.length ≠ nrow + 1
  · rw [if_pos h3]; exact ⟨⟨by simp, fun h => absurd h.1.lenP h3⟩, by simp⟩
  rw [if_neg h3]
  have hlt : nrow < ptr.length := by omega
  have hnn := hp _ (List.getElem_mem hlt)
  rw [vget_lt hlt, ok_bind, toI32_lt hn]
  have hget : ptr[nrow]? = some ptr[nrow] := List.getElem?_eq_getElem hlt
  generalize hx : ptr[nrow] = x at *
  by_cases h4 : x < 1
  · rw [if_pos h4]
    refine ⟨⟨by simp, ?_⟩, by simp⟩
    rintro ⟨h, -⟩
    obtain ⟨k, g1, g2, -⟩ := h.nnz
    rw [hget] at g1; cases g1; omega
  rw [if_neg h4]
  obtain ⟨k, rfl⟩ := Int.eq_ofNat_of_zero_le (show 0 ≤ x by omega)
  have hU : asUsize (k : Int) = k := asUsize_natCast (by omega)
  rw [hU]
  clear hU
  by_cases h5 : idx.length < k
  · rw [if_pos h5]
    refine ⟨⟨by simp, ?_⟩, by simp⟩
    rintro ⟨h, -⟩
    obtain ⟨k', g1, g2, g3, g4⟩ := h.nnz
    rw [hget] at g1
    simp only [Option.some.injEq] at g1
    omega
  rw [if_neg h5]
  by_cases h6 : val.length < k
  · rw [if_pos h6]
    refine ⟨⟨by simp, ?_⟩, by simp⟩
    rintro ⟨h, -⟩
    obtain ⟨k', g1, g2, g3, g4⟩ := h.nnz
    rw [hget] at g1
    simp only [Option.some.injEq] at g1
    omega
  rw [if_neg h6]
  by_cases h7 : sym ≠ Sym.no ∧ nrow ≠ ncol
  · rw [if_pos h7]
    refine ⟨⟨by simp, ?_⟩, by simp⟩
    rintro ⟨-, h⟩
    exact absurd (h h7.1) h7.2
  rw [if_neg h7, ok_bind]
  have hsc := scan_ok (m1 := m7) (m2 := m8) (m3 := m9) (m4 := m10)
    (m5 := "column indices must be sorted in ascending order (within their row)") (n := nrow) (m := ncol) (idx := idx) hp
  constructor
  · constructor
    · rintro ⟨s, hs⟩
      obtain ⟨u, e1, -⟩ := Res.bind_eq_ok.1 hs
      refine ⟨⟨by omega, by omega, by omega, ⟨k, hget, by omega, by omega, by omega⟩, hsc.1 e1⟩, ?_⟩
      intro hne
      by_contra hc
      exact h7 ⟨hne, hc⟩
    · rintro ⟨h, -⟩
      rw [hsc.2 h.groups]
      exact ⟨_, rfl⟩
  · intro s hs
    obtain ⟨u, e1, e2⟩ := Res.bind_eq_ok.1 hs
    cases e2
    exact ⟨rfl, rfl, rfl, rfl, rfl, rfl, rfl⟩

/-- C13: as above for CSC. -/
theorem C13_csc_new_ok_iff (nrow ncol : Nat) (ptr idx : List Int) (val : List α) (sym : Sym)
    (hp : ∀ x ∈ ptr, x < 2147483648) (hn : nrow < 2147483648) :
    ((∃ s, Csc.new nrow ncol ptr idx val sym = ok s) ↔
      WellFormed ncol nrow ptr idx val ∧ (sym ≠ Sym.no → nrow = ncol)) ∧
    (∀ s, Csc.new nrow ncol ptr idx val sym = ok s →
      s.getColPointers = ptr ∧ s.rowIndices = idx ∧ s.values = val ∧ s.nrow = nrow ∧ s.ncol = ncol ∧ s.symmetric = sym ∧
      s.tempW = []) := by
  obtain ⟨m1, m2, m3, m4, m5, m6, m7, m8, m9, m10, m11, e⟩ := Csc.new_eq nrow ncol ptr idx val sym
  rw [e]
  by_cases h1 : nrow < 1
  · rw [if_pos h1]; exact ⟨⟨by simp, fun h => absurd h.1.cols (by omega)⟩, by simp⟩
  rw [if_neg h1]
  by_cases h2 : ncol < 1
  · rw [if_pos h2]; exact ⟨⟨by simp, fun h => absurd h.1.rows (by omega)⟩, by simp⟩
  rw [if_neg h2]
  by_cases h3 : ptr.length ≠ ncol + 1
  · rw [if_pos h3]; exact ⟨⟨by simp, fun h => absurd h.1.lenP h3⟩, by simp⟩
  rw [if_neg h3]
  have hlt : ncol < ptr.length := by omega
  have hnn := hp _ (List.getElem_mem hlt)
  rw [vget_lt hlt, ok_bind, toI32_lt hn]
  have hget : ptr[ncol]? = some ptr[ncol] := List.getElem?_eq_getElem hlt
  generalize hx : ptr[ncol] = x at *
  by_cases h4 : x < 1
  · rw [if_pos h4]
    refine ⟨⟨by simp, ?_⟩, by simp⟩
    rintro ⟨h, -⟩
    obtain ⟨k, g1, g2, -⟩ := h.nnz
    rw [hget] at g1; cases g1; omega
  rw [if_neg h4]
  obtain ⟨k, rfl⟩ := Int.eq_ofNat_of_zero_le (show 0 ≤ x by omega)
  have hU : asUsize (k : Int) = k := asUsize_natCast (by omega)
  rw [hU]
  clear hU
  by_cases h5 : idx.length < k
  · rw [if_pos h5]
    refine ⟨⟨by simp, ?_⟩, by simp⟩
    rintro ⟨h, -⟩
    obtain ⟨k', g1, g2, g3, g4⟩ := h.nnz
    rw [hget] at g1
    simp only [Option.some.injEq] at g1
    omega
  rw [if_neg h5]
  by_cases h6 : val.length < k
  · rw [if_pos h6]
    refine ⟨⟨by simp, ?_⟩, by simp⟩
    rintro ⟨h, -⟩
    obtain ⟨k', g1, g2, g3, g4⟩ := h.nnz
    rw [hget] at g1
    simp only [Option.some.injEq] at g1
    omega
  rw [if_neg h6]
  by_cases h7 : sym ≠ Sym.no ∧ nrow ≠ ncol
  · rw [if_pos h7]
    refine ⟨⟨by simp, ?_⟩, by simp⟩
    rintro ⟨-, h⟩
    exact absurd (h h7.1) h7.2
  rw [if_neg h7, ok_bind]
  have hsc := scan_ok (m1 := m7) (m2 := m8) (m3 := m9) (m4 := m10)
    (m5 := "row indices must be sorted in ascending order (within their column)") (n := ncol) (m := nrow) (idx := idx) hp
  constructor
  · constructor
    · rintro ⟨s, hs⟩
      obtain ⟨u, e1, -⟩ := Res.bind_eq_ok.1 hs
      refine ⟨⟨by omega, by omega, by omega, ⟨k, hget, by omega, by omega, by omega⟩, hsc.1 e1⟩, ?_⟩
      intro hne
      by_contra hc
      exact h7 ⟨hne, hc⟩
    · rintro ⟨h, -⟩
      rw [hsc.2 h.groups]
      exact ⟨_, rfl⟩
  · intro s hs
    obtain ⟨u, e1, e2⟩ := Res.bind_eq_ok.1 hs
    cases e2
    exact ⟨rfl, rfl, rfl, rfl, rfl, rfl, rfl⟩

/-- C13: malformed arrays give `Err` and not a panic, provided no pointer exceeds the number of indices. The full claim (any
pointers) is false, see the counterexample. -/
theorem C13_csr_new_no_panic_partial (nrow ncol : Nat) (ptr idx : List Int) (val : List α) (sym : Sym)
    (hp : ∀ x ∈ ptr, x < 2147483648) (hn : ncol < 2147483648) (hb : ∀ x ∈ ptr, x ≤ idx.length) :
    Csr.new nrow ncol ptr idx val sym ≠ panic := by
  obtain ⟨m1, m2, m3, m4, m5, m6, m7, m8, m9, m10, m11, e⟩ := Csr.new_eq nrow ncol ptr idx val sym
  rw [e]
  split
  · simp
  split
  · simp
  split
  · simp
  next h3 =>
    rw [vget_lt (by omega), ok_bind, toI32_lt hn]
    split
    · simp
    split
    · simp
    split
    · simp
    split
    · simp
    have := scan_no_panic (m1 := m7) (m2 := m8) (m3 := m9) (m4 := m10)
      (m5 := "column indices must be sorted in ascending order (within their row)") (n := nrow) (m := ncol) (by omega) hp hb
    rw [ok_bind]
    cases hs : scanArrays m7 m8 m9 m10 "column indices must be sorted in ascending order (within their row)" nrow ncol ptr idx with
    | ok u => simp
    | err m => simp
    | panic => exact absurd hs this

theorem C13_csc_new_no_panic_partial (nrow ncol : Nat) (ptr idx : List Int) (val : List α) (sym : Sym)
    (hp : ∀ x ∈ ptr, x < 2147483648) (hn : nrow < 2147483648) (hb : ∀ x ∈ ptr, x ≤ idx.length) :
    Csc.new nrow ncol ptr idx val sym ≠ panic := by
  obtain ⟨m1, m2, m3, m4, m5, m6, m7, m8, m9, m10, m11, e⟩ := Csc.new_eq nrow ncol ptr idx val sym
  rw [e]
  split
  · simp
  split
  · simp
  split
  · simp
  next h3 =>
    rw [vget_lt (by omega), ok_bind, toI32_lt hn]
    split
    · simp
    split
    · simp
    split
    · simp
    split
    · simp
    have := scan_no_panic (m1 := m7) (m2 := m8) (m3 := m9) (m4 := m10)
      (m5 := "row indices must be sorted in ascending order (within their column)") (n := ncol) (m := nrow) (by omega) hp hb
    rw [ok_bind]
    cases hs : scanArrays m7 m8 m9 m10 "row indices must be sorted in ascending order (within their column)" ncol nrow ptr idx with
    | ok u => simp
    | err m => simp
    | panic => exact absurd hs this

/-- The full claim of C13 fails: with pointers `[0, 5, 2]` the scan of the first row runs past the index array before the
decreasing pointer is noticed, and `new` panics (both formats). -/
theorem C13_new_panics_counterexample :
    Csr.new 2 3 [0, 5, 2] [0, 1] [(1 : Int), 2] Sym.no = panic ∧
    Csc.new 3 2 [0, 5, 2] [0, 1] [(1 : Int), 2] Sym.no = panic := by
  exact ⟨rfl, rfl⟩

/-- well-formed input with an empty row and extra trailing space in the arrays -/
example : ∃ s, Csr.new 3 3 [0, 2, 2, 3] [0, 2, 1, 77] [(1 : Int), 2, 3] Sym.no = ok s := ⟨_, rfl⟩
example : ∃ m, Csr.new 3 3 [0, 2, 2, 3] [2, 0, 1, 77] [(1 : Int), 2, 3] Sym.no = err m := ⟨_, rfl⟩

/-! ## From accepted arrays to stored rows -/

/-- the group between pointers `a` and `b` -/
def group (idx : List Int) (val : List α) (a b : Nat) : List (Nat × α) :=
  (((idx.drop a).take (b - a)).map Int.toNat).zip ((val.drop a).take (b - a))

/-- the rows stored in well-formed arrays -/
def rowsOf (ptr idx : List Int) (val : List α) (i : Nat) : List (Nat × α) :=
  group idx val (ptr.getD i 0).toNat (ptr.getD (i + 1) 0).toNat

theorem group_length {idx : List Int} {val : List α} {a b : Nat} (hi : b ≤ idx.length) (hv : b ≤ val.length) :
    (group idx val a b).length = b - a := by
  simp [group]; omega

theorem group_get {idx : List Int} {val : List α} {a b t : Nat} (ht : t < (group idx val a b).length)
    (h1 : a + t < idx.length) (h2 : a + t < val.length) :
    (group idx val a b)[t] = (idx[a + t].toNat, val[a + t]) := by
  simp [group]

theorem wf_bound {n m : Nat} {ptr idx : List Int} {val : List α} (h : WellFormed n m ptr idx val) :
    ∀ i, i ≤ n → ∃ a : Nat, ptr[i]? = some (a : Int) ∧ a ≤ idx.length ∧ a ≤ val.length := by
  obtain ⟨k, g1, g2, g3, g4⟩ := h.nnz
  have : ∀ d i, i + d = n → ∃ a : Nat, ptr[i]? = some (a : Int) ∧ a ≤ idx.length ∧ a ≤ val.length := by
    intro d
    induction d with
    | zero => intro i hi; rw [show i = n by omega]; exact ⟨k, g1, g3, g4⟩
    | succ d ih =>
      intro i hi
      obtain ⟨b, e, h1, h2⟩ := ih (i + 1) (by omega)
      obtain ⟨a, b', e1, e2, h3, -⟩ := h.groups i (by omega)
      rw [e] at e2
      simp only [Option.some.injEq] at e2
      exact ⟨a, e1, by omega, by omega⟩
  intro i hi
  exact this (n - i) i (by omega)

theorem WellFormed.compressed {n m : Nat} {ptr idx : List Int} {val : List α} (h : WellFormed n m ptr idx val)
    (hp : ∀ x ∈ ptr, x < 2147483648) (h0 : ptr[0]? = some 0) (hn : n < 2147483648) (hm : m < 2147483648) :
    Compressed n m ptr idx val (rowsOf ptr idx val) ∧
      ∀ i, i < n → (rowsOf ptr idx val i).Pairwise fun a b => a.1 ≤ b.1 := by
  have hrow : ∀ i, i < n → ∃ a b : Nat, ptr[i]? = some (a : Int) ∧ ptr[i + 1]? = some (b : Int) ∧ a ≤ b ∧
      b ≤ idx.length ∧ b ≤ val.length ∧ rowsOf ptr idx val i = group idx val a b ∧
      (∀ p, a ≤ p → p < b → ∃ j : Nat, idx[p]? = some (j : Int) ∧ j < m) ∧
      (∀ p x y, a ≤ p → p + 1 < b → idx[p]? = some x → idx[p + 1]? = some y → x ≤ y) := by
    intro i hi
    obtain ⟨a, b, e1, e2, h3, h4, h5⟩ := h.groups i hi
    obtain ⟨b', e3, h6, h7⟩ := wf_bound h (i + 1) hi
    rw [e2] at e3
    simp only [Option.some.injEq] at e3
    refine ⟨a, b, e1, e2, h3, by omega, by omega, ?_, h4, h5⟩
    simp [rowsOf, List.getD_eq_getElem?_getD, e1, e2]
  have hptr : ∀ i, i ≤ n → ptr[i]? = some ((off (rowsOf ptr idx val) i : Nat) : Int) := by
    intro i
    induction i with
    | zero => intro _; rw [h0]; rfl
    | succ i ih =>
      intro hi
      obtain ⟨a, b, e1, e2, h3, h4, h5, h6, -, -⟩ := hrow i hi
      rw [ih (by omega)] at e1
      simp only [Option.some.injEq] at e1
      rw [e2, off_succ, h6, group_length h4 h5]
      congr 1; omega
  have hgrp : ∀ i, i < n → ∀ t (ht : t < (rowsOf ptr idx val i).length),
      idx[off (rowsOf ptr idx val) i + t]? = some (((rowsOf ptr idx val i)[t].1 : Nat) : Int) ∧
      val[off (rowsOf ptr idx val) i + t]? = some (rowsOf ptr idx val i)[t].2 ∧
      (rowsOf ptr idx val i)[t].1 < m := by
    intro i hi t ht
    obtain ⟨a, b, e1, e2, h3, h4, h5, h6, h7, -⟩ := hrow i hi
    have hoff : off (rowsOf ptr idx val) i = a := by
      have := hptr i (by omega)
      rw [e1] at this
      simp only [Option.some.injEq] at this
      omega
    have hl : (rowsOf ptr idx val i).length = b - a := by rw [h6, group_length h4 h5]
    obtain ⟨j, hj, hjm⟩ := h7 (a + t) (by omega) (by omega)
    have hg : (rowsOf ptr idx val i)[t] = (idx[a + t].toNat, val[a + t]) := by
      have ht' : t < (group idx val a b).length := by rw [← h6]; exact ht
      have := group_get ht' (show a + t < idx.length by omega) (show a + t < val.length by omega)
      rw [← this]
      simp only [h6]
    rw [List.getElem?_eq_getElem (by omega)] at hj
    have hj' := Option.some.inj hj
    rw [hoff, hg, hj']
    refine ⟨?_, ?_, by simpa using hjm⟩
    · rw [List.getElem?_eq_getElem (by omega), hj']; simp
    · rw [List.getElem?_eq_getElem (by omega)]
  constructor
  · refine ⟨h.lenP, hptr, ?_, ?_, ?_, ?_, hn, hm⟩
    · have := segAt_flat (l := idx) (n := n) (row := fun i => (rowsOf ptr idx val i).map fun e => ((e.1 : Nat) : Int)) (by
          intro i hi
          rw [off_map (fun _ (e : Nat × α) => ((e.1 : Nat) : Int)) (rowsOf ptr idx val) i]
          intro t ht
          rw [List.getElem_map]
          exact (hgrp i hi t (by simpa using ht)).1)
      rw [flat_map (fun _ (e : Nat × α) => ((e.1 : Nat) : Int)) (rowsOf ptr idx val) (fun e => ((e.1 : Nat) : Int))
        (fun _ _ => rfl)] at this
      exact this
    · have := segAt_flat (l := val) (n := n) (row := fun i => (rowsOf ptr idx val i).map Prod.snd) (by
          intro i hi
          rw [off_map (fun _ => Prod.snd) (rowsOf ptr idx val) i]
          intro t ht
          rw [List.getElem_map]
          exact (hgrp i hi t (by simpa using ht)).2.1)
      rw [flat_map (fun _ => Prod.snd) (rowsOf ptr idx val) Prod.snd (fun _ _ => rfl)] at this
      exact this
    · intro i hi e he
      obtain ⟨t, ht, rfl⟩ := List.getElem_of_mem he
      exact (hgrp i hi t ht).2.2
    · have h1 := hptr n (Nat.le_refl _)
      have := hp _ (List.mem_of_getElem? h1)
      omega
  · intro i hi
    obtain ⟨a, b, e1, e2, h3, h4, h5, h6, h7, h8⟩ := hrow i hi
    rw [h6]
    have hl : (group idx val a b).length = b - a := group_length h4 h5
    -- consecutive indices are ordered
    have hmono : ∀ d p (h1 : a ≤ p) (h2 : p + d < b) (hp1 : p < idx.length) (hp2 : p + d < idx.length),
        idx[p] ≤ idx[p + d] := by
      intro d
      induction d with
      | zero => intro p _ _ _ _; exact le_refl _
      | succ d ih =>
        intro p h1 h2 hp1 hp2
        have k1 := ih p h1 (by omega) hp1 (by omega)
        have k2 := h8 (p + d) idx[p + d] idx[p + d + 1] (by omega) (by omega)
          (List.getElem?_eq_getElem (by omega)) (List.getElem?_eq_getElem (by omega))
        exact le_trans k1 k2
    rw [List.pairwise_iff_getElem]
    intro t u ht hu htu
    rw [group_get ht (by omega) (by omega), group_get hu (by omega) (by omega)]
    have := hmono (u - t) (a + t) (by omega) (by omega) (by omega) (by omega)
    simp only [show a + t + (u - t) = a + u by omega] at this
    exact Int.toNat_le_toNat this

/-- Every accepted CSR matrix with first pointer 0 stores rows, sorted by column. -/
theorem Csr.new_rep {nrow ncol : Nat} {ptr idx : List Int} {val : List α} {sym : Sym} {s : Csr α}
    (h : Csr.new nrow ncol ptr idx val sym = ok s) (hp : ∀ x ∈ ptr, x < 2147483648) (h0 : ptr[0]? = some 0)
    (hm : nrow < 2147483648) (hn : ncol < 2147483648) :
    s.Rep (rowsOf ptr idx val) ∧ (∀ i, i < s.nrow → (rowsOf ptr idx val i).Pairwise fun a b => a.1 ≤ b.1) := by
  obtain ⟨a, b⟩ := C13_csr_new_ok_iff nrow ncol ptr idx val sym hp hn
  obtain ⟨hw, hs⟩ := a.1 ⟨s, h⟩
  obtain ⟨b1, b2, b3, b4, b5, b6, -⟩ := b s h
  obtain ⟨c1, c2⟩ := hw.compressed hp h0 hm hn
  rw [Csr.getRowPointers] at b1
  refine ⟨⟨?_, ?_⟩, ?_⟩
  · rw [b1, b2, b3, b4, b5]; exact c1
  · intro ht
    rw [b4, b5]
    rw [b6] at ht
    apply hs
    rintro rfl
    exact absurd ht (by decide)
  · rw [b4]; exact c2

theorem Csc.new_rep {nrow ncol : Nat} {ptr idx : List Int} {val : List α} {sym : Sym} {s : Csc α}
    (h : Csc.new nrow ncol ptr idx val sym = ok s) (hp : ∀ x ∈ ptr, x < 2147483648) (h0 : ptr[0]? = some 0)
    (hm : nrow < 2147483648) (hn : ncol < 2147483648) :
    s.Rep (rowsOf ptr idx val) ∧ (∀ i, i < s.ncol → (rowsOf ptr idx val i).Pairwise fun a b => a.1 ≤ b.1) := by
  obtain ⟨a, b⟩ := C13_csc_new_ok_iff nrow ncol ptr idx val sym hp hm
  obtain ⟨hw, hs⟩ := a.1 ⟨s, h⟩
  obtain ⟨b1, b2, b3, b4, b5, b6, -⟩ := b s h
  obtain ⟨c1, c2⟩ := hw.compressed hp h0 hn hm
  rw [Csc.getColPointers] at b1
  refine ⟨⟨?_, ?_⟩, ?_⟩
  · rw [b1, b2, b3, b4, b5]; exact c1
  · intro ht
    rw [b4, b5]
    rw [b6] at ht
    apply hs
    rintro rfl
    exact absurd ht (by decide)
  · rw [b5]; exact c2

end Russell.Sparse
