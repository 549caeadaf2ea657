import Verif.Sparse.DenseLemmas

/-!
# Dense matrices: constructors and array laws (property C23)

Model of the remaining functions of `NumMatrix` (/repo/russell_lab/src/matrix/num_matrix.rs) and of the two-dimensional
array sources `AsArray2D` (/repo/russell_lab/src/base/as_array.rs). The conversion `U: Into<T>` is a function `conv`.
-/

namespace Russell.Lab

open Russell Russell.Res Russell.Sparse

variable {α β : Type}

/-- A source of a two-dimensional array, `trait AsArray2D` (/repo/russell_lab/src/base/as_array.rs:179-193): both methods
may panic. -/
structure Array2D (β : Type) where
  size : Res (Nat × Nat)
  at_ : Nat → Nat → Res β

/-- `impl AsArray2D for Vec<Vec<U>>`, `&[&[U]]`, `[[U; N]; M]` (/repo/russell_lab/src/base/as_array.rs:205-254): the number
of columns is the length of the first row. -/
def Array2D.ofRows (rows : List (List β)) : Array2D β where
  size := do
    let r0 ← vget rows 0
    ok (rows.length, r0.length)
  at_ i j := do
    let r ← vget rows i
    vget r j

/-- `impl AsArray2D for NumMatrix` (/repo/russell_lab/src/matrix/num_matrix.rs:1038-1050) -/
def Array2D.ofMatrix (a : NumMatrix β) : Array2D β where
  size := ok (a.nrow, a.ncol)
  at_ := a.get

namespace NumMatrix

/-- `identity` (/repo/russell_lab/src/matrix/num_matrix.rs:216-227) -/
def identity [Zero α] [One α] (m : Nat) : Res (NumMatrix α) :=
  forRange 0 m (NumMatrix.new m m) fun i a => a.set i i 1

/-- `initialized` (/repo/russell_lab/src/matrix/num_matrix.rs:268-277); `p % nrow` panics for `nrow = 0`, but then no `p` is
visited. -/
def initialized (nrow ncol : Nat) (function : Nat → Nat → α) : NumMatrix α :=
  { nrow, ncol, data := (List.range (nrow * ncol)).map fun p => function (p % nrow) (p / nrow) }

/-- the dimensions used by `from`, `from_lower`, `from_upper`: an array without columns has no rows -/
def srcDims (data : Array2D β) : Res (Nat × Nat) := do
  let (nrow, ncol) ← data.size
  ok (if ncol = 0 then 0 else nrow, ncol)

/-- `from` (/repo/russell_lab/src/matrix/num_matrix.rs:339-359) -/
def fromArray [Zero α] (conv : β → α) (data : Array2D β) : Res (NumMatrix α) := do
  let (nrow, ncol) ← srcDims data
  forRange 0 nrow (NumMatrix.new nrow ncol) fun i a =>
    forRange 0 ncol a fun j a => do
      let x ← data.at_ i j
      a.set i j (conv x)

/-- `from_lower` (/repo/russell_lab/src/matrix/num_matrix.rs:392-415) -/
def fromLower [Zero α] (conv : β → α) (data : Array2D β) : Res (NumMatrix α) := do
  let (nrow, ncol) ← srcDims data
  if nrow ≠ ncol then err "the matrix must be square to set lower triangle"
  else
    forRange 0 nrow (NumMatrix.new nrow ncol) fun i a =>
      forRange 0 (i + 1) a fun j a => do
        let x ← data.at_ i j
        a.set i j (conv x)

/-- `from_upper` (/repo/russell_lab/src/matrix/num_matrix.rs:448-471) -/
def fromUpper [Zero α] (conv : β → α) (data : Array2D β) : Res (NumMatrix α) := do
  let (nrow, ncol) ← srcDims data
  if nrow ≠ ncol then err "the matrix must be square to set upper triangle"
  else
    forRange 0 nrow (NumMatrix.new nrow ncol) fun i a =>
      forRange i nrow a fun j a => do
        let x ← data.at_ i j
        a.set i j (conv x)

/-- `diagonal` (/repo/russell_lab/src/matrix/num_matrix.rs:487-499) -/
def diagonal [Zero α] (data : List α) : Res (NumMatrix α) :=
  forRange 0 data.length (NumMatrix.new data.length data.length) fun i a => do
    let x ← vget data i
    a.set i i x

/-- `extract_row` (/repo/russell_lab/src/matrix/num_matrix.rs:867-873) -/
def extractRow [Zero α] (a : NumMatrix α) (i : Nat) : Res (List α) :=
  forRange 0 a.ncol (List.replicate a.ncol 0) fun j res => do
    let x ← a.get i j
    vset res j x

/-- `extract_column` (/repo/russell_lab/src/matrix/num_matrix.rs:896-902) -/
def extractColumn [Zero α] (a : NumMatrix α) (j : Nat) : Res (List α) :=
  forRange 0 a.nrow (List.replicate a.nrow 0) fun i res => do
    let x ← a.get i j
    vset res i x

/-- `transposed` (/repo/russell_lab/src/matrix/num_matrix.rs:927-936) -/
def transposed [Zero α] (a : NumMatrix α) : Res (NumMatrix α) :=
  forRange 0 a.nrow (NumMatrix.new a.ncol a.nrow) fun i tt =>
    forRange 0 a.ncol tt fun j tt => do
      let x ← a.get i j
      tt.set j i x

end NumMatrix

/-! ## Vectors as functions -/

/-- `l` is the list `f 0, …, f (n-1)`. -/
structure IsVec (l : List α) (n : Nat) (f : Nat → α) : Prop where
  len : l.length = n
  get : ∀ i, i < n → l[i]? = some (f i)

theorem IsVec.vget {l : List α} {n : Nat} {f : Nat → α} (h : IsVec l n f) {i : Nat} (hi : i < n) :
    vget l i = ok (f i) := vget_of (h.get i hi)

theorem IsVec.vset {l : List α} {n : Nat} {f : Nat → α} (h : IsVec l n f) {i : Nat} (hi : i < n) (x : α) :
    ∃ l', Russell.vset l i x = ok l' ∧ IsVec l' n (fun k => if k = i then x else f k) := by
  refine ⟨l.set i x, vset_lt _ (by rw [h.len]; exact hi), by simp [h.len], ?_⟩
  intro k hk
  rw [List.getElem?_set]
  by_cases hki : k = i
  · subst hki; simp [h.len, hk]
  · rw [if_neg (fun e => hki e.symm), h.get k hk]; simp [hki]

theorem IsVec.congr {l : List α} {n : Nat} {f g : Nat → α} (h : IsVec l n f) (hfg : ∀ i, i < n → f i = g i) :
    IsVec l n g := ⟨h.len, fun i hi => by rw [h.get i hi, hfg i hi]⟩

theorem isVec_replicate (n : Nat) (x : α) : IsVec (List.replicate n x) n (fun _ => x) :=
  ⟨by simp, fun i hi => by simp [hi]⟩

theorem IsVec.unique {l l' : List α} {n : Nat} {f : Nat → α} (h : IsVec l n f) (h' : IsVec l' n f) : l = l' := by
  apply List.ext_getElem?
  intro k
  by_cases hk : k < n
  · rw [h.get k hk, h'.get k hk]
  · rw [List.getElem?_eq_none (by rw [h.len]; omega), List.getElem?_eq_none (by rw [h'.len]; omega)]

theorem isVec_self (l : List α) (d : α) : IsVec l l.length (fun i => l.getD i d) :=
  ⟨rfl, fun i hi => by simp [hi]⟩

theorem isVec_map_range (n : Nat) (f : Nat → α) : IsVec ((List.range n).map f) n f :=
  ⟨by simp, fun i hi => by simp [hi]⟩

/-- A loop `for k in lo..hi { l[k] = g(k) }`. -/
theorem fillVec {n lo hi : Nat} {f : Nat → α} {g : Nat → α} {l : List α} (h : IsVec l n f) (hhi : hi ≤ n)
    {body : Nat → List α → Res (List α)}
    (hb : ∀ k l f', lo ≤ k → k < hi → IsVec l n f' → (∀ t, k ≤ t → f' t = f t) → body k l = Russell.vset l k (g k)) :
    ∃ l', forRange lo hi l body = ok l' ∧ IsVec l' n (fun i => if lo ≤ i ∧ i < hi then g i else f i) := by
  by_cases hle : lo ≤ hi
  · obtain ⟨l', h1, h2⟩ := forRange_spec (f := body)
      (fun k l => IsVec l n (fun i => if lo ≤ i ∧ i < k then g i else f i)) hle (s := l)
      (h.congr (fun i _ => by rw [if_neg (by omega)]))
      (by
        intro k s hk hk' hI
        obtain ⟨s', e, hv⟩ := hI.vset (i := k) (by omega) (g k)
        refine ⟨s', ?_, hv.congr ?_⟩
        · rw [hb k s _ hk hk' hI (fun t ht => by rw [if_neg (by omega)])]; exact e
        · intro i _
          by_cases hik : i = k
          · subst hik; simp [hk]
          · rw [if_neg hik]
            by_cases h3 : lo ≤ i ∧ i < k
            · rw [if_pos h3, if_pos (by omega)]
            · rw [if_neg h3, if_neg (by omega)])
    exact ⟨l', h1, h2⟩
  · exact ⟨l, forRange_empty (by omega), h.congr (fun i _ => by rw [if_neg (by omega)])⟩

/-! ## Nested filling loops -/

open Classical in
/-- Two nested loops that write, for each `(k,l)`, the value `h (ρ k l) (κ k l)` at position `(ρ k l, κ k l)`. -/
theorem setLoop {M m n : Nat} {lo hi : Nat → Nat} {ρ κ : Nat → Nat → Nat} {h f : Nat → Nat → α}
    {body : Nat → Nat → NumMatrix α → Res (NumMatrix α)}
    (hb : ∀ k l a, k < M → lo k ≤ l → l < hi k → body k l a = a.set (ρ k l) (κ k l) (h (ρ k l) (κ k l)))
    (hρ : ∀ k l, k < M → lo k ≤ l → l < hi k → ρ k l < m)
    (hκ : ∀ k l, k < M → lo k ≤ l → l < hi k → κ k l < n)
    {a : NumMatrix α} (ha : IsDense a m n f) :
    ∃ a', forRange 0 M a (fun k a => forRange (lo k) (hi k) a (body k)) = ok a' ∧
      IsDense a' m n (fun r c => if ∃ k l, k < M ∧ lo k ≤ l ∧ l < hi k ∧ ρ k l = r ∧ κ k l = c then h r c else f r c) := by
  have inner : ∀ k, k < M → ∀ (a : NumMatrix α) (g : Nat → Nat → α), IsDense a m n g →
      ∃ a', forRange (lo k) (hi k) a (body k) = ok a' ∧
        IsDense a' m n (fun r c => if ∃ l, lo k ≤ l ∧ l < hi k ∧ ρ k l = r ∧ κ k l = c then h r c else g r c) := by
    intro k hk a g ha
    by_cases hle : lo k ≤ hi k
    · obtain ⟨a', e, hd⟩ := forRange_spec (f := body k)
        (fun t a => IsDense a m n
          (fun r c => if ∃ l, lo k ≤ l ∧ l < t ∧ ρ k l = r ∧ κ k l = c then h r c else g r c)) hle (s := a)
        (ha.congr (fun r c _ _ => by
          rw [if_neg]; rintro ⟨l, h1, h2, _⟩; omega))
        (by
          intro t a ht ht' hI
          obtain ⟨a', e, hd⟩ := hI.set (hρ k t hk ht ht') (hκ k t hk ht ht') (h (ρ k t) (κ k t))
          refine ⟨a', by rw [hb k t a hk ht ht']; exact e, hd.congr ?_⟩
          intro r c _ _
          by_cases h1 : r = ρ k t ∧ c = κ k t
          · rw [if_pos h1, if_pos ⟨t, ht, by omega, h1.1.symm, h1.2.symm⟩, h1.1, h1.2]
          · rw [if_neg h1]
            by_cases h2 : ∃ l, lo k ≤ l ∧ l < t ∧ ρ k l = r ∧ κ k l = c
            · obtain ⟨l, a1, a2, a3⟩ := h2
              rw [if_pos ⟨l, a1, a2, a3⟩, if_pos ⟨l, a1, by omega, a3⟩]
            · rw [if_neg h2, if_neg]
              rintro ⟨l, a1, a2, a3, a4⟩
              by_cases hlt : l = t
              · subst hlt; exact h1 ⟨a3.symm, a4.symm⟩
              · exact h2 ⟨l, a1, by omega, a3, a4⟩)
      exact ⟨a', e, hd⟩
    · exact ⟨a, forRange_empty (by omega), ha.congr (fun r c _ _ => by
        rw [if_neg]; rintro ⟨l, h1, h2, _⟩; omega)⟩
  obtain ⟨a', e, hd⟩ := forRange_spec (f := fun k a => forRange (lo k) (hi k) a (body k))
    (fun t a => IsDense a m n
      (fun r c => if ∃ k l, k < t ∧ lo k ≤ l ∧ l < hi k ∧ ρ k l = r ∧ κ k l = c then h r c else f r c))
    (Nat.zero_le M) (s := a)
    (ha.congr (fun r c _ _ => by rw [if_neg]; rintro ⟨k, l, h1, _⟩; omega))
    (by
      intro t a _ ht hI
      obtain ⟨a', e, hd⟩ := inner t ht a _ hI
      refine ⟨a', e, hd.congr ?_⟩
      intro r c _ _
      by_cases h1 : ∃ l, lo t ≤ l ∧ l < hi t ∧ ρ t l = r ∧ κ t l = c
      · obtain ⟨l, a1⟩ := h1
        rw [if_pos ⟨l, a1⟩, if_pos ⟨t, l, by omega, a1⟩]
      · rw [if_neg h1]
        by_cases h2 : ∃ k l, k < t ∧ lo k ≤ l ∧ l < hi k ∧ ρ k l = r ∧ κ k l = c
        · obtain ⟨k, l, a1, a2⟩ := h2
          rw [if_pos ⟨k, l, a1, a2⟩, if_pos ⟨k, l, by omega, a2⟩]
        · rw [if_neg h2, if_neg]
          rintro ⟨k, l, a1, a2⟩
          by_cases hkt : k = t
          · subst hkt; exact h1 ⟨l, a2⟩
          · exact h2 ⟨k, l, by omega, a2⟩)
  exact ⟨a', e, hd⟩

/-! ## The array laws -/

/-- **C23** (storage). `NumMatrix::new(m,n)` and `filled(m,n,x)` have `m·n` stored values, entry `(i,j)` is stored at
position `i + j·m < m·n`, distinct in-range entries at distinct positions. -/
theorem C23_new_filled [Zero α] (m n : Nat) (x : α) :
    IsDense (NumMatrix.new m n : NumMatrix α) m n (fun _ _ => 0) ∧ IsDense (NumMatrix.filled m n x) m n (fun _ _ => x) ∧
    (∀ i j, i < m → j < n → i + j * m < m * n) ∧
    (∀ i j i' j', i < m → i' < m → (i + j * m = i' + j' * m ↔ i = i' ∧ j = j')) := by
  refine ⟨isDense_new m n, ?_, fun i j => lin_lt, fun i j i' j' => lin_inj⟩
  refine ⟨rfl, rfl, by simp [NumMatrix.filled], ?_⟩
  intro r c hr hc
  have := lin_lt hr hc
  rw [NumMatrix.get]
  apply vget_of
  simp only [NumMatrix.filled]
  rw [List.getElem?_replicate, if_pos (by omega)]

/-- **C23** (writing). On an `m × n` matrix with entries `f`, `set(i,j,x)` with in-range indices succeeds, afterwards
`get(i,j)` gives `x` and every other in-range entry is unchanged; `add` and `mul` modify the same single entry. -/
theorem C23_set_get [Add α] [Mul α] {a : NumMatrix α} {m n : Nat} {f : Nat → Nat → α} (ha : IsDense a m n f)
    {i j : Nat} (hi : i < m) (hj : j < n) (x : α) :
    (∃ a', a.set i j x = ok a' ∧ a'.get i j = ok x ∧
      ∀ r c, r < m → c < n → (r, c) ≠ (i, j) → a'.get r c = a.get r c) ∧
    (∃ a', a.add i j x = ok a' ∧ a'.get i j = ok (f i j + x) ∧
      ∀ r c, r < m → c < n → (r, c) ≠ (i, j) → a'.get r c = a.get r c) ∧
    (∃ a', a.mul i j x = ok a' ∧ a'.get i j = ok (f i j * x) ∧
      ∀ r c, r < m → c < n → (r, c) ≠ (i, j) → a'.get r c = a.get r c) := by
  have key : ∀ y, ∃ a', a.set i j y = ok a' ∧ a'.get i j = ok y ∧
      ∀ r c, r < m → c < n → (r, c) ≠ (i, j) → a'.get r c = a.get r c := by
    intro y
    obtain ⟨a', e, hd⟩ := ha.set hi hj y
    refine ⟨a', e, by rw [hd.get i j hi hj]; simp, ?_⟩
    intro r c hr hc hne
    rw [hd.get r c hr hc, ha.get r c hr hc, if_neg]
    rintro ⟨rfl, rfl⟩; exact hne rfl
  have e0 : vget a.data (i + j * a.nrow) = ok (f i j) := ha.get i j hi hj
  refine ⟨key x, ?_, ?_⟩
  · obtain ⟨a', e, h⟩ := key (f i j + x)
    exact ⟨a', by simpa [NumMatrix.add, NumMatrix.set, e0] using e, h⟩
  · obtain ⟨a', e, h⟩ := key (f i j * x)
    exact ⟨a', by simpa [NumMatrix.mul, NumMatrix.set, e0] using e, h⟩

/-- **C23** `initialized(m,n,f)` has the entries `f(i,j)`. -/
theorem C23_initialized (m n : Nat) (f : Nat → Nat → α) : IsDense (NumMatrix.initialized m n f) m n f := by
  refine ⟨rfl, rfl, by simp [NumMatrix.initialized], ?_⟩
  intro r c hr hc
  rw [NumMatrix.get]
  apply vget_of
  have hlt := lin_lt hr hc
  simp only [NumMatrix.initialized]
  rw [List.getElem?_map, List.getElem?_range hlt]
  have e1 : (r + c * m) % m = r := by rw [Nat.add_mul_mod_self_right, Nat.mod_eq_of_lt hr]
  have e2 : (r + c * m) / m = c := by
    rw [Nat.add_mul_div_right _ _ (by omega : 0 < m), Nat.div_eq_of_lt hr]; omega
  simp [e1, e2]

/-- **C23** `identity(m)` succeeds and is the identity matrix; `diagonal(d)` is the diagonal matrix with the given
entries. -/
theorem C23_identity_diagonal [Zero α] [One α] (m : Nat) (d : List α) :
    (∃ a, (NumMatrix.identity m : Res (NumMatrix α)) = ok a ∧ IsDense a m m (fun r c => if r = c then 1 else 0)) ∧
    (∃ a, NumMatrix.diagonal d = ok a ∧
      IsDense a d.length d.length (fun r c => if r = c then d.getD r 0 else 0)) := by
  have key : ∀ (m : Nat) (g : Nat → α) (body : Nat → NumMatrix α → Res (NumMatrix α)),
      (∀ i a, i < m → body i a = a.set i i (g i)) →
      ∃ a, forRange 0 m (NumMatrix.new m m) body = ok a ∧ IsDense a m m (fun r c => if r = c then g r else 0) := by
    intro m g body hb
    obtain ⟨a, e, hd⟩ := forRange_spec (f := body)
      (fun k a => IsDense a m m (fun r c => if r = c ∧ r < k then g r else 0)) (Nat.zero_le m) (s := NumMatrix.new m m)
      ((isDense_new m m).congr (fun r c _ _ => by rw [if_neg (by omega)]))
      (by
        intro k a _ hk hI
        obtain ⟨a', e, hd⟩ := hI.set hk hk (g k)
        refine ⟨a', by rw [hb k a hk]; exact e, hd.congr ?_⟩
        intro r c _ _
        by_cases h1 : r = k ∧ c = k
        · obtain ⟨rfl, rfl⟩ := h1; simp
        · rw [if_neg h1]
          by_cases h2 : r = c ∧ r < k
          · rw [if_pos h2, if_pos (by omega)]
          · rw [if_neg h2, if_neg (by omega)])
    exact ⟨a, e, hd.congr (fun r c hr _ => by simp [hr])⟩
  refine ⟨key m (fun _ => 1) _ (fun _ _ _ => rfl), ?_⟩
  exact key d.length (fun r => d.getD r 0) _ (fun i a hi => by simp [vget_lt hi, hi])

/-- the source `data` is an `m × n` array (`n > 0`) with entries `g` -/
structure IsSource (data : Array2D β) (m n : Nat) (g : Nat → Nat → β) : Prop where
  size : data.size = ok (m, n)
  at_ : ∀ i j, i < m → j < n → data.at_ i j = ok (g i j)

theorem IsSource.srcDims {data : Array2D β} {m n : Nat} {g : Nat → Nat → β} (h : IsSource data m n g) :
    NumMatrix.srcDims data = ok (if n = 0 then 0 else m, n) := by
  simp [NumMatrix.srcDims, h.size]

/-- **C23** `from(data)` on an `m × n` source gives the matrix of the converted entries (and the empty matrix when the
source has no columns). -/
theorem C23_from [Zero α] (conv : β → α) {data : Array2D β} {m n : Nat} {g : Nat → Nat → β} (h : IsSource data m n g) :
    ∃ a, NumMatrix.fromArray conv data = ok a ∧ IsDense a (if n = 0 then 0 else m) n (fun i j => conv (g i j)) := by
  obtain ⟨a, e, hd⟩ := setLoop (M := if n = 0 then 0 else m) (m := if n = 0 then 0 else m) (n := n) (lo := fun _ => 0)
    (hi := fun _ => n) (ρ := fun k _ => k) (κ := fun _ l => l) (h := fun i j => conv (g i j)) (f := fun _ _ => 0)
    (body := fun i j a => do
      let x ← data.at_ i j
      a.set i j (conv x))
    (by
      intro k l a hk _ hl
      have hk' : k < m := by split at hk <;> omega
      simp [h.at_ k l hk' hl])
    (fun k l hk _ _ => hk) (fun k l _ _ hl => hl) (isDense_new _ _)
  refine ⟨a, by simp only [NumMatrix.fromArray, h.srcDims, ok_bind]; exact e, hd.congr ?_⟩
  intro r c hr hc
  rw [if_pos ⟨r, c, hr, Nat.zero_le _, hc, rfl, rfl⟩]

/-- **C23** `from_lower`/`from_upper` on an `m × n` source: an error exactly when the (effective) dimensions differ;
otherwise the lower (upper) triangle is copied and the rest is zero. -/
theorem C23_from_triangle [Zero α] (conv : β → α) {data : Array2D β} {m n : Nat} {g : Nat → Nat → β}
    (h : IsSource data m n g) :
    (n ≠ 0 → m ≠ n →
      NumMatrix.fromLower conv data = err "the matrix must be square to set lower triangle" ∧
      NumMatrix.fromUpper conv data = err "the matrix must be square to set upper triangle") ∧
    (n = 0 ∨ m = n →
      (∃ a, NumMatrix.fromLower conv data = ok a ∧ IsDense a n n (fun i j => if j ≤ i then conv (g i j) else 0)) ∧
      (∃ a, NumMatrix.fromUpper conv data = ok a ∧ IsDense a n n (fun i j => if i ≤ j then conv (g i j) else 0))) := by
  constructor
  · intro h0 hne
    simp [NumMatrix.fromLower, NumMatrix.fromUpper, h.srcDims, h0, hne]
  · intro hmn
    have hdim : (if n = 0 then 0 else m) = n := by split <;> omega
    have key : ∀ lo hi : Nat → Nat, (∀ k, k < n → hi k ≤ n) →
        ∃ a, (forRange 0 n (NumMatrix.new n n) fun i a => forRange (lo i) (hi i) a fun j a => do
            let x ← data.at_ i j
            a.set i j (conv x)) = ok a ∧
          IsDense a n n (fun i j => if lo i ≤ j ∧ j < hi i then conv (g i j) else 0) := by
      intro lo hi hhi
      obtain ⟨a, e, hd⟩ := setLoop (M := n) (m := n) (n := n) (lo := lo)
        (hi := hi) (ρ := fun k _ => k) (κ := fun _ l => l) (h := fun i j => conv (g i j)) (f := fun _ _ => 0)
        (body := fun i j a => do
          let x ← data.at_ i j
          a.set i j (conv x))
        (by
          intro k l a hk hl hl'
          have := hhi k hk
          simp [h.at_ k l (by omega) (by omega)])
        (fun k l hk _ _ => hk) (fun k l hk _ hl => by have := hhi k hk; omega) (isDense_new _ _)
      refine ⟨a, e, hd.congr ?_⟩
      intro r c hr hc
      by_cases h1 : lo r ≤ c ∧ c < hi r
      · rw [if_pos h1, if_pos ⟨r, c, hr, h1.1, h1.2, rfl, rfl⟩]
      · rw [if_neg h1, if_neg]
        rintro ⟨k, l, _, a2, a3, rfl, rfl⟩
        exact h1 ⟨a2, a3⟩
    constructor
    · obtain ⟨a, e, hd⟩ := key (fun _ => 0) (fun i => i + 1) (fun k hk => hk)
      refine ⟨a, ?_, hd.congr ?_⟩
      · simp only [NumMatrix.fromLower, h.srcDims, ok_bind, hdim]; simpa using e
      · intro r c _ _
        by_cases h1 : c ≤ r
        · rw [if_pos h1, if_pos (by omega)]
        · rw [if_neg h1, if_neg (by omega)]
    · obtain ⟨a, e, hd⟩ := key (fun i => i) (fun _ => n) (fun k hk => Nat.le_refl _)
      refine ⟨a, ?_, hd.congr ?_⟩
      · simp only [NumMatrix.fromUpper, h.srcDims, ok_bind, hdim]; simpa using e
      · intro r c _ hc
        by_cases h1 : r ≤ c
        · rw [if_pos h1, if_pos (by omega)]
        · rw [if_neg h1, if_neg (by omega)]

/-- **C23** The sources: nested rows that are all at least as long as the first row form an array; a matrix is an array of
its entries. -/
theorem C23_sources (rows : List (List β)) (d : β) (h0 : rows ≠ [])
    (hlen : ∀ r ∈ rows, (rows.headD []).length ≤ r.length) {a : NumMatrix β} {m n : Nat} {f : Nat → Nat → β}
    (ha : IsDense a m n f) :
    IsSource (Array2D.ofRows rows) rows.length (rows.headD []).length (fun i j => (rows.getD i []).getD j d) ∧
    IsSource (Array2D.ofMatrix a) m n f := by
  refine ⟨?_, ⟨by simp [Array2D.ofMatrix, ha.nrow, ha.ncol], fun i j hi hj => ha.get i j hi hj⟩⟩
  obtain ⟨r0, rs, rfl⟩ := List.exists_cons_of_ne_nil h0
  refine ⟨by simp [Array2D.ofRows, vget], ?_⟩
  intro i j hi hj
  have h1 : j < ((r0 :: rs)[i]).length := Nat.lt_of_lt_of_le hj (hlen _ (List.getElem_mem hi))
  simp only [Array2D.ofRows, vget_lt hi, ok_bind, vget_lt h1]
  rw [List.getD_eq_getElem?_getD, List.getD_eq_getElem?_getD, List.getElem?_eq_getElem hi, Option.getD_some,
    List.getElem?_eq_getElem h1, Option.getD_some]

/-- **C23** `transposed` has the entries `(i,j) ↦ a(j,i)`; transposing twice gives the matrix back. -/
theorem C23_transposed [Zero α] {a : NumMatrix α} {m n : Nat} {f : Nat → Nat → α} (ha : IsDense a m n f) :
    ∃ t, a.transposed = ok t ∧ IsDense t n m (fun i j => f j i) ∧ t.transposed = ok a := by
  have key : ∀ {a : NumMatrix α} {m n : Nat} {f : Nat → Nat → α}, IsDense a m n f →
      ∃ t, a.transposed = ok t ∧ IsDense t n m (fun i j => f j i) := by
    intro a m n f ha
    obtain ⟨t, e, hd⟩ := setLoop (M := m) (m := n) (n := m) (lo := fun _ => 0)
      (hi := fun _ => n) (ρ := fun _ l => l) (κ := fun k _ => k) (h := fun i j => f j i) (f := fun _ _ => 0)
      (body := fun i j tt => do
        let x ← a.get i j
        tt.set j i x)
      (by
        intro k l t hk _ hl
        simp [ha.get k l hk hl])
      (fun k l _ _ hl => hl) (fun k l hk _ _ => hk) (isDense_new _ _)
    refine ⟨t, by simp only [NumMatrix.transposed, ha.nrow, ha.ncol]; exact e, hd.congr ?_⟩
    intro r c hr hc
    rw [if_pos ⟨c, r, hc, Nat.zero_le _, hr, rfl, rfl⟩]
  obtain ⟨t, e, hd⟩ := key ha
  obtain ⟨t2, e2, hd2⟩ := key hd
  refine ⟨t, e, hd, ?_⟩
  rw [e2, hd2.unique ha]

/-- **C23** `extract_row(i)` and `extract_column(j)` return the entries of the row and of the column. -/
theorem C23_extract [Zero α] {a : NumMatrix α} {m n : Nat} {f : Nat → Nat → α} (ha : IsDense a m n f) :
    (∀ i, i < m → a.extractRow i = ok ((List.range n).map (fun j => f i j))) ∧
    (∀ j, j < n → a.extractColumn j = ok ((List.range m).map (fun i => f i j))) := by
  constructor
  · intro i hi
    obtain ⟨l, e, hv⟩ := fillVec (lo := 0) (hi := n) (g := fun j => f i j) (isVec_replicate n (0 : α)) (Nat.le_refl n)
      (body := fun j res => do
        let x ← a.get i j
        vset res j x)
      (by intro k l f' _ hk _ _; simp [ha.get i k hi hk])
    simp only [NumMatrix.extractRow, ha.ncol]
    rw [e, (hv.congr (g := fun j => f i j) (fun j hj => by simp [hj])).unique (isVec_map_range n _)]
  · intro j hj
    obtain ⟨l, e, hv⟩ := fillVec (lo := 0) (hi := m) (g := fun i => f i j) (isVec_replicate m (0 : α)) (Nat.le_refl m)
      (body := fun i res => do
        let x ← a.get i j
        vset res i x)
      (by intro k l f' _ hk _ _; simp [ha.get k j hk hj])
    simp only [NumMatrix.extractColumn, ha.nrow]
    rw [e, (hv.congr (g := fun i => f i j) (fun j hj => by simp [hj])).unique (isVec_map_range m _)]

/-- **C23** Only the linear index is checked: reading an out-of-range *row* of an in-range column does not panic but gives
the value of another entry (documented as "may panic"), e.g. `a(2,0)` of a 2×2 matrix is `a(0,1)`. -/
theorem C23_row_alias_counterexample :
    (NumMatrix.mk 2 2 [1, 2, 3, 4] : NumMatrix Int).get 2 0 = (NumMatrix.mk 2 2 [1, 2, 3, 4] : NumMatrix Int).get 0 1 := by
  decide

/-- a concrete 2×3 matrix and its transpose -/
example : (NumMatrix.fromArray (fun x => x) (Array2D.ofRows [[1, 2, 3], [4, 5, 6]]) : Res (NumMatrix Int)) =
    ok ⟨2, 3, [1, 4, 2, 5, 3, 6]⟩ ∧
    (NumMatrix.transposed ⟨2, 3, [1, 4, 2, 5, 3, 6]⟩ : Res (NumMatrix Int)) = ok ⟨3, 2, [1, 2, 3, 4, 5, 6]⟩ := by
  decide

example : IsSource (Array2D.ofRows [[1, 2, 3], [4, 5, 6]]) 2 3 (fun i j => ([[1, 2, 3], [4, 5, 6]].getD i []).getD j 0) :=
  (C23_sources (a := NumMatrix.new 0 0) (m := 0) (n := 0) (f := fun _ _ => 0) [[1, 2, 3], [4, 5, 6]] 0 (by decide)
    (by decide) (isDense_new 0 0)).1

end Russell.Lab
