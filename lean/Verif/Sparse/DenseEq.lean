import Verif.Sparse.Transpose

/-!
# The dense matrix in terms of groups, and sorting by groups
-/

namespace Russell.Sparse

open Russell Russell.Res Russell.Lab

variable {α : Type}

/-- the values stored at position `(i,j)`, in order -/
def atPos (es : List (Entry α)) (i j : Nat) : List α := grp (grp es i) j

theorem atPos_nil (i j : Nat) : atPos ([] : List (Entry α)) i j = [] := rfl

theorem atPos_cons (e : Entry α) (es : List (Entry α)) (i j : Nat) :
    atPos (e :: es) i j = if e.1 = i ∧ e.2.1 = j then e.2.2 :: atPos es i j else atPos es i j := by
  unfold atPos
  rw [grp_cons]
  by_cases h1 : e.1 = i
  · rw [if_pos h1, grp_cons]
    by_cases h2 : e.2.1 = j <;> simp [h1, h2]
  · simp [h1]

theorem mem_atPos {es : List (Entry α)} {i j : Nat} {x : α} : x ∈ atPos es i j ↔ (i, j, x) ∈ es := by
  unfold atPos; rw [mem_grp, mem_grp]

/-- the position at which the value of `(r,c)` is stored -/
def norm (sym : Sym) (r c : Nat) : Nat × Nat :=
  match sym with
  | .yesLower => if c ≤ r then (r, c) else (c, r)
  | .yesUpper => if r ≤ c then (r, c) else (c, r)
  | _ => (r, c)

theorem hits_norm {sym : Sym} {e : Entry α} {r c : Nat} (h : InTriangle sym e.1 e.2.1) :
    Hits sym e r c ↔ e.1 = (norm sym r c).1 ∧ e.2.1 = (norm sym r c).2 := by
  obtain ⟨i, j, x⟩ := e
  obtain ⟨h1, h2⟩ := h
  simp only [Hits]
  cases sym
  · simp [norm]
  · simp [norm]
  · have := h1 rfl
    simp only at this
    simp only [norm]
    split <;> simp <;> omega
  · have := h2 rfl
    simp only at this
    simp only [norm]
    split <;> simp <;> omega

/-- For entries in the stored triangle the dense value is the left-to-right sum of the values stored at one position. -/
theorem denseOf_atPos [Zero α] [Add α] (sym : Sym) {es : List (Entry α)} (h : ∀ e ∈ es, InTriangle sym e.1 e.2.1)
    (r c : Nat) : denseOf sym es r c = (atPos es (norm sym r c).1 (norm sym r c).2).foldl (· + ·) 0 := by
  unfold denseOf
  generalize (0 : α) = z
  induction es generalizing z with
  | nil => rfl
  | cons e es ih =>
    have ih := ih (fun e he => h e (List.mem_cons_of_mem _ he))
    rw [List.foldl_cons, ih, atPos_cons]
    simp only [hits_norm (h e List.mem_cons_self)]
    split <;> rfl

/-- In a commutative monoid the dense value splits into the two positions, for arbitrary entries. -/
theorem denseOf_split [AddCommMonoid α] (sym : Sym) (es : List (Entry α)) (r c : Nat) :
    denseOf sym es r c = (atPos es r c).sum + if sym.triangular = true ∧ r ≠ c then (atPos es c r).sum else 0 := by
  rw [denseOf_eq_sum]
  induction es with
  | nil => simp [atPos_nil]
  | cons e es ih =>
    rw [List.map_cons, List.sum_cons, ih, atPos_cons, atPos_cons]
    obtain ⟨i, j, x⟩ := e
    simp only [Hits, ← Sym.triangular_iff]
    by_cases h1 : i = r ∧ j = c
    · obtain ⟨rfl, rfl⟩ := h1
      by_cases h2 : sym.triangular = true ∧ i ≠ j
      · have : ¬ (i = j ∧ j = i) := fun hh => h2.2 hh.1
        simp [h2, this, add_assoc]
      · simp [h2, add_assoc]
    · by_cases h2 : sym.triangular = true ∧ r ≠ c
      · by_cases h3 : i = c ∧ j = r
        · simp [h1, h2, h3, add_left_comm]
        · simp [h1, h2, h3]
      · by_cases h3 : i = c ∧ j = r
        · obtain ⟨rfl, rfl⟩ := h3
          have : ¬ sym.triangular = true := fun hh => h2 ⟨hh, fun he => h1 ⟨he.symm, he⟩⟩
          simp [h1, h2, this]
        · simp [h1, h2, h3]

theorem denseOf_congr_atPos [AddCommMonoid α] (sym : Sym) {es es' : List (Entry α)}
    (h : ∀ i j, (atPos es i j).sum = (atPos es' i j).sum) (r c : Nat) : denseOf sym es r c = denseOf sym es' r c := by
  rw [denseOf_split, denseOf_split, h, h]

/-! ## Positions of rows and columns -/

theorem grp_map_key {β : Type} (row : List (Nat × β)) (k i : Nat) :
    grp (row.map fun e => (e.1, (k, e.2))) i = (grp row i).map fun x => (k, x) := by
  exact grp_map (fun x => (k, x)) row i

theorem atPos_swapTag (row : Nat → List (Nat × α)) (n j i : Nat) :
    grp (grp (swapTag row n) j) i = if i < n then grp (row i) j else [] := by
  have h : grp (swapTag row n) j = flat (fun k => (grp (row k) j).map fun x => (k, x)) n := by
    rw [swapTag, grp_flat]
    congr 1
    funext k
    exact grp_map_key _ _ _
  rw [h, grp_tag]

theorem grp_transp (row : Nat → List (Nat × α)) (n j i : Nat) :
    grp (transp row n j) i = if i < n then grp (row i) j else [] := atPos_swapTag row n j i

theorem transp_eq_flat (row : Nat → List (Nat × α)) (n j : Nat) :
    transp row n j = flat (fun k => (grp (row k) j).map fun x => (k, x)) n := by
  rw [transp, swapTag, grp_flat]
  congr 1
  funext k
  exact grp_map_key _ _ _

theorem atPos_rowEntries (row : Nat → List (Nat × α)) (n i j : Nat) :
    atPos (rowEntries row n) i j = if i < n then grp (row i) j else [] := by
  unfold atPos rowEntries
  rw [show (fun i => (row i).map fun e => (i, e.1, e.2)) = fun i => (row i).map fun e => (i, e) from rfl, grp_tag]
  split <;> rfl

theorem atPos_colEntries (col : Nat → List (Nat × α)) (n i j : Nat) :
    atPos (colEntries col n) i j = if j < n then grp (col j) i else [] := atPos_swapTag col n i j

theorem mem_rowEntries {row : Nat → List (Nat × α)} {n : Nat} {e : Entry α} :
    e ∈ rowEntries row n ↔ e.1 < n ∧ e.2 ∈ row e.1 := by
  unfold rowEntries
  rw [mem_flat]
  constructor
  · rintro ⟨i, hi, h⟩
    obtain ⟨e', he', rfl⟩ := List.mem_map.1 h
    exact ⟨hi, he'⟩
  · rintro ⟨h1, h2⟩
    exact ⟨e.1, h1, List.mem_map.2 ⟨_, h2, rfl⟩⟩

theorem mem_colEntries {col : Nat → List (Nat × α)} {n : Nat} {e : Entry α} :
    e ∈ colEntries col n ↔ e.2.1 < n ∧ (e.1, e.2.2) ∈ col e.2.1 := swapTag_mem

/-! ## Stable sorting -/

theorem grp_eq_filter {β : Type} (l : List (Nat × β)) (j : Nat) :
    (grp l j).map (fun x => (j, x)) = l.filter fun e => e.1 = j := by
  induction l with
  | nil => rfl
  | cons e l ih =>
    rw [grp_cons, List.filter_cons]
    by_cases h : e.1 = j
    · subst h; simp [ih]
    · simp [h, ih]

theorem sortRow_perm (row : List (Nat × α)) : (sortRow row).Perm row := List.mergeSort_perm _ _

theorem sortRow_sorted (row : List (Nat × α)) : (sortRow row).Pairwise fun a b => a.1 ≤ b.1 := by
  have := List.pairwise_mergeSort (le := fun a b : Nat × α => decide (a.1 ≤ b.1))
    (by intro a b c; simp; omega) (by intro a b; simp; omega) row
  unfold sortRow
  exact this.imp (by simp)

/-- sorting keeps the order of entries of the same column -/
theorem grp_sortRow (row : List (Nat × α)) (j : Nat) : grp (sortRow row) j = grp row j := by
  have h1 : (row.filter fun e => e.1 = j).Sublist (sortRow row) := by
    unfold sortRow
    apply List.sublist_mergeSort (by intro a b c; simp; omega) (by intro a b; simp; omega)
    · apply List.Pairwise.imp_of_mem (R := fun _ _ => True)
      · intro a b ha hb _
        simp at ha hb
        simp; omega
      · exact List.pairwise_of_forall (fun _ _ => trivial)
    · exact List.filter_sublist
  have h2 : (row.filter fun e => e.1 = j).Sublist ((sortRow row).filter fun e => e.1 = j) := by
    have := h1.filter (fun e => decide (e.1 = j))
    simpa using this
  have h3 : (row.filter fun e => e.1 = j).length = ((sortRow row).filter fun e => e.1 = j).length :=
    ((sortRow_perm row).filter _).length_eq.symm
  have h4 := h2.eq_of_length h3
  rw [← grp_eq_filter, ← grp_eq_filter] at h4
  exact (List.map_injective_iff.2 (fun a b h => by simpa using h) h4).symm

/-- A sorted list is determined by its groups. -/
theorem sorted_grp_unique {β : Type} : ∀ {l l' : List (Nat × β)}, (l.Pairwise fun a b => a.1 ≤ b.1) →
    (l'.Pairwise fun a b => a.1 ≤ b.1) → (∀ j, grp l j = grp l' j) → l = l'
  | [], [], _, _, _ => rfl
  | [], b :: t', _, _, h => by
    have := h b.1
    rw [grp_cons, if_pos rfl] at this
    simp at this
  | a :: t, [], _, _, h => by
    have := h a.1
    rw [grp_cons, if_pos rfl] at this
    simp at this
  | a :: t, b :: t', hl, hl', h => by
    have hab : a.1 ≤ b.1 := by
      have : b.2 ∈ grp (a :: t) b.1 := by rw [h, grp_cons, if_pos rfl]; simp
      have := mem_grp.1 this
      rcases List.mem_cons.1 this with h1 | h1
      · rw [← h1]
      · exact (List.pairwise_cons.1 hl).1 _ h1
    have hba : b.1 ≤ a.1 := by
      have : a.2 ∈ grp (b :: t') a.1 := by rw [← h, grp_cons, if_pos rfl]; simp
      have := mem_grp.1 this
      rcases List.mem_cons.1 this with h1 | h1
      · rw [← h1]
      · exact (List.pairwise_cons.1 hl').1 _ h1
    have hk : a.1 = b.1 := by omega
    have h0 := h a.1
    rw [grp_cons, grp_cons, if_pos rfl, if_pos hk.symm] at h0
    simp only [List.cons.injEq] at h0
    have hab : a = b := Prod.ext hk h0.1
    subst hab
    have : t = t' := by
      apply sorted_grp_unique (List.pairwise_cons.1 hl).2 (List.pairwise_cons.1 hl').2
      intro j
      have := h j
      rw [grp_cons, grp_cons] at this
      split at this
      · simpa using this
      · exact this
    rw [this]

theorem sortRow_of_sorted {row : List (Nat × α)} (h : row.Pairwise fun a b => a.1 ≤ b.1) : sortRow row = row :=
  sorted_grp_unique (sortRow_sorted row) h (grp_sortRow row)

/-- rows of tagged blocks are sorted by tag -/
theorem flat_tag_sorted {β : Type} (row : Nat → List β) (n : Nat) :
    (flat (fun k => (row k).map fun x => (k, x)) n).Pairwise fun a b => a.1 ≤ b.1 := by
  induction n with
  | zero => exact List.Pairwise.nil
  | succ n ih =>
    rw [flat_succ, List.pairwise_append]
    refine ⟨ih, ?_, ?_⟩
    · rw [List.pairwise_map]
      exact List.pairwise_of_forall (fun _ _ => Nat.le_refl _)
    · intro a ha b hb
      obtain ⟨i, hi, h⟩ := mem_flat.1 ha
      obtain ⟨x, _, rfl⟩ := List.mem_map.1 h
      obtain ⟨y, _, rfl⟩ := List.mem_map.1 hb
      simp only; omega

/-- rows of tagged blocks with at most one element are strictly sorted by tag -/
theorem flat_tag_strict {β : Type} (row : Nat → List β) (n : Nat) (h1 : ∀ i, i < n → (row i).length ≤ 1) :
    (flat (fun k => (row k).map fun x => (k, x)) n).Pairwise fun a b => a.1 < b.1 := by
  induction n with
  | zero => exact List.Pairwise.nil
  | succ n ih =>
    rw [flat_succ, List.pairwise_append]
    refine ⟨ih (fun i hi => h1 i (by omega)), ?_, ?_⟩
    · have := h1 n (by omega)
      match hr : row n with
      | [] => simp
      | [x] => simp
      | x :: y :: t => rw [hr] at this; simp at this
    · intro a ha b hb
      obtain ⟨i, hi, h⟩ := mem_flat.1 ha
      obtain ⟨x, _, rfl⟩ := List.mem_map.1 h
      obtain ⟨y, _, rfl⟩ := List.mem_map.1 hb
      simp only; omega

theorem transp_sorted (row : Nat → List (Nat × α)) (n j : Nat) : (transp row n j).Pairwise fun a b => a.1 ≤ b.1 := by
  rw [transp_eq_flat]; exact flat_tag_sorted _ _

/-- the double transposition sorts each row, keeping the order of duplicates -/
theorem transp_transp {row : Nat → List (Nat × α)} {n m : Nat} (hcol : ∀ i, i < n → ∀ e ∈ row i, e.1 < m) {i : Nat}
    (hi : i < n) : transp (transp row n) m i = sortRow (row i) := by
  apply sorted_grp_unique (transp_sorted _ _ _) (sortRow_sorted _)
  intro j
  rw [grp_transp, grp_transp, grp_sortRow, if_pos hi]
  by_cases hj : j < m
  · rw [if_pos hj]
  · rw [if_neg hj]
    symm
    rw [List.eq_nil_iff_forall_not_mem]
    intro x hx
    exact hj (hcol i hi _ (mem_grp.1 hx))

/-! ## The conversions keep the matrix -/

/-- the value stored at a position after merging -/
def merged [Add α] (l : List α) : List α :=
  match l with
  | [] => []
  | x :: xs => [xs.foldl (· + ·) x]

theorem merged_length [Add α] (l : List α) : (merged l).length ≤ 1 := by
  unfold merged; split <;> simp

theorem merged_foldl [Zero α] [Add α] (hlaw : ∀ x y : α, 0 + (x + y) = (0 + x) + y) (l : List α) :
    (merged l).foldl (· + ·) 0 = l.foldl (· + ·) 0 := by
  cases l with
  | nil => rfl
  | cons x xs =>
    simp only [merged, List.foldl_cons, List.foldl_nil]
    induction xs generalizing x with
    | nil => rfl
    | cons y ys ih => rw [List.foldl_cons, List.foldl_cons, ih, hlaw]

theorem merged_sum [AddCommMonoid α] (l : List α) : (merged l).sum = l.sum := by
  have := merged_foldl (α := α) (fun x y => (add_assoc 0 x y).symm) l
  rw [List.sum_eq_foldl, List.sum_eq_foldl]
  exact this

theorem grp_mergeDup [Add α] (row : List (Nat × α)) (j : Nat) : grp (mergeDup row) j = merged (grp row j) := by
  rw [mergeDup_grp]; rfl

theorem atPos_convRow [Add α] {es : List (Entry α)} {n : Nat} (hI : ∀ e ∈ es, e.1 < n) (i j : Nat) :
    atPos (rowEntries (convRow es) n) i j = merged (atPos es i j) := by
  rw [atPos_rowEntries]
  by_cases hi : i < n
  · rw [if_pos hi, convRow, grp_sortRow, grp_mergeDup]; rfl
  · rw [if_neg hi]
    have : atPos es i j = [] := by
      rw [List.eq_nil_iff_forall_not_mem]
      intro x hx
      exact hi (hI _ (mem_atPos.1 hx))
    rw [this]; rfl

theorem atPos_convCol [Add α] {es : List (Entry α)} {n m : Nat} (hI : ∀ e ∈ es, e.1 < n) (hJ : ∀ e ∈ es, e.2.1 < m)
    (i j : Nat) : atPos (colEntries (convCol es n) m) i j = merged (atPos es i j) := by
  rw [atPos_colEntries]
  have hnil : ¬ (i < n ∧ j < m) → merged (atPos es i j) = [] := by
    intro h
    have : atPos es i j = [] := by
      rw [List.eq_nil_iff_forall_not_mem]
      intro x hx
      exact h ⟨hI _ (mem_atPos.1 hx), hJ _ (mem_atPos.1 hx)⟩
    rw [this]; rfl
  by_cases hj : j < m
  · rw [if_pos hj, convCol, grp_transp]
    by_cases hi : i < n
    · rw [if_pos hi, grp_mergeDup]; rfl
    · rw [if_neg hi, hnil (fun hh => hi hh.1)]
  · rw [if_neg hj, hnil (fun hh => hj hh.2)]

theorem merged_eq_nil [Add α] {l : List α} : merged l = [] ↔ l = [] := by
  cases l <;> simp [merged]

/-- positions are kept -/
theorem pos_of_atPos [Add α] {es es' : List (Entry α)} (h : ∀ i j, atPos es' i j = merged (atPos es i j)) (i j : Nat) :
    (∃ x, (i, j, x) ∈ es') ↔ ∃ x, (i, j, x) ∈ es := by
  have aux : ∀ (es : List (Entry α)), (∃ x, (i, j, x) ∈ es) ↔ atPos es i j ≠ [] := by
    intro es
    constructor
    · rintro ⟨x, hx⟩ h
      have := mem_atPos.2 hx
      rw [h] at this
      simp at this
    · intro h
      obtain ⟨x, hx⟩ := List.exists_mem_of_ne_nil _ h
      exact ⟨x, mem_atPos.1 hx⟩
  rw [aux, aux, h, ne_eq, ne_eq, merged_eq_nil]

theorem inTriangle_of_atPos [Add α] {es es' : List (Entry α)} (h : ∀ i j, atPos es' i j = merged (atPos es i j)) {sym : Sym}
    (ht : ∀ e ∈ es, InTriangle sym e.1 e.2.1) : ∀ e ∈ es', InTriangle sym e.1 e.2.1 := by
  intro e he
  obtain ⟨x, hx⟩ := (pos_of_atPos h e.1 e.2.1).1 ⟨e.2.2, he⟩
  exact ht (e.1, e.2.1, x) hx

theorem denseOf_conv [Zero α] [Add α] (hlaw : ∀ x y : α, 0 + (x + y) = (0 + x) + y) {es es' : List (Entry α)} {sym : Sym}
    (h : ∀ i j, atPos es' i j = merged (atPos es i j)) (ht : ∀ e ∈ es, InTriangle sym e.1 e.2.1) (r c : Nat) :
    denseOf sym es' r c = denseOf sym es r c := by
  rw [denseOf_atPos sym (inTriangle_of_atPos h ht), denseOf_atPos sym ht, h, merged_foldl hlaw]

theorem denseOf_conv_comm [AddCommMonoid α] {es es' : List (Entry α)} {sym : Sym}
    (h : ∀ i j, atPos es' i j = merged (atPos es i j)) (r c : Nat) :
    denseOf sym es' r c = denseOf sym es r c :=
  denseOf_congr_atPos sym (fun i j => by rw [h, merged_sum]) r c

end Russell.Sparse
