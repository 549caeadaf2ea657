import Verif.Sparse.CooLemmas

/-!
# Grouping lists by a key: the mathematics behind counting passes

`grp F i` lists the payloads of the entries of `F` with key `i`, in order. `flat row n` concatenates `row 0 .. row (n-1)`
and `off row n` is the length of that, i.e. the `n`-th pointer.
-/

namespace Russell.Sparse

open Russell Russell.Res Russell.Lab

variable {β γ : Type}

/-- concatenation of the first `n` rows -/
def flat (row : Nat → List β) (n : Nat) : List β := (List.range n).flatMap row

/-- total length of the first `n` rows -/
def off (row : Nat → List β) (n : Nat) : Nat := (flat row n).length

/-- payloads with key `i` -/
def grp (F : List (Nat × β)) (i : Nat) : List β := F.filterMap fun e => if e.1 = i then some e.2 else none

/-- the segment of `l` starting at `p` is `xs` -/
def SegAt (l : List β) (p : Nat) (xs : List β) : Prop := ∀ t (h : t < xs.length), l[p + t]? = some xs[t]

@[simp] theorem flat_zero (row : Nat → List β) : flat row 0 = [] := rfl

theorem flat_succ (row : Nat → List β) (n : Nat) : flat row (n + 1) = flat row n ++ row n := by
  simp [flat, List.range_succ]

@[simp] theorem off_zero (row : Nat → List β) : off row 0 = 0 := rfl

theorem off_succ (row : Nat → List β) (n : Nat) : off row (n + 1) = off row n + (row n).length := by
  simp [off, flat_succ]

theorem off_le (row : Nat → List β) {i n : Nat} (h : i ≤ n) : off row i ≤ off row n := by
  induction n with
  | zero => simp [Nat.le_zero.1 h]
  | succ n ih =>
    rw [off_succ]
    by_cases h' : i = n + 1
    · subst h'; rw [off_succ]
    · have := ih (by omega); omega

theorem off_add_lt (row : Nat → List β) {i n t : Nat} (hi : i < n) (ht : t < (row i).length) : off row i + t < off row n := by
  have := off_le row (show i + 1 ≤ n from hi)
  rw [off_succ] at this; omega

/-- positions in different rows are different -/
theorem off_ne (row : Nat → List β) {i i' t t' : Nat} (hne : i ≠ i') (ht : t < (row i).length)
    (ht' : t' < (row i').length) : off row i + t ≠ off row i' + t' := by
  rcases Nat.lt_or_gt_of_ne hne with h | h
  · have := off_add_lt row h ht; omega
  · have := off_add_lt row h ht'; omega

theorem flat_congr {row row' : Nat → List β} {n : Nat} (h : ∀ i, i < n → row i = row' i) : flat row n = flat row' n := by
  induction n with
  | zero => rfl
  | succ n ih => rw [flat_succ, flat_succ, ih (fun i hi => h i (by omega)), h n (by omega)]

theorem flat_map (f : Nat → β → γ) (row : Nat → List β) (g : β → γ) (h : ∀ i b, f i b = g b) (n : Nat) :
    flat (fun i => (row i).map (f i)) n = (flat row n).map g := by
  induction n with
  | zero => rfl
  | succ n ih =>
    rw [flat_succ, flat_succ, ih, List.map_append]
    congr 2
    funext b; exact h n b

theorem off_map (f : Nat → β → γ) (row : Nat → List β) (n : Nat) : off (fun i => (row i).map (f i)) n = off row n := by
  induction n with
  | zero => rfl
  | succ n ih => rw [off_succ, off_succ, ih, List.length_map]

theorem flat_get (row : Nat → List β) {n i t : Nat} (hi : i < n) (ht : t < (row i).length) :
    (flat row n)[off row i + t]? = some (row i)[t] := by
  induction n with
  | zero => omega
  | succ n ih =>
    rw [flat_succ]
    by_cases h : i = n
    · subst h
      rw [List.getElem?_append_right (by simp [off])]
      simp [off, ht]
    · have := off_add_lt row (show i < n by omega) ht
      rw [List.getElem?_append_left this]
      exact ih (by omega)

theorem off_find (row : Nat → List β) {n p : Nat} (hp : p < off row n) :
    ∃ i t, i < n ∧ t < (row i).length ∧ p = off row i + t := by
  induction n with
  | zero => simp at hp
  | succ n ih =>
    rw [off_succ] at hp
    by_cases h : p < off row n
    · obtain ⟨i, t, h1, h2, h3⟩ := ih h
      exact ⟨i, t, by omega, h2, h3⟩
    · exact ⟨n, p - off row n, by omega, by omega, by omega⟩

theorem mem_flat {row : Nat → List β} {n : Nat} {b : β} : b ∈ flat row n ↔ ∃ i, i < n ∧ b ∈ row i := by
  simp [flat]

/-- If every row is found at its place then the array starts with the concatenation of the rows. -/
theorem segAt_flat {l : List β} {row : Nat → List β} {n : Nat} (h : ∀ i, i < n → SegAt l (off row i) (row i)) :
    SegAt l 0 (flat row n) := by
  intro p hp
  obtain ⟨i, t, h1, h2, h3⟩ := off_find row hp
  subst h3
  have h4 := h i h1 t h2
  have := flat_get row h1 h2
  rw [List.getElem?_eq_getElem hp] at this
  rw [Nat.zero_add, h4, this]

theorem segAt_of_flat {l : List β} {row : Nat → List β} {n : Nat} (h : SegAt l 0 (flat row n)) {i : Nat} (hi : i < n) :
    SegAt l (off row i) (row i) := by
  intro t ht
  have hlt := off_add_lt row hi ht
  have := h (off row i + t) hlt
  rw [Nat.zero_add] at this
  rw [this]
  have h2 := flat_get row hi ht
  rw [List.getElem?_eq_getElem hlt] at h2
  exact h2

/-! ## grp -/

@[simp] theorem grp_nil (i : Nat) : grp ([] : List (Nat × β)) i = [] := rfl

theorem grp_append (F G : List (Nat × β)) (i : Nat) : grp (F ++ G) i = grp F i ++ grp G i := by
  simp [grp]

theorem grp_cons (e : Nat × β) (F : List (Nat × β)) (i : Nat) :
    grp (e :: F) i = if e.1 = i then e.2 :: grp F i else grp F i := by
  unfold grp
  rw [List.filterMap_cons]
  split
  · rename_i h; split at h
    · simp at h
    · rename_i h2; rw [if_neg h2]
  · rename_i h; split at h
    · rename_i h2; rw [if_pos h2]; simp at h; rw [h]
    · simp at h

theorem grp_take_succ {F : List (Nat × β)} {k : Nat} (h : k < F.length) (i : Nat) :
    grp (F.take (k + 1)) i = grp (F.take k) i ++ (if F[k].1 = i then [F[k].2] else []) := by
  rw [take_succ_eq h, grp_append, grp_cons]
  split <;> simp

theorem grp_take_drop (F : List (Nat × β)) (k i : Nat) : grp F i = grp (F.take k) i ++ grp (F.drop k) i := by
  rw [← grp_append, List.take_append_drop]

theorem grp_take_length_le (F : List (Nat × β)) (k i : Nat) : (grp (F.take k) i).length ≤ (grp F i).length := by
  rw [grp_take_drop F k i]; simp

theorem grp_take_length_lt {F : List (Nat × β)} {k : Nat} (h : k < F.length) :
    (grp (F.take k) F[k].1).length < (grp F F[k].1).length := by
  have := grp_take_length_le F (k + 1) F[k].1
  rw [grp_take_succ h, if_pos rfl] at this
  simp at this; omega

theorem grp_length_le (F : List (Nat × β)) (i : Nat) : (grp F i).length ≤ F.length := List.length_filterMap_le _ _

theorem mem_grp {F : List (Nat × β)} {i : Nat} {b : β} : b ∈ grp F i ↔ (i, b) ∈ F := by
  unfold grp
  rw [List.mem_filterMap]
  constructor
  · rintro ⟨e, he, h⟩
    split at h
    · rename_i h2; simp at h; rw [← h2, ← h]; exact he
    · simp at h
  · intro h; exact ⟨(i, b), h, by simp⟩

theorem off_grp_cons (e : Nat × β) (F : List (Nat × β)) (n : Nat) :
    off (grp (e :: F)) n = off (grp F) n + if e.1 < n then 1 else 0 := by
  induction n with
  | zero => simp
  | succ n ih =>
    rw [off_succ, off_succ, ih, grp_cons]
    by_cases h : e.1 = n
    · rw [if_pos h, if_neg (by omega), if_pos (by omega)]; simp; omega
    · rw [if_neg h]
      by_cases h2 : e.1 < n
      · rw [if_pos h2, if_pos (by omega)]; omega
      · rw [if_neg h2, if_neg (by omega)]; omega

theorem off_grp_total {F : List (Nat × β)} {n : Nat} (h : ∀ e ∈ F, e.1 < n) : off (grp F) n = F.length := by
  induction F with
  | nil =>
    have : ∀ n, off (grp ([] : List (Nat × β))) n = 0 := by
      intro n; induction n with
      | zero => rfl
      | succ n ih => rw [off_succ, ih]; simp
    rw [this]; rfl
  | cons e F ih =>
    rw [off_grp_cons, ih (fun e he => h e (List.mem_cons_of_mem _ he)), if_pos (h e List.mem_cons_self)]; simp

theorem grp_flat (row : Nat → List (Nat × β)) (n i : Nat) : grp (flat row n) i = flat (fun j => grp (row j) i) n := by
  induction n with
  | zero => rfl
  | succ n ih => rw [flat_succ, flat_succ, grp_append, ih]

/-- Tagging rows with their index and grouping by it gives the rows back. -/
theorem grp_tag (row : Nat → List β) (n i : Nat) :
    grp (flat (fun k => (row k).map fun b => (k, b)) n) i = if i < n then row i else [] := by
  induction n with
  | zero => simp
  | succ n ih =>
    rw [flat_succ, grp_append, ih]
    have : grp ((row n).map fun b => (n, b)) i = if n = i then row n else [] := by
      unfold grp
      rw [List.filterMap_map]
      by_cases h : n = i
      · subst h; simp
      · simp [h]
    rw [this]
    by_cases h : i = n
    · subst h; simp
    · by_cases h2 : i < n
      · rw [if_pos h2, if_neg (Ne.symm h), if_pos (by omega)]; simp
      · rw [if_neg h2, if_neg (Ne.symm h), if_neg (by omega)]; simp

/-! ## The counting pass -/

/-- after `k` entries the counters hold the group sizes -/
def CntInv (F : List (Nat × β)) (n k : Nat) (w : List Int) : Prop :=
  ∀ i, i < n → w[i]? = some (((grp (F.take k) i).length : Nat) : Int)

theorem CntInv.step {F : List (Nat × β)} {n k : Nat} {w : List Int} (h : CntInv F n k w) (hk : k < F.length)
    (hn : ∀ e ∈ F, e.1 < n) (hlen : F.length < 2147483648) :
    ∃ x : Int, vget w F[k].1 = ok x ∧ ∃ y, addI32 x 1 = ok y ∧ ∃ w', vset w F[k].1 y = ok w' ∧ CntInv F n (k + 1) w' ∧
      w'.length = w.length ∧ ∀ i, n ≤ i → w'[i]? = w[i]? := by
  have hi : F[k].1 < n := hn _ (List.getElem_mem hk)
  have hw := h _ hi
  have hlt : F[k].1 < w.length := (List.getElem?_eq_some_iff.1 hw).1
  refine ⟨_, vget_of hw, (((grp (F.take k) F[k].1).length + 1 : Nat) : Int), ?_, _, vset_lt _ hlt, ?_, by simp, ?_⟩
  · have := grp_take_length_lt hk
    have h2 := grp_length_le F F[k].1
    exact addI32_nat (b := 1) (by omega)
  · intro i hi'
    rw [List.getElem?_set, grp_take_succ hk]
    by_cases hie : F[k].1 = i
    · subst hie; simp [hlt]
    · simp [hie, h i hi']
  · intro i hi'
    rw [List.getElem?_set, if_neg (by omega)]

/-! ## The scattering pass -/

/-- after `k` entries: the next free positions, and what has been written -/
def ScatInv (F : List (Nat × β)) (n k : Nat) (w : List Int) (view : Nat → Option β) : Prop :=
  (∀ i, i < n → w[i]? = some ((off (grp F) i + (grp (F.take k) i).length : Nat) : Int)) ∧
  (∀ i, i < n → ∀ t (h : t < (grp (F.take k) i).length), view (off (grp F) i + t) = some (grp (F.take k) i)[t])

theorem ScatInv.step {F : List (Nat × β)} {n k : Nat} {w : List Int} {view : Nat → Option β} (h : ScatInv F n k w view)
    (hk : k < F.length) (hn : ∀ e ∈ F, e.1 < n) (hlen : F.length < 2147483648) :
    ∃ p : Nat, vget w F[k].1 = ok ((p : Nat) : Int) ∧ p < F.length ∧ asUsize (p : Int) = p ∧
      addI32 (p : Int) 1 = ok ((p + 1 : Nat) : Int) ∧
      vset w F[k].1 ((p + 1 : Nat) : Int) = ok (w.set F[k].1 ((p + 1 : Nat) : Int)) ∧
      (∀ view' : Nat → Option β, view' p = some F[k].2 → (∀ q, q ≠ p → view' q = view q) →
        ScatInv F n (k + 1) (w.set F[k].1 ((p + 1 : Nat) : Int)) view') := by
  have hi : F[k].1 < n := hn _ (List.getElem_mem hk)
  have hw := h.1 _ hi
  have hlt : F[k].1 < w.length := (List.getElem?_eq_some_iff.1 hw).1
  have hg := grp_take_length_lt hk
  have hp : off (grp F) F[k].1 + (grp (F.take k) F[k].1).length < F.length := by
    have := off_add_lt (grp F) hi hg
    rw [off_grp_total hn] at this; exact this
  refine ⟨off (grp F) F[k].1 + (grp (F.take k) F[k].1).length, vget_of hw, hp, asUsize_natCast (by omega),
    addI32_nat (b := 1) (by omega), vset_lt _ hlt, ?_⟩
  intro view' hv1 hv2
  constructor
  · intro i hi'
    rw [List.getElem?_set, grp_take_succ hk]
    by_cases hie : F[k].1 = i
    · subst hie; simp [hlt]; omega
    · simp [hie, h.1 i hi']
  · intro i hi' t ht
    by_cases hie : F[k].1 = i
    · subst hie
      have e := grp_take_succ hk F[k].1
      rw [if_pos rfl] at e
      by_cases htl : t = (grp (F.take k) F[k].1).length
      · subst htl
        rw [hv1]
        simp [e]
      · have ht' : t < (grp (F.take k) F[k].1).length := by
          rw [e] at ht; simp at ht; omega
        rw [hv2 _ (by omega), h.2 _ hi' t ht']
        simp [e, List.getElem_append_left ht']
    · have e := grp_take_succ hk i
      rw [if_neg hie, List.append_nil] at e
      have ht' : t < (grp (F.take k) i).length := by rw [← e]; exact ht
      have hne : off (grp F) i + t ≠ off (grp F) F[k].1 + (grp (F.take k) F[k].1).length :=
        off_ne (grp F) (fun hh => hie hh.symm) (lt_of_lt_of_le ht' (grp_take_length_le _ _ _)) hg
      rw [hv2 _ hne, h.2 i hi' t ht']
      simp [e]

end Russell.Sparse
