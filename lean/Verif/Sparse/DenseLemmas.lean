import Verif.Sparse.Spec

/-! # Dense accumulation lemmas -/

namespace Russell.Sparse

open Russell Russell.Res Russell.Lab

variable {α : Type}

theorem Sym.triangular_iff (s : Sym) : s.triangular = true ↔ s = Sym.yesLower ∨ s = Sym.yesUpper := by
  cases s <;> simp [Sym.triangular]

theorem lin_inj {m i j i' j' : Nat} (hi : i < m) (hi' : i' < m) :
    i + j * m = i' + j' * m ↔ i = i' ∧ j = j' := by
  constructor
  · intro h
    have h1 : (i + j * m) % m = (i' + j' * m) % m := by rw [h]
    rw [Nat.add_mul_mod_self_right, Nat.add_mul_mod_self_right, Nat.mod_eq_of_lt hi, Nat.mod_eq_of_lt hi'] at h1
    have h2 : (i + j * m) / m = (i' + j' * m) / m := by rw [h]
    have hm : 0 < m := by omega
    rw [Nat.add_mul_div_right _ _ hm, Nat.add_mul_div_right _ _ hm, Nat.div_eq_of_lt hi, Nat.div_eq_of_lt hi'] at h2
    exact ⟨h1, by omega⟩
  · rintro ⟨rfl, rfl⟩; rfl

theorem lin_lt {m n i j : Nat} (hi : i < m) (hj : j < n) : i + j * m < m * n := by
  have : (j + 1) * m ≤ n * m := Nat.mul_le_mul_right m hj
  rw [Nat.add_mul] at this
  rw [Nat.mul_comm m n]; omega

theorem IsDense.data_get {a : NumMatrix α} {m n : Nat} {f : Nat → Nat → α} (h : IsDense a m n f) {r c : Nat}
    (hr : r < m) (hc : c < n) : a.data[r + c * m]? = some (f r c) := by
  have := h.get r c hr hc
  rw [NumMatrix.get, h.nrow] at this
  exact vget_eq_ok.1 this

/-- A dense matrix is determined by its entries. -/
theorem IsDense.unique {a b : NumMatrix α} {m n : Nat} {f : Nat → Nat → α} (ha : IsDense a m n f)
    (hb : IsDense b m n f) : a = b := by
  have hd : a.data = b.data := by
    apply List.ext_getElem?
    intro k
    by_cases hk : k < m * n
    · have hm : 0 < m := by
        rcases Nat.eq_zero_or_pos m with h | h
        · simp [h] at hk
        · exact h
      have hr : k % m < m := Nat.mod_lt _ hm
      have hc : k / m < n := Nat.div_lt_of_lt_mul hk
      have := ha.data_get hr hc
      have h2 := hb.data_get hr hc
      have e : k % m + k / m * m = k := by rw [Nat.mul_comm]; exact Nat.mod_add_div k m
      rw [e] at this h2
      rw [this, h2]
    · rw [List.getElem?_eq_none (by rw [ha.len]; omega), List.getElem?_eq_none (by rw [hb.len]; omega)]
  cases a; cases b
  have h1 := ha.nrow; have h2 := ha.ncol; have h3 := hb.nrow; have h4 := hb.ncol
  simp_all

theorem IsDense.congr {a : NumMatrix α} {m n : Nat} {f g : Nat → Nat → α} (ha : IsDense a m n f)
    (h : ∀ r c, r < m → c < n → f r c = g r c) : IsDense a m n g :=
  ⟨ha.nrow, ha.ncol, ha.len, fun r c hr hc => by rw [ha.get r c hr hc, h r c hr hc]⟩

theorem isDense_fill (a : NumMatrix α) (m n : Nat) (hm : a.nrow = m) (hn : a.ncol = n) (hl : a.data.length = m * n)
    (x : α) : IsDense (a.fill x) m n (fun _ _ => x) := by
  refine ⟨hm, hn, by simp [NumMatrix.fill, hl], ?_⟩
  intro r c hr hc
  rw [NumMatrix.get]
  apply vget_of
  have := lin_lt hr hc
  simp only [NumMatrix.fill, hm]
  rw [List.getElem?_map, List.getElem?_eq_getElem (by omega)]
  rfl

theorem isDense_new [Zero α] (m n : Nat) : IsDense (NumMatrix.new m n : NumMatrix α) m n (fun _ _ => 0) := by
  refine ⟨rfl, rfl, by simp [NumMatrix.new], ?_⟩
  intro r c hr hc
  rw [NumMatrix.get]
  apply vget_of
  have := lin_lt hr hc
  simp only [NumMatrix.new]
  rw [List.getElem?_replicate, if_pos (by omega)]

theorem IsDense.set {a : NumMatrix α} {m n : Nat} {f : Nat → Nat → α} (h : IsDense a m n f) {i j : Nat}
    (hi : i < m) (hj : j < n) (x : α) :
    ∃ a', a.set i j x = ok a' ∧ IsDense a' m n (fun r c => if r = i ∧ c = j then x else f r c) := by
  have hlt := lin_lt hi hj
  have e1 : vset a.data (i + j * a.nrow) x = ok (a.data.set (i + j * m) x) := by
    rw [h.nrow]; exact vset_lt _ (by rw [h.len]; exact hlt)
  refine ⟨{ a with data := a.data.set (i + j * m) x }, ?_, ?_⟩
  · simp [NumMatrix.set, e1]
  · refine ⟨h.nrow, h.ncol, by simp [h.len], ?_⟩
    intro r c hr hc
    rw [NumMatrix.get]
    apply vget_of
    simp only [h.nrow]
    rw [List.getElem?_set]
    by_cases hrc : r = i ∧ c = j
    · obtain ⟨rfl, rfl⟩ := hrc
      simp [h.len, hlt]
    · rw [if_neg (fun e => hrc ((lin_inj hr hi).1 e.symm)), h.data_get hr hc, if_neg hrc]

theorem IsDense.add [Add α] {a : NumMatrix α} {m n : Nat} {f : Nat → Nat → α} (h : IsDense a m n f) {i j : Nat}
    (hi : i < m) (hj : j < n) (x : α) :
    ∃ a', a.add i j x = ok a' ∧ IsDense a' m n (fun r c => if r = i ∧ c = j then f r c + x else f r c) := by
  obtain ⟨a', h1, h2⟩ := h.set hi hj (f i j + x)
  refine ⟨a', ?_, h2.congr ?_⟩
  · have e0 : vget a.data (i + j * a.nrow) = ok (f i j) := h.get i j hi hj
    simpa [NumMatrix.add, NumMatrix.set, e0] using h1
  · intro r c _ _
    by_cases hrc : r = i ∧ c = j
    · simp [hrc]
    · simp [hrc]

theorem IsDense.addMirror [Add α] {a : NumMatrix α} {m n : Nat} {f : Nat → Nat → α} (h : IsDense a m n f)
    {sym : Sym} (hsq : sym.triangular = true → m = n) {i j : Nat} (hi : i < m) (hj : j < n) (x : α) :
    ∃ a', Coo.addMirror sym.triangular a i j x = ok a' ∧
      IsDense a' m n (fun r c => if Hits sym ((i, j, x) : Entry α) r c then f r c + x else f r c) := by
  obtain ⟨a1, h1, d1⟩ := h.add hi hj x
  by_cases hm : sym.triangular = true ∧ i ≠ j
  · have hmn := hsq hm.1
    obtain ⟨a2, h2, d2⟩ := d1.add (i := j) (j := i) (by omega) (by omega) x
    refine ⟨a2, by simp [Coo.addMirror, h1, hm, h2], d2.congr ?_⟩
    intro r c _ _
    have ht := (Sym.triangular_iff sym).1 hm.1
    simp only [Hits]
    by_cases h3 : r = j ∧ c = i
    · obtain ⟨rfl, rfl⟩ := h3
      have hne : ¬ (r = c ∧ c = r) := fun hh => hm.2 hh.2
      simp [hne, ht]
    · have h3' : ¬ (i = c ∧ j = r) := fun hh => h3 ⟨hh.2.symm, hh.1.symm⟩
      by_cases h4 : r = i ∧ c = j
      · simp [h4, ht, hm.2]
      · have h4' : ¬ (i = r ∧ j = c) := fun hh => h4 ⟨hh.1.symm, hh.2.symm⟩
        simp [h3, h3', h4, h4']
  · refine ⟨a1, by simp [Coo.addMirror, h1, hm], d1.congr ?_⟩
    intro r c _ _
    simp only [Hits]
    by_cases h4 : r = i ∧ c = j
    · simp [h4]
    · have h4' : ¬ (i = r ∧ j = c) := fun hh => h4 ⟨hh.1.symm, hh.2.symm⟩
      have : ¬ ((sym = Sym.yesLower ∨ sym = Sym.yesUpper) ∧ i = c ∧ j = r) := by
        rintro ⟨ht, rfl, rfl⟩
        apply hm
        refine ⟨(Sym.triangular_iff sym).2 ht, ?_⟩
        intro hij; apply h4; subst hij; exact ⟨rfl, rfl⟩
      simp [h4, h4', this]

theorem denseOf_append_one [Zero α] [Add α] (sym : Sym) (es : List (Entry α)) (e : Entry α) (r c : Nat) :
    denseOf sym (es ++ [e]) r c =
      if Hits sym e r c then denseOf sym es r c + e.2.2 else denseOf sym es r c := by
  simp [denseOf]

theorem take_succ_eq {ε : Type} {es : List ε} {k : Nat} (h : k < es.length) :
    es.take (k + 1) = es.take k ++ [es[k]] := by
  rw [List.take_succ_eq_append_getElem h]

/-- The accumulation loop of the three `to_dense` functions over any list of entries. -/
theorem accum_spec [Zero α] [Add α] {m n : Nat} {sym : Sym} (hsq : sym.triangular = true → m = n)
    {es : List (Entry α)} (hI : ∀ e ∈ es, e.1 < m) (hJ : ∀ e ∈ es, e.2.1 < n)
    {body : Nat → NumMatrix α → Res (NumMatrix α)}
    (hbody : ∀ k (h : k < es.length) a, body k a = Coo.addMirror sym.triangular a es[k].1 es[k].2.1 es[k].2.2)
    {a : NumMatrix α} {es0 : List (Entry α)} (ha : IsDense a m n (denseOf sym es0)) :
    ∃ a', forRange 0 es.length a body = ok a' ∧ IsDense a' m n (denseOf sym (es0 ++ es)) := by
  have := forRange_spec (f := body) (fun k a => IsDense a m n (denseOf sym (es0 ++ es.take k)))
    (Nat.zero_le es.length) (s := a) (by simpa using ha) ?_
  · simpa using this
  · intro k a _ hk hd
    have hmem : es[k] ∈ es := List.getElem_mem hk
    obtain ⟨a', h1, h2⟩ := hd.addMirror hsq (hI _ hmem) (hJ _ hmem) es[k].2.2
    refine ⟨a', by rw [hbody k hk]; exact h1, h2.congr ?_⟩
    intro r c _ _
    rw [take_succ_eq hk, ← List.append_assoc, denseOf_append_one]

end Russell.Sparse
