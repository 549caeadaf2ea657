import Verif.Sparse.DenseLemmas
import Mathlib.Algebra.BigOperators.Group.Finset.Basic
import Mathlib.Algebra.BigOperators.Ring.Finset
import Mathlib.Algebra.BigOperators.Intervals
import Mathlib.Tactic.Ring

/-! # Lemmas about the COO model -/

namespace Russell.Sparse

open Russell Russell.Res Russell.Lab

variable {α : Type}

theorem Coo.Rep.readI {c : Coo α} {es : List (Entry α)} (h : c.Rep es) {k : Nat} (hk : k < es.length) :
    vget c.indicesI k = ok ((es[k].1 : Nat) : Int) := vget_of (h.entI k hk)

theorem Coo.Rep.readJ {c : Coo α} {es : List (Entry α)} (h : c.Rep es) {k : Nat} (hk : k < es.length) :
    vget c.indicesJ k = ok ((es[k].2.1 : Nat) : Int) := vget_of (h.entJ k hk)

theorem Coo.Rep.readX {c : Coo α} {es : List (Entry α)} (h : c.Rep es) {k : Nat} (hk : k < es.length) :
    vget c.values k = ok es[k].2.2 := vget_of (h.entX k hk)

theorem Coo.Rep.usizeI {c : Coo α} {es : List (Entry α)} (h : c.Rep es) {k : Nat} (hk : k < es.length) :
    asUsize ((es[k].1 : Nat) : Int) = es[k].1 :=
  asUsize_natCast (lt_trans (h.rangeI _ (List.getElem_mem hk)) h.fitsI)

theorem Coo.Rep.usizeJ {c : Coo α} {es : List (Entry α)} (h : c.Rep es) {k : Nat} (hk : k < es.length) :
    asUsize ((es[k].2.1 : Nat) : Int) = es[k].2.1 :=
  asUsize_natCast (lt_trans (h.rangeJ _ (List.getElem_mem hk)) h.fitsJ)

/-- The entry list is determined by the matrix. -/
theorem Coo.Rep.unique {c : Coo α} {es es' : List (Entry α)} (h : c.Rep es) (h' : c.Rep es') : es = es' := by
  have hl : es.length = es'.length := by rw [← h.nnz, ← h'.nnz]
  apply List.ext_getElem hl
  intro k hk hk'
  have h1 : ((es[k].1 : Nat) : Int) = es'[k].1 := by
    have := h.entI k hk; rw [h'.entI k hk'] at this; simpa using this.symm
  have h2 : ((es[k].2.1 : Nat) : Int) = es'[k].2.1 := by
    have := h.entJ k hk; rw [h'.entJ k hk'] at this; simpa using this.symm
  have h3 : es[k].2.2 = es'[k].2.2 := by
    have := h.entX k hk; rw [h'.entX k hk'] at this; simpa using this.symm
  ext <;> simp_all

theorem Coo.new_rep [Zero α] {nrow ncol cap : Nat} {sym : Sym} {c : Coo α}
    (h : Coo.new nrow ncol cap sym = ok c) (hm : nrow < 2147483648) (hn : ncol < 2147483648) :
    c.Rep [] ∧ c.nrow = nrow ∧ c.ncol = ncol ∧ c.maxNnz = cap ∧ c.symmetric = sym := by
  unfold Coo.new at h
  split at h
  · simp at h
  · split at h
    · simp at h
    · split at h
      · simp at h
      · split at h
        · simp at h
        · rename_i h4
          simp only [Res.ok.injEq] at h
          subst h
          refine ⟨⟨by simp, by simp, by simp, by simp, by simp, by simp, by simp, by simp, by simp, by simp, hm, hn, ?_⟩,
            rfl, rfl, rfl, rfl⟩
          intro ht
          have : sym ≠ Sym.no := by rintro rfl; simp [Sym.triangular] at ht
          by_contra hne
          exact h4 ⟨this, hne⟩

/-- What `put` does on a well-formed matrix, completely. -/
theorem Coo.put_spec {c : Coo α} {es : List (Entry α)} (h : c.Rep es) (i j : Nat) (x : α) :
    if i < c.nrow ∧ j < c.ncol ∧ es.length < c.maxNnz ∧ InTriangle c.symmetric i j then
      ∃ c', c.put i j x = .ok c' ∧ c'.Rep (es ++ [(i, j, x)]) ∧ c'.nrow = c.nrow ∧ c'.ncol = c.ncol ∧
        c'.maxNnz = c.maxNnz ∧ c'.symmetric = c.symmetric
    else ∃ msg, c.put i j x = .err c msg := by
  split
  · rename_i hc
    obtain ⟨hi, hj, hk, ht⟩ := hc
    have e1 : toI32 i = ok (i : Int) := toI32_lt (lt_trans hi h.fitsI)
    have e2 : toI32 j = ok (j : Int) := toI32_lt (lt_trans hj h.fitsJ)
    have hn : c.nnz = es.length := h.nnz
    have e3 : vset c.indicesI c.nnz (i : Int) = ok (c.indicesI.set es.length i) := by
      rw [hn]; exact vset_lt _ (by rw [h.lenI]; exact hk)
    have e4 : vset c.indicesJ c.nnz (j : Int) = ok (c.indicesJ.set es.length j) := by
      rw [hn]; exact vset_lt _ (by rw [h.lenJ]; exact hk)
    have e5 : vset c.values c.nnz x = ok (c.values.set es.length x) := by
      rw [hn]; exact vset_lt _ (by rw [h.lenX]; exact hk)
    refine ⟨{ c with indicesI := c.indicesI.set es.length i, indicesJ := c.indicesJ.set es.length j,
                     values := c.values.set es.length x, nnz := c.nnz + 1 }, ?_, ?_, rfl, rfl, rfl, rfl⟩
    · have t1 : ¬ (c.symmetric = Sym.yesLower ∧ j > i) := fun hh => by
        have := ht.1 hh.1; omega
      have t2 : ¬ (c.symmetric = Sym.yesUpper ∧ j < i) := fun hh => by
        have := ht.2 hh.1; omega
      simp only [Coo.put]
      rw [if_neg (by omega), if_neg (by omega), if_neg (by omega), if_neg t1, if_neg t2]
      simp [Coo.putCore, e1, e2, e3, e4, e5]
    · have aux : ∀ {β : Type} (l : List β) (y : β) (f : Entry α → β), l.length = c.maxNnz →
          (∀ k (hk : k < es.length), l[k]? = some (f es[k])) → f (i, j, x) = y →
          ∀ k (hk : k < (es ++ [(i, j, x)]).length), (l.set es.length y)[k]? = some (f (es ++ [(i, j, x)])[k]) := by
        intro β l y f hl hf hy k hk'
        rw [List.getElem?_set]
        by_cases hke : es.length = k
        · subst hke; simp [hl, hk, hy]
        · have hkl : k < es.length := by simp at hk'; omega
          rw [if_neg hke, hf k hkl]
          simp [List.getElem_append_left hkl]
      exact {
        lenI := by simp [h.lenI]
        lenJ := by simp [h.lenJ]
        lenX := by simp [h.lenX]
        nnz := by simp [hn]
        le := by simp; omega
        entI := aux c.indicesI (i : Int) (fun e => ((e.1 : Nat) : Int)) h.lenI h.entI rfl
        entJ := aux c.indicesJ (j : Int) (fun e => ((e.2.1 : Nat) : Int)) h.lenJ h.entJ rfl
        entX := aux c.values x (fun e => e.2.2) h.lenX h.entX rfl
        rangeI := by
          intro e he; simp at he
          rcases he with he | rfl
          · exact h.rangeI e he
          · exact hi
        rangeJ := by
          intro e he; simp at he
          rcases he with he | rfl
          · exact h.rangeJ e he
          · exact hj
        fitsI := h.fitsI
        fitsJ := h.fitsJ
        square := h.square }
  · rename_i hc
    simp only [Coo.put]
    split
    · exact ⟨_, rfl⟩
    · split
      · exact ⟨_, rfl⟩
      · split
        · exact ⟨_, rfl⟩
        · split
          · exact ⟨_, rfl⟩
          · split
            · exact ⟨_, rfl⟩
            · rename_i h1 h2 h3 h4 h5
              exfalso
              apply hc
              refine ⟨by omega, by omega, by rw [← h.nnz]; omega, ?_, ?_⟩
              · intro hs; by_contra hn; exact h4 ⟨hs, by omega⟩
              · intro hs; by_contra hn; exact h5 ⟨hs, by omega⟩

theorem Coo.reset_rep {c : Coo α} {es : List (Entry α)} (h : c.Rep es) : c.reset.Rep [] :=
  ⟨h.lenI, h.lenJ, h.lenX, rfl, by simp, by simp, by simp, by simp, by simp, by simp, h.fitsI, h.fitsJ, h.square⟩

/-- `to_dense` into any matrix of the right shape, and so `as_dense`. -/
theorem Coo.toDense_spec [Zero α] [Add α] {c : Coo α} {es : List (Entry α)} (h : c.Rep es) (a : NumMatrix α)
    (hm : a.nrow = c.nrow) (hn : a.ncol = c.ncol) (hl : a.data.length = c.nrow * c.ncol) :
    ∃ a', c.toDense a = ok a' ∧ IsDense a' c.nrow c.ncol (denseOf c.symmetric es) := by
  have h0 : IsDense (a.fill 0) c.nrow c.ncol (denseOf c.symmetric ([] : List (Entry α))) :=
    isDense_fill a _ _ hm hn hl 0
  have := accum_spec (sym := c.symmetric) h.square h.rangeI h.rangeJ
    (body := fun p a => do
      let i ← vget c.indicesI p
      let j ← vget c.indicesJ p
      let x ← vget c.values p
      Coo.addMirror c.symmetric.triangular a (asUsize i) (asUsize j) x)
    (by intro k hk a; simp [h.readI hk, h.readJ hk, h.readX hk, h.usizeI hk, h.usizeJ hk]) h0
  simpa [Coo.toDense, hm, hn, h.nnz] using this

theorem Coo.asDense_spec [Zero α] [Add α] {c : Coo α} {es : List (Entry α)} (h : c.Rep es) :
    ∃ a, c.asDense = ok a ∧ IsDense a c.nrow c.ncol (denseOf c.symmetric es) := by
  obtain ⟨a, h1, h2⟩ := Coo.toDense_spec h (NumMatrix.new c.nrow c.ncol) rfl rfl (by simp [NumMatrix.new])
  exact ⟨a, by simp [Coo.asDense, h1], h2⟩

/-! ## Sums -/

theorem denseOf_eq_sum [AddCommMonoid α] (sym : Sym) (es : List (Entry α)) (r c : Nat) :
    denseOf sym es r c = (es.map fun e => if Hits sym e r c then e.2.2 else 0).sum := by
  have aux : ∀ (es : List (Entry α)) (z : α),
      es.foldl (fun acc e => if Hits sym e r c then acc + e.2.2 else acc) z =
        z + (es.map fun e => if Hits sym e r c then e.2.2 else 0).sum := by
    intro es
    induction es with
    | nil => intro z; simp
    | cons e es ih =>
      intro z
      simp only [List.foldl_cons, List.map_cons, List.sum_cons]
      rw [ih]
      split <;> simp [add_assoc]
  rw [denseOf, aux, zero_add]

theorem denseOf_append [AddCommMonoid α] (sym : Sym) (es es' : List (Entry α)) (r c : Nat) :
    denseOf sym (es ++ es') r c = denseOf sym es r c + denseOf sym es' r c := by
  simp [denseOf_eq_sum]

/-- contribution of an entry to component `r` of the product with `u` -/
def contrib [Semiring α] (sym : Sym) (u : List α) (r : Nat) (e : Entry α) : α :=
  (if e.1 = r then e.2.2 * u.getD e.2.1 0 else 0) +
    (if sym.triangular = true ∧ e.1 ≠ e.2.1 ∧ e.2.1 = r then e.2.2 * u.getD e.1 0 else 0)

theorem sum_hits [Semiring α] (sym : Sym) (u : List α) (n r : Nat) (e : Entry α) (hi : sym.triangular = true → e.1 < n)
    (hj : e.2.1 < n) :
    (∑ c ∈ Finset.range n, (if Hits sym e r c then e.2.2 else 0) * u.getD c 0) = contrib sym u r e := by
  classical
  have hsplit : ∀ c, (if Hits sym e r c then e.2.2 else 0) * u.getD c 0 =
      (if c = e.2.1 then (if e.1 = r then e.2.2 * u.getD e.2.1 0 else 0) else 0) +
      (if c = e.1 then
        (if sym.triangular = true ∧ e.1 ≠ e.2.1 ∧ e.2.1 = r then e.2.2 * u.getD e.1 0 else 0) else 0) := by
    intro c
    obtain ⟨i, j, x⟩ := e
    have hH : Hits sym (i, j, x) r c ↔ (i = r ∧ j = c) ∨ (sym.triangular = true ∧ i = c ∧ j = r) := by
      simp only [Hits, Sym.triangular_iff]
    simp only [hH]
    generalize sym.triangular = t
    by_cases h1 : c = j
    · subst h1
      by_cases h2 : i = r
      · subst h2
        by_cases h3 : c = i
        · subst h3; simp
        · simp [h3]
      · by_cases h3 : c = i
        · subst h3; simp [h2]
        · have : ¬ i = c := fun h => h3 h.symm
          simp [h2, h3, this]
    · have h1' : ¬ j = c := fun h => h1 h.symm
      by_cases h2 : c = i
      · subst h2
        by_cases h3 : t = true ∧ j = r
        · obtain ⟨rfl, rfl⟩ := h3; simp [h1]
        · have : ¬ (t = true ∧ c ≠ j ∧ j = r) := fun hh => h3 ⟨hh.1, hh.2.2⟩
          simp [h1, h1', h3]
      · have : ¬ i = c := fun h => h2 h.symm
        simp [h1, h1', h2, this]
  simp only [hsplit]
  rw [Finset.sum_add_distrib, Finset.sum_ite_eq', Finset.sum_ite_eq', if_pos (Finset.mem_range.2 hj)]
  unfold contrib
  congr 1
  by_cases hlt : e.1 < n
  · rw [if_pos (Finset.mem_range.2 hlt)]
  · rw [if_neg (by simpa using hlt)]
    have : ¬ sym.triangular = true := fun hh => hlt (hi hh)
    rw [if_neg (fun hh => this hh.1)]

theorem sum_dense_mul [Semiring α] (sym : Sym) (u : List α) (n r : Nat) (es : List (Entry α))
    (hi : sym.triangular = true → ∀ e ∈ es, e.1 < n) (hj : ∀ e ∈ es, e.2.1 < n) :
    (∑ c ∈ Finset.range n, denseOf sym es r c * u.getD c 0) = (es.map (contrib sym u r)).sum := by
  induction es with
  | nil => simp [denseOf]
  | cons e es ih =>
    have := ih (fun h e he => hi h e (List.mem_cons_of_mem _ he)) (fun e he => hj e (List.mem_cons_of_mem _ he))
    simp only [List.map_cons, List.sum_cons]
    rw [← this, ← sum_hits sym u n r e (fun h => hi h e List.mem_cons_self) (hj e List.mem_cons_self),
      ← Finset.sum_add_distrib]
    apply Finset.sum_congr rfl
    intro c _
    simp only [denseOf_eq_sum, List.map_cons, List.sum_cons, add_mul]

/-- one step of the matrix-vector accumulation -/
theorem mulMirror_spec [CommSemiring α] (sym : Sym) (alpha : α) (u v : List α) (i j : Nat) (x : α)
    (hi : i < v.length) (hj : j < u.length)
    (ht : sym.triangular = true → i < u.length ∧ j < v.length) :
    ∃ v', Coo.mulMirror sym.triangular alpha u v i j x = ok v' ∧ v'.length = v.length ∧
      ∀ r, r < v.length → v'.getD r 0 = v.getD r 0 + alpha * contrib sym u r (i, j, x) := by
  have e1 : vget u j = ok (u.getD j 0) := by rw [vget_lt hj]; simp [hj]
  have e2 : vget v i = ok (v.getD i 0) := by rw [vget_lt hi]; simp [hi]
  have e3 := vset_lt (v.getD i 0 + alpha * x * u.getD j 0) hi
  by_cases hm : sym.triangular = true ∧ i ≠ j
  · obtain ⟨hiu, hjv⟩ := ht hm.1
    have e4 : vget u i = ok (u.getD i 0) := by rw [vget_lt hiu]; simp [hiu]
    have e5 : vget (v.set i (v.getD i 0 + alpha * x * u.getD j 0)) j = ok (v.getD j 0) := by
      apply vget_of
      rw [List.getElem?_set, if_neg hm.2]
      simp [hjv]
    have hjv' : j < (v.set i (v.getD i 0 + alpha * x * u.getD j 0)).length := by simpa using hjv
    refine ⟨_, by
      simp only [Coo.mulMirror, e1, e2, e3, ok_bind, if_pos hm, e4, e5]
      exact vset_lt _ hjv', by simp, ?_⟩
    intro r hr
    simp only [List.getD_eq_getElem?_getD, List.getElem?_set, List.length_set, contrib, hm.1]
    by_cases hrj : j = r
    · subst hrj
      have hne : ¬ i = j := hm.2
      simp [hne, hr]
      ring
    · by_cases hri : i = r
      · subst hri
        simp [hrj, hr]
        ring
      · simp [hrj, hri]
  · refine ⟨v.set i (v.getD i 0 + alpha * x * u.getD j 0), by simp only [Coo.mulMirror, e1, e2, e3, ok_bind, if_neg hm],
      by simp, ?_⟩
    intro r hr
    have hc : ¬ (sym.triangular = true ∧ i ≠ j ∧ j = r) := fun hh => hm ⟨hh.1, hh.2.1⟩
    simp only [List.getD_eq_getElem?_getD, List.getElem?_set, contrib, if_neg hc]
    by_cases hri : i = r
    · subst hri
      simp [hr]
      ring
    · simp [hri]

/-- The accumulation loop of all matrix-vector products over any list of entries. -/
theorem mulAccum_spec [CommSemiring α] {sym : Sym} {alpha : α} {u v0 v : List α} {es es0 : List (Entry α)}
    (hI : ∀ e ∈ es, e.1 < v0.length) (hJ : ∀ e ∈ es, e.2.1 < u.length)
    (hsq : sym.triangular = true → ∀ e ∈ es, e.1 < u.length ∧ e.2.1 < v0.length)
    {body : Nat → List α → Res (List α)}
    (hbody : ∀ k (h : k < es.length) a, body k a = Coo.mulMirror sym.triangular alpha u a es[k].1 es[k].2.1 es[k].2.2)
    (hl : v.length = v0.length)
    (hv : ∀ r, r < v0.length → v.getD r 0 = v0.getD r 0 + alpha * (es0.map (contrib sym u r)).sum) :
    ∃ v', forRange 0 es.length v body = ok v' ∧ v'.length = v0.length ∧
      ∀ r, r < v0.length → v'.getD r 0 = v0.getD r 0 + alpha * ((es0 ++ es).map (contrib sym u r)).sum := by
  have := forRange_spec (f := body)
    (fun k v => v.length = v0.length ∧
      ∀ r, r < v0.length → v.getD r 0 = v0.getD r 0 + alpha * ((es0 ++ es.take k).map (contrib sym u r)).sum)
    (Nat.zero_le es.length) (s := v) ⟨hl, by simpa using hv⟩ ?_
  · simpa using this
  · rintro k v _ hk ⟨hvl, hvr⟩
    have hmem : es[k] ∈ es := List.getElem_mem hk
    obtain ⟨v', h1, h2, h3⟩ := mulMirror_spec sym alpha u v es[k].1 es[k].2.1 es[k].2.2
      (by rw [hvl]; exact hI _ hmem) (hJ _ hmem) (fun ht => by rw [hvl]; exact hsq ht _ hmem)
    refine ⟨v', by rw [hbody k hk]; exact h1, by omega, ?_⟩
    intro r hr
    rw [h3 r (by omega), hvr r hr, take_succ_eq hk]
    simp only [List.map_append, List.sum_append, List.map_cons, List.map_nil, List.sum_cons, List.sum_nil, mul_add,
      add_assoc, add_zero]

theorem getD_zero_map [Zero α] (v : List α) (r : Nat) : (v.map fun _ => (0 : α)).getD r 0 = 0 := by
  simp only [List.getD_eq_getElem?_getD, List.getElem?_map]
  cases v[r]? <;> rfl

end Russell.Sparse
