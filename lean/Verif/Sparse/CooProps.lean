import Verif.Sparse.CooLemmas
import Mathlib.Tactic.IntervalCases

/-!
# Properties of the COO matrix: C01, C02, C09 (COO part), C10, C11, C12
-/

namespace Russell.Sparse

open Russell Russell.Res Russell.Lab

variable {α : Type}

/-! ## Histories (specification) -/

/-- A call made by the user of a COO matrix. -/
inductive CooOp (α : Type) where
  | put (i j : Nat) (x : α)
  | reset

/-- The user performs one call, ignoring the returned `Result`. -/
def Coo.call (c : Coo α) : CooOp α → Res (Coo α)
  | .put i j x => match c.put i j x with
    | .ok c' => ok c'
    | .err c' _ => ok c'
    | .panic => panic
  | .reset => ok c.reset

/-- The user performs the calls in order. -/
def Coo.run (c : Coo α) (ops : List (CooOp α)) : Res (Coo α) := forList ops c fun op c => c.call op

/-- Specification: an entry is acceptable. -/
def Acceptable (nrow ncol cap : Nat) (sym : Sym) (stored : Nat) (i j : Nat) : Prop :=
  i < nrow ∧ j < ncol ∧ stored < cap ∧ (sym = Sym.yesLower → j ≤ i) ∧ (sym = Sym.yesUpper → i ≤ j)

instance (nrow ncol cap : Nat) (sym : Sym) (stored i j : Nat) : Decidable (Acceptable nrow ncol cap sym stored i j) := by
  unfold Acceptable; infer_instance

/-- Specification: the entries accepted since the last reset. -/
def accepted (nrow ncol cap : Nat) (sym : Sym) (ops : List (CooOp α)) : List (Entry α) :=
  ops.foldl (fun es op => match op with
    | .put i j x => if Acceptable nrow ncol cap sym es.length i j then es ++ [(i, j, x)] else es
    | .reset => []) []

theorem Coo.run_rep (nrow ncol cap : Nat) (sym : Sym) (ops : List (CooOp α)) :
    ∀ (c : Coo α) (es : List (Entry α)), c.Rep es → c.nrow = nrow → c.ncol = ncol → c.maxNnz = cap → c.symmetric = sym →
    ∃ c', c.run ops = ok c' ∧
      c'.Rep (ops.foldl (fun es op => match op with
        | .put i j x => if Acceptable nrow ncol cap sym es.length i j then es ++ [(i, j, x)] else es
        | .reset => []) es) ∧
      c'.nrow = nrow ∧ c'.ncol = ncol ∧ c'.maxNnz = cap ∧ c'.symmetric = sym := by
  induction ops with
  | nil => intro c es h h1 h2 h3 h4; exact ⟨c, rfl, h, h1, h2, h3, h4⟩
  | cons op ops ih =>
    intro c es h h1 h2 h3 h4
    cases op with
    | reset =>
      obtain ⟨c', e, r⟩ := ih c.reset [] (Coo.reset_rep h) h1 h2 h3 h4
      exact ⟨c', by simpa [Coo.run, forList, Coo.call] using e, r⟩
    | put i j x =>
      have := Coo.put_spec h i j x
      by_cases hc : Acceptable nrow ncol cap sym es.length i j
      · rw [if_pos (by subst h1 h2 h3 h4; exact hc)] at this
        obtain ⟨c1, e1, r1, d1, d2, d3, d4⟩ := this
        obtain ⟨c', e, r⟩ := ih c1 _ r1 (by omega) (by omega) (by omega) (by rw [d4, h4])
        refine ⟨c', ?_, ?_⟩
        · simpa [Coo.run, forList, Coo.call, e1] using e
        · simpa only [List.foldl_cons, if_pos hc] using r
      · rw [if_neg (by subst h1 h2 h3 h4; exact hc)] at this
        obtain ⟨m, e1⟩ := this
        obtain ⟨c', e, r⟩ := ih c es h h1 h2 h3 h4
        refine ⟨c', ?_, ?_⟩
        · simpa [Coo.run, forList, Coo.call, e1] using e
        · simpa only [List.foldl_cons, if_neg hc] using r

/-- Every matrix reached from `new` by any history is well formed and stores exactly the accepted entries. -/
theorem Coo.reachable_rep [Zero α] {nrow ncol cap : Nat} {sym : Sym} {c0 : Coo α}
    (h0 : Coo.new nrow ncol cap sym = ok c0) (hm : nrow < 2147483648) (hn : ncol < 2147483648)
    (ops : List (CooOp α)) :
    ∃ c, c0.run ops = ok c ∧ c.Rep (accepted nrow ncol cap sym ops) ∧
      c.nrow = nrow ∧ c.ncol = ncol ∧ c.maxNnz = cap ∧ c.symmetric = sym := by
  obtain ⟨r, d1, d2, d3, d4⟩ := Coo.new_rep h0 hm hn
  exact Coo.run_rep nrow ncol cap sym ops c0 [] r d1 d2 d3 d4

/-! ## C01 -/

/-- C01: in every reachable state `put` returns `Ok` exactly for the acceptable entries, increasing the number of entries by
one, and otherwise returns `Err` leaving the matrix unchanged; no history panics. -/
theorem C01_put_exact [Zero α] {nrow ncol cap : Nat} {sym : Sym} {c0 : Coo α}
    (h0 : Coo.new nrow ncol cap sym = ok c0) (hm : nrow < 2147483648) (hn : ncol < 2147483648)
    (ops : List (CooOp α)) (i j : Nat) (x : α) :
    ∃ c, c0.run ops = ok c ∧
      (Acceptable nrow ncol cap sym c.nnz i j → ∃ c', c.put i j x = .ok c' ∧ c'.nnz = c.nnz + 1) ∧
      (¬ Acceptable nrow ncol cap sym c.nnz i j → ∃ msg, c.put i j x = .err c msg) := by
  obtain ⟨c, e, r, d1, d2, d3, d4⟩ := Coo.reachable_rep h0 hm hn ops
  have hp := Coo.put_spec r i j x
  refine ⟨c, e, fun ha => ?_, fun ha => ?_⟩
  · rw [if_pos (by rw [← r.nnz, d1, d2, d3, d4]; exact ha)] at hp
    obtain ⟨c', e', r', -⟩ := hp
    exact ⟨c', e', by rw [r'.nnz, r.nnz]; simp⟩
  · rw [if_neg (by rw [← r.nnz, d1, d2, d3, d4]; exact ha)] at hp
    exact hp

/-- C01, the constructor: `new` returns `Ok` exactly for positive sizes, and square matrices when symmetric. -/
theorem C01_new_exact [Zero α] (nrow ncol cap : Nat) (sym : Sym) :
    (∃ c : Coo α, Coo.new nrow ncol cap sym = ok c) ↔
      1 ≤ nrow ∧ 1 ≤ ncol ∧ 1 ≤ cap ∧ (sym ≠ Sym.no → nrow = ncol) := by
  unfold Coo.new
  constructor
  · rintro ⟨c, h⟩
    split at h
    · simp at h
    · split at h
      · simp at h
      · split at h
        · simp at h
        · split at h
          · simp at h
          · rename_i h1 h2 h3 h4
            refine ⟨by omega, by omega, by omega, fun hs => ?_⟩
            by_contra hne; exact h4 ⟨hs, hne⟩
  · rintro ⟨h1, h2, h3, h4⟩
    rw [if_neg (by omega), if_neg (by omega), if_neg (by omega), if_neg (fun h => h.2 (h4 h.1))]
    exact ⟨_, rfl⟩

/-- non-vacuity: a 3x3 lower-triangular matrix with room for two entries; a rejected and an accepted entry -/
example : ∃ c0 : Coo Int, Coo.new 3 3 2 Sym.yesLower = ok c0 ∧
    (∃ c, c0.run [.put 0 1 (5 : Int), .put 2 1 7] = ok c ∧ c.nnz = 1 ∧
      Acceptable 3 3 2 Sym.yesLower c.nnz 2 2 ∧ ¬ Acceptable 3 3 2 Sym.yesLower c.nnz 1 2) := by
  refine ⟨_, rfl, _, rfl, by decide, by decide, by decide⟩

/-! ## C02 -/

/-- C02: after any history the dense form is, at each position, the sum in insertion order of the entries accepted since
the last reset that lie there (or at the mirrored position for triangular storage). Arbitrary addition. -/
theorem C02_history_dense [Zero α] [Add α] {nrow ncol cap : Nat} {sym : Sym} {c0 : Coo α}
    (h0 : Coo.new nrow ncol cap sym = ok c0) (hm : nrow < 2147483648) (hn : ncol < 2147483648)
    (ops : List (CooOp α)) :
    ∃ c a, c0.run ops = ok c ∧ c.asDense = ok a ∧ c.nnz = (accepted nrow ncol cap sym ops).length ∧
      IsDense a nrow ncol (denseOf sym (accepted nrow ncol cap sym ops)) := by
  obtain ⟨c, e, r, d1, d2, d3, d4⟩ := Coo.reachable_rep h0 hm hn ops
  obtain ⟨a, ea, ha⟩ := Coo.asDense_spec r
  exact ⟨c, a, e, ea, r.nnz, by rw [d1, d2, d4] at ha; exact ha⟩

/-- C02, reset: everything done before a reset is forgotten. -/
theorem C02_reset_forgets [Zero α] {nrow ncol cap : Nat} {sym : Sym} (before after : List (CooOp α)) :
    accepted nrow ncol cap sym (before ++ CooOp.reset :: after) = accepted nrow ncol cap sym after := by
  simp [accepted, List.foldl_append]

/-- C02: `to_dense` overwrites whatever the target contained, and rejects wrong dimensions. -/
theorem C02_toDense_overwrites [Zero α] [Add α] {nrow ncol cap : Nat} {sym : Sym} {c0 : Coo α}
    (h0 : Coo.new nrow ncol cap sym = ok c0) (hm : nrow < 2147483648) (hn : ncol < 2147483648)
    (ops : List (CooOp α)) (b : NumMatrix α) (hb : b.data.length = b.nrow * b.ncol) :
    ∃ c, c0.run ops = ok c ∧
      (b.nrow = nrow ∧ b.ncol = ncol →
        ∃ a, c.toDense b = ok a ∧ IsDense a nrow ncol (denseOf sym (accepted nrow ncol cap sym ops))) ∧
      (¬ (b.nrow = nrow ∧ b.ncol = ncol) → ∃ msg, c.toDense b = err msg) := by
  obtain ⟨c, e, r, d1, d2, d3, d4⟩ := Coo.reachable_rep h0 hm hn ops
  refine ⟨c, e, fun hd => ?_, fun hd => ?_⟩
  · obtain ⟨a, ea, ha⟩ := Coo.toDense_spec r b (by omega) (by omega) (by rw [hb, hd.1, hd.2, d1, d2])
    exact ⟨a, ea, by rw [d1, d2, d4] at ha; exact ha⟩
  · refine ⟨_, by rw [Coo.toDense, if_pos (by rw [d1, d2]; omega)]⟩

example : ∃ c0 : Coo Int, Coo.new 2 2 3 Sym.yesUpper = ok c0 ∧
    (∃ c a, c0.run [.put 0 0 (5 : Int), .reset, .put 0 1 7, .put 0 1 2, .put 1 0 9] = ok c ∧ c.asDense = ok a ∧
      a.get 0 1 = ok 9 ∧ a.get 1 0 = ok 9 ∧ a.get 0 0 = ok 0) := by
  refine ⟨_, rfl, _, _, rfl, rfl, rfl, rfl, rfl⟩

/-! ## C09, COO part -/

theorem Coo.matVec_core [CommSemiring α] {c : Coo α} {es : List (Entry α)} (h : c.Rep es) (v0 u : List α) (alpha : α)
    (hu : c.ncol ≤ u.length) (hv : c.nrow ≤ v0.length) :
    ∃ v', (forRange 0 c.nnz v0 fun p v => do
        let i ← vget c.indicesI p
        let j ← vget c.indicesJ p
        let x ← vget c.values p
        Coo.mulMirror c.symmetric.triangular alpha u v (asUsize i) (asUsize j) x) = ok v' ∧
      v'.length = v0.length ∧
      ∀ r, r < v0.length → v'.getD r 0 = v0.getD r 0 +
        alpha * ∑ k ∈ Finset.range c.ncol, denseOf c.symmetric es r k * u.getD k 0 := by
  have hsq : c.symmetric.triangular = true → ∀ e ∈ es, e.1 < c.ncol := fun ht e he => by
    rw [← h.square ht]; exact h.rangeI e he
  obtain ⟨v', h1, h2, h3⟩ := mulAccum_spec (sym := c.symmetric) (alpha := alpha) (u := u) (v0 := v0) (v := v0) (es := es)
    (es0 := [])
    (fun e he => lt_of_lt_of_le (h.rangeI e he) hv) (fun e he => lt_of_lt_of_le (h.rangeJ e he) hu)
    (fun ht e he => ⟨lt_of_lt_of_le (hsq ht e he) hu, by
      have := h.rangeJ e he; rw [← h.square ht] at this; exact lt_of_lt_of_le this hv⟩)
    (body := fun p v => do
        let i ← vget c.indicesI p
        let j ← vget c.indicesJ p
        let x ← vget c.values p
        Coo.mulMirror c.symmetric.triangular alpha u v (asUsize i) (asUsize j) x)
    (by intro k hk a; simp [h.readI hk, h.readJ hk, h.readX hk, h.usizeI hk, h.usizeJ hk])
    rfl (by intro r hr; simp)
  refine ⟨v', by rw [h.nnz]; exact h1, h2, fun r hr => ?_⟩
  rw [h3 r hr, sum_dense_mul c.symmetric u c.ncol r es hsq h.rangeJ]
  simp

theorem denseOf_out_of_range [AddCommMonoid α] {c : Coo α} {es : List (Entry α)} (h : c.Rep es) {r k : Nat}
    (hr : c.nrow ≤ r) : denseOf c.symmetric es r k = 0 := by
  rw [denseOf_eq_sum]
  have : (es.map fun e => if Hits c.symmetric e r k then e.2.2 else 0) = es.map fun _ => (0 : α) := by
    apply List.map_congr_left
    intro e he
    rw [if_neg]
    rintro (hh | hh)
    · have := h.rangeI e he; omega
    · have := h.rangeJ e he
      have := h.square ((Sym.triangular_iff _).2 hh.1); omega
  rw [this]; simp

/-- C09 (COO): `mat_vec_mul` computes `alpha * A * u`, `A` being the dense form; positions beyond the matrix become 0. -/
theorem C09_coo_matVecMul [CommSemiring α] {c : Coo α} {es : List (Entry α)} (h : c.Rep es) (v u : List α) (alpha : α) :
    (u.length < c.ncol ∨ v.length < c.nrow → ∃ msg, c.matVecMul v alpha u = err msg) ∧
    (c.ncol ≤ u.length → c.nrow ≤ v.length → ∃ v' a, c.matVecMul v alpha u = ok v' ∧ v'.length = v.length ∧
      c.asDense = ok a ∧
      (∀ r, r < c.nrow → ∃ f : Nat → α, (∀ k, k < c.ncol → a.get r k = ok (f k)) ∧
          v'[r]? = some (alpha * ∑ k ∈ Finset.range c.ncol, f k * u.getD k 0)) ∧
      (∀ r, c.nrow ≤ r → r < v.length → v'[r]? = some 0)) := by
  constructor
  · intro hb
    unfold Coo.matVecMul
    split
    · exact ⟨_, rfl⟩
    · rw [if_pos (by omega)]; exact ⟨_, rfl⟩
  · intro hu hv
    obtain ⟨v', h1, h2, h3⟩ := Coo.matVec_core h (v.map fun _ => 0) u alpha hu (by simpa using hv)
    obtain ⟨a, ea, ha⟩ := Coo.asDense_spec h
    simp only [List.length_map] at h2 h3
    refine ⟨v', a, by rw [Coo.matVecMul, if_neg (by omega), if_neg (by omega)]; exact h1, h2, ea, ?_, ?_⟩
    · intro r hr
      refine ⟨denseOf c.symmetric es r, fun k hk => ha.get r k hr hk, ?_⟩
      have := h3 r (by omega)
      rw [getD_zero_map, zero_add] at this
      rw [← this]; simp [show r < v'.length by omega]
    · intro r hr hr'
      have := h3 r hr'
      rw [getD_zero_map, zero_add] at this
      have hz : ∑ k ∈ Finset.range c.ncol, denseOf c.symmetric es r k * u.getD k 0 = 0 := by
        apply Finset.sum_eq_zero
        intro k _
        rw [denseOf_out_of_range h hr, zero_mul]
      rw [hz, mul_zero] at this
      rw [← this]; simp [show r < v'.length by omega]

/-- C09 (COO): `mat_vec_mul_update` adds `alpha * A * u` to `v`; positions beyond the matrix are unchanged. -/
theorem C09_coo_matVecMulUpdate [CommSemiring α] {c : Coo α} {es : List (Entry α)} (h : c.Rep es) (v u : List α)
    (alpha : α) :
    (u.length < c.ncol ∨ v.length < c.nrow → ∃ msg, c.matVecMulUpdate v alpha u = err msg) ∧
    (c.ncol ≤ u.length → c.nrow ≤ v.length → ∃ v' a, c.matVecMulUpdate v alpha u = ok v' ∧ v'.length = v.length ∧
      c.asDense = ok a ∧
      (∀ r, r < c.nrow → ∃ f : Nat → α, (∀ k, k < c.ncol → a.get r k = ok (f k)) ∧
          v'[r]? = some (v.getD r 0 + alpha * ∑ k ∈ Finset.range c.ncol, f k * u.getD k 0)) ∧
      (∀ r, c.nrow ≤ r → v'[r]? = v[r]?)) := by
  constructor
  · intro hb
    unfold Coo.matVecMulUpdate
    split
    · exact ⟨_, rfl⟩
    · rw [if_pos (by omega)]; exact ⟨_, rfl⟩
  · intro hu hv
    obtain ⟨v', h1, h2, h3⟩ := Coo.matVec_core h v u alpha hu hv
    obtain ⟨a, ea, ha⟩ := Coo.asDense_spec h
    refine ⟨v', a, by rw [Coo.matVecMulUpdate, if_neg (by omega), if_neg (by omega)]; exact h1, h2, ea, ?_, ?_⟩
    · intro r hr
      refine ⟨denseOf c.symmetric es r, fun k hk => ha.get r k hr hk, ?_⟩
      have := h3 r (by omega)
      rw [← this]; simp [show r < v'.length by omega]
    · intro r hr
      by_cases hr' : r < v.length
      · have := h3 r hr'
        have hz : ∑ k ∈ Finset.range c.ncol, denseOf c.symmetric es r k * u.getD k 0 = 0 := by
          apply Finset.sum_eq_zero
          intro k _
          rw [denseOf_out_of_range h hr, zero_mul]
        rw [hz, mul_zero, add_zero] at this
        simpa [hr', show r < v'.length by omega] using this
      · simp [show v'.length ≤ r by omega, show v.length ≤ r by omega]

/-- the mirrored entries -/
def swapE (e : Entry α) : Entry α := (e.2.1, e.1, e.2.2)

theorem denseOf_swap [AddCommMonoid α] (sym : Sym) (es : List (Entry α)) (r c : Nat) :
    denseOf sym (es.map swapE) r c = denseOf sym es c r := by
  rw [denseOf_eq_sum, denseOf_eq_sum, List.map_map]
  congr 1
  apply List.map_congr_left
  intro e _
  have : Hits sym (swapE e) r c ↔ Hits sym e c r := by
    simp only [Hits, swapE]
    constructor
    · rintro (h | h)
      · exact Or.inl ⟨h.2, h.1⟩
      · exact Or.inr ⟨h.1, h.2.2, h.2.1⟩
    · rintro (h | h)
      · exact Or.inl ⟨h.2, h.1⟩
      · exact Or.inr ⟨h.1, h.2.2, h.2.1⟩
  simp only [Function.comp, this]
  rfl

/-- C09 (COO): `mat_t_vec_mul` computes `alpha * Aᵀ * u`. -/
theorem C09_coo_matTVecMul [CommSemiring α] {c : Coo α} {es : List (Entry α)} (h : c.Rep es) (v u : List α) (alpha : α) :
    (u.length < c.nrow ∨ v.length < c.ncol → ∃ msg, c.matTVecMul v alpha u = err msg) ∧
    (c.nrow ≤ u.length → c.ncol ≤ v.length → ∃ v' a, c.matTVecMul v alpha u = ok v' ∧ v'.length = v.length ∧
      c.asDense = ok a ∧
      (∀ k, k < c.ncol → ∃ f : Nat → α, (∀ r, r < c.nrow → a.get r k = ok (f r)) ∧
          v'[k]? = some (alpha * ∑ r ∈ Finset.range c.nrow, f r * u.getD r 0))) := by
  constructor
  · intro hb
    unfold Coo.matTVecMul
    split
    · exact ⟨_, rfl⟩
    · rw [if_pos (by omega)]; exact ⟨_, rfl⟩
  · intro hu hv
    have hI : ∀ e ∈ es.map swapE, e.1 < c.ncol := by
      intro e he; obtain ⟨e', he', rfl⟩ := List.mem_map.1 he; exact h.rangeJ e' he'
    have hJ : ∀ e ∈ es.map swapE, e.2.1 < c.nrow := by
      intro e he; obtain ⟨e', he', rfl⟩ := List.mem_map.1 he; exact h.rangeI e' he'
    have hsq : c.symmetric.triangular = true → ∀ e ∈ es.map swapE, e.1 < c.nrow := fun ht e he => by
      rw [h.square ht]; exact hI e he
    obtain ⟨v', h1, h2, h3⟩ := mulAccum_spec (sym := c.symmetric) (alpha := alpha) (u := u)
      (v0 := v.map fun _ => 0) (v := v.map fun _ => 0) (es := es.map swapE) (es0 := [])
      (fun e he => by rw [List.length_map]; exact lt_of_lt_of_le (hI e he) hv)
      (fun e he => lt_of_lt_of_le (hJ e he) hu)
      (fun ht e he => ⟨lt_of_lt_of_le (hsq ht e he) hu, by
        have := hJ e he; rw [h.square ht] at this; rw [List.length_map]; exact lt_of_lt_of_le this hv⟩)
      (body := fun p v => do
        let j ← vget c.indicesI p
        let i ← vget c.indicesJ p
        let x ← vget c.values p
        Coo.mulMirror c.symmetric.triangular alpha u v (asUsize i) (asUsize j) x)
      (by
        intro k hk a
        have hk' : k < es.length := by simpa using hk
        simp [h.readI hk', h.readJ hk', h.readX hk', h.usizeI hk', h.usizeJ hk', swapE])
      rfl (by intro r hr; simp)
    obtain ⟨a, ea, ha⟩ := Coo.asDense_spec h
    simp only [List.length_map] at h1 h2 h3
    refine ⟨v', a, by rw [Coo.matTVecMul, if_neg (by omega), if_neg (by omega), h.nnz]; exact h1, h2, ea, ?_⟩
    intro k hk
    refine ⟨fun r => denseOf c.symmetric es r k, fun r hr => ha.get r k hr hk, ?_⟩
    have := h3 k (by omega)
    rw [getD_zero_map, zero_add, List.nil_append, ← sum_dense_mul c.symmetric u c.nrow k _ hsq hJ] at this
    simp only [denseOf_swap] at this
    rw [← this]; simp [show k < v'.length by omega]

/-! ## C10 -/

/-- Pushing a list of entries one after the other with `put`. -/
theorem forMut_put_spec {f : Nat → Coo α → MRes (Coo α)} (g : Nat → List (Entry α)) (cap : Nat) (nrow ncol : Nat) (sym : Sym) :
    ∀ (n lo : Nat) (c : Coo α) (es : List (Entry α)), c.Rep es → c.maxNnz = cap → c.nrow = nrow → c.ncol = ncol →
      c.symmetric = sym →
      (∀ k, lo ≤ k → k < lo + n → ∀ (c : Coo α) es, c.Rep es → c.maxNnz = cap → c.nrow = nrow → c.ncol = ncol →
        c.symmetric = sym →
        if es.length + (g k).length ≤ cap then
          ∃ c', f k c = .ok c' ∧ c'.Rep (es ++ g k) ∧ c'.maxNnz = cap ∧ c'.nrow = nrow ∧ c'.ncol = ncol ∧
            c'.symmetric = sym
        else ∃ c' m, f k c = .err c' m) →
      if es.length + ((List.range' lo n).flatMap g).length ≤ cap then
        ∃ c', forMut n lo c f = .ok c' ∧ c'.Rep (es ++ (List.range' lo n).flatMap g) ∧ c'.maxNnz = cap ∧
          c'.nrow = nrow ∧ c'.ncol = ncol ∧ c'.symmetric = sym
      else ∃ c' m, forMut n lo c f = .err c' m
  | 0, lo, c, es, h, h1, h2, h3, h4, _ => by
    have := h.le
    rw [if_pos (by simp; omega)]
    exact ⟨c, rfl, by simpa using h, h1, h2, h3, h4⟩
  | n + 1, lo, c, es, h, h1, h2, h3, h4, hf => by
    have hk := hf lo (Nat.le_refl _) (by omega) c es h h1 h2 h3 h4
    have e : List.range' lo (n + 1) = lo :: List.range' (lo + 1) n := List.range'_succ
    by_cases hc : es.length + (g lo).length ≤ cap
    · rw [if_pos hc] at hk
      obtain ⟨c1, e1, r1, d1, d2, d3, d4⟩ := hk
      have ih := forMut_put_spec g cap nrow ncol sym n (lo + 1) c1 _ r1 d1 d2 d3 d4
        (fun k a b => hf k (by omega) (by omega))
      simp only [forMut, e1, MRes.ok_andThen, e, List.flatMap_cons, List.length_append, List.append_assoc] at ih ⊢
      simp only [Nat.add_assoc] at ih ⊢
      exact ih
    · rw [if_neg hc] at hk
      obtain ⟨c1, m, e1⟩ := hk
      rw [if_neg]
      · exact ⟨c1, m, by simp [forMut, e1]⟩
      · rw [e, List.flatMap_cons, List.length_append]; omega

theorem flatMap_range'_getElem {es : List (Entry α)} {β : Type} (f : Entry α → List β)
    (g : Nat → List β) (hg : ∀ k (h : k < es.length), g k = f es[k]) :
    (List.range' 0 es.length).flatMap g = es.flatMap f := by
  have : es.map f = (List.range' 0 es.length).map g := by
    apply List.ext_getElem
    · simp
    · intro k h1 h2
      simp at h1
      simp [hg k h1]
  rw [List.flatMap_def, List.flatMap_def, this]

theorem flatMap_singleton' {β : Type} (f : Entry α → β) (l : List (Entry α)) : (l.flatMap fun e => [f e]) = l.map f := by
  induction l with
  | nil => rfl
  | cons e l ih => simp [ih]

theorem putScaled_spec [Mul α] {alpha : α} {other : Coo α} {eo : List (Entry α)} (ho : other.Rep eo)
    (htri : ∀ e ∈ eo, InTriangle other.symmetric e.1 e.2.1)
    {k : Nat} (hk : k < eo.length) {c : Coo α} {es : List (Entry α)} (h : c.Rep es)
    (hr : other.nrow ≤ c.nrow) (hc : other.ncol ≤ c.ncol) (hs : other.symmetric = c.symmetric) :
    if es.length + 1 ≤ c.maxNnz then
      ∃ c', Coo.putScaled alpha other k c = .ok c' ∧ c'.Rep (es ++ [(eo[k].1, eo[k].2.1, alpha * eo[k].2.2)]) ∧
        c'.maxNnz = c.maxNnz ∧ c'.nrow = c.nrow ∧ c'.ncol = c.ncol ∧ c'.symmetric = c.symmetric
    else ∃ c' m, Coo.putScaled alpha other k c = .err c' m := by
  have hm : eo[k] ∈ eo := List.getElem_mem hk
  have hp := Coo.put_spec h eo[k].1 eo[k].2.1 (alpha * eo[k].2.2)
  have e : Coo.putScaled alpha other k c = c.put eo[k].1 eo[k].2.1 (alpha * eo[k].2.2) := by
    simp [Coo.putScaled, ho.readI hk, ho.readJ hk, ho.readX hk, ho.usizeI hk, ho.usizeJ hk]
  rw [e]
  split
  · rw [if_pos ⟨lt_of_lt_of_le (ho.rangeI _ hm) hr, lt_of_lt_of_le (ho.rangeJ _ hm) hc, by omega,
      by rw [← hs]; exact htri _ hm⟩] at hp
    obtain ⟨c', h1, h2, h3, h4, h5, h6⟩ := hp
    exact ⟨c', h1, h2, h5, h3, h4, h6⟩
  · rw [if_neg (by omega)] at hp
    obtain ⟨m, hm⟩ := hp
    exact ⟨c, m, hm⟩

/-- entries of `alpha * B` -/
def scaleE [Mul α] (alpha : α) (e : Entry α) : Entry α := (e.1, e.2.1, alpha * e.2.2)

theorem denseOf_scale [Semiring α] (alpha : α) (sym : Sym) (es : List (Entry α)) (r c : Nat) :
    denseOf sym (es.map (scaleE alpha)) r c = alpha * denseOf sym es r c := by
  rw [denseOf_eq_sum, denseOf_eq_sum, List.map_map]
  induction es with
  | nil => simp
  | cons e es ih =>
    simp only [List.map_cons, List.sum_cons, mul_add, Function.comp] at ih ⊢
    rw [ih]
    have : Hits sym (scaleE alpha e) r c ↔ Hits sym e r c := Iff.rfl
    simp only [this]
    split <;> simp [scaleE]

theorem Coo.add_loop [Mul α] {alpha : α} {other c : Coo α} {eo es : List (Entry α)} (ho : other.Rep eo)
    (htri : ∀ e ∈ eo, InTriangle other.symmetric e.1 e.2.1) (h : c.Rep es)
    (hr : other.nrow ≤ c.nrow) (hc : other.ncol ≤ c.ncol) (hs : other.symmetric = c.symmetric) :
    if es.length + eo.length ≤ c.maxNnz then
      ∃ c', forMut other.nnz 0 c (Coo.putScaled alpha other) = .ok c' ∧ c'.Rep (es ++ eo.map (scaleE alpha)) ∧
        c'.maxNnz = c.maxNnz ∧ c'.nrow = c.nrow ∧ c'.ncol = c.ncol ∧ c'.symmetric = c.symmetric
    else ∃ c' m, forMut other.nnz 0 c (Coo.putScaled alpha other) = .err c' m := by
  let g : Nat → List (Entry α) := fun k => if hk : k < eo.length then [scaleE alpha eo[k]] else []
  have hg : (List.range' 0 eo.length).flatMap g = eo.map (scaleE alpha) := by
    rw [flatMap_range'_getElem (es := eo) (fun e => [scaleE alpha e]) g (fun k hk => by simp [g, hk])]
    exact flatMap_singleton' _ _
  have := forMut_put_spec (f := Coo.putScaled alpha other) g c.maxNnz c.nrow c.ncol c.symmetric other.nnz 0 c es h
    rfl rfl rfl rfl (by
      intro k _ hk c1 es1 r1 d1 d2 d3 d4
      have hk' : k < eo.length := by rw [← ho.nnz]; omega
      have := putScaled_spec (alpha := alpha) ho htri hk' r1 (by omega) (by omega) (by rw [d4, hs])
      rw [d1, d2, d3, d4] at this
      simpa [g, hk', scaleE] using this)
  rw [ho.nnz, hg] at this
  simpa [ho.nnz] using this

/-- C10: `assign` succeeds exactly when dimensions and kind agree and the capacity suffices; then the dense form becomes
`alpha` times the dense form of the other matrix. The hypothesis on the triangle holds for every matrix filled by `put`
(`C01_put_exact`); matrices built by `from` are only required to be used with entries in the stored triangle. -/
theorem C10_assign [Semiring α] {alpha : α} {other c : Coo α} {eo es : List (Entry α)} (ho : other.Rep eo)
    (htri : ∀ e ∈ eo, InTriangle other.symmetric e.1 e.2.1) (h : c.Rep es) :
    ((∃ c', c.assign alpha other = .ok c') ↔
      other.nrow = c.nrow ∧ other.ncol = c.ncol ∧ other.symmetric = c.symmetric ∧ eo.length ≤ c.maxNnz) ∧
    (∀ c', c.assign alpha other = .ok c' → ∃ a b, c'.asDense = ok a ∧ other.asDense = ok b ∧
      a.nrow = b.nrow ∧ a.ncol = b.ncol ∧
      ∀ r k, r < c.nrow → k < c.ncol → ∃ x, b.get r k = ok x ∧ a.get r k = ok (alpha * x)) ∧
    c.assign alpha other ≠ .panic := by
  by_cases hd : other.nrow = c.nrow ∧ other.ncol = c.ncol ∧ other.symmetric = c.symmetric
  · obtain ⟨h1, h2, h3⟩ := hd
    have e : c.assign alpha other = forMut other.nnz 0 c.reset (Coo.putScaled alpha other) := by
      rw [Coo.assign, if_neg (by omega), if_neg (by omega), if_neg (by simp [h3])]
    have hl := Coo.add_loop (alpha := alpha) ho htri (Coo.reset_rep h) (le_of_eq h1) (le_of_eq h2) h3
    rw [e]
    by_cases hcap : eo.length ≤ c.maxNnz
    · rw [if_pos (by simpa [Coo.reset] using hcap)] at hl
      obtain ⟨c1, e1, r1, d1, d2, d3, d4⟩ := hl
      refine ⟨⟨fun _ => ⟨h1, h2, h3, hcap⟩, fun _ => ⟨c1, e1⟩⟩, ?_, by rw [e1]; simp⟩
      intro c' hc'
      rw [e1] at hc'
      cases hc'
      obtain ⟨a, ea, ha⟩ := Coo.asDense_spec r1
      obtain ⟨b, eb, hb⟩ := Coo.asDense_spec ho
      have d2' : c1.nrow = c.nrow := d2
      have d3' : c1.ncol = c.ncol := d3
      have d4' : c1.symmetric = c.symmetric := d4
      refine ⟨a, b, ea, eb, by rw [ha.nrow, hb.nrow]; omega, by rw [ha.ncol, hb.ncol]; omega, ?_⟩
      intro r k hr hk
      refine ⟨_, hb.get r k (by omega) (by omega), ?_⟩
      rw [ha.get r k (by omega) (by omega), List.nil_append, denseOf_scale, d4', h3]
    · rw [if_neg (by simpa [Coo.reset] using hcap)] at hl
      obtain ⟨c1, m, e1⟩ := hl
      refine ⟨⟨fun ⟨c', hc'⟩ => (by rw [e1] at hc'; cases hc'), fun hh => absurd hh.2.2.2 hcap⟩, ?_, by rw [e1]; simp⟩
      intro c' hc'
      rw [e1] at hc'; cases hc'
  · have : ∃ m, c.assign alpha other = .err c m := by
      unfold Coo.assign
      split
      · exact ⟨_, rfl⟩
      · split
        · exact ⟨_, rfl⟩
        · split
          · exact ⟨_, rfl⟩
          · rename_i a1 a2 a3
            exact absurd ⟨not_not.1 a1, not_not.1 a2, not_not.1 a3⟩ hd
    obtain ⟨m, e⟩ := this
    rw [e]
    refine ⟨⟨fun ⟨_, hc⟩ => (by cases hc), fun hh => absurd ⟨hh.1, hh.2.1, hh.2.2.1⟩ hd⟩, fun _ hc => (by cases hc), by simp⟩

/-- C10: `add` succeeds exactly when the other matrix is not larger, the kinds agree and the capacity suffices; then the
leading block of the dense form grows by `alpha` times the other matrix and the rest is unchanged. -/
theorem C10_add [Semiring α] {alpha : α} {other c : Coo α} {eo es : List (Entry α)} (ho : other.Rep eo)
    (htri : ∀ e ∈ eo, InTriangle other.symmetric e.1 e.2.1) (h : c.Rep es) :
    ((∃ c', c.add alpha other = .ok c') ↔
      other.nrow ≤ c.nrow ∧ other.ncol ≤ c.ncol ∧ other.symmetric = c.symmetric ∧ es.length + eo.length ≤ c.maxNnz) ∧
    (∀ c', c.add alpha other = .ok c' → ∃ a a0 b, c'.asDense = ok a ∧ c.asDense = ok a0 ∧ other.asDense = ok b ∧
      a.nrow = c.nrow ∧ a.ncol = c.ncol ∧
      ∀ r k, r < c.nrow → k < c.ncol → ∃ x0, a0.get r k = ok x0 ∧
        (r < other.nrow ∧ k < other.ncol → ∃ x, b.get r k = ok x ∧ a.get r k = ok (x0 + alpha * x)) ∧
        (¬ (r < other.nrow ∧ k < other.ncol) → a.get r k = ok x0)) ∧
    c.add alpha other ≠ .panic := by
  by_cases hd : other.nrow ≤ c.nrow ∧ other.ncol ≤ c.ncol ∧ other.symmetric = c.symmetric
  · obtain ⟨h1, h2, h3⟩ := hd
    have e : c.add alpha other = forMut other.nnz 0 c (Coo.putScaled alpha other) := by
      rw [Coo.add, if_neg (by omega), if_neg (by omega), if_neg (by simp [h3])]
    have hl := Coo.add_loop (alpha := alpha) ho htri h h1 h2 h3
    rw [e]
    by_cases hcap : es.length + eo.length ≤ c.maxNnz
    · rw [if_pos hcap] at hl
      obtain ⟨c1, e1, r1, d1, d2, d3, d4⟩ := hl
      refine ⟨⟨fun _ => ⟨h1, h2, h3, hcap⟩, fun _ => ⟨c1, e1⟩⟩, ?_, by rw [e1]; simp⟩
      intro c' hc'
      rw [e1] at hc'
      cases hc'
      obtain ⟨a, ea, ha⟩ := Coo.asDense_spec r1
      obtain ⟨a0, ea0, ha0⟩ := Coo.asDense_spec h
      obtain ⟨b, eb, hb⟩ := Coo.asDense_spec ho
      refine ⟨a, a0, b, ea, ea0, eb, by rw [ha.nrow, d2], by rw [ha.ncol, d3], ?_⟩
      intro r k hr hk
      refine ⟨_, ha0.get r k hr hk, ?_, ?_⟩
      · rintro ⟨hr', hk'⟩
        refine ⟨_, hb.get r k hr' hk', ?_⟩
        rw [ha.get r k (by omega) (by omega), denseOf_append, denseOf_scale, d4, h3]
      · intro hn
        rw [ha.get r k (by omega) (by omega), denseOf_append, denseOf_scale, d4]
        have hz : denseOf c.symmetric eo r k = 0 := by
          rw [denseOf_eq_sum]
          have : (eo.map fun e => if Hits c.symmetric e r k then e.2.2 else 0) = eo.map fun _ => (0 : α) := by
            apply List.map_congr_left
            intro e he
            rw [if_neg]
            rw [← h3]
            have a1 := ho.rangeI e he
            have a2 := ho.rangeJ e he
            rintro (hh | hh)
            · exact hn ⟨by omega, by omega⟩
            · have := ho.square ((Sym.triangular_iff _).2 hh.1)
              exact hn ⟨by omega, by omega⟩
          rw [this]; simp
        rw [hz, mul_zero, add_zero]
    · rw [if_neg hcap] at hl
      obtain ⟨c1, m, e1⟩ := hl
      refine ⟨⟨fun ⟨c', hc'⟩ => (by rw [e1] at hc'; cases hc'), fun hh => absurd hh.2.2.2 hcap⟩, ?_, by rw [e1]; simp⟩
      intro c' hc'
      rw [e1] at hc'; cases hc'
  · have : ∃ m, c.add alpha other = .err c m := by
      unfold Coo.add
      split
      · exact ⟨_, rfl⟩
      · split
        · exact ⟨_, rfl⟩
        · split
          · exact ⟨_, rfl⟩
          · rename_i a1 a2 a3
            exact absurd ⟨not_lt.1 a1, not_lt.1 a2, not_not.1 a3⟩ hd
    obtain ⟨m, e⟩ := this
    rw [e]
    refine ⟨⟨fun ⟨_, hc⟩ => (by cases hc), fun hh => absurd ⟨hh.1, hh.2.1, hh.2.2.1⟩ hd⟩, fun _ hc => (by cases hc), by simp⟩

/-! ## C11 -/

/-- the entries written for one entry of the Lagrange block (specification of the three storage cases) -/
def lagE (sym : Sym) (nB : Nat) (e : Entry α) : List (Entry α) :=
  match sym with
  | .yesLower => [(nB + e.1, e.2.1, e.2.2)]
  | .yesUpper => [(e.2.1, nB + e.1, e.2.2)]
  | _ => [(nB + e.1, e.2.1, e.2.2), (e.2.1, nB + e.1, e.2.2)]

theorem putLagrangeEntry_spec {bb : Coo α} {eb : List (Entry α)} (hb : bb.Rep eb)
    {k : Nat} (hk : k < eb.length) {c : Coo α} {es : List (Entry α)} (h : c.Rep es)
    (hr : bb.ncol + bb.nrow ≤ c.nrow) (hc : bb.ncol + bb.nrow ≤ c.ncol) :
    if es.length + (lagE c.symmetric bb.ncol eb[k]).length ≤ c.maxNnz then
      ∃ c', Coo.putLagrangeEntry bb k c = .ok c' ∧ c'.Rep (es ++ lagE c.symmetric bb.ncol eb[k]) ∧
        c'.maxNnz = c.maxNnz ∧ c'.nrow = c.nrow ∧ c'.ncol = c.ncol ∧ c'.symmetric = c.symmetric
    else ∃ c' m, Coo.putLagrangeEntry bb k c = .err c' m := by
  have hm : eb[k] ∈ eb := List.getElem_mem hk
  have hI := hb.rangeI _ hm
  have hJ := hb.rangeJ _ hm
  have hp1 := Coo.put_spec h (bb.ncol + eb[k].1) eb[k].2.1 eb[k].2.2
  have hp2 := Coo.put_spec h eb[k].2.1 (bb.ncol + eb[k].1) eb[k].2.2
  have e : Coo.putLagrangeEntry bb k c =
      if c.symmetric = Sym.yesLower then c.put (bb.ncol + eb[k].1) eb[k].2.1 eb[k].2.2
      else if c.symmetric = Sym.yesUpper then c.put eb[k].2.1 (bb.ncol + eb[k].1) eb[k].2.2
      else (c.put (bb.ncol + eb[k].1) eb[k].2.1 eb[k].2.2).andThen
        fun c => c.put eb[k].2.1 (bb.ncol + eb[k].1) eb[k].2.2 := by
    simp [Coo.putLagrangeEntry, hb.readI hk, hb.readJ hk, hb.readX hk, hb.usizeI hk, hb.usizeJ hk]
  rw [e]
  have both : c.symmetric ≠ Sym.yesLower → c.symmetric ≠ Sym.yesUpper →
      if es.length + 2 ≤ c.maxNnz then
        ∃ c', (c.put (bb.ncol + eb[k].1) eb[k].2.1 eb[k].2.2).andThen
            (fun c => c.put eb[k].2.1 (bb.ncol + eb[k].1) eb[k].2.2) = .ok c' ∧
          c'.Rep (es ++ [(bb.ncol + eb[k].1, eb[k].2.1, eb[k].2.2), (eb[k].2.1, bb.ncol + eb[k].1, eb[k].2.2)]) ∧
          c'.maxNnz = c.maxNnz ∧ c'.nrow = c.nrow ∧ c'.ncol = c.ncol ∧ c'.symmetric = c.symmetric
      else ∃ c' m, (c.put (bb.ncol + eb[k].1) eb[k].2.1 eb[k].2.2).andThen
            (fun c => c.put eb[k].2.1 (bb.ncol + eb[k].1) eb[k].2.2) = .err c' m := by
    intro n1 n2
    by_cases hc1 : es.length < c.maxNnz
    · rw [if_pos ⟨by omega, by omega, hc1, fun h => absurd h n1, fun h => absurd h n2⟩] at hp1
      obtain ⟨c1, e1, r1, d1, d2, d3, d4⟩ := hp1
      have hp3 := Coo.put_spec r1 eb[k].2.1 (bb.ncol + eb[k].1) eb[k].2.2
      rw [e1, MRes.ok_andThen]
      split
      · rw [if_pos ⟨by omega, by omega, by simp; omega, fun h => absurd (d4 ▸ h) n1, fun h => absurd (d4 ▸ h) n2⟩] at hp3
        obtain ⟨c2, e2, r2, f1, f2, f3, f4⟩ := hp3
        exact ⟨c2, e2, by simpa using r2, by omega, by omega, by omega, by rw [f4, d4]⟩
      · rw [if_neg (by simp; omega)] at hp3
        obtain ⟨m, e2⟩ := hp3
        exact ⟨c1, m, e2⟩
    · rw [if_neg (by omega)] at hp1 ⊢
      obtain ⟨m, e1⟩ := hp1
      exact ⟨c, m, by rw [e1]; rfl⟩
  match hsym : c.symmetric with
  | .yesLower =>
    simp only [lagE, List.length_singleton, if_true]
    split
    · rw [if_pos ⟨by omega, by omega, by omega, fun _ => by omega, fun h => by rw [hsym] at h; cases h⟩] at hp1
      obtain ⟨c1, e1, r1, d1, d2, d3, d4⟩ := hp1
      exact ⟨c1, e1, r1, d3, d1, d2, by rw [d4, hsym]⟩
    · rw [if_neg (by omega)] at hp1
      obtain ⟨m, e1⟩ := hp1
      exact ⟨c, m, e1⟩
  | .yesUpper =>
    simp only [lagE, List.length_singleton, if_true, reduceCtorEq, if_false]
    split
    · rw [if_pos ⟨by omega, by omega, by omega, fun h => (by rw [hsym] at h; cases h), fun _ => by omega⟩] at hp2
      obtain ⟨c1, e1, r1, d1, d2, d3, d4⟩ := hp2
      exact ⟨c1, e1, r1, d3, d1, d2, by rw [d4, hsym]⟩
    · rw [if_neg (by omega)] at hp2
      obtain ⟨m, e1⟩ := hp2
      exact ⟨c, m, e1⟩
  | .no =>
    have := both (by rw [hsym]; simp) (by rw [hsym]; simp)
    rw [hsym] at this
    simpa only [lagE, List.length_cons, List.length_nil, reduceCtorEq, if_false] using this
  | .yesFull =>
    have := both (by rw [hsym]; simp) (by rw [hsym]; simp)
    rw [hsym] at this
    simpa only [lagE, List.length_cons, List.length_nil, reduceCtorEq, if_false] using this

/-- Specification: the matrix `[[0, Bᵀ], [B, 0]]` with `B` an `mB × nB` matrix, zero elsewhere. -/
def lagBlock [Zero α] (mB nB : Nat) (B : Nat → Nat → α) (r k : Nat) : α :=
  if nB ≤ r ∧ r < nB + mB ∧ k < nB then B (r - nB) k
  else if nB ≤ k ∧ k < nB + mB ∧ r < nB then B (k - nB) r
  else 0

theorem denseOf_lagE [AddCommMonoid α] (sym : Sym) (mB nB : Nat) (eb : List (Entry α))
    (hI : ∀ e ∈ eb, e.1 < mB) (hJ : ∀ e ∈ eb, e.2.1 < nB) (r k : Nat) :
    denseOf sym (eb.flatMap (lagE sym nB)) r k = lagBlock mB nB (denseOf Sym.no eb) r k := by
  induction eb with
  | nil => simp [lagBlock, denseOf]
  | cons e eb ih =>
    have ih := ih (fun e he => hI e (List.mem_cons_of_mem _ he)) (fun e he => hJ e (List.mem_cons_of_mem _ he))
    have hi := hI e List.mem_cons_self
    have hj := hJ e List.mem_cons_self
    rw [List.flatMap_cons, denseOf_append, ih]
    have hone : denseOf sym (lagE sym nB e) r k =
        (if r = nB + e.1 ∧ k = e.2.1 then e.2.2 else 0) + (if k = nB + e.1 ∧ r = e.2.1 then e.2.2 else 0) := by
      obtain ⟨i, j, x⟩ := e
      simp only at hi hj
      cases sym <;> simp only [denseOf_eq_sum, lagE, List.map_cons, List.map_nil, List.sum_cons, List.sum_nil, add_zero,
        Hits, reduceCtorEq, or_false, false_and, or_true, true_and]
      all_goals
        split_ifs <;> first | (exfalso; omega) | simp
    have hcons : ∀ a b, denseOf Sym.no (e :: eb) a b = (if e.1 = a ∧ e.2.1 = b then e.2.2 else 0) + denseOf Sym.no eb a b := by
      intro a b
      simp only [denseOf_eq_sum, List.map_cons, List.sum_cons, Hits, reduceCtorEq, false_and, or_false, or_self]
    rw [hone]
    unfold lagBlock
    by_cases b1 : nB ≤ r ∧ r < nB + mB ∧ k < nB
    · rw [if_pos b1, if_pos b1, hcons]
      have : ¬ (k = nB + e.1 ∧ r = e.2.1) := by omega
      rw [if_neg this, add_zero]
      have : (r = nB + e.1 ∧ k = e.2.1) ↔ (e.1 = r - nB ∧ e.2.1 = k) := by omega
      simp only [this]
    · rw [if_neg b1, if_neg b1]
      have : ¬ (r = nB + e.1 ∧ k = e.2.1) := by omega
      rw [if_neg this, zero_add]
      by_cases b2 : nB ≤ k ∧ k < nB + mB ∧ r < nB
      · rw [if_pos b2, if_pos b2, hcons]
        have : (k = nB + e.1 ∧ r = e.2.1) ↔ (e.1 = k - nB ∧ e.2.1 = r) := by omega
        simp only [this]
      · rw [if_neg b2, if_neg b2]
        have : ¬ (k = nB + e.1 ∧ r = e.2.1) := by omega
        rw [if_neg this, add_zero]

/-- C11: `put_lagrange_block` succeeds exactly when `B` is not symmetric, fits, and the capacity suffices; then the dense
form grows by exactly `[[0, Bᵀ], [B, 0]]`, for every storage kind. -/
theorem C11_lagrange_block [AddCommMonoid α] {bb c : Coo α} {eb es : List (Entry α)} (hb : bb.Rep eb) (h : c.Rep es) :
    ((∃ c', c.putLagrangeBlock bb = .ok c') ↔
      bb.symmetric = Sym.no ∧ bb.ncol + bb.nrow ≤ c.nrow ∧ bb.ncol + bb.nrow ≤ c.ncol ∧
      es.length + (if c.symmetric = Sym.yesLower ∨ c.symmetric = Sym.yesUpper then 1 else 2) * eb.length ≤ c.maxNnz) ∧
    (∀ c', c.putLagrangeBlock bb = .ok c' → ∃ a a0 b, c'.asDense = ok a ∧ c.asDense = ok a0 ∧ bb.asDense = ok b ∧
      a.nrow = c.nrow ∧ a.ncol = c.ncol ∧
      ∃ B : Nat → Nat → α, (∀ r k, r < bb.nrow → k < bb.ncol → b.get r k = ok (B r k)) ∧
      ∀ r k, r < c.nrow → k < c.ncol → ∃ x0, a0.get r k = ok x0 ∧
        a.get r k = ok (x0 + lagBlock bb.nrow bb.ncol B r k)) ∧
    c.putLagrangeBlock bb ≠ .panic := by
  by_cases hd : bb.symmetric = Sym.no ∧ bb.ncol + bb.nrow ≤ c.nrow ∧ bb.ncol + bb.nrow ≤ c.ncol
  · obtain ⟨h1, h2, h3⟩ := hd
    have e : c.putLagrangeBlock bb = forMut bb.nnz 0 c (Coo.putLagrangeEntry bb) := by
      rw [Coo.putLagrangeBlock, if_neg (by simp [h1]), if_neg (by omega), if_neg (by omega)]
    let g : Nat → List (Entry α) := fun k => if hk : k < eb.length then lagE c.symmetric bb.ncol eb[k] else []
    have hg : (List.range' 0 eb.length).flatMap g = eb.flatMap (lagE c.symmetric bb.ncol) :=
      flatMap_range'_getElem (es := eb) (lagE c.symmetric bb.ncol) g (fun k hk => by simp [g, hk])
    have hl := forMut_put_spec (f := Coo.putLagrangeEntry bb) g c.maxNnz c.nrow c.ncol c.symmetric bb.nnz 0 c es h
      rfl rfl rfl rfl (by
        intro k _ hk c1 es1 r1 d1 d2 d3 d4
        have hk' : k < eb.length := by rw [← hb.nnz]; omega
        have := putLagrangeEntry_spec hb hk' r1 (by omega) (by omega)
        rw [d1, d2, d3, d4] at this
        simpa only [g, hk', dif_pos] using this)
    rw [hb.nnz, hg] at hl
    have hlen : (eb.flatMap (lagE c.symmetric bb.ncol)).length =
        (if c.symmetric = Sym.yesLower ∨ c.symmetric = Sym.yesUpper then 1 else 2) * eb.length := by
      have aux : ∀ (s : Sym) (l : List (Entry α)), (l.flatMap (lagE s bb.ncol)).length =
        (if s = Sym.yesLower ∨ s = Sym.yesUpper then 1 else 2) * l.length := by
        intro s l
        induction l with
        | nil => simp
        | cons e l ih =>
          rw [List.flatMap_cons, List.length_append, ih]
          cases s <;> simp [lagE] <;> omega
      exact aux _ _
    rw [hlen] at hl
    rw [e]
    rw [hb.nnz]
    by_cases hcap : es.length + (if c.symmetric = Sym.yesLower ∨ c.symmetric = Sym.yesUpper then 1 else 2) * eb.length
        ≤ c.maxNnz
    · rw [if_pos hcap] at hl
      obtain ⟨c1, e1, r1, d1, d2, d3, d4⟩ := hl
      refine ⟨⟨fun _ => ⟨h1, h2, h3, hcap⟩, fun _ => ⟨c1, e1⟩⟩, ?_, by rw [e1]; simp⟩
      intro c' hc'
      rw [e1] at hc'
      cases hc'
      obtain ⟨a, ea, ha⟩ := Coo.asDense_spec r1
      obtain ⟨a0, ea0, ha0⟩ := Coo.asDense_spec h
      obtain ⟨b, eb', hb'⟩ := Coo.asDense_spec hb
      refine ⟨a, a0, b, ea, ea0, eb', by rw [ha.nrow, d2], by rw [ha.ncol, d3], denseOf Sym.no eb, ?_, ?_⟩
      · intro r k hr hk
        rw [hb'.get r k hr hk, h1]
      · intro r k hr hk
        refine ⟨_, ha0.get r k hr hk, ?_⟩
        rw [ha.get r k (by omega) (by omega), denseOf_append, d4,
          denseOf_lagE c.symmetric bb.nrow bb.ncol eb hb.rangeI hb.rangeJ]
    · rw [if_neg hcap] at hl
      obtain ⟨c1, m, e1⟩ := hl
      refine ⟨⟨fun ⟨c', hc'⟩ => (by rw [e1] at hc'; cases hc'), fun hh => absurd hh.2.2.2 hcap⟩, ?_, by rw [e1]; simp⟩
      intro c' hc'
      rw [e1] at hc'; cases hc'
  · have : ∃ m, c.putLagrangeBlock bb = .err c m := by
      unfold Coo.putLagrangeBlock
      split
      · exact ⟨_, rfl⟩
      · split
        · exact ⟨_, rfl⟩
        · split
          · exact ⟨_, rfl⟩
          · rename_i a1 a2 a3
            exact absurd ⟨not_not.1 a1, not_lt.1 a2, not_lt.1 a3⟩ hd
    obtain ⟨m, e⟩ := this
    rw [e]
    refine ⟨⟨fun ⟨_, hc⟩ => (by cases hc), fun hh => absurd ⟨hh.1, hh.2.1, hh.2.2.1⟩ hd⟩, fun _ hc => (by cases hc), by simp⟩

/-! ## C12 -/

/-- C12: `get_actual_nnz` is the number of stored entries plus, for triangular storage, the number of off-diagonal ones. -/
theorem C12_actual_nnz {c : Coo α} {es : List (Entry α)} (h : c.Rep es) :
    c.getActualNnz = ok (es.length +
      if c.symmetric = Sym.yesLower ∨ c.symmetric = Sym.yesUpper then (es.filter fun e => e.1 ≠ e.2.1).length else 0) := by
  unfold Coo.getActualNnz
  by_cases ht : c.symmetric.triangular = true
  · rw [if_pos ht, if_pos ((Sym.triangular_iff _).1 ht), h.nnz]
    obtain ⟨s', h1, h2⟩ := forRange_spec
      (f := fun p n => do
        let i ← vget c.indicesI p
        let j ← vget c.indicesJ p
        if asUsize i ≠ asUsize j then ok (n + 1 + 1) else ok (n + 1))
      (fun k n => n = k + ((es.take k).filter fun e => e.1 ≠ e.2.1).length)
      (Nat.zero_le es.length) (s := 0) (by simp) (by
        intro k n _ hk hn
        simp only [h.readI hk, h.readJ hk, ok_bind, h.usizeI hk, h.usizeJ hk]
        split
        · rename_i hne
          refine ⟨_, rfl, ?_⟩
          have h1 : ([es[k]].filter fun e => decide (e.1 ≠ e.2.1)).length = 1 := by simp [hne]
          rw [take_succ_eq hk, List.filter_append, List.length_append, hn, h1]; omega
        · rename_i hne
          refine ⟨_, rfl, ?_⟩
          have h1 : ([es[k]].filter fun e => decide (e.1 ≠ e.2.1)).length = 0 := by simp [not_not.1 hne]
          rw [take_succ_eq hk, List.filter_append, List.length_append, hn, h1]; omega)
    rw [h1, h2]; simp
  · rw [if_neg ht, if_neg (fun hh => ht ((Sym.triangular_iff _).2 hh)), h.nnz]; simp

/-! ## The hypotheses are met by every matrix the API can build -/

/-- Every entry stored through `put` lies in the stored triangle. -/
theorem accepted_inTriangle (nrow ncol cap : Nat) (sym : Sym) (ops : List (CooOp α)) :
    ∀ e ∈ accepted nrow ncol cap sym ops, InTriangle sym e.1 e.2.1 := by
  unfold accepted
  suffices ∀ es : List (Entry α), (∀ e ∈ es, InTriangle sym e.1 e.2.1) →
      ∀ e ∈ ops.foldl (fun es op => match op with
        | .put i j x => if Acceptable nrow ncol cap sym es.length i j then es ++ [(i, j, x)] else es
        | .reset => []) es, InTriangle sym e.1 e.2.1 from this [] (by simp)
  induction ops with
  | nil => intro es h; exact h
  | cons op ops ih =>
    intro es h
    apply ih
    cases op with
    | reset => simp
    | put i j x =>
      simp only
      split
      · rename_i ha
        intro e he
        simp only [List.mem_append, List.mem_singleton] at he
        rcases he with he | rfl
        · exact h e he
        · exact ha.2.2.2
      · exact h

/-- `CooMatrix::from` accepts exactly arrays of equal positive length with in-range indices (it never panics while the
dimensions fit an i32), and the result stores the given triplets. -/
theorem C01_from_exact (nrow ncol : Nat) (ri ci : List Int) (vs : List α) (sym : Sym)
    (hm : nrow < 2147483648) (hn : ncol < 2147483648) :
    ((∃ c, Coo.fromTriplets nrow ncol ri ci vs sym = ok c) ↔
      1 ≤ nrow ∧ 1 ≤ ncol ∧ 1 ≤ ri.length ∧ ci.length = ri.length ∧ vs.length = ri.length ∧
      (∀ i ∈ ri, 0 ≤ i ∧ i < nrow) ∧ (∀ j ∈ ci, 0 ≤ j ∧ j < ncol)) ∧
    (∀ c, Coo.fromTriplets nrow ncol ri ci vs sym = ok c →
      c = { symmetric := sym, nrow := nrow, ncol := ncol, nnz := ri.length, maxNnz := ri.length,
            indicesI := ri, indicesJ := ci, values := vs }) ∧
    Coo.fromTriplets nrow ncol ri ci vs sym ≠ panic := by
  unfold Coo.fromTriplets
  by_cases h1 : nrow < 1
  · simp [h1]
  rw [if_neg h1]
  by_cases h2 : ncol < 1
  · simp [h2]
  rw [if_neg h2]
  simp only
  by_cases h3 : ri.length < 1
  · rw [if_pos h3]; simp; intros; simp at h3; simp_all
  rw [if_neg h3]
  by_cases h4 : ci.length ≠ ri.length
  · rw [if_pos h4]; simp [h4]
  rw [if_neg h4]
  by_cases h5 : vs.length ≠ ri.length
  · rw [if_pos h5]; simp [h5]
  rw [if_neg h5]
  have h4' := not_not.1 h4
  have h5' := not_not.1 h5
  simp only [toI32_lt hm, toI32_lt hn, ok_bind]
  -- the loop
  have key : ∀ n, n ≤ ri.length →
      ((forRange 0 n () fun k _ => do
        let i ← vget ri k
        if i < 0 ∨ i ≥ (nrow : Int) then err "row index is out-of-range"
        else do
          let j ← vget ci k
          if j < 0 ∨ j ≥ (ncol : Int) then err "col index is out-of-range"
          else ok ()) = ok () ∧
        (∀ k (hk : k < n) (hr : k < ri.length) (hc : k < ci.length), (0 ≤ ri[k] ∧ ri[k] < nrow) ∧ (0 ≤ ci[k] ∧ ci[k] < ncol))) ∨
      ((∃ m, (forRange 0 n () fun k _ => do
        let i ← vget ri k
        if i < 0 ∨ i ≥ (nrow : Int) then err "row index is out-of-range"
        else do
          let j ← vget ci k
          if j < 0 ∨ j ≥ (ncol : Int) then err "col index is out-of-range"
          else ok ()) = err m) ∧
        ∃ k, ∃ (hr : k < ri.length) (hc : k < ci.length), ¬ ((0 ≤ ri[k] ∧ ri[k] < nrow) ∧ (0 ≤ ci[k] ∧ ci[k] < ncol))) := by
    intro n
    induction n with
    | zero => intro _; left; exact ⟨forRange_empty (by omega), fun k hk => absurd hk (by omega)⟩
    | succ n ih =>
      intro hn'
      rw [forRange_succ_right (by omega)]
      rcases ih (by omega) with ⟨e, hall⟩ | ⟨⟨m, e⟩, k, hr, hc, hk⟩
      · rw [e, ok_bind]
        have hr : n < ri.length := by omega
        have hc : n < ci.length := by omega
        simp only [vget_lt hr, vget_lt hc, ok_bind]
        by_cases b1 : ri[n] < 0 ∨ ri[n] ≥ (nrow : Int)
        · right; rw [if_pos b1]
          exact ⟨⟨_, rfl⟩, n, hr, hc, by omega⟩
        · rw [if_neg b1]
          by_cases b2 : ci[n] < 0 ∨ ci[n] ≥ (ncol : Int)
          · right; rw [if_pos b2]
            exact ⟨⟨_, rfl⟩, n, hr, hc, by omega⟩
          · left; rw [if_neg b2]
            refine ⟨rfl, fun k hk hr' hc' => ?_⟩
            by_cases hkn : k = n
            · subst hkn; omega
            · exact hall k (by omega) hr' hc'
      · right; rw [e]; exact ⟨⟨m, rfl⟩, k, hr, hc, hk⟩
  rcases key ri.length (Nat.le_refl _) with ⟨e, hall⟩ | ⟨⟨m, e⟩, k, hr, hc, hk⟩
  · rw [e]
    simp only [ok_bind]
    refine ⟨⟨fun _ => ⟨by omega, by omega, by omega, h4', h5', ?_, ?_⟩, fun _ => ⟨_, rfl⟩⟩, ?_, by simp⟩
    · intro i hi
      obtain ⟨k, hk, rfl⟩ := List.getElem_of_mem hi
      exact (hall k hk hk (by omega)).1
    · intro i hi
      obtain ⟨k, hk, rfl⟩ := List.getElem_of_mem hi
      exact (hall k (by omega) (by omega) hk).2
    · intro c hc; cases hc; rfl
  · rw [e]
    simp only [err_bind]
    refine ⟨⟨fun ⟨_, h⟩ => (by cases h), fun h => ?_⟩, fun _ h => (by cases h), by simp⟩
    exact absurd ⟨h.2.2.2.2.2.1 _ (List.getElem_mem hr), h.2.2.2.2.2.2 _ (List.getElem_mem hc)⟩ hk

/-- the triplets given to `from`, as a list of entries -/
def triplets (ri ci : List Int) (vs : List α) : List (Entry α) :=
  (ri.zip (ci.zip vs)).map fun t => (t.1.toNat, t.2.1.toNat, t.2.2)

theorem Coo.fromTriplets_rep {nrow ncol : Nat} {ri ci : List Int} {vs : List α} {sym : Sym} {c : Coo α}
    (h : Coo.fromTriplets nrow ncol ri ci vs sym = ok c) (hm : nrow < 2147483648) (hn : ncol < 2147483648)
    (hsq : sym = Sym.yesLower ∨ sym = Sym.yesUpper → nrow = ncol) : c.Rep (triplets ri ci vs) := by
  obtain ⟨a, b, -⟩ := C01_from_exact nrow ncol ri ci vs sym hm hn
  obtain ⟨h1, h2, h3, h4, h5, h6, h7⟩ := a.1 ⟨c, h⟩
  have hl : (triplets ri ci vs).length = ri.length := by simp [triplets]; omega
  have hget : ∀ k (hk : k < (triplets ri ci vs).length),
      (triplets ri ci vs)[k] = (ri[k].toNat, ci[k].toNat, vs[k]) := by
    intro k hk; simp [triplets]
  rw [b c h]
  exact {
    lenI := rfl
    lenJ := h4
    lenX := h5
    nnz := hl.symm
    le := le_of_eq hl
    entI := by
      intro k hk
      have hk' : k < ri.length := by omega
      have := h6 _ (List.getElem_mem hk')
      rw [hget k hk]; simp [this.1]
    entJ := by
      intro k hk
      have hk' : k < ci.length := by omega
      have := h7 _ (List.getElem_mem hk')
      rw [hget k hk]; simp [this.1]
    entX := by
      intro k hk
      rw [hget k hk]; simp
    rangeI := by
      intro e he
      obtain ⟨k, hk, rfl⟩ := List.getElem_of_mem he
      have hk' : k < ri.length := by omega
      have := h6 _ (List.getElem_mem hk')
      rw [hget k hk]; simp only; omega
    rangeJ := by
      intro e he
      obtain ⟨k, hk, rfl⟩ := List.getElem_of_mem he
      have hk' : k < ci.length := by omega
      have := h7 _ (List.getElem_mem hk')
      rw [hget k hk]; simp only; omega
    fitsI := hm
    fitsJ := hn
    square := fun ht => hsq ((Sym.triangular_iff _).1 ht) }

/-- A concrete well-formed 3x3 lower-triangular matrix with a duplicated entry and a spare slot: it meets the hypotheses
of C09-C12. -/
def exampleCoo : Coo Int :=
  { symmetric := Sym.yesLower, nrow := 3, ncol := 3, nnz := 3, maxNnz := 4,
    indicesI := [0, 2, 2, 99], indicesJ := [0, 1, 1, -5], values := [3, 4, 5, 1000] }

example : exampleCoo.Rep [(0, 0, 3), (2, 1, 4), (2, 1, 5)] ∧
    (∀ e ∈ [((0, 0, 3) : Entry Int), (2, 1, 4), (2, 1, 5)], InTriangle exampleCoo.symmetric e.1 e.2.1) := by
  refine ⟨⟨rfl, rfl, rfl, rfl, by decide, ?_, ?_, ?_, by decide, by decide, by decide, by decide, by decide⟩, by decide⟩
  all_goals
    intro k hk
    simp only [List.length_cons, List.length_nil] at hk
    interval_cases k <;> rfl

example : exampleCoo.matVecMul [7, 7, 7, 7] 2 [1, 10, 100] = ok [6, 1800, 180, 0] := rfl
example : exampleCoo.getActualNnz = ok 5 := rfl

end Russell.Sparse
