import Verif.Sparse.CooProps
import Mathlib.Data.Complex.Basic
import Mathlib.Data.Complex.BigOperators

/-!
# Complex COO matrices made of real ones (property C106)

`assign_real` and `add_real` (russell_sparse/src/complex_coo_matrix.rs), in exact arithmetic.
-/

namespace Russell.Sparse

open Russell Russell.Res Russell.Lab

/-- the loop body of `assign_real` and `add_real`: `self.put(i, j, cpx!(alpha * other.values[p], beta * other.values[p]))?`
(/repo/russell_sparse/src/complex_coo_matrix.rs:65-69, 144-148) -/
noncomputable def putReal (alpha beta : ℝ) (other : Coo ℝ) (p : Nat) (c : Coo ℂ) : MRes (Coo ℂ) :=
  match vget other.indicesI p, vget other.indicesJ p, vget other.values p with
  | .ok i, .ok j, .ok x => c.put (asUsize i) (asUsize j) ⟨alpha * x, beta * x⟩
  | _, _, _ => .panic

/-- `assign_real` (/repo/russell_sparse/src/complex_coo_matrix.rs:54-71) -/
noncomputable def assignReal (c : Coo ℂ) (alpha beta : ℝ) (other : Coo ℝ) : MRes (Coo ℂ) :=
  if other.nrow ≠ c.nrow then .err c "matrices must have the same nrow"
  else if other.ncol ≠ c.ncol then .err c "matrices must have the same ncol"
  else if other.symmetric ≠ c.symmetric then .err c "matrices must have the same symmetric flag"
  else forMut other.nnz 0 c.reset (putReal alpha beta other)

/-- `add_real` (/repo/russell_sparse/src/complex_coo_matrix.rs:133-150) -/
noncomputable def addReal (c : Coo ℂ) (alpha beta : ℝ) (other : Coo ℝ) : MRes (Coo ℂ) :=
  if other.nrow > c.nrow then .err c "other.nrow must be ≤ this.nrow"
  else if other.ncol > c.ncol then .err c "other.ncol must be ≤ this.ncol"
  else if other.symmetric ≠ c.symmetric then .err c "matrices must have the same symmetric flag"
  else forMut other.nnz 0 c (putReal alpha beta other)

/-- a real COO matrix seen as a complex one -/
noncomputable def Coo.toComplex (c : Coo ℝ) : Coo ℂ :=
  { symmetric := c.symmetric, nrow := c.nrow, ncol := c.ncol, nnz := c.nnz, maxNnz := c.maxNnz, indicesI := c.indicesI,
    indicesJ := c.indicesJ, values := c.values.map Complex.ofReal }

theorem Coo.Rep.toComplex {c : Coo ℝ} {es : List (Entry ℝ)} (h : c.Rep es) :
    c.toComplex.Rep (es.map fun e => (e.1, e.2.1, (e.2.2 : ℂ))) := by
  obtain ⟨h1, h2, h3, h4, h5, h6, h7, h8, h9, h10, h11, h12, h13⟩ := h
  refine ⟨h1, h2, by simpa [Coo.toComplex] using h3, by simpa [Coo.toComplex] using h4, by simpa [Coo.toComplex] using h5, ?_, ?_, ?_,
    ?_, ?_, h11, h12, h13⟩
  · intro k hk
    have hk' : k < es.length := by simpa using hk
    simpa [Coo.toComplex] using h6 k hk'
  · intro k hk
    have hk' : k < es.length := by simpa using hk
    simpa [Coo.toComplex] using h7 k hk'
  · intro k hk
    have hk' : k < es.length := by simpa using hk
    simp [Coo.toComplex, h8 k hk']
  · intro e he
    obtain ⟨e', h, rfl⟩ := List.mem_map.1 he
    exact h9 e' h
  · intro e he
    obtain ⟨e', h, rfl⟩ := List.mem_map.1 he
    exact h10 e' h

theorem putReal_eq (alpha beta : ℝ) (other : Coo ℝ) : putReal alpha beta other = Coo.putScaled (⟨alpha, beta⟩ : ℂ) other.toComplex := by
  funext p c
  rw [putReal, Coo.putScaled]
  have e : vget other.toComplex.values p = (match vget other.values p with | .ok x => ok (x : ℂ) | .err m => .err m | .panic => .panic) := by
    simp only [Coo.toComplex, vget, List.getElem?_map]
    cases other.values[p]? <;> rfl
  rw [e]
  cases hi : vget other.indicesI p <;> cases hj : vget other.indicesJ p <;> cases hx : vget other.values p <;>
    simp [Coo.toComplex, hi, hj]
  rename_i x
  congr 1
  apply Complex.ext <;> simp

theorem denseOf_toComplex (sym : Sym) (es : List (Entry ℝ)) (r k : Nat) :
    denseOf sym (es.map fun e => (e.1, e.2.1, (e.2.2 : ℂ))) r k = ((denseOf sym es r k : ℝ) : ℂ) := by
  rw [denseOf_eq_sum, denseOf_eq_sum, List.map_map]
  induction es with
  | nil => simp
  | cons e es ih =>
    simp only [List.map_cons, List.sum_cons, Complex.ofReal_add, Function.comp_apply] at ih ⊢
    rw [ih]
    congr 1
    by_cases h : Hits sym e r k
    · rw [if_pos h, if_pos (by simpa [Hits] using h)]
    · rw [if_neg h, if_neg (by simpa [Hits] using h)]; simp

theorem asDense_toComplex {c : Coo ℝ} {es : List (Entry ℝ)} (h : c.Rep es) {b : NumMatrix ℂ} (hb : c.toComplex.asDense = ok b) :
    ∃ b', c.asDense = ok b' ∧ b'.nrow = b.nrow ∧ b'.ncol = b.ncol ∧
      ∀ r k, r < c.nrow → k < c.ncol → ∃ x, b'.get r k = ok x ∧ b.get r k = ok (x : ℂ) := by
  obtain ⟨b', e1, d1⟩ := Coo.asDense_spec h
  obtain ⟨b2, e2, d2⟩ := Coo.asDense_spec h.toComplex
  rw [hb] at e2; cases e2
  refine ⟨b', e1, d1.nrow.trans d2.nrow.symm, d1.ncol.trans d2.ncol.symm, fun r k hr hk => ⟨_, d1.get r k hr hk, ?_⟩⟩
  rw [← denseOf_toComplex]
  exact d2.get r k hr hk

/-- C106: `assign_real` succeeds exactly for matrices of the same size and kind whose entries fit, and the matrix becomes (α + β i) times the
real matrix -/
theorem C106_assign_real {alpha beta : ℝ} {other : Coo ℝ} {c : Coo ℂ} {eo : List (Entry ℝ)} {es : List (Entry ℂ)} (ho : other.Rep eo)
    (htri : ∀ e ∈ eo, InTriangle other.symmetric e.1 e.2.1) (h : c.Rep es) :
    ((∃ c', assignReal c alpha beta other = .ok c') ↔
      other.nrow = c.nrow ∧ other.ncol = c.ncol ∧ other.symmetric = c.symmetric ∧ eo.length ≤ c.maxNnz) ∧
    (∀ c', assignReal c alpha beta other = .ok c' → ∃ a b, c'.asDense = ok a ∧ other.asDense = ok b ∧
      a.nrow = b.nrow ∧ a.ncol = b.ncol ∧
      ∀ r k, r < c.nrow → k < c.ncol → ∃ x, b.get r k = ok x ∧ a.get r k = ok ((⟨alpha, beta⟩ : ℂ) * (x : ℂ))) ∧
    assignReal c alpha beta other ≠ .panic := by
  have key := C10_assign (alpha := (⟨alpha, beta⟩ : ℂ)) ho.toComplex (by
    intro e he
    obtain ⟨e', h, rfl⟩ := List.mem_map.1 he
    exact htri e' h) h
  rw [List.length_map] at key
  by_cases hd : other.nrow = c.nrow ∧ other.ncol = c.ncol ∧ other.symmetric = c.symmetric
  · obtain ⟨h1, h2, h3⟩ := hd
    have e : assignReal c alpha beta other = c.assign ⟨alpha, beta⟩ other.toComplex := by
      rw [assignReal, Coo.assign, putReal_eq, if_neg (by omega), if_neg (by omega), if_neg (by simp [h3]),
        if_neg (show ¬ other.toComplex.nrow ≠ c.nrow from by simpa [Coo.toComplex] using h1),
        if_neg (show ¬ other.toComplex.ncol ≠ c.ncol from by simpa [Coo.toComplex] using h2),
        if_neg (show ¬ other.toComplex.symmetric ≠ c.symmetric from by simp [Coo.toComplex, h3])]
      rfl
    rw [e]
    obtain ⟨k1, k2, k3⟩ := key
    refine ⟨k1, fun c' hc' => ?_, k3⟩
    obtain ⟨a, b, q1, q2, q3, q4, q5⟩ := k2 c' hc'
    obtain ⟨b', p1, p2, p3, p4⟩ := asDense_toComplex ho q2
    refine ⟨a, b', q1, p1, q3.trans p2.symm, q4.trans p3.symm, fun r k hr hk => ?_⟩
    obtain ⟨x, x1, x2⟩ := p4 r k (h1 ▸ hr) (h2 ▸ hk)
    obtain ⟨y, y1, y2⟩ := q5 r k hr hk
    rw [x2] at y1; cases y1
    exact ⟨x, x1, y2⟩
  · have he : ∃ msg, assignReal c alpha beta other = .err c msg := by
      rw [assignReal]
      split_ifs with h1 h2 h3
      · exact ⟨_, rfl⟩
      · exact ⟨_, rfl⟩
      · exact ⟨_, rfl⟩
      · exact absurd ⟨not_not.1 h1, not_not.1 h2, not_not.1 h3⟩ hd
    obtain ⟨msg, he⟩ := he
    rw [he]
    refine ⟨⟨fun ⟨c', h⟩ => (by cases h), fun h => absurd ⟨h.1, h.2.1, h.2.2.1⟩ hd⟩, fun c' h => (by cases h), fun h => (by cases h)⟩

/-- C106: `add_real` succeeds exactly for matrices of the same kind, not larger, whose entries fit, and (α + β i) times the real matrix is
added -/
theorem C106_add_real {alpha beta : ℝ} {other : Coo ℝ} {c : Coo ℂ} {eo : List (Entry ℝ)} {es : List (Entry ℂ)} (ho : other.Rep eo)
    (htri : ∀ e ∈ eo, InTriangle other.symmetric e.1 e.2.1) (h : c.Rep es) :
    ((∃ c', addReal c alpha beta other = .ok c') ↔
      other.nrow ≤ c.nrow ∧ other.ncol ≤ c.ncol ∧ other.symmetric = c.symmetric ∧ es.length + eo.length ≤ c.maxNnz) ∧
    (∀ c', addReal c alpha beta other = .ok c' → ∃ a a0 b, c'.asDense = ok a ∧ c.asDense = ok a0 ∧ other.asDense = ok b ∧
      a.nrow = c.nrow ∧ a.ncol = c.ncol ∧
      ∀ r k, r < c.nrow → k < c.ncol → ∃ x0, a0.get r k = ok x0 ∧
        (r < other.nrow ∧ k < other.ncol → ∃ x, b.get r k = ok x ∧ a.get r k = ok (x0 + (⟨alpha, beta⟩ : ℂ) * (x : ℂ))) ∧
        (¬ (r < other.nrow ∧ k < other.ncol) → a.get r k = ok x0)) ∧
    addReal c alpha beta other ≠ .panic := by
  have key := C10_add (alpha := (⟨alpha, beta⟩ : ℂ)) ho.toComplex (by
    intro e he
    obtain ⟨e', h, rfl⟩ := List.mem_map.1 he
    exact htri e' h) h
  rw [List.length_map] at key
  by_cases hd : other.nrow ≤ c.nrow ∧ other.ncol ≤ c.ncol ∧ other.symmetric = c.symmetric
  · have e : addReal c alpha beta other = c.add ⟨alpha, beta⟩ other.toComplex := by
      obtain ⟨h1, h2, h3⟩ := hd
      rw [addReal, Coo.add, putReal_eq, if_neg (by omega), if_neg (by omega), if_neg (by simp [h3]),
        if_neg (show ¬ other.toComplex.nrow > c.nrow from by simpa [Coo.toComplex] using h1),
        if_neg (show ¬ other.toComplex.ncol > c.ncol from by simpa [Coo.toComplex] using h2),
        if_neg (show ¬ other.toComplex.symmetric ≠ c.symmetric from by simp [Coo.toComplex, h3])]
      rfl
    rw [e]
    obtain ⟨k1, k2, k3⟩ := key
    refine ⟨k1, fun c' hc' => ?_, k3⟩
    obtain ⟨a, a0, b, q1, q0, q2, q3, q4, q5⟩ := k2 c' hc'
    obtain ⟨b', p1, p2, p3, p4⟩ := asDense_toComplex ho q2
    refine ⟨a, a0, b', q1, q0, p1, q3, q4, fun r k hr hk => ?_⟩
    obtain ⟨x0, y0, y1, y2⟩ := q5 r k hr hk
    refine ⟨x0, y0, fun hrk => ?_, y2⟩
    obtain ⟨x, x1, x2⟩ := p4 r k hrk.1 hrk.2
    obtain ⟨y, z1, z2⟩ := y1 hrk
    rw [x2] at z1; cases z1
    exact ⟨x, x1, z2⟩
  · have he : ∃ msg, addReal c alpha beta other = .err c msg := by
      rw [addReal]
      split_ifs with h1 h2 h3
      · exact ⟨_, rfl⟩
      · exact ⟨_, rfl⟩
      · exact ⟨_, rfl⟩
      · exact absurd ⟨not_lt.1 h1, not_lt.1 h2, not_not.1 h3⟩ hd
    obtain ⟨msg, he⟩ := he
    rw [he]
    refine ⟨⟨fun ⟨c', h⟩ => (by cases h), fun h => absurd ⟨h.1, h.2.1, h.2.2.1⟩ hd⟩, fun c' h => (by cases h), fun h => (by cases h)⟩

/-- the hypotheses can be met: the matrix of one entry 3 at (1, 0), and an empty complex matrix of the same size -/
example : (⟨.no, 2, 2, 1, 2, [1, 0], [0, 0], [3, 0]⟩ : Coo ℝ).Rep [(1, 0, 3)] ∧
    (⟨.no, 2, 2, 0, 2, [0, 0], [0, 0], [0, 0]⟩ : Coo ℂ).Rep [] := by
  refine ⟨⟨rfl, rfl, rfl, rfl, by decide, ?_, ?_, ?_, by simp, by simp, by decide, by decide, by simp⟩,
    ⟨rfl, rfl, rfl, rfl, by decide, ?_, ?_, ?_, by simp, by simp, by decide, by decide, by simp⟩⟩ <;> intro k hk
  · have : k = 0 := by simpa using hk
    subst this; rfl
  · have : k = 0 := by simpa using hk
    subst this; rfl
  · have : k = 0 := by simpa using hk
    subst this; rfl
  all_goals exact absurd hk (by simp)

end Russell.Sparse
