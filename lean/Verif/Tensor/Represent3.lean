import Verif.Tensor.Tensor3
import Verif.Tensor.Represent4

/-!
# C73: the representation of third-order tensors
-/

namespace Russell.Tensor
open Russell Russell.Res

/-- Arrays of 3×3×3 numbers. -/
abbrev Array3 := Fin 3 → Fin 3 → Fin 3 → ℝ

/-- An index of a vector as an index of the 9×9 matrix. -/
def up (k : Fin 3) : Fin 9 := ⟨k.val, by omega⟩

/-- The tensor for which `t` stands, in the standard orthonormal basis: `Σ mat_mk E_m ⊗ e_k` in case A, `Σ mat_in e_i ⊗ E_n` in case B,
over the components in use. -/
noncomputable def Tensor3.std (t : Tensor3) : Array3 := fun i j k =>
  if t.caseA then ∑ m : Fin 9, if m.val < t.rep.dim then t.mat m (up k) * basis m i j else 0
  else ∑ n : Fin 9, if n.val < t.rep.dim then t.mat (up i) n * basis n j k else 0

/-! ### The maps of indices -/

theorem ijkToMnA_eq (i j k : Fin 3) : ijkToMnA i j k = (ijToM i j, up k) := by decide +revert

theorem ijkToMnB_eq (i j k : Fin 3) : ijkToMnB i j k = (up i, ijToM j k) := by decide +revert

theorem ijkToMnSymA_eq (i j k : Fin 3) : ijkToMnSymA i j k = (ijToMSym i j, up k) := by decide +revert

theorem ijkToMnSymB_eq (i j k : Fin 3) : ijkToMnSymB i j k = (up i, ijToMSym j k) := by decide +revert

theorem mnToIjkA_eq (m : Fin 9) (k : Fin 3) : mnToIjkA m k = ((mToIj m).1, (mToIj m).2, k) := by decide +revert

theorem mnToIjkB_eq (i : Fin 3) (n : Fin 9) : mnToIjkB i n = (i, (mToIj n).1, (mToIj n).2) := by decide +revert

theorem up_inj (k l : Fin 3) : up k = up l ↔ k = l := by decide +revert

theorem mem_allIjk (x : Fin 3 × Fin 3 × Fin 3) : x ∈ allIjk := by
  obtain ⟨i, j, k⟩ := x
  simp [allIjk]

/-! ### The second-order tensors for one index of the vectors -/

/-- The tensor `T_ij = H_ijk` (case A), or `T_jk = H_ijk` (case B). -/
def Tensor3.pair (t : Tensor3) (r : Fin 3) : Tensor2 := ⟨t.rep, fun m => if t.caseA then t.mat m (up r) else t.mat (up r) m⟩

theorem std3_A (t : Tensor3) (h : t.caseA = true) (i j k : Fin 3) : t.std i j k = (t.pair k).std i j := by
  simp only [Tensor3.std, h, if_true, Tensor2.std, Tensor3.pair, Matrix.sum_apply]
  refine Finset.sum_congr rfl fun m _ => ?_
  split <;> simp

theorem std3_B (t : Tensor3) (h : t.caseA = false) (i j k : Fin 3) : t.std i j k = (t.pair i).std j k := by
  simp only [Tensor3.std, h, Tensor2.std, Tensor3.pair, Matrix.sum_apply]
  simp only [Bool.false_eq_true, if_false]
  refine Finset.sum_congr rfl fun m _ => ?_
  split <;> simp

/-- `get_std` returns the standard components. -/
theorem C73_get_std (t : Tensor3) (i j k : Fin 3) : t.getStd i j k = t.std i j k := by
  cases ha : t.caseA
  · rw [std3_B t ha, ← C65_get_std]
    unfold Tensor3.getStd Tensor2.getStd Tensor3.pair
    simp only [ha, ijkToMnB_eq, ijkToMnSymB_eq, sym_lt3]
    cases t.rep <;> rfl
  · rw [std3_A t ha, ← C65_get_std]
    unfold Tensor3.getStd Tensor2.getStd Tensor3.pair
    simp only [ha, ijkToMnA_eq, ijkToMnSymA_eq, sym_lt3]
    cases t.rep <;> rfl

/-! ### Which arrays can be represented -/

/-- Some components of the representation stand for the array. -/
def Representable3 (rep : Rep) (case_a : Bool) (d : Array3) : Prop := ∃ f u, Tensor3.std ⟨rep, case_a, f, u⟩ = d

/-- The matrix of an array for one index of the vectors. -/
def slice (case_a : Bool) (d : Array3) (r : Fin 3) : Matrix (Fin 3) (Fin 3) ℝ :=
  Matrix.of fun p q => if case_a then d p q r else d r p q

theorem slice_std (t : Tensor3) (r : Fin 3) : slice t.caseA t.std r = (t.pair r).std := by
  ext p q
  cases ha : t.caseA
  · simp [slice, std3_B t ha]
  · simp [slice, std3_A t ha]

theorem slice_inj {a : Bool} {d e : Array3} (h : ∀ r, slice a d r = slice a e r) : d = e := by
  funext i j k
  cases a
  · simpa [slice] using congrFun (congrFun (h i) j) k
  · simpa [slice] using congrFun (congrFun (h k) i) j

theorem ex_up (g : Fin 3 → Fin 9 → ℝ) : ∃ f : Fin 9 → Fin 9 → ℝ, ∀ r n, f (up r) n = g r n := by
  refine ⟨fun m n => if h : m.val < 3 then g ⟨m.val, h⟩ n else 0, fun r n => ?_⟩
  have : (up r).val < 3 := r.isLt
  exact dif_pos this

theorem representable3_slice (rep : Rep) (a : Bool) (d : Array3) : Representable3 rep a d ↔ ∀ r, Representable rep (slice a d r) := by
  constructor
  · rintro ⟨f, u, rfl⟩ r
    exact ⟨_, (slice_std ⟨rep, a, f, u⟩ r).symm⟩
  · intro h
    choose v hv using h
    obtain ⟨f, hf⟩ := ex_up v
    refine ⟨if a then fun m n => f n m else f, false, slice_inj (a := a) fun r => ?_⟩
    rw [slice_std ⟨rep, a, _, false⟩ r, ← hv r]
    congr 1
    unfold Tensor3.pair
    congr 1
    funext m
    cases a
    · simp [hf]
    · simp [hf]

theorem representable_iff' (rep : Rep) (M : Matrix (Fin 3) (Fin 3) ℝ) : Representable rep M ↔
    (rep ≠ .General → ∀ i j, M i j = M j i) ∧ ∀ i j, ¬ InPlane rep i j → M i j = 0 := by
  rw [representable_iff]
  constructor
  · rintro ⟨h1, h2⟩
    have hs : rep ≠ .General → ∀ i j, M i j = M j i := by
      intro hr i j
      obtain ⟨a, b, c⟩ := h1 hr
      fin_cases i <;> fin_cases j <;> simp [a, b, c]
    refine ⟨hs, fun i j h => ?_⟩
    simp only [InPlane] at h
    push Not at h
    obtain ⟨e, h3, h4⟩ := h
    obtain ⟨a, b⟩ := h2 e
    have s := hs (by rw [e]; simp)
    have b' := s 2 0
    have a' := s 2 1
    rw [b] at b'
    rw [a] at a'
    fin_cases i <;> fin_cases j <;> simp at h3 h4 ⊢ <;> assumption
  · rintro ⟨h1, h2⟩
    exact ⟨fun hr => ⟨h1 hr 1 0, h1 hr 2 1, h1 hr 2 0⟩, fun e => ⟨h2 1 2 (by simp [InPlane, e]), h2 0 2 (by simp [InPlane, e])⟩⟩

/-- Arrays that are symmetric in the pair of indices, with zeros in 2D, are those that can be represented: case A, the pair `ij`. -/
theorem C73_representable_a (rep : Rep) (d : Array3) : Representable3 rep true d ↔
    (rep ≠ .General → ∀ i j k, d i j k = d j i k) ∧ ∀ i j k, ¬ InPlane rep i j → d i j k = 0 := by
  rw [representable3_slice]
  simp only [representable_iff', slice, Matrix.of_apply, if_true]
  exact ⟨fun h => ⟨fun hr i j k => (h k).1 hr i j, fun i j k => (h k).2 i j⟩, fun h r => ⟨fun hr i j => h.1 hr i j r, fun i j => h.2 i j r⟩⟩

/-- The same for case B: the pair `jk`. -/
theorem C73_representable_b (rep : Rep) (d : Array3) : Representable3 rep false d ↔
    (rep ≠ .General → ∀ i j k, d i j k = d i k j) ∧ ∀ i j k, ¬ InPlane rep j k → d i j k = 0 := by
  rw [representable3_slice]
  simp only [representable_iff', slice, Matrix.of_apply, Bool.false_eq_true, if_false]
  exact ⟨fun h => ⟨fun hr i j k => (h i).1 hr j k, fun i j k => (h i).2 j k⟩, fun h r => ⟨fun hr i j => h.1 hr r i j, fun i j => h.2 r i j⟩⟩

theorem std2_unique {t u : Tensor2} (h : t.std = u.std) (hr : t.rep = u.rep) (m : Fin 9) (hm : m.val < t.rep.dim) : t.vec m = u.vec m := by
  rw [std_eq, std_eq] at h
  have := congrFun (mat9_inj h) m
  rw [cut_eq, cut_eq, if_pos hm, if_pos (hr ▸ hm)] at this
  exact this

/-- The standard components determine the Kelvin components in use. -/
theorem C73_unique {t u : Tensor3} (h : t.std = u.std) (hr : t.rep = u.rep) (hc : t.caseA = u.caseA) :
    ∀ m n : Fin 9, m.val < t.dims.1 → n.val < t.dims.2 → t.mat m n = u.mat m n := by
  intro m n hm hn
  have hp : ∀ r, (t.pair r).std = (u.pair r).std := fun r => by rw [← slice_std, ← slice_std, h, hc]
  cases ha : t.caseA
  · have ha' : u.caseA = false := hc ▸ ha
    simp only [Tensor3.dims, ha, Bool.false_eq_true, if_false] at hm hn
    have := std2_unique (hp ⟨m.val, hm⟩) hr n hn
    simpa [Tensor3.pair, ha, ha', up] using this
  · have ha' : u.caseA = true := hc ▸ ha
    simp only [Tensor3.dims, ha, if_true] at hm hn
    have := std2_unique (hp ⟨n.val, hn⟩) hr m hm
    simpa [Tensor3.pair, ha, ha', up] using this

/-! ### Loops that set components -/

/-- A write to a component: of the pair of indices `m`, and `r` of the vectors. -/
def Tensor3.write (t : Tensor3) : Option (Fin 9 × Fin 3 × ℝ) → Tensor3
  | none => t
  | some (m, r, v) => if t.caseA then t.set m (up r) v else t.set (up r) m v

theorem write3_rep (t : Tensor3) (w : Option (Fin 9 × Fin 3 × ℝ)) :
    (t.write w).rep = t.rep ∧ (t.write w).caseA = t.caseA ∧ (t.write w).useLoops = t.useLoops := by
  cases w with
  | none => exact ⟨rfl, rfl, rfl⟩
  | some x =>
    obtain ⟨m, r, v⟩ := x
    simp only [Tensor3.write]
    split <;> exact ⟨rfl, rfl, rfl⟩

theorem write3_pair (t : Tensor3) (m : Fin 9) (r : Fin 3) (v : ℝ) (m' : Fin 9) (r' : Fin 3) :
    ((t.write (some (m, r, v))).pair r').vec m' = if m' = m ∧ r' = r then v else (t.pair r').vec m' := by
  cases ha : t.caseA
  · simp [Tensor3.write, Tensor3.pair, ha, Tensor3.set, up_inj, and_comm]
  · simp [Tensor3.write, Tensor3.pair, ha, Tensor3.set, up_inj]

theorem forAll_ok3 {ι : Type} (f : ι → Tensor3 → Res Tensor3) (w : ι → Option (Fin 9 × Fin 3 × ℝ)) (l : List ι) (a : Bool)
    (h : ∀ x ∈ l, ∀ t : Tensor3, t.caseA = a → f x t = ok (t.write (w x))) (t : Tensor3) (ht : t.caseA = a) :
    ∃ t', forAll l f t = ok t' ∧ t'.rep = t.rep ∧ t'.caseA = t.caseA ∧
      ∀ m r v, (∀ x ∈ l, ∀ v', w x = some (m, r, v') → v' = v) → ((∃ x ∈ l, w x = some (m, r, v)) ∨ (t.pair r).vec m = v) →
        (t'.pair r).vec m = v := by
  induction l generalizing t with
  | nil => exact ⟨t, rfl, rfl, rfl, fun m n v _ h => by simpa using h⟩
  | cons x l ih =>
    obtain ⟨e1, e2, e3⟩ := write3_rep t (w x)
    obtain ⟨t', h1, h2, h3, h4⟩ := ih (fun y hy => h y (List.mem_cons_of_mem _ hy)) (t.write (w x)) (by rw [e2, ht])
    refine ⟨t', by rw [forAll, h x (by simp) t ht]; exact h1, by rw [h2, e1], by rw [h3, e2], fun m r v hv hb => ?_⟩
    refine h4 m r v (fun y hy => hv y (List.mem_cons_of_mem _ hy)) ?_
    by_cases hl : ∃ y ∈ l, w y = some (m, r, v)
    · exact Or.inl hl
    · right
      cases hw : w x with
      | none =>
        rcases hb with ⟨y, hy, e⟩ | hb
        · rcases List.mem_cons.1 hy with rfl | hy
          · rw [hw] at e
            exact absurd e (by simp)
          · exact absurd ⟨y, hy, e⟩ hl
        · exact hb
      | some p =>
        obtain ⟨p, q, v'⟩ := p
        rw [write3_pair]
        split
        · rename_i hpq
          obtain ⟨rfl, rfl⟩ := hpq
          exact hv x (by simp) v' hw
        · rename_i hpq
          rcases hb with ⟨y, hy, e⟩ | hb
          · rcases List.mem_cons.1 hy with rfl | hy
            · rw [hw] at e
              simp only [Option.some.injEq, Prod.mk.injEq] at e
              exact absurd ⟨e.1.symm, e.2.1.symm⟩ hpq
            · exact absurd ⟨y, hy, e⟩ hl
          · exact hb

theorem forAll_err' {ι σ : Type} (f : ι → σ → Res σ) (bad : ι → Prop) (hok : ∀ x, ¬ bad x → ∀ t, ∃ t', f x t = ok t')
    (hbad : ∀ x, bad x → ∀ t, ∃ msg, f x t = err msg) (l : List ι) (h : ∃ x ∈ l, bad x) (t : σ) : ∃ msg, forAll l f t = err msg := by
  induction l generalizing t with
  | nil => simp at h
  | cons x l ih =>
    by_cases hx : bad x
    · obtain ⟨msg, e⟩ := hbad x hx t
      exact ⟨msg, by rw [forAll, e]; rfl⟩
    · obtain ⟨t', e⟩ := hok x hx t
      obtain ⟨y, hy, hb⟩ := h
      have : ∃ x ∈ l, bad x := by
        rcases List.mem_cons.1 hy with rfl | hy
        · exact absurd hb hx
        · exact ⟨y, hy, hb⟩
      obtain ⟨msg, e'⟩ := ih this t'
      exact ⟨msg, by rw [forAll, e]; exact e'⟩

/-- The pair and the index of the vectors of `(i, j, k)`. -/
def pqr (a : Bool) (x : Fin 3 × Fin 3 × Fin 3) : Fin 3 × Fin 3 × Fin 3 := if a then x else (x.2.1, x.2.2, x.1)

theorem pqr_surj (a : Bool) (y : Fin 3 × Fin 3 × Fin 3) : ∃ x, pqr a x = y := by
  obtain ⟨p, q, r⟩ := y
  cases a
  · exact ⟨(r, p, q), rfl⟩
  · exact ⟨(p, q, r), rfl⟩

/-- The value that the loop for general tensors sets. -/
noncomputable def genValue (M : Matrix (Fin 3) (Fin 3) ℝ) (p q : Fin 3) : ℝ :=
  if p = q then M p q else if p < q then (M p q + M q p) / SQRT_2 else (M q p - M p q) / SQRT_2

theorem genValue_eq (M : Matrix (Fin 3) (Fin 3) ℝ) (m : Fin 9) : genValue M (mToIj m).1 (mToIj m).2 = comp M m := (comp_eq M m).symm

noncomputable def genWrite (a : Bool) (d : Array3) (y : Fin 3 × Fin 3 × Fin 3) : Option (Fin 9 × Fin 3 × ℝ) :=
  some (ijToM y.1 y.2.1, y.2.2, genValue (slice a d y.2.2) y.1 y.2.1)

theorem setStdGenA_eq (d : Array3) (x : Fin 3 × Fin 3 × Fin 3) (t : Tensor3) (ht : t.caseA = true) :
    Tensor3.setStdGenA d x t = ok (t.write (genWrite true d (pqr true x))) := by
  obtain ⟨i, j, k⟩ := x
  simp only [Tensor3.setStdGenA, genWrite, pqr, if_true, Tensor3.write, ht, ijkToMnA_eq, genValue, slice, Matrix.of_apply]
  split
  · rfl
  · split <;> rfl

theorem setStdGenB_eq (d : Array3) (x : Fin 3 × Fin 3 × Fin 3) (t : Tensor3) (ht : t.caseA = false) :
    Tensor3.setStdGenB d x t = ok (t.write (genWrite false d (pqr false x))) := by
  obtain ⟨i, j, k⟩ := x
  simp only [Tensor3.setStdGenB, genWrite, pqr, Tensor3.write, ht, ijkToMnB_eq, genValue, slice, Matrix.of_apply, Bool.false_eq_true, if_false]
  split
  · rfl
  · split <;> rfl

/-- The input that the loop over `y` refuses. -/
def symBad (max : Nat) (a : Bool) (d : Array3) (y : Fin 3 × Fin 3 × Fin 3) : Prop :=
  if y.1 > y.2.1 then slice a d y.2.2 y.1 y.2.1 ≠ slice a d y.2.2 y.2.1 y.1
  else (ijToM y.1 y.2.1).val > max ∧ slice a d y.2.2 y.1 y.2.1 ≠ 0

/-- The component that the loop over `y` sets. -/
noncomputable def symWrite (max : Nat) (a : Bool) (d : Array3) (y : Fin 3 × Fin 3 × Fin 3) : Option (Fin 9 × Fin 3 × ℝ) :=
  if y.1 > y.2.1 ∨ (ijToM y.1 y.2.1).val > max then none
  else some (ijToM y.1 y.2.1, y.2.2, (if y.1 = y.2.1 then 1 else SQRT_2) * slice a d y.2.2 y.1 y.2.1)

theorem setStdSymA_ok (max : Nat) (d : Array3) (x : Fin 3 × Fin 3 × Fin 3) (h : ¬ symBad max true d (pqr true x)) (t : Tensor3)
    (ht : t.caseA = true) : Tensor3.setStdSymA max d x t = ok (t.write (symWrite max true d (pqr true x))) := by
  obtain ⟨i, j, k⟩ := x
  simp only [symBad, pqr, if_true, slice, Matrix.of_apply] at h
  simp only [Tensor3.setStdSymA, symWrite, pqr, if_true, ijkToMnA_eq, slice, Matrix.of_apply, ijToM_lt3]
  by_cases h1 : i > j
  · rw [if_pos h1] at h ⊢
    rw [if_neg h, if_pos (Or.inl h1)]
    rfl
  · rw [if_neg h1] at h ⊢
    by_cases h2 : (ijToM i j).val > max
    · rw [if_pos h2, if_neg (fun h3 => h ⟨h2, h3⟩), if_pos (Or.inr h2)]
      rfl
    · have h4 : ¬ (i > j ∨ (ijToM i j).val > max) := by tauto
      rw [if_neg h2, if_neg h4]
      by_cases h3 : i = j
      · rw [if_pos h3, if_pos h3, one_mul, Tensor3.write, ht]
        rfl
      · rw [if_neg h3, if_neg h3, Tensor3.write, ht]
        rfl

theorem setStdSymB_ok (max : Nat) (d : Array3) (x : Fin 3 × Fin 3 × Fin 3) (h : ¬ symBad max false d (pqr false x)) (t : Tensor3)
    (ht : t.caseA = false) : Tensor3.setStdSymB max d x t = ok (t.write (symWrite max false d (pqr false x))) := by
  obtain ⟨i, j, k⟩ := x
  simp only [symBad, pqr, slice, Matrix.of_apply, Bool.false_eq_true, if_false] at h
  simp only [Tensor3.setStdSymB, symWrite, pqr, ijkToMnB_eq, slice, Matrix.of_apply, ijToM_lt3, Bool.false_eq_true, if_false]
  by_cases h1 : j > k
  · rw [if_pos h1] at h ⊢
    rw [if_neg h, if_pos (Or.inl h1)]
    rfl
  · rw [if_neg h1] at h ⊢
    by_cases h2 : (ijToM j k).val > max
    · rw [if_pos h2, if_neg (fun h3 => h ⟨h2, h3⟩), if_pos (Or.inr h2)]
      rfl
    · have h4 : ¬ (j > k ∨ (ijToM j k).val > max) := by tauto
      rw [if_neg h2, if_neg h4]
      by_cases h3 : j = k
      · rw [if_pos h3, if_pos h3, one_mul, Tensor3.write, ht]
        rfl
      · rw [if_neg h3, if_neg h3, Tensor3.write, ht]
        rfl

theorem setStdSymA_any (max : Nat) (d : Array3) (x : Fin 3 × Fin 3 × Fin 3) (t : Tensor3) :
    (symBad max true d (pqr true x) → ∃ msg, Tensor3.setStdSymA max d x t = err msg) ∧
      (¬ symBad max true d (pqr true x) → ∃ t', Tensor3.setStdSymA max d x t = ok t') := by
  obtain ⟨i, j, k⟩ := x
  simp only [symBad, pqr, if_true, slice, Matrix.of_apply, Tensor3.setStdSymA, ijkToMnA_eq]
  by_cases h1 : i > j
  · simp only [if_pos h1]
    exact ⟨fun h => ⟨_, if_pos h⟩, fun h => ⟨_, if_neg h⟩⟩
  · simp only [if_neg h1]
    by_cases h2 : (ijToM i j).val > max
    · simp only [if_pos h2]
      exact ⟨fun h => ⟨_, if_pos h.2⟩, fun h => ⟨_, if_neg fun h3 => h ⟨h2, h3⟩⟩⟩
    · simp only [if_neg h2]
      exact ⟨fun h => absurd h.1 h2, fun _ => by split <;> exact ⟨_, rfl⟩⟩

theorem setStdSymB_any (max : Nat) (d : Array3) (x : Fin 3 × Fin 3 × Fin 3) (t : Tensor3) :
    (symBad max false d (pqr false x) → ∃ msg, Tensor3.setStdSymB max d x t = err msg) ∧
      (¬ symBad max false d (pqr false x) → ∃ t', Tensor3.setStdSymB max d x t = ok t') := by
  obtain ⟨i, j, k⟩ := x
  simp only [symBad, pqr, slice, Matrix.of_apply, Tensor3.setStdSymB, ijkToMnB_eq, Bool.false_eq_true, if_false]
  by_cases h1 : j > k
  · simp only [if_pos h1]
    exact ⟨fun h => ⟨_, if_pos h⟩, fun h => ⟨_, if_neg h⟩⟩
  · simp only [if_neg h1]
    by_cases h2 : (ijToM j k).val > max
    · simp only [if_pos h2]
      exact ⟨fun h => ⟨_, if_pos h.2⟩, fun h => ⟨_, if_neg fun h3 => h ⟨h2, h3⟩⟩⟩
    · simp only [if_neg h2]
      exact ⟨fun h => absurd h.1 h2, fun _ => by split <;> exact ⟨_, rfl⟩⟩

theorem symBad_iff (rep : Rep) (hr : rep ≠ .General) (a : Bool) (d : Array3) :
    (∀ y, ¬ symBad (if rep.dim = 4 then 3 else 6) a d y) ↔ Representable3 rep a d := by
  rw [representable3_slice]
  simp only [representable_iff']
  constructor
  · intro h r
    have hs : ∀ i j, slice a d r i j = slice a d r j i := by
      have bad : ∀ i j, i > j → slice a d r i j = slice a d r j i := by
        intro i j hx
        have := h (i, j, r)
        rw [symBad, if_pos hx] at this
        simpa using this
      intro i j
      rcases lt_trichotomy i j with c | c | c
      · exact (bad j i c).symm
      · rw [c]
      · exact bad i j c
    refine ⟨fun _ => hs, ?_⟩
    have key : ∀ i j, i ≤ j → ¬ InPlane rep i j → slice a d r i j = 0 := by
      intro i j hi hn
      have hrep : rep = .Symmetric2D := by
        by_contra hc
        exact hn fun e => absurd e hc
      subst hrep
      rw [inPlane_iff i j hi] at hn
      have := h (i, j, r)
      rw [symBad, if_neg (by simpa using hi)] at this
      simp only [Rep.dim, if_true] at this
      by_contra h0
      exact this ⟨by omega, h0⟩
    have swap : ∀ i j, InPlane rep i j ↔ InPlane rep j i := by
      intro i j
      simp only [InPlane]
      constructor <;> intro h e <;> rcases h e with h | h <;> [left; right; left; right] <;> first | exact h.symm | exact ⟨h.2, h.1⟩
    intro i j hn
    rcases le_total i j with c | c
    · exact key i j c hn
    · rw [hs i j]
      exact key j i c (by rw [swap j i]; exact hn)
  · intro h y hy
    obtain ⟨i, j, r⟩ := y
    rw [symBad] at hy
    simp only at hy
    obtain ⟨h1, h2⟩ := h r
    split at hy
    · exact hy (h1 hr i j)
    · rename_i hle
      rw [gt_iff_lt, not_lt] at hle
      obtain ⟨hx, h0⟩ := hy
      have : rep = .Symmetric2D := by
        cases rep
        · exact absurd rfl hr
        · have := ijToM_le5 i j hle
          simp [Rep.dim] at hx
          omega
        · rfl
      subst this
      refine h0 (h2 i j fun hp => ?_)
      rw [inPlane_iff i j hle] at hp
      simp [Rep.dim] at hx
      omega

theorem comp_sym (M : Matrix (Fin 3) (Fin 3) ℝ) (h : ∀ i j, M i j = M j i) (m : Fin 9) (hm : m.val < 6) :
    comp M m = (if (mToIj m).1 = (mToIj m).2 then 1 else SQRT_2) * M (mToIj m).1 (mToIj m).2 := by
  rw [comp_eq]
  have b := mToIj_le m hm
  generalize (mToIj m).1 = i at *
  generalize (mToIj m).2 = j at *
  rcases b.lt_or_eq with b | rfl
  · simp only [b, b.ne, if_false, if_true]
    rw [← h i j]
    kelvin
  · simp

/-- The tensor is determined by the components of the slices. -/
theorem std3_of_comp (t : Tensor3) (d : Array3) (h : Representable3 t.rep t.caseA d)
    (hc : ∀ r m, m.val < t.rep.dim → (t.pair r).vec m = comp (slice t.caseA d r) m) : t.std = d := by
  rw [representable3_slice] at h
  refine slice_inj (a := t.caseA) fun r => ?_
  rw [slice_std]
  obtain ⟨v, hv⟩ := h r
  have e : cut t.rep v = comp (slice t.caseA d r) := by rw [← hv, std_eq, comp_mat9]
  rw [← hv, std_eq, std_eq]
  congr 1
  rw [e]
  funext m
  rw [cut_eq]
  split
  · rename_i hm
    exact hc r m hm
  · rename_i hm
    rw [← e, cut_eq]
    exact (if_neg hm).symm

/-- `set_std_array` accepts exactly the arrays that the representation can hold, and the tensor then is that array. -/
theorem C73_set_std_array (t : Tensor3) (d : Array3) :
    (Representable3 t.rep t.caseA d → ∃ t', t.setStdArray d = ok t' ∧ t'.rep = t.rep ∧ t'.caseA = t.caseA ∧ t'.std = d) ∧
      (¬ Representable3 t.rep t.caseA d → ∃ msg, t.setStdArray d = err msg) := by
  have hd : ∀ rep : Rep, (rep.dim = 4 ∨ rep.dim = 6) ↔ rep ≠ .General := by intro r; cases r <;> simp [Rep.dim]
  have gen : ∀ (f : Fin 3 × Fin 3 × Fin 3 → Tensor3 → Res Tensor3), t.rep = .General →
      (∀ x ∈ allIjk, ∀ t' : Tensor3, t'.caseA = t.caseA → f x t' = ok (t'.write (genWrite t.caseA d (pqr t.caseA x)))) →
      (Representable3 t.rep t.caseA d → ∃ t', forAll allIjk f t = ok t' ∧ t'.rep = t.rep ∧ t'.caseA = t.caseA ∧ t'.std = d) ∧
      (¬ Representable3 t.rep t.caseA d → ∃ msg, forAll allIjk f t = err msg) := by
    intro f hr hf
    have hrep : Representable3 t.rep t.caseA d := by
      rw [representable3_slice]
      intro r
      rw [representable_iff', hr]
      exact ⟨by simp, fun i j h => by simp [InPlane] at h⟩
    refine ⟨fun _ => ?_, fun h => absurd hrep h⟩
    obtain ⟨t', h1, h2, h3, h4⟩ := forAll_ok3 f (fun x => genWrite t.caseA d (pqr t.caseA x)) allIjk t.caseA hf t rfl
    refine ⟨t', h1, h2, h3, std3_of_comp t' d (by rw [h2, h3]; exact hrep) fun r m _ => ?_⟩
    rw [h3]
    obtain ⟨x, hx⟩ := pqr_surj t.caseA ((mToIj m).1, (mToIj m).2, r)
    refine h4 m r _ ?_ (Or.inl ⟨x, mem_allIjk x, ?_⟩)
    · rintro x - v' hx
      generalize pqr t.caseA x = y at hx
      obtain ⟨p, q, s⟩ := y
      simp only [genWrite, Option.some.injEq, Prod.mk.injEq] at hx
      obtain ⟨rfl, rfl, rfl⟩ := hx
      rw [← genValue_eq, mToIj_ijToM]
    · simp only [hx, genWrite, ijToM_mToIj, genValue_eq]
  have sym : ∀ (f : Fin 3 × Fin 3 × Fin 3 → Tensor3 → Res Tensor3), t.rep ≠ .General →
      (∀ x, ¬ symBad (if t.rep.dim = 4 then 3 else 6) t.caseA d (pqr t.caseA x) → ∀ t' : Tensor3, t'.caseA = t.caseA →
        f x t' = ok (t'.write (symWrite (if t.rep.dim = 4 then 3 else 6) t.caseA d (pqr t.caseA x)))) →
      (∀ x t', (symBad (if t.rep.dim = 4 then 3 else 6) t.caseA d (pqr t.caseA x) → ∃ msg, f x t' = err msg) ∧
        (¬ symBad (if t.rep.dim = 4 then 3 else 6) t.caseA d (pqr t.caseA x) → ∃ t'', f x t' = ok t'')) →
      (Representable3 t.rep t.caseA d → ∃ t', forAll allIjk f t = ok t' ∧ t'.rep = t.rep ∧ t'.caseA = t.caseA ∧ t'.std = d) ∧
      (¬ Representable3 t.rep t.caseA d → ∃ msg, forAll allIjk f t = err msg) := by
    intro f hr hf hany
    constructor
    · intro h
      have hb := (symBad_iff t.rep hr t.caseA d).2 h
      obtain ⟨t', h1, h2, h3, h4⟩ := forAll_ok3 f (fun x => symWrite (if t.rep.dim = 4 then 3 else 6) t.caseA d (pqr t.caseA x)) allIjk t.caseA
        (fun x _ => hf x (hb _)) t rfl
      refine ⟨t', h1, h2, h3, std3_of_comp t' d (by rw [h2, h3]; exact h) fun r m hm => ?_⟩
      rw [h3]
      rw [h2] at hm
      have hs := ((representable_iff' _ _).1 ((representable3_slice _ _ _).1 h r)).1 hr
      have h6 : t.rep.dim ≤ 6 := by cases hc : t.rep <;> simp_all [Rep.dim]
      have hmax : m.val ≤ (if t.rep.dim = 4 then 3 else 6) := by
        cases hc : t.rep <;> simp_all [Rep.dim] <;> omega
      rw [comp_sym _ hs m (by omega)]
      obtain ⟨x, hx⟩ := pqr_surj t.caseA ((mToIj m).1, (mToIj m).2, r)
      refine h4 m r _ ?_ (Or.inl ⟨x, mem_allIjk x, ?_⟩)
      · rintro x - v' hx
        generalize pqr t.caseA x = y at hx
        obtain ⟨p, q, s⟩ := y
        simp only [symWrite] at hx
        by_cases hc : p > q ∨ (ijToM p q).val > (if t.rep.dim = 4 then 3 else 6)
        · rw [if_pos hc] at hx
          exact absurd hx (by simp)
        · rw [if_neg hc] at hx
          simp only [Option.some.injEq, Prod.mk.injEq] at hx
          obtain ⟨rfl, rfl, rfl⟩ := hx
          rw [mToIj_ijToM]
      · simp only [hx, symWrite, ijToM_mToIj]
        rw [if_neg]
        simp only [not_or, not_lt]
        exact ⟨mToIj_le m (by omega), hmax⟩
    · intro h
      rw [← symBad_iff t.rep hr t.caseA d] at h
      push Not at h
      obtain ⟨y, hy⟩ := h
      obtain ⟨x, rfl⟩ := pqr_surj t.caseA y
      exact forAll_err' f (fun x => symBad _ t.caseA d (pqr t.caseA x)) (fun x hx t => (hany x t).2 hx) (fun x hx t => (hany x t).1 hx) _
        ⟨x, mem_allIjk x, hy⟩ t
  unfold Tensor3.setStdArray
  simp only [hd]
  cases ha : t.caseA
  · rw [ha] at gen sym
    simp only [Bool.false_eq_true, if_false]
    by_cases hr : t.rep = .General
    · rw [if_neg (by simpa using hr)]
      exact gen _ hr fun x _ t' ht' => setStdGenB_eq d x t' ht'
    · rw [if_pos hr]
      exact sym _ hr (fun x hx t' ht' => setStdSymB_ok _ d x hx t' ht') fun x t' => setStdSymB_any _ d x t'
  · rw [ha] at gen sym
    simp only [if_true]
    by_cases hr : t.rep = .General
    · rw [if_neg (by simpa using hr)]
      exact gen _ hr fun x _ t' ht' => setStdGenA_eq d x t' ht'
    · rw [if_pos hr]
      exact sym _ hr (fun x hx t' ht' => setStdSymA_ok _ d x hx t' ht') fun x t' => setStdSymA_any _ d x t'

theorem C73_from_std_array (rep : Rep) (a : Bool) (d : Array3) :
    (Representable3 rep a d → ∃ t, Tensor3.fromStdArray d rep a = ok t ∧ t.rep = rep ∧ t.caseA = a ∧ t.std = d) ∧
      (¬ Representable3 rep a d → ∃ msg, Tensor3.fromStdArray d rep a = err msg) :=
  C73_set_std_array (Tensor3.new rep a) d

end Russell.Tensor
