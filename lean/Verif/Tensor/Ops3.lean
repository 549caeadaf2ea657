import Verif.Tensor.Represent3

/-!
# C73: the matrices, arrays and operations of third-order tensors
-/

namespace Russell.Tensor
open Russell Russell.Res

theorem std3_rep (t : Tensor3) : Representable3 t.rep t.caseA t.std := ⟨t.mat, t.useLoops, rfl⟩

/-- `as_std_matrix`, case A: the matrix is 9×3 and the row `m` has the components `ij` of the map `MN_TO_IJK`. -/
theorem C73_as_std_matrix_a (t : Tensor3) (ha : t.caseA = true) : ∃ mat : Fin 9 → Fin 3 → ℝ, t.asStdMatrix = ok ⟨(9, 3), mat⟩ ∧
    ∀ i j k, mat (ijToM i j) k = t.std i j k := by
  refine ⟨fun m n => t.getStd (mnToIjkA m n).1 (mnToIjkA m n).2.1 (mnToIjkA m n).2.2, ?_, fun i j k => ?_⟩
  · obtain ⟨rep, a, f, u⟩ := t
    simp only at ha
    subst ha
    rfl
  · beta_reduce
    rw [C73_get_std, mnToIjkA_eq]
    simp only [mToIj_ijToM]

/-- `as_std_matrix`, case B: the matrix is 3×9 and the column `n` has the components `jk`. -/
theorem C73_as_std_matrix_b (t : Tensor3) (ha : t.caseA = false) : ∃ mat : Fin 3 → Fin 9 → ℝ, t.asStdMatrix = ok ⟨(3, 9), mat⟩ ∧
    ∀ i j k, mat i (ijToM j k) = t.std i j k := by
  refine ⟨fun m n => t.getStd (mnToIjkB m n).1 (mnToIjkB m n).2.1 (mnToIjkB m n).2.2, ?_, fun i j k => ?_⟩
  · obtain ⟨rep, a, f, u⟩ := t
    simp only at ha
    subst ha
    rfl
  · beta_reduce
    rw [C73_get_std, mnToIjkB_eq]
    simp only [mToIj_ijToM]

/-- `to_std_matrix` panics for a matrix of other dimensions. -/
theorem C73_to_std_matrix_dims (t : Tensor3) (d : Nat × Nat) (h : d ≠ if t.caseA then (9, 3) else (3, 9)) : t.toStdMatrix d = panic := by
  cases ha : t.caseA <;> rw [ha] at h <;> simp only [Bool.false_eq_true, if_false, if_true] at h <;>
    simp only [Tensor3.toStdMatrix, ha, Bool.false_eq_true, if_false, if_true] <;> exact dif_neg h

/-- `set_std_matrix` accepts exactly the matrices that stand for arrays that the representation can hold, and the tensor then is that array. -/
theorem C73_set_std_matrix (t : Tensor3) (inp : Fin 9 → Fin 9 → ℝ) (d : Array3)
    (hd : ∀ i j k, d i j k = if t.caseA then inp (ijToM i j) ⟨k.val, by omega⟩ else inp ⟨i.val, by omega⟩ (ijToM j k)) :
    (Representable3 t.rep t.caseA d → ∃ t', t.setStdMatrix inp = ok t' ∧ t'.rep = t.rep ∧ t'.caseA = t.caseA ∧ t'.std = d) ∧
      (¬ Representable3 t.rep t.caseA d → ∃ msg, t.setStdMatrix inp = err msg) := by
  have : d = fun i j k => if t.caseA then inp (ijkToMnA i j k).1 (ijkToMnA i j k).2 else inp (ijkToMnB i j k).1 (ijkToMnB i j k).2 := by
    funext i j k
    rw [hd, ijkToMnA_eq, ijkToMnB_eq]
    rfl
  rw [this]
  exact C73_set_std_array t _

/-! ### Arrays -/

theorem std3_sym (t : Tensor3) (hr : t.rep ≠ .General) (i j k : Fin 3) :
    (t.caseA = true → t.std i j k = t.std j i k) ∧ (t.caseA = false → t.std i j k = t.std i k j) := by
  constructor
  · intro ha
    rw [std3_A t ha, std3_A t ha]
    exact (std_symm (t.pair k) hr).apply j i
  · intro ha
    rw [std3_B t ha, std3_B t ha]
    exact (std_symm (t.pair i) hr).apply k j

theorem toStdBodyA_eq (t : Tensor3) (hr : t.rep ≠ .General) (ha : t.caseA = true) (dd : Array3) (m : Fin 9) (n : Fin 3) (hm : m.val < 6)
    (p q r : Fin 3) : t.toStdBodyA dd m n p q r = if ijToMSym p q = m ∧ r = n then t.std p q r else dd p q r := by
  simp only [Tensor3.toStdBodyA, mnToIjkA_eq, matchSym m p q hm, C73_get_std, ite_apply, put3]
  generalize (mToIj m).1 = i
  generalize (mToIj m).2 = j
  have e := (std3_sym t hr i j n).1 ha
  by_cases h : i = j
  · subst h
    simp only [ne_eq, not_true_eq_false, if_false, or_self]
    by_cases c : p = i ∧ q = i ∧ r = n
    · obtain ⟨rfl, rfl, rfl⟩ := c
      simp
    · rw [if_neg c, if_neg (by tauto)]
  · rw [if_pos h]
    by_cases c1 : p = j ∧ q = i ∧ r = n
    · obtain ⟨rfl, rfl, rfl⟩ := c1
      simp [e]
    · rw [if_neg c1]
      by_cases c2 : p = i ∧ q = j ∧ r = n
      · obtain ⟨rfl, rfl, rfl⟩ := c2
        simp
      · rw [if_neg c2, if_neg (by tauto)]

theorem toStdBodyB_eq (t : Tensor3) (hr : t.rep ≠ .General) (ha : t.caseA = false) (dd : Array3) (m : Fin 3) (n : Fin 9) (hn : n.val < 6)
    (p q r : Fin 3) : t.toStdBodyB dd m n p q r = if p = m ∧ ijToMSym q r = n then t.std p q r else dd p q r := by
  simp only [Tensor3.toStdBodyB, mnToIjkB_eq, matchSym n q r hn, C73_get_std, ite_apply, put3]
  generalize (mToIj n).1 = i
  generalize (mToIj n).2 = j
  have e := (std3_sym t hr m i j).2 ha
  by_cases h : i = j
  · subst h
    simp only [ne_eq, not_true_eq_false, if_false, or_self]
    by_cases c : p = m ∧ q = i ∧ r = i
    · obtain ⟨rfl, rfl, rfl⟩ := c
      simp
    · rw [if_neg c, if_neg c]
  · rw [if_pos h]
    by_cases c1 : p = m ∧ q = j ∧ r = i
    · obtain ⟨rfl, rfl, rfl⟩ := c1
      simp [e]
    · rw [if_neg c1]
      by_cases c2 : p = m ∧ q = i ∧ r = j
      · obtain ⟨rfl, rfl, rfl⟩ := c2
        simp
      · rw [if_neg c2, if_neg (by tauto)]

/-- A loop over indices, each of which writes the components that it is in charge of. -/
theorem foldl_write {ι : Type} (f : Array3 → ι → Array3) (v : Array3) (own : ι → Fin 3 → Fin 3 → Fin 3 → Prop) (l : List ι)
    (h : ∀ x ∈ l, ∀ dd p q r, (own x p q r → f dd x p q r = v p q r) ∧ (¬ own x p q r → f dd x p q r = dd p q r)) (dd : Array3) (p q r : Fin 3) :
    ((∃ x ∈ l, own x p q r) → l.foldl f dd p q r = v p q r) ∧ ((¬ ∃ x ∈ l, own x p q r) → l.foldl f dd p q r = dd p q r) := by
  induction l generalizing dd with
  | nil => simp
  | cons x l ih =>
    have ih := ih (fun y hy => h y (List.mem_cons_of_mem _ hy)) (f dd x)
    have hx := h x (by simp) dd p q r
    rw [List.foldl_cons]
    by_cases hl : ∃ y ∈ l, own y p q r
    · refine ⟨fun _ => ih.1 hl, fun hn => ?_⟩
      obtain ⟨y, hy, ho⟩ := hl
      exact absurd ⟨y, List.mem_cons_of_mem _ hy, ho⟩ hn
    · rw [ih.2 hl]
      refine ⟨fun ⟨y, hy, ho⟩ => ?_, fun hn => hx.2 fun ho => hn ⟨x, by simp, ho⟩⟩
      rcases List.mem_cons.1 hy with rfl | hy
      · exact hx.1 ho
      · exact absurd ⟨y, hy, ho⟩ hl

theorem ite_two {P : Prop} [Decidable P] {x a b : ℝ} (h : x = if P then a else b) : (P → x = a) ∧ (¬ P → x = b) :=
  ⟨fun p => by rw [h, if_pos p], fun p => by rw [h, if_neg p]⟩

/-- The components of the array that the loops of `to_std_array` write: all, or those in the plane. -/
theorem toStdArray3_eq (t : Tensor3) (hr : t.rep ≠ .General) (dd : Array3) (p q r : Fin 3) :
    ((if t.caseA then (ijToMSym p q).val < t.rep.dim else (ijToMSym q r).val < t.rep.dim) → t.toStdArray dd p q r = t.std p q r) ∧
      ((¬ if t.caseA then (ijToMSym p q).val < t.rep.dim else (ijToMSym q r).val < t.rep.dim) → t.toStdArray dd p q r = dd p q r) := by
  have h6 : t.rep.dim ≤ 6 := by cases hc : t.rep <;> simp_all [Rep.dim]
  have mem6 : ∀ m, m ∈ ((List.finRange 9).filter fun m => decide (m.val < t.rep.dim)) ↔ m.val < t.rep.dim := by simp
  unfold Tensor3.toStdArray
  cases ha : t.caseA
  · simp only [Bool.false_eq_true, if_false]
    rw [if_neg (by omega)]
    have := foldl_write (fun dd m => ((List.finRange 9).filter fun n => decide (n.val < t.rep.dim)).foldl (fun dd n => t.toStdBodyB dd m n) dd)
      t.std (fun m p q r => p = m ∧ (ijToMSym q r).val < t.rep.dim) (List.finRange 3) (fun m _ dd p q r => by
        have := foldl_write (fun dd n => t.toStdBodyB dd m n) t.std (fun n p q r => p = m ∧ ijToMSym q r = n)
          ((List.finRange 9).filter fun n => decide (n.val < t.rep.dim))
          (fun n hn dd p q r => ite_two (toStdBodyB_eq t hr ha dd m n (by rw [mem6] at hn; omega) p q r)) dd p q r
        refine ⟨fun ho => this.1 ⟨_, (mem6 _).2 ho.2, ho.1, rfl⟩, fun ho => this.2 ?_⟩
        rintro ⟨n, hn, h1, rfl⟩
        exact ho ⟨h1, (mem6 _).1 hn⟩) dd p q r
    refine ⟨fun h => this.1 ⟨p, by simp, rfl, h⟩, fun h => this.2 ?_⟩
    rintro ⟨m, -, -, h'⟩
    exact h h'
  · simp only [if_true]
    rw [if_neg (by omega)]
    have := foldl_write (fun dd m => (List.finRange 3).foldl (fun dd n => t.toStdBodyA dd m n) dd)
      t.std (fun m p q r => ijToMSym p q = m) ((List.finRange 9).filter fun m => decide (m.val < t.rep.dim)) (fun m hm dd p q r => by
        have := foldl_write (fun dd n => t.toStdBodyA dd m n) t.std (fun n p q r => ijToMSym p q = m ∧ r = n) (List.finRange 3)
          (fun n _ dd p q r => ite_two (toStdBodyA_eq t hr ha dd m n (by rw [mem6] at hm; omega) p q r)) dd p q r
        refine ⟨fun ho => this.1 ⟨r, by simp, ho, rfl⟩, fun ho => this.2 ?_⟩
        rintro ⟨n, hn, h1, rfl⟩
        exact ho h1) dd p q r
    refine ⟨fun h => this.1 ⟨_, (mem6 _).2 h, rfl⟩, fun h => this.2 ?_⟩
    rintro ⟨m, hm, rfl⟩
    exact h ((mem6 _).1 hm)

/-- `to_std_array` writes all standard components, in 2D for an array whose other components are zero. -/
theorem C73_to_std_array (t : Tensor3) (dd : Array3)
    (h : ∀ i j k, (¬ if t.caseA then InPlane t.rep i j else InPlane t.rep j k) → dd i j k = 0) : t.toStdArray dd = t.std := by
  funext p q r
  by_cases hr : t.rep = .General
  · unfold Tensor3.toStdArray
    have h9 : t.rep.dim = 9 := by rw [hr]; rfl
    simp only [h9, if_true, ite_self, C73_get_std]
  · have key : ∀ i j, ¬ (ijToMSym i j).val < t.rep.dim → ¬ InPlane t.rep i j := by
      intro i j hn
      cases hc : t.rep
      · exact absurd hc hr
      · rw [hc] at hn
        have h6 : ∀ i j : Fin 3, (ijToMSym i j).val < 6 := by decide
        exact absurd (h6 i j) hn
      · rw [hc] at hn
        rw [inPlane_sym]
        exact hn
    have e := toStdArray3_eq t hr dd p q r
    have hrep := std3_rep t
    by_cases hp : if t.caseA then (ijToMSym p q).val < t.rep.dim else (ijToMSym q r).val < t.rep.dim
    · exact e.1 hp
    · rw [e.2 hp]
      cases ha : t.caseA <;> rw [ha] at hp h hrep <;> simp only [Bool.false_eq_true, if_false, if_true] at hp h
      · rw [h p q r (key q r hp), ((C73_representable_b _ _).1 hrep).2 p q r (key q r hp)]
      · rw [h p q r (key p q hp), ((C73_representable_a _ _).1 hrep).2 p q r (key p q hp)]

theorem C73_as_std_array (t : Tensor3) : t.asStdArray = t.std := C73_to_std_array t _ fun _ _ _ _ => rfl

/-- In 2D the other components of the given array are kept. -/
theorem C73_to_std_array_counterexample : ∃ (t : Tensor3) (dd : Array3), t.toStdArray dd ≠ t.std := by
  refine ⟨Tensor3.new .Symmetric2D true, fun _ _ _ => 1, fun h => ?_⟩
  have := congrFun (congrFun (congrFun h 0) 2) 0
  rw [(toStdArray3_eq _ (by simp [Tensor3.new]) _ 0 2 0).2 (by simp [Tensor3.new, ijToMSym, Rep.dim])] at this
  simp [Tensor3.new, Tensor3.std] at this

/-! ### Sums and single components -/

theorem pair_upto (t : Tensor3) (g : Fin 9 → Fin 9 → ℝ) (old : Fin 9 → Fin 9 → ℝ) (u : Bool) (r : Fin 3) :
    (Tensor3.pair ⟨t.rep, t.caseA, upto3 t.dims g old, u⟩ r).std = (Tensor3.pair ⟨t.rep, t.caseA, g, u⟩ r).std := by
  rw [std_eq, std_eq]
  congr 1
  funext m
  simp only [cut_eq, Tensor3.pair]
  split
  · rename_i hm
    have h3 : (up r).val < 3 := r.isLt
    cases ha : t.caseA <;> simp [upto3, Tensor3.dims, ha, hm, h3]
  · rfl

theorem mat9_lin (a b : ℝ) (f g : Fin 9 → ℝ) : mat9 (fun m => a * f m + b * g m) = a • mat9 f + b • mat9 g := by
  ext i j
  simp only [mat9_sum, Matrix.add_apply, Matrix.smul_apply, smul_eq_mul, Finset.mul_sum, ← Finset.sum_add_distrib]
  exact Finset.sum_congr rfl fun m _ => by ring

theorem std2_lin (rep : Rep) (a b : ℝ) (f g : Fin 9 → ℝ) :
    Tensor2.std ⟨rep, fun m => a * f m + b * g m⟩ = a • Tensor2.std ⟨rep, f⟩ + b • Tensor2.std ⟨rep, g⟩ := by
  simp only [std_eq]
  rw [← mat9_lin]
  congr 1
  funext m
  simp only [cut_eq]
  split <;> simp

theorem std3_lin (rep : Rep) (c : Bool) (d : Nat × Nat) (hd : d = if c then (rep.dim, 3) else (3, rep.dim)) (a b : ℝ) (f g old : Fin 9 → Fin 9 → ℝ)
    (u : Bool) (i j k : Fin 3) : Tensor3.std ⟨rep, c, upto3 d (fun m n => a * f m n + b * g m n) old, u⟩ i j k =
      a * Tensor3.std ⟨rep, c, f, u⟩ i j k + b * Tensor3.std ⟨rep, c, g, u⟩ i j k := by
  have key : ∀ r, (Tensor3.pair ⟨rep, c, upto3 d (fun m n => a * f m n + b * g m n) old, u⟩ r).std =
      a • (Tensor3.pair ⟨rep, c, f, u⟩ r).std + b • (Tensor3.pair ⟨rep, c, g, u⟩ r).std := by
    intro r
    have := pair_upto ⟨rep, c, f, u⟩ (fun m n => a * f m n + b * g m n) old u r
    rw [Tensor3.dims, ← hd] at this
    rw [this]
    simp only [Tensor3.pair]
    cases c
    · exact std2_lin rep a b _ _
    · exact std2_lin rep a b _ _
  cases c
  · rw [std3_B _ rfl, std3_B _ rfl, std3_B _ rfl, key]
    rfl
  · rw [std3_A _ rfl, std3_A _ rfl, std3_A _ rfl, key]
    rfl

theorem std3_loops (rep : Rep) (c : Bool) (f : Fin 9 → Fin 9 → ℝ) (u u' : Bool) : Tensor3.std ⟨rep, c, f, u⟩ = Tensor3.std ⟨rep, c, f, u'⟩ := rfl

/-- `set_tensor`: α times the other tensor. -/
theorem C73_set_tensor (t other : Tensor3) (alpha : ℝ) (h : other.rep = t.rep) (hc : other.caseA = t.caseA) :
    ∃ t', t.setTensor alpha other = ok t' ∧ t'.rep = t.rep ∧ t'.caseA = t.caseA ∧ ∀ i j k, t'.std i j k = alpha * other.std i j k := by
  refine ⟨⟨t.rep, t.caseA, upto3 t.dims (fun m n => alpha * other.mat m n) t.mat, t.useLoops⟩,
    by rw [Tensor3.setTensor, if_neg (by simp [h]), if_neg (by simp [hc])], rfl, rfl, fun i j k => ?_⟩
  have := std3_lin t.rep t.caseA t.dims rfl alpha 0 other.mat (fun _ _ => 0) t.mat t.useLoops i j k
  simp only [mul_zero, zero_mul, add_zero] at this
  rw [this]
  obtain ⟨r, c, f, u⟩ := other
  simp only at h hc
  subst h hc
  rfl

/-- `update`: α times the other tensor is added. -/
theorem C73_update (t other : Tensor3) (alpha : ℝ) (h : other.rep = t.rep) (hc : other.caseA = t.caseA) :
    ∃ t', t.update alpha other = ok t' ∧ t'.rep = t.rep ∧ t'.caseA = t.caseA ∧
      ∀ i j k, t'.std i j k = t.std i j k + alpha * other.std i j k := by
  refine ⟨⟨t.rep, t.caseA, upto3 t.dims (fun m n => t.mat m n + alpha * other.mat m n) t.mat, t.useLoops⟩,
    by rw [Tensor3.update, if_neg (by simp [h]), if_neg (by simp [hc])], rfl, rfl, fun i j k => ?_⟩
  have := std3_lin t.rep t.caseA t.dims rfl 1 alpha t.mat other.mat t.mat t.useLoops i j k
  simp only [one_mul] at this
  rw [this]
  obtain ⟨r, c, f, u⟩ := other
  simp only at h hc
  subst h hc
  rfl

/-- `t3_add`: α A + β B. -/
theorem C73_add (c a b : Tensor3) (alpha beta : ℝ) (h1 : b.rep = a.rep) (h2 : c.rep = a.rep) (h3 : b.caseA = a.caseA) (h4 : c.caseA = a.caseA) :
    ∃ c', t3Add c alpha a beta b = ok c' ∧ c'.rep = a.rep ∧ c'.caseA = a.caseA ∧
      ∀ i j k, c'.std i j k = alpha * a.std i j k + beta * b.std i j k := by
  refine ⟨⟨c.rep, c.caseA, upto3 a.dims (fun m n => alpha * a.mat m n + beta * b.mat m n) c.mat, c.useLoops⟩,
    by rw [t3Add, if_neg (by simp [h1]), if_neg (by simp [h2]), if_neg (by simp [h3]), if_neg (by simp [h4])], h2, h4, fun i j k => ?_⟩
  have := std3_lin c.rep c.caseA a.dims (by rw [Tensor3.dims, h2, h4]) alpha beta a.mat b.mat c.mat c.useLoops i j k
  rw [this]
  obtain ⟨r, c, f, u⟩ := a
  obtain ⟨r', c', f', u'⟩ := b
  simp only at h1 h2 h3 h4
  subst h1 h3
  rw [h2, h4]
  rfl

/-- Tensors of different kinds are refused by a panic. -/
theorem C73_mismatch (t other : Tensor3) (alpha : ℝ) (h : ¬ (other.rep = t.rep ∧ other.caseA = t.caseA)) :
    t.setTensor alpha other = panic ∧ t.update alpha other = panic ∧ ∀ c beta, t3Add c alpha t beta other = panic := by
  by_cases h1 : other.rep = t.rep
  · have h2 : other.caseA ≠ t.caseA := fun e => h ⟨h1, e⟩
    refine ⟨by rw [Tensor3.setTensor, if_neg (by simp [h1]), if_pos h2], by rw [Tensor3.update, if_neg (by simp [h1]), if_pos h2], fun c beta => ?_⟩
    rw [t3Add, if_neg (by simp [h1]), if_pos h2, ite_self]
  · exact ⟨if_pos h1, if_pos h1, fun c beta => if_pos h1⟩

/-- `sym_set_std` sets the component and the one equal to it by symmetry, and no other. -/
theorem C73_sym_set_std (t : Tensor3) (i j k : Fin 3) (value : ℝ) (h : t.rep ≠ .General)
    (hp : if t.caseA then InPlane t.rep i j else InPlane t.rep j k) :
    ∃ t', t.symSetStd i j k value = ok t' ∧ t'.rep = t.rep ∧ t'.caseA = t.caseA ∧ ∀ p q r,
      t'.std p q r = if (p = i ∧ q = j ∧ r = k) ∨ (if t.caseA then p = j ∧ q = i ∧ r = k else p = i ∧ q = k ∧ r = j) then value
        else t.std p q r := by
  have key : ∀ (i j k : Fin 3) (_ : InPlane t.rep i j), ∃ v, v = (if i = j then value else value * SQRT_2) ∧
      ∀ s, ((t.write (some (ijToMSym i j, k, v))).pair s).std = if s = k then
        Matrix.of fun r c => if (r = i ∧ c = j) ∨ (r = j ∧ c = i) then value else (t.pair s).std r c else (t.pair s).std := by
    intro i j k hp
    refine ⟨_, rfl, fun s => ?_⟩
    obtain ⟨e1, e2, e3⟩ := write3_rep t (some (ijToMSym i j, k, if i = j then value else value * SQRT_2))
    obtain ⟨t', a1, a2, a3⟩ := C65_sym_set_std (t.pair s) i j value h hp
    have hv : (t.write (some (ijToMSym i j, k, if i = j then value else value * SQRT_2))).pair s =
        if s = k then t' else t.pair s := by
      have hr : ((t.write (some (ijToMSym i j, k, if i = j then value else value * SQRT_2))).pair s).rep = t.rep := e1
      have hvec := fun m => write3_pair t (ijToMSym i j) k (if i = j then value else value * SQRT_2) m s
      rw [Tensor2.symSetStd, if_neg (show ¬ (t.pair s).rep = .General from h)] at a1
      have a1 := (Res.ok.inj a1).symm
      generalize (t.write (some (ijToMSym i j, k, if i = j then value else value * SQRT_2))).pair s = w at hr hvec
      obtain ⟨wr, wv⟩ := w
      simp only at hr hvec
      subst hr
      by_cases hs : s = k
      · rw [if_pos hs, a1]
        simp only [hs, and_true] at hvec
        rw [hs]
        by_cases hij : i = j
        · rw [if_pos hij]
          simp only [hij, if_true] at hvec
          simp only [Tensor2.set, Tensor3.pair] at hvec ⊢
          congr 1
          funext m
          rw [hvec m, hij]
        · rw [if_neg hij]
          simp only [hij, if_false] at hvec
          simp only [Tensor2.set, Tensor3.pair] at hvec ⊢
          congr 1
          funext m
          rw [hvec m]
      · rw [if_neg hs]
        simp only [hs, and_false, if_false] at hvec
        show _ = Tensor2.mk _ _
        congr 1
        funext m
        exact hvec m
    rw [hv]
    split
    · exact a3
    · rfl
  cases ha : t.caseA
  · simp only [ha, Bool.false_eq_true, if_false] at hp ⊢
    obtain ⟨v, hv, e⟩ := key j k i hp
    have he : t.symSetStd i j k value = ok (t.write (some (ijToMSym j k, i, v))) := by
      rw [Tensor3.symSetStd, if_neg h]
      simp only [ha, ijkToMnSymB_eq, sym_lt3, Tensor3.write, Bool.false_eq_true, if_false]
      rw [hv]
      split <;> rfl
    obtain ⟨e1, e2, e3⟩ := write3_rep t (some (ijToMSym j k, i, v))
    refine ⟨_, he, e1, by rw [e2, ha], fun p q r => ?_⟩
    rw [std3_B _ (by rw [e2, ha]), e, std3_B _ ha]
    by_cases hpi : p = i
    · simp [hpi]
    · simp [hpi]
  · simp only [ha, if_true] at hp ⊢
    obtain ⟨v, hv, e⟩ := key i j k hp
    have he : t.symSetStd i j k value = ok (t.write (some (ijToMSym i j, k, v))) := by
      rw [Tensor3.symSetStd, if_neg h]
      simp only [ha, ijkToMnSymA_eq, sym_lt3, Tensor3.write, if_true]
      rw [hv]
      split <;> rfl
    obtain ⟨e1, e2, e3⟩ := write3_rep t (some (ijToMSym i j, k, v))
    refine ⟨_, he, e1, by rw [e2, ha], fun p q r => ?_⟩
    rw [std3_A _ (by rw [e2, ha]), e, std3_A _ ha]
    by_cases hpi : r = k
    · simp [hpi]
    · simp [hpi]

/-- In 2D a component out of the plane is accepted and lost. -/
theorem C73_sym_set_std_counterexample : ∃ (t t' : Tensor3) (i j k : Fin 3) (value : ℝ), t.rep ≠ .General ∧ t.symSetStd i j k value = ok t' ∧
    t'.std i j k ≠ value := by
  refine ⟨Tensor3.new .Symmetric2D true, _, 1, 2, 0, 1, by simp [Tensor3.new], rfl, ?_⟩
  rw [← C73_get_std]
  simp [Tensor3.getStd, Tensor3.set, Tensor3.new, ijkToMnSymA_eq, ijToMSym]

/-! ### Contractions -/

/-- `t3_dot_t1`: `T_ij = α Σ H_ijk u_k`. -/
theorem C73_dot_t1 (tt : Tensor2) (alpha : ℝ) (hh : Tensor3) (u : Tensor1) (ha : hh.caseA = true) (hr : tt.rep = hh.rep) :
    ∃ r, t3DotT1 tt alpha hh u = ok r ∧ r.rep = tt.rep ∧ ∀ i j, r.std i j = alpha * ∑ k, hh.std i j k * u k := by
  refine ⟨⟨tt.rep, upto hh.dims.1 (fun m => alpha * (hh.mat m 0 * u 0 + hh.mat m 1 * u 1 + hh.mat m 2 * u 2)) tt.vec⟩,
    by rw [t3DotT1, if_neg (by simp [ha]), if_neg (by simp [hr])], rfl, fun i j => ?_⟩
  rw [std_eq]
  simp only [Tensor3.dims, ha, if_true, hr, cut_upto]
  simp only [std3_A hh ha, Fin.sum_univ_three, std_eq, mat9_sum, Tensor3.pair, ha, if_true, Finset.sum_mul, ← Finset.sum_add_distrib, Finset.mul_sum]
  refine Finset.sum_congr rfl fun m _ => ?_
  simp only [cut_eq]
  split
  · have u0 : up 0 = 0 := rfl
    have u1 : up 1 = 1 := rfl
    have u2 : up 2 = 2 := rfl
    rw [u0, u1, u2]
    ring
  · ring

/-- `t3_ddot_t2`: `u_i = α Σ H_ijk T_jk`. -/
theorem C73_ddot_t2 (alpha : ℝ) (hh : Tensor3) (tt : Tensor2) (ha : hh.caseA = false) (hr : tt.rep = hh.rep) :
    ∃ u, t3DdotT2 alpha hh tt = ok u ∧ ∀ i, u i = alpha * ∑ j, ∑ k, hh.std i j k * tt.std j k := by
  have fold : ∀ (l : List (Fin 9)) (u : Tensor1) (i : Fin 3), l.foldl (fun u n =>
      ![u 0 + alpha * hh.mat 0 n * tt.vec n, u 1 + alpha * hh.mat 1 n * tt.vec n, u 2 + alpha * hh.mat 2 n * tt.vec n]) u i =
        u i + (l.map fun n => alpha * hh.mat (up i) n * tt.vec n).sum := by
    intro l
    induction l with
    | nil => simp
    | cons n l ih =>
      intro u i
      rw [List.foldl_cons, ih, List.map_cons, List.sum_cons, ← add_assoc]
      congr 1
      fin_cases i <;> rfl
  refine ⟨_, by rw [t3DdotT2, if_neg (by simp [ha]), if_neg (by simp [hr])], fun i => ?_⟩
  rw [fold]
  simp only [Tensor3.dims, ha, Bool.false_eq_true, if_false]
  have h0 : (![0, 0, 0] : Fin 3 → ℝ) i = 0 := by fin_cases i <;> rfl
  rw [h0, zero_add]
  have hsum : ∀ (d : Nat) (g : Fin 9 → ℝ), (((List.finRange 9).filter fun n => decide (n.val < d)).map g).sum = ∑ n, if n.val < d then g n else 0 := by
    intro d g
    have : ∀ l : List (Fin 9), ((l.filter fun n => decide (n.val < d)).map g).sum = (l.map fun n => if n.val < d then g n else 0).sum := by
      intro l
      induction l with
      | nil => rfl
      | cons n l ih =>
        by_cases h : n.val < d
        · rw [List.filter_cons_of_pos (by simpa using h)]
          simp [ih, h]
        · rw [List.filter_cons_of_neg (by simpa using h)]
          simp [ih, h]
    rw [this, ← List.ofFn_eq_map, List.sum_ofFn]
  rw [hsum]
  simp only [std3_B hh ha]
  rw [std_eq, std_eq, sum_mat9_mul, comp_mat9, Finset.mul_sum]
  refine Finset.sum_congr rfl fun n _ => ?_
  rw [cut_eq, cut_eq, hr]
  simp only [Tensor3.pair, ha, Bool.false_eq_true, if_false]
  split
  · ring
  · simp

/-- The wrong case, or another representation, is a panic. -/
theorem C73_contr_mismatch (alpha : ℝ) (hh : Tensor3) (tt : Tensor2) (u : Tensor1) :
    (hh.caseA = false ∨ tt.rep ≠ hh.rep → t3DotT1 tt alpha hh u = panic) ∧
      (hh.caseA = true ∨ tt.rep ≠ hh.rep → t3DdotT2 alpha hh tt = panic) := by
  constructor
  · rintro (h | h)
    · rw [t3DotT1, if_pos (by simp [h])]
    · rw [t3DotT1, if_pos h, ite_self]
  · rintro (h | h)
    · rw [t3DdotT2, if_pos h]
    · rw [t3DdotT2, if_pos h, ite_self]

/-! ### The permutation tensor -/

/-- `constant_permutation` is the tensor of the cross product: `(ε : (u ⊗ v))_i = (u × v)_i`. -/
theorem C73_permutation (a : Bool) : ∃ t, Tensor3.constantPermutation a = ok t ∧ t.rep = .General ∧ t.caseA = a ∧
    ∀ (u v : Tensor1) (i : Fin 3), ∑ j, ∑ k, t.std i j k * u j * v k = ![u 1 * v 2 - u 2 * v 1, u 2 * v 0 - u 0 * v 2, u 0 * v 1 - u 1 * v 0] i := by
  unfold Tensor3.constantPermutation
  simp only
  generalize hd : List.foldl _ _ _ = d
  have hrep : Representable3 .General a d := by
    rw [representable3_slice]
    intro r
    rw [representable_iff']
    exact ⟨by simp, fun i j h => by simp [InPlane] at h⟩
  obtain ⟨t, e, h1, h2, h3⟩ := (C73_from_std_array .General a d).1 hrep
  rw [e]
  refine ⟨t, rfl, h1, h2, fun u v i => ?_⟩
  rw [h3, ← hd]
  simp only [List.foldl, put3, Fin.sum_univ_three]
  fin_cases i <;> simp <;> ring

/-- The permutation tensor is determined by that. -/
theorem C73_permutation_unique (d e : Array3) (h : ∀ (u v : Tensor1) (i : Fin 3), ∑ j, ∑ k, d i j k * u j * v k = ∑ j, ∑ k, e i j k * u j * v k) :
    d = e := by
  funext i j k
  have := h (fun p => if p = j then 1 else 0) (fun p => if p = k then 1 else 0) i
  simpa using this

/-! ### Examples -/

/-- A tensor with `H_010 = H_100 = 1`. -/
example : ∃ t, (Tensor3.new .Symmetric2D true).symSetStd 0 1 0 1 = ok t ∧ t.std 1 0 0 = 1 ∧ t.std 0 0 0 = 0 := by
  obtain ⟨t, e, -, -, h⟩ := C73_sym_set_std (Tensor3.new .Symmetric2D true) 0 1 0 1 (by simp [Tensor3.new]) (by simp [Tensor3.new, InPlane])
  refine ⟨t, e, ?_, ?_⟩
  · rw [h]; simp [Tensor3.new]
  · rw [h]; simp [Tensor3.new, Tensor3.std]

/-- An array that is not symmetric is refused. -/
example : ∃ msg, Tensor3.fromStdArray (fun i j _ => if i < j then 1 else 0) .Symmetric true = err msg := by
  refine (C73_from_std_array .Symmetric true _).2 fun h => ?_
  have := ((C73_representable_a _ _).1 h).1 (by simp) 0 1 0
  simp at this

end Russell.Tensor
