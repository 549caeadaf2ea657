import Mathlib.RingTheory.PowerSeries.Derivative
import Mathlib.Algebra.MvPolynomial.Eval
import Mathlib.Data.List.GetD
import Mathlib.Tactic.LinearCombination
import Mathlib.Tactic.FieldSimp

/-!
# Order of Runge-Kutta methods by rooted trees

The formal solution of `y' = f(y)`, `y(0) = y0` with a polynomial vector field, and the result of a Runge-Kutta step as a
power series in the stepsize, are sums over ordered rooted trees with the same elementary differentials. They agree up to
`h^p` when the coefficients agree for all trees with at most `p` nodes (Butcher; Hairer, Nørsett, Wanner, Part I, II.2).

A polynomial is used as a list of words: `(c, [i, j, k])` stands for `c vᵢ vⱼ vₖ`. Then nothing has to be symmetric and no
factorials are needed.
-/

namespace Russell.Ode

/-- Ordered rooted trees: a single node, or the tree `v` grafted as the first subtree at the root of `u`. -/
inductive RTree where
  | leaf
  | graft (u v : RTree)
  deriving DecidableEq

/-- Number of nodes. -/
def RTree.size : RTree → Nat
  | leaf => 1
  | graft u v => u.size + v.size

/-- The trees with `d + 1` nodes; the first argument is fuel. -/
def treesAux : Nat → Nat → List RTree
  | _, 0 => [.leaf]
  | 0, _ + 1 => []
  | f + 1, d + 1 => (List.range (d + 1)).flatMap fun a =>
      (treesAux f a).flatMap fun u => (treesAux f (d - a)).map fun v => .graft u v

/-- The trees with `d + 1` nodes. -/
def trees (d : Nat) : List RTree := treesAux d d

theorem treesAux_eq : ∀ (d f : Nat), d ≤ f → treesAux f d = treesAux d d := by
  intro d
  induction d using Nat.strong_induction_on with
  | _ d ih =>
    intro f hf
    cases d with
    | zero => cases f <;> rfl
    | succ d =>
      obtain ⟨f, rfl⟩ : ∃ g, f = g + 1 := ⟨f - 1, by omega⟩
      unfold treesAux
      apply List.flatMap_congr
      intro a ha
      rw [List.mem_range] at ha
      rw [ih a (by omega) f (by omega), ih a (by omega) d (by omega), ih (d - a) (by omega) f (by omega),
        ih (d - a) (by omega) d (by omega)]

theorem trees_succ (d : Nat) : trees (d + 1) = (List.range (d + 1)).flatMap fun a =>
    (trees a).flatMap fun u => (trees (d - a)).map fun v => .graft u v := by
  unfold trees
  conv_lhs => unfold treesAux
  apply List.flatMap_congr
  intro a ha
  rw [List.mem_range] at ha
  rw [treesAux_eq a d (by omega), treesAux_eq (d - a) d (by omega)]

theorem RTree.size_pos : ∀ t : RTree, 0 < t.size
  | leaf => Nat.one_pos
  | graft u v => by have := u.size_pos; unfold size; omega

/-- `trees d` is the list of all trees with `d + 1` nodes. -/
theorem mem_trees {d : Nat} {t : RTree} : t ∈ trees d ↔ t.size = d + 1 := by
  induction d using Nat.strong_induction_on generalizing t with
  | _ d ih =>
    cases d with
    | zero =>
      unfold trees treesAux
      cases t with
      | leaf => simp [RTree.size]
      | graft u v =>
        have := u.size_pos
        have := v.size_pos
        simp only [List.mem_singleton, reduceCtorEq, false_iff, RTree.size]
        omega
    | succ d =>
      rw [trees_succ]
      simp only [List.mem_flatMap, List.mem_range, List.mem_map]
      constructor
      · rintro ⟨a, ha, u, hu, v, hv, rfl⟩
        rw [ih a (by omega)] at hu
        rw [ih (d - a) (by omega)] at hv
        simp only [RTree.size]; omega
      · intro h
        cases t with
        | leaf => simp [RTree.size] at h
        | graft u v =>
          have := u.size_pos
          have := v.size_pos
          simp only [RTree.size] at h
          exact ⟨u.size - 1, by omega, u, (ih _ (by omega)).2 (by omega), v, (ih _ (by omega)).2 (by omega), rfl⟩

section
variable {K : Type} [Field K]

/-- Sum over the trees with `d + 1` nodes. -/
def treeSum (φ : RTree → K) (d : Nat) : K := ((trees d).map φ).sum

theorem sum_map_mul_list {α β : Type} (l : List α) (l' : List β) (f : α → K) (g : β → K) :
    (l.map f).sum * (l'.map g).sum = (l.map fun a => (l'.map fun b => f a * g b).sum).sum := by
  induction l with
  | nil => simp
  | cons a l ih =>
    simp only [List.map_cons, List.sum_cons, add_mul, ih, List.sum_map_mul_left]

theorem list_range_sum (n : Nat) (f : Nat → K) : ((List.range n).map f).sum = ∑ i ∈ Finset.range n, f i := by
  induction n with
  | zero => rfl
  | succ n ih => rw [List.range_succ, Finset.sum_range_succ]; simp [ih]

theorem treeSum_zero (φ : RTree → K) : treeSum φ 0 = φ .leaf := by
  unfold treeSum trees treesAux; simp

theorem sum_flatMap_list {α : Type} (l : List α) (g : α → List K) :
    (l.flatMap g).sum = (l.map fun a => (g a).sum).sum := by
  induction l with
  | nil => rfl
  | cons a l ih => simp [ih]

theorem treeSum_succ (φ : RTree → K) (d : Nat) : treeSum φ (d + 1) =
    ∑ q ∈ Finset.antidiagonal d, ((trees q.1).map fun u => ((trees q.2).map fun v => φ (.graft u v)).sum).sum := by
  rw [Finset.Nat.sum_antidiagonal_eq_sum_range_succ_mk]
  unfold treeSum
  rw [trees_succ, List.map_flatMap, sum_flatMap_list, list_range_sum]
  apply Finset.sum_congr rfl
  intro a _
  rw [List.map_flatMap, sum_flatMap_list]
  congr 1
  apply List.map_congr_left
  intro u _
  rw [List.map_map]
  rfl

theorem treeSum_congr {φ ψ : RTree → K} {d : Nat} (h : ∀ t, t.size = d + 1 → φ t = ψ t) : treeSum φ d = treeSum ψ d := by
  unfold treeSum
  congr 1
  apply List.map_congr_left
  intro t ht
  exact h t (mem_trees.1 ht)

theorem treeSum_smul (c : K) (φ : RTree → K) (d : Nat) : treeSum (fun t => c * φ t) d = c * treeSum φ d := by
  unfold treeSum
  rw [List.sum_map_mul_left]

theorem treeSum_zero_fun (d : Nat) : treeSum (fun _ => (0 : K)) d = 0 := by
  unfold treeSum; simp

theorem treeSum_add (φ ψ : RTree → K) (d : Nat) : treeSum (fun t => φ t + ψ t) d = treeSum φ d + treeSum ψ d := by
  unfold treeSum
  exact List.sum_map_add

theorem treeSum_sum (n : Nat) (φ : Nat → RTree → K) (d : Nat) :
    treeSum (fun t => ∑ i ∈ Finset.range n, φ i t) d = ∑ i ∈ Finset.range n, treeSum (φ i) d := by
  induction n with
  | zero => simpa using treeSum_zero_fun d
  | succ n ih => simp only [Finset.sum_range_succ, treeSum_add, ih]

variable {ι : Type}

/-- A polynomial in the variables `ι`: a list of coefficients and words. -/
abbrev WPoly (K ι : Type) := List (K × List ι)

/-- The product over a word. -/
def wordProd {R : Type} [Monoid R] (v : ι → R) (w : List ι) : R := (w.map v).prod

/-- The value of a polynomial in a `K`-algebra. -/
def WPoly.val {R : Type} [CommRing R] [Algebra K R] (L : WPoly K ι) (v : ι → R) : R :=
  (L.map fun p => algebraMap K R p.1 * wordProd v p.2).sum

/-- `branch L t w`: product of the elementary differentials of the subtrees at the root of `t`, the first subtree with the
component given by the first letter of `w`, and so on; zero if the number of subtrees is not the length of `w`. -/
def branch (L : ι → WPoly K ι) : RTree → List ι → K
  | .leaf, [] => 1
  | .leaf, _ :: _ => 0
  | .graft _ _, [] => 0
  | .graft u v, i :: w => ((L i).map fun p => p.1 * branch L v p.2).sum * branch L u w

/-- Elementary differential. -/
def elemDiff (L : ι → WPoly K ι) (t : RTree) (m : ι) : K := ((L m).map fun p => p.1 * branch L t p.2).sum

/-- Product of the values of `α` for the subtrees at the root. -/
def hat (α : RTree → K) : RTree → K
  | .leaf => 1
  | .graft u v => hat α u * α v

open PowerSeries

/-- Coefficients of a product of series given by trees. -/
theorem coeff_wordProd {L : ι → WPoly K ι} {α : RTree → K} {N : Nat} {v : ι → K⟦X⟧} (h0 : ∀ i, coeff 0 (v i) = 0)
    (hv : ∀ d, d < N → ∀ i, coeff (d + 1) (v i) = treeSum (fun t => α t * elemDiff L t i) d) :
    ∀ (w : List ι) (d : Nat), d ≤ N → coeff d (wordProd v w) = treeSum (fun t => hat α t * branch L t w) d := by
  intro w
  induction w with
  | nil =>
    intro d _
    unfold wordProd
    simp only [List.map_nil, List.prod_nil]
    cases d with
    | zero =>
      rw [treeSum_zero]
      simp [hat, branch]
    | succ d =>
      rw [treeSum_congr (ψ := fun _ => 0), treeSum_zero_fun]
      · rw [coeff_one, if_neg (by omega)]
      · intro t ht
        cases t with
        | leaf => simp [RTree.size] at ht
        | graft u v => simp [branch]
  | cons i w ih =>
    intro d hd
    have e : wordProd v (i :: w) = v i * wordProd v w := by unfold wordProd; simp
    rw [e, coeff_mul]
    cases d with
    | zero =>
      rw [treeSum_zero]
      simp [branch, h0]
    | succ d =>
      rw [Finset.Nat.sum_antidiagonal_succ]
      simp only [h0, zero_mul, zero_add]
      rw [treeSum_succ, ← Finset.Nat.sum_antidiagonal_swap]
      apply Finset.sum_congr rfl
      intro q hq
      rw [Finset.mem_antidiagonal] at hq
      simp only [Prod.fst_swap, Prod.snd_swap]
      rw [hv q.2 (by omega) i, ih q.1 (by omega)]
      unfold treeSum
      rw [mul_comm, sum_map_mul_list]
      congr 1
      apply List.map_congr_left
      intro u _
      congr 1
      apply List.map_congr_left
      intro t _
      simp only [hat, branch, elemDiff]
      ring

theorem treeSum_list {α : Type} (l : List α) (φ : α → RTree → K) (d : Nat) :
    treeSum (fun t => (l.map fun a => φ a t).sum) d = (l.map fun a => treeSum (φ a) d).sum := by
  induction l with
  | nil => simpa using treeSum_zero_fun d
  | cons a l ih => simp only [List.map_cons, List.sum_cons, treeSum_add, ih]

/-- Coefficients of the vector field along a series given by trees. -/
theorem coeff_val {L : ι → WPoly K ι} {α : RTree → K} {N : Nat} {v : ι → K⟦X⟧} (h0 : ∀ i, coeff 0 (v i) = 0)
    (hv : ∀ d, d < N → ∀ i, coeff (d + 1) (v i) = treeSum (fun t => α t * elemDiff L t i) d) (m : ι) (d : Nat) (hd : d ≤ N) :
    coeff d ((L m).val v) = treeSum (fun t => hat α t * elemDiff L t m) d := by
  have e : (fun t => hat α t * elemDiff L t m) =
      fun t => ((L m).map fun p => p.1 * (hat α t * branch L t p.2)).sum := by
    funext t
    unfold elemDiff
    rw [← List.sum_map_mul_left]
    congr 1
    apply List.map_congr_left
    intro p _
    ring
  rw [e, treeSum_list]
  unfold WPoly.val
  rw [map_list_sum, List.map_map]
  congr 1
  apply List.map_congr_left
  intro p _
  dsimp only [Function.comp]
  rw [treeSum_smul, ← coeff_wordProd h0 hv p.2 d hd]
  exact coeff_C_mul d _ p.1

/-- Coefficient of a tree in the exact solution, times the number of nodes. -/
def exactHat : RTree → K
  | .leaf => 1
  | .graft u v => exactHat u * (exactHat v / (v.size : K))

/-- Coefficient of a tree in the exact solution (`1/γ(t)`). -/
def exactCoeff (t : RTree) : K := exactHat t / (t.size : K)

theorem hat_exactCoeff : ∀ t : RTree, hat (exactCoeff (K := K)) t = exactHat t
  | .leaf => rfl
  | .graft u v => by unfold hat exactHat; rw [hat_exactCoeff u]; rfl

/-- The exact formal solution as a sum over trees. -/
theorem coeff_exact [CharZero K] {L : ι → WPoly K ι} {v : ι → K⟦X⟧} (h0 : ∀ i, coeff 0 (v i) = 0)
    (hode : ∀ i, derivative K (v i) = (L i).val v) (d : Nat) :
    ∀ i, coeff (d + 1) (v i) = treeSum (fun t => exactCoeff t * elemDiff L t i) d := by
  induction d using Nat.strong_induction_on with
  | _ d ih =>
    intro i
    have h := congrArg (coeff d) (hode i)
    rw [coeff_val h0 (fun e he => ih e he) i d le_rfl] at h
    rw [show coeff d (derivative K (v i)) = coeff (d + 1) (v i) * (d + 1) from coeff_derivative _ _] at h
    have hd : ((d : K) + 1) ≠ 0 := by exact_mod_cast Nat.succ_ne_zero d
    rw [eq_div_of_mul_eq hd h, div_eq_inv_mul, ← treeSum_smul]
    apply treeSum_congr
    intro t ht
    rw [hat_exactCoeff]
    unfold exactCoeff
    rw [ht]
    push_cast
    field_simp

/-- Coefficient of a tree in the stage `i`. -/
def stageCoeff (s : Nat) (a : Nat → Nat → K) : RTree → Nat → K
  | .leaf, _ => 1
  | .graft u v, i => stageCoeff s a u i * ∑ j ∈ Finset.range s, a i j * stageCoeff s a v j

theorem hat_stage (s : Nat) (a : Nat → Nat → K) (i : Nat) :
    ∀ t, hat (fun t => ∑ j ∈ Finset.range s, a i j * stageCoeff s a t j) t = stageCoeff s a t i
  | .leaf => rfl
  | .graft u v => by
    change hat (fun t => ∑ j ∈ Finset.range s, a i j * stageCoeff s a t j) u * _ = _
    rw [hat_stage s a i u]
    rfl

/-- The stages of a Runge-Kutta step, as series in the stepsize, are sums over trees. -/
theorem coeff_stage {L : ι → WPoly K ι} {s : Nat} {a : Nat → Nat → K} {k : Nat → ι → K⟦X⟧}
    (hk : ∀ i, i < s → ∀ m, k i m = (L m).val (fun n => X * ∑ j ∈ Finset.range s, C (a i j) * k j n)) (d : Nat) :
    ∀ i, i < s → ∀ m, coeff d (k i m) = treeSum (fun t => stageCoeff s a t i * elemDiff L t m) d := by
  induction d using Nat.strong_induction_on with
  | _ d ih =>
    intro i hi m
    rw [hk i hi m, coeff_val (N := d) (α := fun t => ∑ j ∈ Finset.range s, a i j * stageCoeff s a t j)]
    · apply treeSum_congr
      intro t _
      rw [hat_stage]
    · intro n
      rw [coeff_zero_X_mul]
    · intro e he n
      rw [coeff_succ_X_mul, map_sum]
      have : ∀ j ∈ Finset.range s, coeff e (C (a i j) * k j n) =
          treeSum (fun t => a i j * (stageCoeff s a t j * elemDiff L t n)) e := by
        intro j hj
        rw [coeff_C_mul, ih e he j (Finset.mem_range.1 hj) n, treeSum_smul]
      rw [Finset.sum_congr rfl this, ← treeSum_sum]
      apply treeSum_congr
      intro t _
      rw [Finset.sum_mul]
      apply Finset.sum_congr rfl
      intro j _
      ring
    · exact le_rfl

/-- The order conditions: `Σ bᵢ Φᵢ(t) = 1/γ(t)` for all trees with at most `p` nodes. -/
def OrderConditions (s : Nat) (a : Nat → Nat → K) (b : Nat → K) (p : Nat) : Prop :=
  ∀ t : RTree, t.size ≤ p → ∑ i ∈ Finset.range s, b i * stageCoeff s a t i = exactCoeff t

/-- The result of a step and the exact formal solution agree up to `h^p`. -/
theorem order_words [CharZero K] {L : ι → WPoly K ι} {s : Nat} {a : Nat → Nat → K} {b : Nat → K} {p : Nat}
    (hO : OrderConditions s a b p) {k : Nat → ι → K⟦X⟧}
    (hk : ∀ i, i < s → ∀ m, k i m = (L m).val (fun n => X * ∑ j ∈ Finset.range s, C (a i j) * k j n))
    {v : ι → K⟦X⟧} (h0 : ∀ i, coeff 0 (v i) = 0) (hode : ∀ i, derivative K (v i) = (L i).val v) :
    ∀ d, d ≤ p → ∀ m, coeff d (X * ∑ i ∈ Finset.range s, C (b i) * k i m) = coeff d (v m) := by
  intro d hd m
  cases d with
  | zero => rw [coeff_zero_X_mul, h0]
  | succ d =>
    rw [coeff_succ_X_mul, coeff_exact h0 hode, map_sum]
    have : ∀ j ∈ Finset.range s, coeff d (C (b j) * k j m) =
        treeSum (fun t => b j * (stageCoeff s a t j * elemDiff L t m)) d := by
      intro j hj
      rw [coeff_C_mul, coeff_stage hk d j (Finset.mem_range.1 hj) m, treeSum_smul]
    rw [Finset.sum_congr rfl this, ← treeSum_sum]
    apply treeSum_congr
    intro t ht
    rw [← hO t (by omega), Finset.sum_mul]
    apply Finset.sum_congr rfl
    intro j _
    ring

/-- Every polynomial, expanded at a point, is a list of words. -/
theorem exists_words (f : MvPolynomial ι K) (y0 : ι → K) : ∃ L : WPoly K ι,
    ∀ {R : Type} [CommRing R] [Algebra K R] (v : ι → R),
      MvPolynomial.aeval (fun i => algebraMap K R (y0 i) + v i) f = L.val v := by
  induction f using MvPolynomial.induction_on with
  | C c =>
    refine ⟨[(c, [])], ?_⟩
    intro R _ _ v
    simp [WPoly.val, wordProd]
  | add f g hf hg =>
    obtain ⟨L1, h1⟩ := hf
    obtain ⟨L2, h2⟩ := hg
    refine ⟨L1 ++ L2, ?_⟩
    intro R _ _ v
    rw [map_add, h1, h2]
    simp [WPoly.val]
  | mul_X f i hf =>
    obtain ⟨L, h⟩ := hf
    refine ⟨(L.map fun p => (p.1 * y0 i, p.2)) ++ (L.map fun p => (p.1, i :: p.2)), ?_⟩
    intro R _ _ v
    rw [map_mul, h, MvPolynomial.aeval_X]
    unfold WPoly.val
    rw [List.map_append, List.sum_append, List.map_map, List.map_map, mul_add]
    congr 1
    · rw [← List.sum_map_mul_right]
      congr 1
      apply List.map_congr_left
      intro p _
      simp only [Function.comp, map_mul]
      ring
    · rw [← List.sum_map_mul_right]
      congr 1
      apply List.map_congr_left
      intro p _
      simp only [Function.comp, wordProd, List.map_cons, List.prod_cons]
      ring

/-- The result of a step and the exact formal solution of an autonomous polynomial system agree up to `h^p`. -/
theorem order_autonomous [CharZero K] {s : Nat} {a : Nat → Nat → K} {b : Nat → K} {p : Nat}
    (hO : OrderConditions s a b p) (f : ι → MvPolynomial ι K) (y0 : ι → K) {k : Nat → ι → K⟦X⟧}
    (hk : ∀ i, i < s → ∀ m, k i m =
      MvPolynomial.aeval (fun n => C (y0 n) + X * ∑ j ∈ Finset.range s, C (a i j) * k j n) (f m))
    {Y : ι → K⟦X⟧} (h0 : ∀ i, constantCoeff (Y i) = y0 i) (hode : ∀ i, derivative K (Y i) = MvPolynomial.aeval Y (f i)) :
    ∀ d, d ≤ p → ∀ m, coeff d (C (y0 m) + X * ∑ i ∈ Finset.range s, C (b i) * k i m) = coeff d (Y m) := by
  choose L hL using fun m => exists_words (f m) y0
  intro d hd m
  have e1 : ∀ i, i < s → ∀ m, k i m = (L m).val (fun n => X * ∑ j ∈ Finset.range s, C (a i j) * k j n) := by
    intro i hi m
    rw [← hL m, hk i hi m]
    rfl
  have e2 : ∀ i, Y i = C (y0 i) + (Y i - C (y0 i)) := fun i => by ring
  have e3 : ∀ i, derivative K (Y i - C (y0 i)) = (L i).val (fun n => Y n - C (y0 n)) := by
    intro i
    rw [map_sub, hode i, ← hL i]
    rw [show derivative K (C (y0 i)) = 0 from derivative_C, sub_zero]
    congr 2
    funext n
    exact e2 n
  have := order_words hO e1 (v := fun n => Y n - C (y0 n)) (by
    intro i
    rw [map_sub, coeff_zero_eq_constantCoeff_apply, h0]
    simp) e3 d hd m
  rw [map_add, this, map_sub]
  ring

end

end Russell.Ode
