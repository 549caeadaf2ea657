import Verif.Ode.ErkProps
import Verif.Ode.Series

/-!
# Order of the explicit Runge-Kutta methods (C60)

The order conditions of all the tableaux are checked by evaluation for all trees with at most `p` nodes; then the theory of
Trees.lean gives the order for all polynomial systems, autonomous or not.
-/

namespace Russell.Ode

open Russell Russell.Res Russell.Lab

/-! ### Check of the order conditions -/

/-- Scalar product. -/
def dot (r v : List ℚ) : ℚ := (List.zipWith (· * ·) r v).sum

/-- The coefficients of a tree in all the stages. -/
def stageVec (A : List (List ℚ)) : RTree → List ℚ
  | .leaf => A.map fun _ => 1
  | .graft u v => let sv := stageVec A v; List.zipWith (fun x r => x * dot r sv) (stageVec A u) A

/-- One order condition. -/
def checkTree (A : List (List ℚ)) (b : List ℚ) (t : RTree) : Bool := dot b (stageVec A t) = exactHat t / t.size

/-- All the order conditions up to order `p`. -/
def checkOrder (A : List (List ℚ)) (b : List ℚ) (p : Nat) : Bool := (List.range p).all fun d => (trees d).all (checkTree A b)

theorem dot_eq : ∀ (r v : List ℚ), r.length = v.length → dot r v = ∑ j ∈ Finset.range v.length, r.getD j 0 * v.getD j 0
  | [], [], _ => by simp [dot]
  | a :: r, b :: v, h => by
    have ih := dot_eq r v (by simpa using h)
    rw [List.length_cons, Finset.sum_range_succ']
    unfold dot at ih ⊢
    simp only [List.zipWith_cons_cons, List.sum_cons, List.getD_cons_succ, List.getD_cons_zero]
    rw [ih]; ring

section
variable {A : List (List ℚ)} (hA : ∀ r ∈ A, r.length = A.length)
include hA

omit hA in
theorem stageVec_length : ∀ t, (stageVec A t).length = A.length
  | .leaf => by simp [stageVec]
  | .graft u v => by
    unfold stageVec
    simp [stageVec_length u]

theorem stageVec_getD : ∀ (t : RTree) (i : Nat), i < A.length →
    (stageVec A t).getD i 0 = stageCoeff A.length (fun i j => (A.getD i []).getD j 0) t i
  | .leaf, i, hi => by
    unfold stageVec stageCoeff
    rw [getD_lt (by simpa using hi)]; simp
  | .graft u v, i, hi => by
    have hu := stageVec_getD u i hi
    have hl := stageVec_length (A := A) u
    unfold stageVec stageCoeff
    dsimp only
    rw [getD_lt (by simp [hl, hi]), List.getElem_zipWith, ← hu, getD_lt (by omega)]
    congr 1
    have hr : (A[i]).length = (stageVec A v).length := (hA _ (List.getElem_mem hi)).trans (stageVec_length v).symm
    rw [dot_eq _ _ hr, stageVec_length]
    apply Finset.sum_congr rfl
    intro j hj
    rw [stageVec_getD v j (Finset.mem_range.1 hj), getD_lt hi]

theorem dot_stageVec {b : List ℚ} (hb : b.length = A.length) (t : RTree) :
    dot b (stageVec A t) = ∑ i ∈ Finset.range A.length, b.getD i 0 * stageCoeff A.length (fun i j => (A.getD i []).getD j 0) t i := by
  rw [dot_eq _ _ (by rw [hb, stageVec_length]), stageVec_length]
  apply Finset.sum_congr rfl
  intro i hi
  rw [stageVec_getD hA t i (Finset.mem_range.1 hi)]

end

section
variable {K : Type} [Field K] [CharZero K]

theorem cast_exactHat : ∀ t : RTree, ((exactHat t : ℚ) : K) = exactHat t
  | .leaf => by simp [exactHat]
  | .graft u v => by
    unfold exactHat
    push_cast
    rw [cast_exactHat u, cast_exactHat v]

theorem cast_exactCoeff (t : RTree) : ((exactCoeff t : ℚ) : K) = exactCoeff t := by
  unfold exactCoeff
  push_cast
  rw [cast_exactHat]

theorem cast_stageCoeff (s : Nat) (a : Nat → Nat → ℚ) : ∀ (t : RTree) (i : Nat),
    ((stageCoeff s a t i : ℚ) : K) = stageCoeff s (fun i j => (a i j : K)) t i
  | .leaf, i => by simp [stageCoeff]
  | .graft u v, i => by
    unfold stageCoeff
    push_cast
    rw [cast_stageCoeff s a u i]
    congr 1
    apply Finset.sum_congr rfl
    intro j _
    rw [cast_stageCoeff s a v j]

/-- The sum of an order condition, computed from the lists. -/
theorem weights_cast {A : List (List ℚ)} {b : List ℚ} (hA : ∀ r ∈ A, r.length = A.length) (hb : b.length = A.length) (t : RTree) :
    ∑ i ∈ Finset.range A.length, ((b.getD i 0 : ℚ) : K) *
      stageCoeff A.length (fun i j => (((A.getD i []).getD j 0 : ℚ) : K)) t i = ((dot b (stageVec A t) : ℚ) : K) := by
  rw [dot_stageVec hA hb t]
  push_cast
  apply Finset.sum_congr rfl
  intro i _
  rw [cast_stageCoeff]

/-- The check is the order conditions. -/
theorem orderConditions_iff {A : List (List ℚ)} {b : List ℚ} (hA : ∀ r ∈ A, r.length = A.length) (hb : b.length = A.length) (p : Nat) :
    OrderConditions A.length (fun i j => (((A.getD i []).getD j 0 : ℚ) : K)) (fun i => ((b.getD i 0 : ℚ) : K)) p ↔
      checkOrder A b p = true := by
  have hone : ∀ t, (∑ i ∈ Finset.range A.length, ((b.getD i 0 : ℚ) : K) *
      stageCoeff A.length (fun i j => (((A.getD i []).getD j 0 : ℚ) : K)) t i = exactCoeff t) ↔ checkTree A b t = true := by
    intro t
    rw [weights_cast hA hb t, ← cast_exactCoeff t]
    unfold checkTree
    rw [decide_eq_true_iff]
    exact Rat.cast_inj
  unfold OrderConditions checkOrder
  simp only [List.all_eq_true, List.mem_range]
  constructor
  · intro h d hd t ht
    have := mem_trees.1 ht
    exact (hone t).1 (h t (by omega))
  · intro h t ht
    have hp := t.size_pos
    exact (hone t).2 (h (t.size - 1) (by omega) t (mem_trees.2 (by omega)))

end

/-! ### The orders of the methods -/

/-- The order of a method with weights `b` is exactly `p`: the order conditions hold up to `p`, and not up to `p + 1`. -/
def HasOrder {K : Type} [Field K] (s : Nat) (a : Nat → Nat → K) (b : Nat → K) (p : Nat) : Prop :=
  OrderConditions s a b p ∧ ¬ OrderConditions s a b (p + 1)

/-- The tree with one node above another. -/
def chainTree : Nat → RTree
  | 0 => .leaf
  | n + 1 => .graft .leaf (chainTree n)

theorem chainTree_size : ∀ n, (chainTree n).size = n + 1
  | 0 => rfl
  | n + 1 => by unfold chainTree RTree.size; rw [chainTree_size n]; simp [RTree.size]; omega

/-- The tree with all the nodes on the root. -/
def bushTree : Nat → RTree
  | 0 => .leaf
  | n + 1 => .graft (bushTree n) .leaf

theorem bushTree_size : ∀ n, (bushTree n).size = n + 1
  | 0 => rfl
  | n + 1 => by unfold bushTree RTree.size; rw [bushTree_size n]; simp [RTree.size]

/-- The weights of the embedded method, `B - E`. -/
def Tableau.embedded (t : Tableau) : List ℚ := List.zipWith (· - ·) t.bb (t.ee.getD [])

section
variable {K : Type} [Field K] [CharZero K]

theorem OrderConditions.congr {s : Nat} {a : Nat → Nat → K} {b b' : Nat → K} {p : Nat} (h : ∀ i, i < s → b i = b' i)
    (hO : OrderConditions s a b p) : OrderConditions s a b' p := by
  intro t ht
  rw [← hO t ht]
  apply Finset.sum_congr rfl
  intro i hi
  rw [h i (Finset.mem_range.1 hi)]

theorem HasOrder.congr {s : Nat} {a : Nat → Nat → K} {b b' : Nat → K} {p : Nat} (h : ∀ i, i < s → b i = b' i)
    (hO : HasOrder s a b p) : HasOrder s a b' p :=
  ⟨hO.1.congr h, fun hn => hO.2 (hn.congr fun i hi => (h i hi).symm)⟩

theorem not_check {A : List (List ℚ)} {b : List ℚ} {p : Nat} (t : RTree) (ht : t.size = p + 1) (hf : checkTree A b t = false) :
    checkOrder A b (p + 1) ≠ true := by
  intro h
  unfold checkOrder at h
  simp only [List.all_eq_true, List.mem_range] at h
  have := h p (by omega) t (mem_trees.2 ht)
  rw [hf] at this
  cases this

theorem hasOrder_of {A : List (List ℚ)} {b : List ℚ} {p : Nat} (hA : ∀ r ∈ A, r.length = A.length) (hb : b.length = A.length)
    (h1 : checkOrder A b p = true) (t : RTree) (ht : t.size = p + 1) (hf : checkTree A b t = false) :
    HasOrder A.length (fun i j => (((A.getD i []).getD j 0 : ℚ) : K)) (fun i => ((b.getD i 0 : ℚ) : K)) p :=
  ⟨(orderConditions_iff hA hb p).2 h1, fun h => not_check t ht hf ((orderConditions_iff hA hb _).1 h)⟩

end

section
variable {K : Type} [Field K] [LinearOrder K] [IsStrictOrderedRing K]

theorem zipWith_sub_getD {l l' : List ℚ} (h : l'.length = l.length) {i : Nat} (hi : i < l.length) :
    (List.zipWith (· - ·) l l').getD i 0 = l.getD i 0 - l'.getD i 0 := by
  rw [getD_lt (by simp [h, hi]), List.getElem_zipWith, getD_lt hi, getD_lt (by omega)]

/-- The check of the weights `b` for the order `p`, and a tree for which the next order fails. -/
def ChecksOrder (t : Tableau) (b : List ℚ) (p : Nat) : Prop :=
  checkOrder t.aa b p = true ∧ ∃ u : RTree, u.size = p + 1 ∧ checkTree t.aa b u = false

theorem main_checks {m : Method} {t : Tableau} (h : m.tableau = some t) (hm : m ≠ .DoPri8) :
    ChecksOrder t t.bb m.information.order := by
  cases m
  case Radau5 => cases h
  case BwEuler => cases h
  case FwEuler => cases h
  case DoPri8 => exact absurd rfl hm
  all_goals
    cases h
    refine ⟨by decide +kernel, ?_⟩
    first
      | exact ⟨chainTree _, chainTree_size _, by decide +kernel⟩
      | exact ⟨bushTree _, bushTree_size _, by decide +kernel⟩

/-- The order of the embedded method. -/
def embeddedOrder : Method → Nat
  | .MdEuler => 1
  | .Merson4 => 3
  | .Zonneveld4 => 3
  | .Fehlberg4 => 5
  | .DoPri5 => 4
  | .Verner6 => 5
  | .Fehlberg7 => 8
  | _ => 0

theorem embedded_checks {m : Method} {t : Tableau} (h : m.tableau = some t) (hm : m ≠ .DoPri8)
    (he : m.information.embedded = true) : ChecksOrder t t.embedded (embeddedOrder m) := by
  cases m
  case Radau5 => cases h
  case BwEuler => cases h
  case FwEuler => cases h
  case DoPri8 => exact absurd rfl hm
  case Rk2 => cases he
  case Rk3 => cases he
  case Heun3 => cases he
  case Rk4 => cases he
  case Rk4alt => cases he
  all_goals
    cases h
    refine ⟨by decide +kernel, ?_⟩
    first
      | exact ⟨chainTree _, chainTree_size _, by decide +kernel⟩
      | exact ⟨bushTree _, bushTree_size _, by decide +kernel⟩

theorem ChecksOrder.hasOrder {t : Tableau} {b : List ℚ} {p : Nat} (h : ChecksOrder t b p) {m : Method} (hw : t.WellFormed m)
    (hb : b.length = t.bb.length) :
    HasOrder t.bb.length (t.coefs (K := K)).a (fun i => ((b.getD i 0 : ℚ) : K)) p := by
  obtain ⟨-, w1, w2, -⟩ := hw
  obtain ⟨h1, u, h2, h3⟩ := h
  have := hasOrder_of (K := K) (by rw [w1]; exact w2) (hb.trans w1.symm) h1 u h2 h3
  rw [w1] at this
  exact this

/-- **C60**: the order given by `Method::information` is exactly the order of the method. (DoPri8 has decimal coefficients, see
`C60_doPri8`.) -/
theorem C60_order {m : Method} {t : Tableau} (h : m.tableau = some t) (hm : m ≠ .DoPri8) :
    HasOrder t.bb.length (t.coefs (K := K)).a (t.coefs (K := K)).b m.information.order :=
  (main_checks h hm).hasOrder (tableau_wellFormed h) rfl

end

end Russell.Ode
