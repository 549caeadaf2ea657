import Verif.Sparse.Options
import Mathlib.Algebra.BigOperators.Group.Finset.Basic

/-!
# `LinSolver::compute`: the solution of one linear system (property C121)

/repo/russell_sparse/src/lin_solver.rs (and complex_lin_solver.rs, which has the same text). The front-ends are those of C18 (Sparse/Solver.lean); the
libraries are functions of the calls made, and what is assumed of them is stated in `CudssSound`, `MumpsSound` and `UmfpackSound`.
-/

namespace Russell.Sparse

open Russell Russell.Res Russell.Lab
open Russell.Pde (Genie)

namespace Solver

variable {α A E M V P : Type}

/-- `LinSolver::compute` for one front-end (lin_solver.rs:212-224): `new`, `factorize`, `solve`. The state holds the solver and the vector `x` -/
def Front.compute (b : Backend α A E M V P) (lib : Lib M V P α) (env : E) (x : List α) (a : A) (rhs : List α) (params : Option P) :
    MRes (Front M V P α × List α) :=
  match (Front.new : Front M V P α).factorize b lib env a params with
  | .panic => .panic
  | .err s msg => .err (s, x) msg
  | .ok s => s.solve b lib x rhs

/-- the three libraries, the parameters and the messages -/
structure Libs (α P : Type) where
  cud : Lib (CudssMat α) (Csr α) P α
  mum : Lib MumpsMat (MumpsView α) P α
  umf : Lib (Csc α) (Csc α) P α
  dflt : P
  parErr : P → Option String
  cudMsg : Int → String
  mumMsg : Int → String
  umfMsg : Int → String

/-- the vector `x` after the call -/
def vecOf : MRes (Front M V P α × List α) → MRes (List α)
  | .ok s => .ok s.2
  | .err s msg => .err s.2 msg
  | .panic => .panic

/-- `LinSolver::new` and `LinSolver::compute` (lin_solver.rs:116-142, 212-224, complex_lin_solver.rs:78-104, 170-182); `cud` and `loc` are the features `cudss` and `local_sparse` -/
def linSolverCompute [Zero α] [Add α] (cud loc : Bool) (L : Libs α P) (mem : Mem α) (genie : Genie) (x : List α) (a : CooAt α) (rhs : List α) (params : Option P) :
    MRes (List α) :=
  match genie with
  | .Cudss => if cud then vecOf (Front.compute (cudss P L.dflt L.parErr L.cudMsg) L.cud () x a.coo rhs params) else .err x "cuDSS solver is not available"
  | .Mumps => if loc then vecOf (Front.compute (mumps P L.dflt L.mumMsg) L.mum mem x a rhs params) else .err x "MUMPS solver is not available"
  | .Umfpack => vecOf (Front.compute (umfpack P L.dflt L.umfMsg) L.umf () x a.coo rhs params)

/-! ## One front-end -/

variable {b : Backend α A E M V P} {lib : Lib M V P α}

theorem compute_unsuitable (env : E) (x : List α) (a : A) (rhs : List α) (params : Option P)
    (h : (b.coo a).nrow ≠ (b.coo a).ncol ∨ (b.coo a).nnz < 1 ∨ b.rejects (b.coo a).symmetric ≠ none) :
    ∃ msg, Front.compute b lib env x a rhs params = .err (Front.new, x) msg := by
  obtain ⟨msg, e⟩ := factorize_unsuitable (b := b) (lib := lib) env Front.new a params rfl h
  exact ⟨msg, by rw [Front.compute, e]⟩

/-- the outcome for a matrix that passes the checks -/
theorem compute_run (env : E) (x : List α) {a : A} (rhs : List α) (params : Option P) {m : M} (hm : b.create a = ok m)
    (h1 : (b.coo a).nrow = (b.coo a).ncol) (h2 : 1 ≤ (b.coo a).nnz) (h3 : b.rejects (b.coo a).symmetric = none)
    (f1 : (b.coo a).nrow < 2147483648) (f2 : (b.coo a).nnz < 2147483648) :
    (∃ s msg, b.parErr (params.getD b.dflt) = some msg ∧ s.calls = [] ∧ Front.compute b lib env x a rhs params = .err (s, x) msg) ∨
    b.parErr (params.getD b.dflt) = none ∧
    ((∃ s st, st ≠ 0 ∧ (lib [] (.init (params.getD b.dflt) m)).1 = st ∧ s.calls = [⟨.init (params.getD b.dflt) m, st⟩] ∧
        Front.compute b lib env x a rhs params = .err (s, x) (b.errMsg st)) ∨
     (∃ s st, st ≠ 0 ∧ (lib [⟨.init (params.getD b.dflt) m, 0⟩] (.factorize (params.getD b.dflt) m (b.view env m))).1 = st ∧
        s.calls = [⟨.init (params.getD b.dflt) m, 0⟩, ⟨.factorize (params.getD b.dflt) m (b.view env m), st⟩] ∧
        Front.compute b lib env x a rhs params = .err (s, x) (b.errMsg st)) ∨
     (∃ s msg, (x.length ≠ (b.coo a).nrow ∨ rhs.length ≠ (b.coo a).nrow) ∧ Front.compute b lib env x a rhs params = .err (s, x) msg) ∨
     (∃ s st y, x.length = (b.coo a).nrow ∧ rhs.length = (b.coo a).nrow ∧
        lib [⟨.init (params.getD b.dflt) m, 0⟩, ⟨.factorize (params.getD b.dflt) m (b.view env m), 0⟩] (.solve m rhs) = (st, y) ∧
        s.calls = [⟨.init (params.getD b.dflt) m, 0⟩, ⟨.factorize (params.getD b.dflt) m (b.view env m), 0⟩, ⟨.solve m rhs, st⟩] ∧
        Front.compute b lib env x a rhs params = if st ≠ 0 then .err (s, y) (b.errMsg st) else .ok (s, y))) := by
  obtain ⟨i, e1⟩ := toI32_fits f1
  obtain ⟨j, e2⟩ := toI32_fits f2
  have hc : (Front.new : Front M V P α).convert b a params =
      .ok { (Front.new : Front M V P α) with initSym := (b.coo a).symmetric, initNdim := (b.coo a).nrow, initNnz := (b.coo a).nnz, mat := some m } := by
    unfold Front.convert
    dsimp only
    rw [if_neg (by simp [Front.new]), if_neg (not_not.2 h1), if_neg (by omega), h3]
    dsimp only
    rw [hm]
  unfold Front.compute Front.factorize
  rw [hc]
  dsimp only
  cases hp : b.parErr (params.getD b.dflt) with
  | some msg => exact Or.inl ⟨_, msg, rfl, rfl, rfl⟩
  | none =>
    refine Or.inr ⟨rfl, ?_⟩
    dsimp only
    rw [e1, e2]
    dsimp only
    unfold Front.symbolic
    rw [if_neg (by simp [Front.new])]
    simp only [Front.call, Front.new, List.nil_append]
    by_cases hs1 : (lib [] (.init (params.getD b.dflt) m)).1 = 0
    · simp only [ne_eq, hs1, not_true_eq_false, if_false]
      unfold Front.numeric
      simp only [Front.call, List.cons_append, List.nil_append]
      by_cases hs2 : (lib [⟨.init (params.getD b.dflt) m, 0⟩] (.factorize (params.getD b.dflt) m (b.view env m))).1 = 0
      · simp only [ne_eq, hs2, not_true_eq_false, if_false]
        unfold Front.solve
        rw [if_neg (by simp)]
        dsimp only
        by_cases hx : x.length = (b.coo a).nrow
        · by_cases hr : rhs.length = (b.coo a).nrow
          · rw [if_neg (not_not.2 hx), if_neg (not_not.2 hr)]
            exact Or.inr (Or.inr (Or.inr ⟨_, _, _, hx, hr, rfl, rfl, rfl⟩))
          · rw [if_neg (not_not.2 hx), if_pos hr]
            exact Or.inr (Or.inr (Or.inl ⟨_, _, Or.inr hr, rfl⟩))
        · rw [if_pos hx]
          exact Or.inr (Or.inr (Or.inl ⟨_, _, Or.inl hx, rfl⟩))
      · simp only [ne_eq, hs2, not_false_eq_true, if_true]
        exact Or.inr (Or.inl ⟨_, _, hs2, rfl, rfl, rfl⟩)
    · simp only [ne_eq, hs1, not_false_eq_true, if_true]
      exact Or.inl ⟨_, _, hs1, rfl, rfl, rfl⟩

/-- if the call succeeds, then the three calls to the library did -/
theorem compute_ok (L : Laws b) {env : E} {x : List α} {a : A} {rhs : List α} {params : Option P} (ha : L.wf a) {s : Front M V P α} {y : List α}
    (h : Front.compute b lib env x a rhs params = .ok (s, y)) :
    ∃ m, b.create a = ok m ∧ L.den0 m a ∧ (b.coo a).nrow = (b.coo a).ncol ∧
      lib [⟨.init (params.getD b.dflt) m, 0⟩, ⟨.factorize (params.getD b.dflt) m (b.view env m), 0⟩] (.solve m rhs) = (0, y) ∧
      s.calls = [⟨.init (params.getD b.dflt) m, 0⟩, ⟨.factorize (params.getD b.dflt) m (b.view env m), 0⟩, ⟨.solve m rhs, 0⟩] := by
  by_cases hu : (b.coo a).nrow ≠ (b.coo a).ncol ∨ (b.coo a).nnz < 1 ∨ b.rejects (b.coo a).symmetric ≠ none
  · obtain ⟨msg, e⟩ := compute_unsuitable (b := b) (lib := lib) env x a rhs params hu
    rw [e] at h; cases h
  · push Not at hu
    obtain ⟨h1, h2, h3⟩ := hu
    obtain ⟨m, e, -, g2, -⟩ := L.create a ha h1 h2 h3
    obtain ⟨f1, f2⟩ := L.fits a ha
    rcases compute_run (lib := lib) env x rhs params e h1 h2 h3 f1 f2 with ⟨s', msg, -, -, k⟩ | ⟨-, ⟨s', st, -, -, -, k⟩ | ⟨s', st, -, -, -, k⟩ | ⟨s', msg, -, k⟩ | ⟨s', st, y', -, -, k1, k2, k⟩⟩
    · rw [k] at h; cases h
    · rw [k] at h; cases h
    · rw [k] at h; cases h
    · rw [k] at h; cases h
    · rw [k] at h
      by_cases hst : st = 0
      · subst hst
        rw [if_neg (by simp)] at h
        cases h
        exact ⟨m, e, g2, h1, k1, k2⟩
      · rw [if_pos hst] at h; cases h

/-! ## What the libraries do -/

/-- `d · y = rhs` -/
def SolvesDense [NonUnitalNonAssocSemiring α] (d : NumMatrix α) (y rhs : List α) : Prop :=
  y.length = d.ncol ∧ rhs.length = d.nrow ∧ ∀ r, r < d.nrow → ∃ f : Nat → α, (∀ k, k < d.ncol → d.get r k = ok (f k)) ∧
    rhs[r]? = some (∑ k ∈ Finset.range d.ncol, f k * y.getD k 0)

section
variable [NonUnitalNonAssocSemiring α]

/-- UMFPACK: after an initialization and a factorization of a CSC matrix, a solution reported as successful is a solution -/
def UmfpackSound (lib : Lib (Csc α) (Csc α) P α) : Prop := ∀ par m rhs y,
  lib [⟨.init par m, 0⟩, ⟨.factorize par m m, 0⟩] (.solve m rhs) = (0, y) → ∀ d, m.asDense = ok d → SolvesDense d y rhs

/-- cuDSS: the same for the CSR matrix with the values given to the factorization and the pattern copied to the device -/
def CudssSound (lib : Lib (CudssMat α) (Csr α) P α) : Prop := ∀ par m v rhs y,
  lib [⟨.init par m, 0⟩, ⟨.factorize par m v, 0⟩] (.solve m rhs) = (0, y) → v.rowPointers = m.gpuRowPointers → v.colIndices = m.gpuColIndices →
  ∀ d, v.asDense = ok d → SolvesDense d y rhs

/-- MUMPS: the same for the matrix given by one-based triplets; of a symmetric matrix one triangle is given -/
def MumpsSound (lib : Lib MumpsMat (MumpsView α) P α) : Prop := ∀ par m v rhs y,
  lib [⟨.init par m, 0⟩, ⟨.factorize par m v, 0⟩] (.solve m rhs) = (0, y) → v.irn = m.irn → v.jcn = m.jcn →
  ∀ (es : List (Entry α)) vals, m.irn = es.map (fun e => (e.1 : Int) + 1) → m.jcn = es.map (fun e => (e.2.1 : Int) + 1) → v.values = some vals →
  vals.take es.length = es.map (·.2.2) → (∀ e ∈ es, e.1 < m.ndim ∧ e.2.1 < m.ndim) →
  ∀ d, IsDense d m.ndim m.ndim (denseOf m.sym es) → SolvesDense d y rhs

end

theorem oneBased_rep {idx : List Int} {es : List (Entry α)} {g : Entry α → Nat}
    (h : ∀ k (hk : k < es.length), idx[k]? = some ((g es[k] : Nat) : Int)) : oneBased idx es.length = es.map (fun e => (g e : Int) + 1) := by
  unfold oneBased
  apply List.ext_getElem?
  intro k
  rw [List.getElem?_map, List.getElem?_map, List.getElem?_take]
  by_cases hk : k < es.length
  · rw [if_pos hk, h k hk, List.getElem?_eq_getElem hk]
    rfl
  · rw [if_neg hk, List.getElem?_eq_none (by omega)]
    rfl

/-! ## Claims -/

section
variable [CommSemiring α]

/-- C121: if `compute` succeeds with any of the solvers, then the vector `x` is the solution of the linear system with the matrix given, entered by triplets
(repeated positions added; of symmetric matrices one triangle or all entries, as the solver requires) -/
theorem C121_compute_solves (cud loc : Bool) (L : Libs α P) (hC : CudssSound L.cud) (hM : MumpsSound L.mum) (hU : UmfpackSound L.umf)
    (hd : L.parErr L.dflt = none) (mem : Mem α) (genie : Genie) (x rhs : List α) (a : CooAt α) (ha : Fits a.coo) (hmem : mem a.addr = some a.coo.values)
    (params : Option P) (y : List α) (h : linSolverCompute cud loc L mem genie x a rhs params = .ok y) :
    ∃ d, a.coo.asDense = ok d ∧ SolvesDense d y rhs := by
  cases genie with
  | Cudss =>
    simp only [linSolverCompute] at h
    split at h
    · cases hc : Front.compute (cudss P L.dflt L.parErr L.cudMsg) L.cud () x a.coo rhs params with
      | ok s =>
        rw [hc] at h
        cases h
        obtain ⟨m, -, ⟨⟨⟨d, e1, e2⟩, -⟩, g1, g2⟩, -, k, -⟩ := compute_ok (cudssLaws P L.dflt L.parErr L.cudMsg hd) ha hc
        refine ⟨d, e2, hC _ m _ rhs _ k rfl rfl d ?_⟩
        simp only [cudss, g1, g2]
        exact e1
      | err s msg => rw [hc] at h; cases h
      | panic => rw [hc] at h; cases h
    · cases h
  | Mumps =>
    simp only [linSolverCompute] at h
    split at h
    · cases hc : Front.compute (mumps P L.dflt L.mumMsg) L.mum mem x a rhs params with
      | ok s =>
        rw [hc] at h
        cases h
        obtain ⟨m, -, hm, hsq, k, -⟩ := compute_ok (mumpsLaws P L.dflt L.mumMsg) ha hc
        simp only [mumpsLaws] at hm
        subst hm
        obtain ⟨⟨es, hr⟩, -, -⟩ := ha
        obtain ⟨d, e, hd'⟩ := Coo.asDense_spec hr
        refine ⟨d, e, hM _ _ _ rhs _ k rfl rfl es a.coo.values ?_ ?_ hmem ?_ ?_ d ?_⟩
        · dsimp only
          rw [hr.nnz]
          exact oneBased_rep (g := fun e => e.1) hr.entI
        · dsimp only
          rw [hr.nnz]
          exact oneBased_rep (g := fun e => e.2.1) hr.entJ
        · apply List.ext_getElem?
          intro i
          rw [List.getElem?_map, List.getElem?_take]
          by_cases hi : i < es.length
          · rw [if_pos hi, hr.entX i hi, List.getElem?_eq_getElem hi]
            rfl
          · rw [if_neg hi, List.getElem?_eq_none (by omega)]
            rfl
        · intro e he
          refine ⟨hr.rangeI e he, ?_⟩
          have := hr.rangeJ e he
          simp only [mumps] at hsq
          dsimp only
          omega
        · simp only [mumps] at hsq
          dsimp only
          have h2 := hd'
          rw [← hsq] at h2
          exact h2
      | err s msg => rw [hc] at h; cases h
      | panic => rw [hc] at h; cases h
    · cases h
  | Umfpack =>
    simp only [linSolverCompute] at h
    cases hc : Front.compute (umfpack P L.dflt L.umfMsg) L.umf () x a.coo rhs params with
    | ok s =>
      rw [hc] at h
      cases h
      obtain ⟨m, -, ⟨⟨d, e1, e2⟩, -⟩, -, k, -⟩ := compute_ok (umfpackLaws P L.dflt L.umfMsg) ha hc
      exact ⟨d, e2, hU _ m rhs _ k d e1⟩
    | err s msg => rw [hc] at h; cases h
    | panic => rw [hc] at h; cases h

/-- the storage that a solver accepts -/
def Suits : Genie → Sym → Prop
  | .Umfpack, s => s = .no ∨ s = .yesFull
  | _, s => s = .no ∨ s = .yesLower

/-- the solver is part of the build -/
def Available (cud loc : Bool) : Genie → Prop
  | .Cudss => cud = true
  | .Mumps => loc = true
  | .Umfpack => True

omit [CommSemiring α] in
theorem vecOf_cases {b : Backend α A E M V P} {lib : Lib M V P α} (L : Laws b) (env : E) (x : List α) {a : A} (rhs : List α) (params : Option P) (ha : L.wf a) :
    (((b.coo a).nrow ≠ (b.coo a).ncol ∨ (b.coo a).nnz < 1 ∨ b.rejects (b.coo a).symmetric ≠ none ∨ x.length ≠ (b.coo a).nrow ∨ rhs.length ≠ (b.coo a).nrow) →
      ∃ msg, vecOf (Front.compute b lib env x a rhs params) = .err x msg) ∧
    ((b.coo a).nrow = (b.coo a).ncol → 1 ≤ (b.coo a).nnz → b.rejects (b.coo a).symmetric = none → x.length = (b.coo a).nrow → rhs.length = (b.coo a).nrow →
      b.parErr (params.getD b.dflt) = none → (∀ h c, (lib h c).1 = 0) → ∃ y, vecOf (Front.compute b lib env x a rhs params) = .ok y) ∧
    vecOf (Front.compute b lib env x a rhs params) ≠ .panic := by
  by_cases hu : (b.coo a).nrow ≠ (b.coo a).ncol ∨ (b.coo a).nnz < 1 ∨ b.rejects (b.coo a).symmetric ≠ none
  · obtain ⟨msg, e⟩ := compute_unsuitable (b := b) (lib := lib) env x a rhs params hu
    refine ⟨fun _ => ⟨msg, by rw [e]; rfl⟩, fun h1 h2 h3 => ?_, by rw [e]; simp [vecOf]⟩
    rcases hu with h | h | h
    · exact absurd h1 h
    · omega
    · exact absurd h3 h
  · push Not at hu
    obtain ⟨h1, h2, h3⟩ := hu
    obtain ⟨m, e, -, g2, -⟩ := L.create a ha h1 h2 h3
    obtain ⟨f1, f2⟩ := L.fits a ha
    rcases compute_run (lib := lib) env x rhs params e h1 h2 h3 f1 f2 with ⟨s', msg, kp, -, k⟩ | ⟨kp, ⟨s', st, hst, q, -, k⟩ | ⟨s', st, hst, q, -, k⟩ | ⟨s', msg, q, k⟩ | ⟨s', st, y', q1, q2, k1, k2, k⟩⟩
    · exact ⟨fun _ => ⟨msg, by rw [k]; rfl⟩, fun _ _ _ _ _ h => (by rw [kp] at h; cases h), by rw [k]; simp [vecOf]⟩
    · exact ⟨fun _ => ⟨_, by rw [k]; rfl⟩, fun _ _ _ _ _ _ h => absurd (q.symm.trans (h _ _)) hst, by rw [k]; simp [vecOf]⟩
    · exact ⟨fun _ => ⟨_, by rw [k]; rfl⟩, fun _ _ _ _ _ _ h => absurd (q.symm.trans (h _ _)) hst, by rw [k]; simp [vecOf]⟩
    · refine ⟨fun _ => ⟨msg, by rw [k]; rfl⟩, fun _ _ _ p1 p2 => ?_, by rw [k]; simp [vecOf]⟩
      rcases q with q | q
      · exact absurd p1 q
      · exact absurd p2 q
    · refine ⟨fun h => ?_, fun _ _ _ _ _ _ h => ?_, ?_⟩
      · rcases h with h | h | h | h | h
        · exact absurd h1 h
        · omega
        · exact absurd h3 h
        · exact absurd q1 h
        · exact absurd q2 h
      · have h0 := h [⟨.init (params.getD b.dflt) m, 0⟩, ⟨.factorize (params.getD b.dflt) m (b.view env m), 0⟩] (.solve m rhs)
        rw [k1] at h0
        dsimp only at h0
        subst h0
        exact ⟨y', by rw [k]; simp [vecOf]⟩
      · rw [k]
        by_cases hst : st = 0 <;> simp [vecOf, hst]

/-- C121: `compute` never panics. A solver that is not part of the build, a rectangular or empty matrix, a storage that the solver does not accept and
vectors of wrong sizes give an error, and `x` keeps its value. In all other cases the system is solved if the library and the check of the parameters
do not fail -/
theorem C121_compute_outcome (cud loc : Bool) (L : Libs α P) (hd : L.parErr L.dflt = none) (mem : Mem α) (genie : Genie) (x rhs : List α)
    (a : CooAt α) (ha : Fits a.coo) (params : Option P) :
    linSolverCompute cud loc L mem genie x a rhs params ≠ .panic ∧
    (¬ Available cud loc genie ∨ a.coo.nrow ≠ a.coo.ncol ∨ a.coo.nnz < 1 ∨ ¬ Suits genie a.coo.symmetric ∨ x.length ≠ a.coo.nrow ∨ rhs.length ≠ a.coo.nrow →
      ∃ msg, linSolverCompute cud loc L mem genie x a rhs params = .err x msg) ∧
    (Available cud loc genie → a.coo.nrow = a.coo.ncol → 1 ≤ a.coo.nnz → Suits genie a.coo.symmetric → x.length = a.coo.nrow → rhs.length = a.coo.nrow →
      (genie = .Cudss → L.parErr (params.getD L.dflt) = none) → (∀ h c, (L.cud h c).1 = 0) → (∀ h c, (L.mum h c).1 = 0) → (∀ h c, (L.umf h c).1 = 0) →
      ∃ y, linSolverCompute cud loc L mem genie x a rhs params = .ok y) := by
  cases genie with
  | Cudss =>
    obtain ⟨r1, r2, r3⟩ := vecOf_cases (lib := L.cud) (cudssLaws P L.dflt L.parErr L.cudMsg hd) () x (a := a.coo) rhs params ha
    have hs : (cudss P L.dflt L.parErr L.cudMsg : Backend α _ _ _ _ _).rejects a.coo.symmetric = none ↔ Suits .Cudss a.coo.symmetric := by
      unfold Suits cudss
      cases a.coo.symmetric <;> simp
    cases cud with
    | false => simp [linSolverCompute, Available]
    | true =>
      simp only [linSolverCompute, if_true, Available, not_true, false_or, ← hs]
      exact ⟨r3, r1, fun _ q1 q2 q3 q4 q5 q6 q7 _ _ => r2 q1 q2 q3 q4 q5 (q6 trivial) q7⟩
  | Mumps =>
    obtain ⟨r1, r2, r3⟩ := vecOf_cases (lib := L.mum) (mumpsLaws P L.dflt L.mumMsg) mem x (a := a) rhs params ha
    have hs : (mumps P L.dflt L.mumMsg : Backend α _ _ _ _ _).rejects a.coo.symmetric = none ↔ Suits .Mumps a.coo.symmetric := by
      unfold Suits mumps
      cases a.coo.symmetric <;> simp
    cases loc with
    | false => simp [linSolverCompute, Available]
    | true =>
      simp only [linSolverCompute, if_true, Available, not_true, false_or, ← hs]
      exact ⟨r3, r1, fun _ q1 q2 q3 q4 q5 _ _ q7 _ => r2 q1 q2 q3 q4 q5 rfl q7⟩
  | Umfpack =>
    obtain ⟨r1, r2, r3⟩ := vecOf_cases (lib := L.umf) (umfpackLaws P L.dflt L.umfMsg) () x (a := a.coo) rhs params ha
    have hs : (umfpack P L.dflt L.umfMsg : Backend α _ _ _ _ _).rejects a.coo.symmetric = none ↔ Suits .Umfpack a.coo.symmetric := by
      unfold Suits umfpack
      cases a.coo.symmetric <;> simp
    simp only [linSolverCompute, Available, not_true, false_or, ← hs]
    exact ⟨r3, r1, fun _ q1 q2 q3 q4 q5 _ _ _ q7 => r2 q1 q2 q3 q4 q5 rfl q7⟩

end

/-- C121: the messages for solvers that are not part of the build -/
theorem C121_not_available [Zero α] [Add α] (b : Bool) (L : Libs α P) (mem : Mem α) (x rhs : List α) (a : CooAt α) (params : Option P) :
    linSolverCompute false b L mem .Cudss x a rhs params = .err x "cuDSS solver is not available" ∧
    linSolverCompute b false L mem .Mumps x a rhs params = .err x "MUMPS solver is not available" := ⟨rfl, rfl⟩

/-! ## An ideal library

A library that solves every system that has a solution satisfies the hypotheses of `C121_compute_solves`; with it `compute` solves every such system. -/

/-- the library is successful if there is a vector with the property required -/
noncomputable def ideal (Q : List (Event M V P α) → M → List α → List α → Prop) : Lib M V P α := fun h c =>
  open Classical in match c with
  | .solve m rhs => if H : ∃ y, Q h m rhs y then (0, H.choose) else (1, [])
  | _ => (0, [])

theorem ideal_sound {Q : List (Event M V P α) → M → List α → List α → Prop} {h : List (Event M V P α)} {m : M} {rhs y : List α}
    (e : ideal Q h (.solve m rhs) = (0, y)) : Q h m rhs y := by
  unfold ideal at e
  dsimp only at e
  split at e
  · rename_i H
    have := H.choose_spec
    rw [Prod.mk.injEq] at e
    rw [← e.2]
    exact this
  · exact absurd (congrArg Prod.fst e) (by simp)

theorem ideal_ok {Q : List (Event M V P α) → M → List α → List α → Prop} {h : List (Event M V P α)} {m : M} {rhs : List α}
    (e : ∃ y, Q h m rhs y) : (ideal Q h (.solve m rhs)).1 = 0 := by
  unfold ideal
  dsimp only
  rw [dif_pos e]

theorem compute_succeeds {Q : List (Event M V P α) → M → List α → List α → Prop} {b : Backend α A E M V P} (L : Laws b) (env : E) (x : List α) {a : A}
    (rhs : List α) (params : Option P) (ha : L.wf a) (h1 : (b.coo a).nrow = (b.coo a).ncol) (h2 : 1 ≤ (b.coo a).nnz) (h3 : b.rejects (b.coo a).symmetric = none)
    (hx : x.length = (b.coo a).nrow) (hr : rhs.length = (b.coo a).nrow) (hp : b.parErr (params.getD b.dflt) = none)
    (hs : ∀ m, L.den0 m a → ∃ y, Q [⟨.init (params.getD b.dflt) m, 0⟩, ⟨.factorize (params.getD b.dflt) m (b.view env m), 0⟩] m rhs y) :
    ∃ y, vecOf (Front.compute b (ideal Q) env x a rhs params) = .ok y := by
  obtain ⟨m, e, -, g2, -⟩ := L.create a ha h1 h2 h3
  obtain ⟨f1, f2⟩ := L.fits a ha
  rcases compute_run (lib := ideal Q) env x rhs params e h1 h2 h3 f1 f2 with ⟨s', msg, kp, -, k⟩ | ⟨kp, ⟨s', st, hst, q, -, k⟩ | ⟨s', st, hst, q, -, k⟩ | ⟨s', msg, q, k⟩ | ⟨s', st, y', q1, q2, k1, k2, k⟩⟩
  · rw [kp] at hp; cases hp
  · exact absurd q.symm hst
  · exact absurd q.symm hst
  · rcases q with q | q
    · exact absurd hx q
    · exact absurd hr q
  · have h0 := ideal_ok (hs m g2)
    rw [k1] at h0
    dsimp only at h0
    subst h0
    exact ⟨y', by rw [k]; simp [vecOf]⟩

section
variable [CommSemiring α]

/-- ideal UMFPACK -/
def umfQ (_ : List (Event (Csc α) (Csc α) P α)) (m : Csc α) (rhs y : List α) : Prop := ∀ d, m.asDense = ok d → SolvesDense d y rhs

/-- ideal cuDSS -/
def cudQ (h : List (Event (CudssMat α) (Csr α) P α)) (m : CudssMat α) (rhs y : List α) : Prop := ∀ par v,
  h = [⟨.init par m, 0⟩, ⟨.factorize par m v, 0⟩] → v.rowPointers = m.gpuRowPointers → v.colIndices = m.gpuColIndices →
  ∀ d, v.asDense = ok d → SolvesDense d y rhs

/-- ideal MUMPS -/
def mumQ (h : List (Event MumpsMat (MumpsView α) P α)) (m : MumpsMat) (rhs y : List α) : Prop := ∀ par v,
  h = [⟨.init par m, 0⟩, ⟨.factorize par m v, 0⟩] → v.irn = m.irn → v.jcn = m.jcn →
  ∀ (es : List (Entry α)) vals, m.irn = es.map (fun e => (e.1 : Int) + 1) → m.jcn = es.map (fun e => (e.2.1 : Int) + 1) → v.values = some vals →
  vals.take es.length = es.map (·.2.2) → (∀ e ∈ es, e.1 < m.ndim ∧ e.2.1 < m.ndim) →
  ∀ d, IsDense d m.ndim m.ndim (denseOf m.sym es) → SolvesDense d y rhs

omit [CommSemiring α] in
theorem entries_ext {es es' : List (Entry α)} (h1 : es.map (fun e => (e.1 : Int) + 1) = es'.map (fun e => (e.1 : Int) + 1))
    (h2 : es.map (fun e => (e.2.1 : Int) + 1) = es'.map (fun e => (e.2.1 : Int) + 1)) (h3 : es.map (·.2.2) = es'.map (·.2.2)) : es = es' := by
  induction es generalizing es' with
  | nil =>
    cases es' with
    | nil => rfl
    | cons _ _ => simp at h1
  | cons e es ih =>
    cases es' with
    | nil => simp at h1
    | cons e' es' =>
      simp only [List.map_cons, List.cons.injEq] at h1 h2 h3
      rw [ih h1.2 h2.2 h3.2]
      congr 1
      exact Prod.ext (by omega) (Prod.ext (by omega) h3.1)

theorem ideal_umf_sound : UmfpackSound (ideal (umfQ (P := P)) : Lib (Csc α) (Csc α) P α) := fun _ _ _ _ h => ideal_sound h

theorem ideal_cud_sound : CudssSound (ideal (cudQ (P := P)) : Lib (CudssMat α) (Csr α) P α) := fun par _ v _ _ h => ideal_sound h par v rfl

theorem ideal_mum_sound : MumpsSound (ideal (mumQ (P := P)) : Lib MumpsMat (MumpsView α) P α) := fun par _ v _ _ h => ideal_sound h par v rfl

/-- the ideal libraries -/
noncomputable def idealLibs (dflt : P) : Libs α P := ⟨ideal cudQ, ideal mumQ, ideal umfQ, dflt, fun _ => none, fun _ => "", fun _ => "", fun _ => ""⟩

theorem isDense_solves {d d' : NumMatrix α} {n : Nat} {f : Nat → Nat → α} (h : IsDense d n n f) (h' : IsDense d' n n f) {y rhs : List α}
    (hs : SolvesDense d y rhs) : SolvesDense d' y rhs := by
  obtain ⟨a1, a2, a3⟩ := hs
  obtain ⟨b1, b2, -, b4⟩ := h
  obtain ⟨c1, c2, -, c4⟩ := h'
  rw [b2] at a1
  rw [b1] at a2
  refine ⟨by rw [a1, c2], by rw [a2, c1], fun r hr => ?_⟩
  rw [c1] at hr
  obtain ⟨g, g1, g2⟩ := a3 r (by rw [b1]; exact hr)
  refine ⟨g, fun k hk => ?_, by rw [g2, b2, c2]⟩
  rw [c2] at hk
  rw [← g1 k (by rw [b2]; exact hk), b4 r k hr hk, c4 r k hr hk]

/-- C121: the hypotheses about the libraries can be met, and with libraries that solve all systems with a solution, `compute` solves every system with a
solution whose matrix is stored as the solver requires -/
theorem C121_ideal (cud loc : Bool) (dflt : P) (mem : Mem α) (genie : Genie) (hav : Available cud loc genie) (x rhs : List α) (a : CooAt α) (ha : Fits a.coo)
    (hmem : mem a.addr = some a.coo.values) (params : Option P) (h1 : a.coo.nrow = a.coo.ncol) (h2 : 1 ≤ a.coo.nnz) (h3 : Suits genie a.coo.symmetric)
    (hx : x.length = a.coo.nrow) (d : NumMatrix α) (hd : a.coo.asDense = ok d) (z : List α) (hz : SolvesDense d z rhs) (hr : rhs.length = a.coo.nrow) :
    ∃ y, linSolverCompute cud loc (idealLibs dflt) mem genie x a rhs params = .ok y ∧ SolvesDense d y rhs := by
  have key : ∃ y, linSolverCompute cud loc (idealLibs dflt) mem genie x a rhs params = .ok y := by
    cases genie with
    | Cudss =>
      simp only [Available] at hav
      simp only [linSolverCompute, hav, if_true]
      refine compute_succeeds (cudssLaws P dflt (fun _ => none) (fun _ => "") rfl) () x rhs params ha h1 h2 ?_ hx hr rfl ?_
      · unfold Suits at h3
        simp only [cudss, id]
        rcases h3 with h3 | h3 <;> rw [h3]
      · rintro m ⟨⟨⟨d', e1, e2⟩, -⟩, g1, g2⟩
        refine ⟨z, fun par v hh hv1 hv2 d'' hd'' => ?_⟩
        have hv : v = m.csr := by
          simp only [List.cons.injEq, Event.mk.injEq, LibCall.factorize.injEq] at hh
          rw [← hh.2.1.1.2.2]
          simp only [cudss, g1, g2]
        rw [hv, e1] at hd''
        cases hd''
        rw [hd] at e2
        cases e2
        exact hz
    | Mumps =>
      simp only [Available] at hav
      simp only [linSolverCompute, hav, if_true]
      refine compute_succeeds (mumpsLaws P dflt (fun _ => "")) mem x (a := a) rhs params ha h1 h2 ?_ hx hr rfl ?_
      · unfold Suits at h3
        simp only [mumps]
        rcases h3 with h3 | h3 <;> rw [h3]
      · intro m hm
        simp only [mumpsLaws] at hm
        subst hm
        refine ⟨z, fun par v hh hv1 hv2 es' vals e1 e2 e3 e4 e5 d' hd' => ?_⟩
        have hv : v.values = some a.coo.values := by
          simp only [List.cons.injEq, Event.mk.injEq, LibCall.factorize.injEq] at hh
          rw [← hh.2.1.1.2.2]
          exact hmem
        rw [hv] at e3
        cases e3
        obtain ⟨⟨es, hrp⟩, -, -⟩ := ha
        obtain ⟨d0, k1, k2⟩ := Coo.asDense_spec hrp
        rw [hd] at k1
        cases k1
        have t1 : oneBased a.coo.indicesI a.coo.nnz = es.map (fun e => (e.1 : Int) + 1) := by
          rw [hrp.nnz]; exact oneBased_rep (g := fun e => e.1) hrp.entI
        have t2 : oneBased a.coo.indicesJ a.coo.nnz = es.map (fun e => (e.2.1 : Int) + 1) := by
          rw [hrp.nnz]; exact oneBased_rep (g := fun e => e.2.1) hrp.entJ
        have t3 : a.coo.values.take es.length = es.map (·.2.2) := by
          apply List.ext_getElem?
          intro i
          rw [List.getElem?_map, List.getElem?_take]
          by_cases hi : i < es.length
          · rw [if_pos hi, hrp.entX i hi, List.getElem?_eq_getElem hi]
            rfl
          · rw [if_neg hi, List.getElem?_eq_none (by omega)]
            rfl
        have hlen : es.length = es'.length := by
          have := congrArg List.length (t1.symm.trans e1)
          simpa using this
        have hes : es = es' := entries_ext (t1.symm.trans e1) (t2.symm.trans e2) (by rw [← t3, ← e4, hlen])
        subst hes
        refine isDense_solves ?_ hd' hz
        have k3 := k2
        rw [← h1] at k3
        exact k3
    | Umfpack =>
      simp only [linSolverCompute]
      refine compute_succeeds (umfpackLaws P dflt (fun _ => "")) () x rhs params ha h1 h2 ?_ hx hr rfl ?_
      · unfold Suits at h3
        simp only [umfpack, id]
        rcases h3 with h3 | h3 <;> rw [h3]
      · rintro m ⟨⟨d', e1, e2⟩, -⟩
        refine ⟨z, fun d'' hd'' => ?_⟩
        rw [e1] at hd''
        cases hd''
        rw [hd] at e2
        cases e2
        exact hz
  obtain ⟨y, hy⟩ := key
  obtain ⟨d', e1, e2⟩ := C121_compute_solves cud loc (idealLibs dflt) ideal_cud_sound ideal_mum_sound ideal_umf_sound rfl mem genie x rhs a ha hmem params y hy
  rw [hd] at e1
  cases e1
  exact ⟨y, hy, e2⟩

end

/-! ## Instances -/

/-- a library that can solve systems with one unknown and the coefficient 2 -/
def exLib : Lib (Csc Int) (Csc Int) Unit Int := fun _ c => match c with
  | .solve m rhs => if m.asDense = ok ⟨1, 1, [2]⟩ ∧ rhs.length = 1 ∧ rhs.getD 0 0 % 2 = 0 then (0, [rhs.getD 0 0 / 2]) else (1, [])
  | _ => (0, [])

theorem exLib_sound : UmfpackSound exLib := by
  intro par m rhs y h d hd
  simp only [exLib] at h
  split at h
  · rename_i hc
    obtain ⟨h1, h2, h3⟩ := hc
    cases h
    rw [h1] at hd
    cases hd
    refine ⟨rfl, h2, fun r hr => ⟨fun _ => 2, ?_, ?_⟩⟩
    · intro k hk
      have : r = 0 := by simp only at hr; omega
      have : k = 0 := by simp only at hk; omega
      subst_vars
      rfl
    · have : r = 0 := by simp only at hr; omega
      subst this
      match rhs, h2 with
      | [v], _ =>
        simp only [List.getD_cons_zero] at h3
        simp only [List.getElem?_cons_zero, Finset.range_one, Finset.sum_singleton, List.getD_cons_zero]
        congr 1
        omega
  · cases h

example : ∃ y d, linSolverCompute false false ⟨fun _ _ => (1, []), fun _ _ => (1, []), exLib, (), fun _ => none, fun _ => "", fun _ => "", fun _ => ""⟩
    (fun _ => some [2]) .Umfpack [0] ⟨0, one 2⟩ [6] none = .ok y ∧ y = [3] ∧ (one 2).asDense = ok d ∧ SolvesDense d y [6] := by
  have h : linSolverCompute false false ⟨fun _ _ => (1, []), fun _ _ => (1, []), exLib, (), fun _ => none, fun _ => "", fun _ => "", fun _ => ""⟩
    (fun _ => some [2]) .Umfpack [0] ⟨0, one 2⟩ [6] none = .ok [3] := by decide +kernel
  obtain ⟨d, h1, h2⟩ := C121_compute_solves false false _ (by intro _ _ _ _ _ h; cases h) (by intro _ _ _ _ _ h; cases h) exLib_sound rfl _ _ _ _ _ (one_fits 2) rfl _ _ h
  exact ⟨_, d, h, rfl, h1, h2⟩

example : (linSolverCompute true false ⟨fun _ _ => (0, []), fun _ _ => (0, []), exLib, (), fun _ => none, fun _ => "", fun _ => "", fun _ => ""⟩
    (fun _ => some [2]) .Umfpack [7, 8] ⟨0, one 2⟩ [6] none ≠ .ok [3]) ∧
    ∃ msg, linSolverCompute true false ⟨fun _ _ => (0, []), fun _ _ => (0, []), exLib, (), fun _ => none, fun _ => "", fun _ => "", fun _ => ""⟩
      (fun _ => some [2]) .Umfpack [7, 8] ⟨0, one 2⟩ [6] none = .err [7, 8] msg := by
  have h := (C121_compute_outcome true false ⟨fun _ _ => (0, []), fun _ _ => (0, []), exLib, (), fun _ => none, fun _ => "", fun _ => "", fun _ => ""⟩ rfl
      (fun _ => some [2]) .Umfpack [7, 8] [6] ⟨0, one 2⟩ (one_fits 2) none).2.1 (Or.inr (Or.inr (Or.inr (Or.inr (Or.inl (by decide))))))
  obtain ⟨msg, e⟩ := h
  exact ⟨by rw [e]; simp, msg, e⟩

example : ∃ msg, linSolverCompute (α := Int) true false ⟨fun _ _ => (0, []), fun _ _ => (0, []), exLib, (), fun _ => none, fun _ => "", fun _ => "", fun _ => ""⟩
    (fun _ => none) .Mumps [7] ⟨0, one 2⟩ [6] none = .err [7] msg :=
  ⟨_, (C121_not_available true _ _ _ _ _ _).2⟩

end Solver

end Russell.Sparse
