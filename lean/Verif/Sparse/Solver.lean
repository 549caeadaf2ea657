import Verif.Sparse.ConvProps

/-!
# C18: the protocol of the sparse solver front-ends

The front-ends `SolverUMFPACK`, `SolverMUMPS` and `SolverCUDSS` have the same structure; they differ in the storage kinds
they accept, in what they keep of the matrix, and in what the C functions read when they are called. The model is generic
over a `Backend`; the three backends follow.

The external library is an arbitrary function of the calls made so far. Every call is recorded, with the status it
returned, in the ghost field `calls`.
-/

namespace Russell.Sparse

open Russell Russell.Res Russell.Lab

namespace Solver

/-- what the C functions of the interface receive: `solver_*_initialize`, `solver_*_factorize`, `solver_*_solve`.
`m` are the arrays or pointers held by the solver and `v` is what the library reads through them at the time of the call. -/
inductive LibCall (M V P α : Type) where
  | init (par : P) (m : M)
  | factorize (par : P) (m : M) (v : V)
  | solve (m : M) (rhs : List α)
deriving DecidableEq

/-- a call and the status returned -/
structure Event (M V P α : Type) where
  call : LibCall M V P α
  status : Int
deriving DecidableEq

/-- the library: status and solution vector, for every history of calls -/
abbrev Lib (M V P α : Type) := List (Event M V P α) → LibCall M V P α → Int × List α

/-- The differences among the front-ends.
* `coo` the matrix argument
* `rejects` the storage kind which is not accepted by the first factorization, with the message
* `create` what is kept at the first factorization
* `update` what is done at subsequent factorizations
* `view` the content read by the library when it factorizes; `E` is the content of the memory outside of the solver
* `parErr` check of the parameters
* `dflt` is `LinSolParams::new()` -/
structure Backend (α A E M V P : Type) where
  coo : A → Coo α
  rejects : Sym → Option String
  create : A → Res M
  update : M → A → MRes M
  view : E → M → V
  parErr : P → Option String
  dflt : P
  errMsg : Int → String

/-- fields of the solver struct; `calls` is ghost state -/
structure Front (M V P α : Type) where
  mat : Option M
  initialized : Bool
  factorized : Bool
  initSym : Sym
  initNdim : Nat
  initNnz : Nat
  calls : List (Event M V P α)
deriving DecidableEq

variable {α A E M V P : Type}

/-- `new` (/repo/russell_sparse/src/solver_umfpack.rs:188-212, solver_mumps.rs:170-199, solver_cudss.rs:155-178) -/
def Front.new : Front M V P α :=
  { mat := none, initialized := false, factorized := false, initSym := .no, initNdim := 0, initNnz := 0, calls := [] }

/-- a call to the library -/
def Front.call (lib : Lib M V P α) (s : Front M V P α) (c : LibCall M V P α) : Int × List α × Front M V P α :=
  let r := lib s.calls c
  (r.1, r.2, { s with calls := s.calls ++ [⟨c, r.1⟩] })

/-- first part of `factorize`: checks and conversion
(/repo/russell_sparse/src/solver_umfpack.rs:233-262, solver_mumps.rs:210-243, solver_cudss.rs:195-224) -/
def Front.convert (b : Backend α A E M V P) (s : Front M V P α) (a : A) (params : Option P) : MRes (Front M V P α) :=
  let mat := b.coo a
  if s.initialized then
    if mat.symmetric ≠ s.initSym then .err s "subsequent factorizations must use the same matrix (symmetric differs)"
    else if mat.nrow ≠ s.initNdim then .err s "subsequent factorizations must use the same matrix (ndim differs)"
    else if mat.nnz ≠ s.initNnz then .err s "subsequent factorizations must use the same matrix (nnz differs)"
    else if params.isSome then .err s "subsequent factorizations must not change LinSolParams"
    else match s.mat with
      | none => .panic
      | some m => match b.update m a with
        | .ok m' => .ok { s with mat := some m' }
        | .err m' msg => .err { s with mat := some m' } msg
        | .panic => .panic
  else if mat.nrow ≠ mat.ncol then .err s "the matrix must be square"
  else if mat.nnz < 1 then .err s "the COO matrix must have at least one non-zero value"
  else match b.rejects mat.symmetric with
    | some msg => .err s msg
    | none =>
      let s : Front M V P α := { s with initSym := mat.symmetric, initNdim := mat.nrow, initNnz := mat.nnz }
      match b.create a with
      | .ok m => .ok { s with mat := some m }
      | .err msg => .err s msg
      | .panic => .panic

/-- third part of `factorize`: the numeric factorization
(/repo/russell_sparse/src/solver_umfpack.rs:303-328, solver_mumps.rs:307-327, solver_cudss.rs:292-310) -/
def Front.numeric (b : Backend α A E M V P) (lib : Lib M V P α) (env : E) (s : Front M V P α) (m : M) (par : P) :
    MRes (Front M V P α) :=
  let r := s.call lib (.factorize par m (b.view env m))
  if r.1 ≠ 0 then .err r.2.2 (b.errMsg r.1)
  else .ok { r.2.2 with factorized := true }

/-- second part of `factorize`: parameters, and the symbolic factorization (once)
(/repo/russell_sparse/src/solver_umfpack.rs:262-301, solver_mumps.rs:245-305, solver_cudss.rs:225-290). The conversions of the numeric
parameters by `to_i32` other than the dimension and the number of entries are not modelled. -/
def Front.symbolic (b : Backend α A E M V P) (lib : Lib M V P α) (env : E) (s : Front M V P α) (m : M) (par : P) :
    MRes (Front M V P α) :=
  if s.initialized then s.numeric b lib env m par
  else
    let r := s.call lib (.init par m)
    if r.1 ≠ 0 then .err r.2.2 (b.errMsg r.1)
    else Front.numeric b lib env { r.2.2 with initialized := true } m par

/-- `factorize` (/repo/russell_sparse/src/solver_umfpack.rs:232-329, solver_mumps.rs:209-328, solver_cudss.rs:194-311) -/
def Front.factorize (b : Backend α A E M V P) (lib : Lib M V P α) (env : E) (s : Front M V P α) (a : A) (params : Option P) :
    MRes (Front M V P α) :=
  match s.convert b a params with
  | .panic => .panic
  | .err s msg => .err s msg
  | .ok s =>
    match s.mat with
    | none => .panic
    | some m =>
      let par := params.getD b.dflt
      match b.parErr par with
      | some msg => .err s msg
      | none =>
        match toI32 (b.coo a).nrow, toI32 (b.coo a).nnz with
        | .ok _, .ok _ => s.symbolic b lib env m par
        | _, _ => .panic

/-- `solve` (/repo/russell_sparse/src/solver_umfpack.rs:351-389, solver_mumps.rs:350-384, solver_cudss.rs:333-360). The state includes
the vector `x`. -/
def Front.solve (b : Backend α A E M V P) (lib : Lib M V P α) (s : Front M V P α) (x rhs : List α) :
    MRes (Front M V P α × List α) :=
  if !s.factorized then .err (s, x) "the function factorize must be called before solve"
  else match s.mat with
    | none => .panic
    | some m =>
      if x.length ≠ s.initNdim then .err (s, x) "the dimension of the vector of unknown values x is incorrect"
      else if rhs.length ≠ s.initNdim then .err (s, x) "the dimension of the right-hand side vector is incorrect"
      else
        let r := s.call lib (.solve m rhs)
        if r.1 ≠ 0 then .err (r.2.2, r.2.1) (b.errMsg r.1)
        else .ok (r.2.2, r.2.1)

/-! ## Call sequences -/

/-- a call by the user; `env` is the content of the memory at that time -/
inductive Op (A E P α : Type) where
  | factorize (env : E) (a : A) (params : Option P)
  | solve (x rhs : List α)

/-- the state after a call; errors are reported to the user, who may go on -/
def Front.step (b : Backend α A E M V P) (lib : Lib M V P α) (s : Front M V P α) : Op A E P α → Res (Front M V P α)
  | .factorize env a params => match s.factorize b lib env a params with
    | .ok s => ok s
    | .err s _ => ok s
    | .panic => Res.panic
  | .solve x rhs => match s.solve b lib x rhs with
    | .ok s => ok s.1
    | .err s _ => ok s.1
    | .panic => Res.panic

def Front.run (b : Backend α A E M V P) (lib : Lib M V P α) (s : Front M V P α) (ops : List (Op A E P α)) :
    Res (Front M V P α) :=
  forList ops s fun o s => s.step b lib o

/-! ## What a legal sequence of library calls is -/

def Event.isInit : Event M V P α → Prop
  | ⟨.init _ _, _⟩ => True
  | _ => False

def Event.isFact : Event M V P α → Prop
  | ⟨.factorize _ _ _, _⟩ => True
  | _ => False

/-- the matrix given to the last numeric factorization, successful or not -/
def lastFact (l : List (Event M V P α)) : Option M :=
  l.foldl (fun acc e => match e.call with
    | .factorize _ m _ => some m
    | _ => acc) none

/-- The library accepts one successful initialization, factorizations after it, and solutions after a successful
factorization, with the matrix of the last factorization. -/
def Allowed (pre : List (Event M V P α)) : LibCall M V P α → Prop
  | .init _ _ => ∀ e ∈ pre, e.isInit → e.status ≠ 0
  | .factorize _ _ _ => ∃ e ∈ pre, e.isInit ∧ e.status = 0
  | .solve m _ => (∃ e ∈ pre, e.isFact ∧ e.status = 0) ∧ lastFact pre = some m

def Legal (l : List (Event M V P α)) : Prop :=
  ∀ pre e post, l = pre ++ e :: post → Allowed pre e.call

theorem Legal.nil : Legal ([] : List (Event M V P α)) := by
  intro pre e post h
  simp at h

theorem Legal.snoc {l : List (Event M V P α)} {e : Event M V P α} (h : Legal l) (he : Allowed l e.call) :
    Legal (l ++ [e]) := by
  intro pre e' post h'
  rcases List.eq_nil_or_concat post with rfl | ⟨post', x, rfl⟩
  · obtain ⟨h1, h2⟩ := List.append_inj' h' rfl
    rw [← h1]
    simp only [List.cons.injEq, and_true] at h2
    rw [← h2]; exact he
  · refine h pre e' post' ?_
    rw [List.concat_eq_append, ← List.cons_append, ← List.append_assoc] at h'
    exact (List.append_inj' h' rfl).1

/-! ## The invariant -/

structure Inv (s : Front M V P α) : Prop where
  legal : Legal s.calls
  fi : s.factorized = true → s.initialized = true
  noInit : s.initialized = false → ∀ e ∈ s.calls, e.isInit → e.status ≠ 0
  hasInit : s.initialized = true → ∃ e ∈ s.calls, e.isInit ∧ e.status = 0
  fact : s.factorized = true ↔ ∃ e ∈ s.calls, e.isFact ∧ e.status = 0
  last : s.initialized = true → ∃ m, s.mat = some m ∧ lastFact s.calls = some m

theorem Inv.new : Inv (Front.new : Front M V P α) :=
  ⟨Legal.nil, by simp [Front.new], by simp [Front.new], by simp [Front.new], by simp [Front.new], by simp [Front.new]⟩

theorem lastFact_snoc (l : List (Event M V P α)) (e : Event M V P α) :
    lastFact (l ++ [e]) = match e.call with
      | .factorize _ m _ => some m
      | _ => lastFact l := by
  unfold lastFact
  rw [List.foldl_append]; rfl

theorem numeric_inv {b : Backend α A E M V P} {lib : Lib M V P α} {env : E} {s : Front M V P α} {m : M} {par : P}
    (hl : Legal s.calls) (hi : s.initialized = true) (hI : ∃ e ∈ s.calls, e.isInit ∧ e.status = 0)
    (hf : s.factorized = true ↔ ∃ e ∈ s.calls, e.isFact ∧ e.status = 0) (hm : s.mat = some m) :
    ∃ st s', ((s.numeric b lib env m par = .ok s' ∧ st = 0 ∧ s'.factorized = true) ∨
        (st ≠ 0 ∧ s.numeric b lib env m par = .err s' (b.errMsg st) ∧ s'.factorized = s.factorized)) ∧ Inv s' ∧
      s'.calls = s.calls ++ [⟨.factorize par m (b.view env m), st⟩] ∧ s'.initialized = true ∧ s'.mat = some m ∧
      s'.initSym = s.initSym ∧ s'.initNdim = s.initNdim ∧ s'.initNnz = s.initNnz := by
  have hL : ∀ st, Legal (s.calls ++ [⟨.factorize par m (b.view env m), st⟩]) := fun st => hl.snoc hI
  have hI' : ∀ ev : Event M V P α, ∃ e ∈ s.calls ++ [ev], e.isInit ∧ e.status = 0 := by
    intro ev
    obtain ⟨e, h1, h2⟩ := hI
    exact ⟨e, List.mem_append_left _ h1, h2⟩
  by_cases h : (lib s.calls (.factorize par m (b.view env m))).1 = 0
  · refine ⟨0, { s with calls := s.calls ++ [⟨.factorize par m (b.view env m), 0⟩], factorized := true },
      Or.inl ⟨?_, rfl, rfl⟩, ⟨hL 0, fun _ => hi, fun h' => ?_, fun _ => hI' _, ?_, fun _ => ⟨m, hm, ?_⟩⟩, rfl, hi, hm, rfl, rfl, rfl⟩
    · unfold Front.numeric Front.call
      simp [h]
    · simp [hi] at h'
    · simp only [true_iff]
      exact ⟨_, List.mem_append_right _ (List.mem_singleton.2 rfl), trivial, rfl⟩
    · simp only [lastFact_snoc]
  · refine ⟨_, { s with calls := s.calls ++ [⟨.factorize par m (b.view env m), _⟩] },
      Or.inr ⟨h, ?_, rfl⟩, ⟨hL _, fun _ => hi, fun h' => ?_, fun _ => hI' _, ?_, fun _ => ⟨m, hm, ?_⟩⟩, rfl, hi, hm, rfl, rfl, rfl⟩
    · unfold Front.numeric Front.call
      simp [h]
    · simp [hi] at h'
    · rw [hf]
      constructor
      · rintro ⟨e, h1, h2⟩
        exact ⟨e, List.mem_append_left _ h1, h2⟩
      · rintro ⟨e, h1, h2, h3⟩
        rcases List.mem_append.1 h1 with h1 | h1
        · exact ⟨e, h1, h2, h3⟩
        · rw [List.mem_singleton.1 h1] at h3
          exact absurd h3 h
    · simp only [lastFact_snoc]

/-! ## What is required of a backend -/

/-- `wf` matrices that may be passed, `good` what holds of the data kept, `den0 m a` how the data kept are
related to the first matrix, `den m a` to the matrix of a later factorization. -/
structure Laws (b : Backend α A E M V P) where
  wf : A → Prop
  good : M → Prop
  den0 : M → A → Prop
  den : M → A → Prop
  symOf : M → Sym
  ndimOf : M → Nat
  nnzOf : M → Nat
  fits : ∀ a, wf a → (b.coo a).nrow < 2147483648 ∧ (b.coo a).nnz < 2147483648
  dfltOk : b.parErr b.dflt = none
  create : ∀ a, wf a → (b.coo a).nrow = (b.coo a).ncol → 1 ≤ (b.coo a).nnz → b.rejects (b.coo a).symmetric = none →
    ∃ m, b.create a = ok m ∧ good m ∧ den0 m a ∧ symOf m = (b.coo a).symmetric ∧ ndimOf m = (b.coo a).nrow ∧
      nnzOf m = (b.coo a).nnz
  update : ∀ m a, good m → wf a → symOf m = (b.coo a).symmetric → ndimOf m = (b.coo a).nrow →
    nnzOf m = (b.coo a).nnz → (b.coo a).nrow = (b.coo a).ncol →
    ∃ m', b.update m a = .ok m' ∧ good m' ∧ den m' a ∧ symOf m' = symOf m ∧ ndimOf m' = ndimOf m ∧ nnzOf m' = nnzOf m
  /-- what the data of a later factorization have in common with those of the first -/
  kept : M → M → Prop
  keptRefl : ∀ m, kept m m
  keptUpdate : ∀ m0 m a m', kept m0 m → b.update m a = .ok m' → kept m0 m'
  /-- what is done with a matrix that is not square at subsequent factorizations -/
  updateRect : ∀ m a, good m → wf a → symOf m = (b.coo a).symmetric → ndimOf m = (b.coo a).nrow →
    nnzOf m = (b.coo a).nnz → (b.coo a).nrow ≠ (b.coo a).ncol → (∃ msg, b.update m a = .err m msg) ∨ b.update m a = .ok m

/-- the invariant relating the fields to the data kept -/
structure Inv2 {b : Backend α A E M V P} (L : Laws b) (s : Front M V P α) : Prop extends Inv s where
  good : s.initialized = true → ∀ m, s.mat = some m →
    L.good m ∧ L.symOf m = s.initSym ∧ L.ndimOf m = s.initNdim ∧ L.nnzOf m = s.initNnz
  first : ∀ par m, ⟨.init par m, 0⟩ ∈ s.calls → s.initialized = true ∧
    (L.symOf m = s.initSym ∧ L.ndimOf m = s.initNdim ∧ L.nnzOf m = s.initNnz) ∧ ∀ m', s.mat = some m' → L.kept m m'

variable {b : Backend α A E M V P} {lib : Lib M V P α}

theorem Inv2.new (L : Laws b) : Inv2 L (Front.new : Front M V P α) :=
  { Inv.new with
    good := by simp [Front.new]
    first := by simp [Front.new] }

/-- a call whose structure differs is rejected -/
theorem factorize_mismatch (env : E) (s : Front M V P α) (a : A) (params : Option P) (hi : s.initialized = true)
    (h : (b.coo a).symmetric ≠ s.initSym ∨ (b.coo a).nrow ≠ s.initNdim ∨ (b.coo a).nnz ≠ s.initNnz ∨ params.isSome = true) :
    ∃ msg, s.factorize b lib env a params = .err s msg := by
  have : ∃ msg, s.convert b a params = .err s msg := by
    unfold Front.convert
    dsimp only
    rw [if_pos hi]
    split_ifs with h1 h2 h3 h4
    · exact ⟨_, rfl⟩
    · exact ⟨_, rfl⟩
    · exact ⟨_, rfl⟩
    · exact ⟨_, rfl⟩
    · tauto
  obtain ⟨msg, h⟩ := this
  exact ⟨msg, by unfold Front.factorize; rw [h]⟩

/-- an unsuitable matrix is rejected by the first factorization -/
theorem factorize_unsuitable (env : E) (s : Front M V P α) (a : A) (params : Option P) (hi : s.initialized = false)
    (h : (b.coo a).nrow ≠ (b.coo a).ncol ∨ (b.coo a).nnz < 1 ∨ b.rejects (b.coo a).symmetric ≠ none) :
    ∃ msg, s.factorize b lib env a params = .err s msg := by
  have : ∃ msg, s.convert b a params = .err s msg := by
    unfold Front.convert
    dsimp only
    rw [if_neg (by simp [hi])]
    split_ifs with h1 h2
    · exact ⟨_, rfl⟩
    · exact ⟨_, rfl⟩
    · cases hr : b.rejects (b.coo a).symmetric with
      | some msg => exact ⟨msg, rfl⟩
      | none => tauto
  obtain ⟨msg, h⟩ := this
  exact ⟨msg, by unfold Front.factorize; rw [h]⟩

theorem solve_early (s : Front M V P α) (x rhs : List α) (h : s.factorized = false) :
    ∃ msg, s.solve b lib x rhs = .err (s, x) msg := by
  unfold Front.solve
  rw [if_pos (by simp [h])]
  exact ⟨_, rfl⟩

theorem solve_sizes {s : Front M V P α} (hs : Inv s) (x rhs : List α)
    (h : x.length ≠ s.initNdim ∨ rhs.length ≠ s.initNdim) : ∃ msg, s.solve b lib x rhs = .err (s, x) msg := by
  by_cases hf : s.factorized = true
  · obtain ⟨m, hm, -⟩ := hs.last (hs.fi hf)
    unfold Front.solve
    rw [if_neg (by simp [hf]), hm]
    dsimp only
    split_ifs with h1 h2
    · exact ⟨_, rfl⟩
    · exact ⟨_, rfl⟩
    · tauto
    · tauto
  · exact solve_early s x rhs (by simpa using hf)

/-- a legal call to `solve` makes one call to the library -/
theorem solve_spec {L : Laws b} {s : Front M V P α} (hs : Inv2 L s) (x rhs : List α) (hf : s.factorized = true)
    (hx : x.length = s.initNdim) (hr : rhs.length = s.initNdim) :
    ∃ m st y s', s.mat = some m ∧ lib s.calls (.solve m rhs) = (st, y) ∧
      s'.calls = s.calls ++ [⟨.solve m rhs, st⟩] ∧ Inv2 L s' ∧ s'.initialized = s.initialized ∧
      s'.factorized = s.factorized ∧ s'.mat = s.mat ∧
      s.solve b lib x rhs = if st ≠ 0 then .err (s', y) (b.errMsg st) else .ok (s', y) := by
  obtain ⟨m, hm, hl⟩ := hs.last (hs.fi hf)
  have hA : Allowed s.calls (.solve m rhs : LibCall M V P α) := ⟨hs.fact.1 hf, hl⟩
  refine ⟨m, (lib s.calls (.solve m rhs)).1, (lib s.calls (.solve m rhs)).2,
    { s with calls := s.calls ++ [⟨.solve m rhs, (lib s.calls (.solve m rhs)).1⟩] }, hm, rfl, rfl, ?_, rfl, rfl, rfl, ?_⟩
  · have hI : ∀ Q : Event M V P α → Prop, (¬ Q ⟨.solve m rhs, (lib s.calls (.solve m rhs)).1⟩) →
        ((∃ e ∈ s.calls ++ [⟨.solve m rhs, (lib s.calls (.solve m rhs)).1⟩], Q e) ↔ ∃ e ∈ s.calls, Q e) := by
      intro Q hQ
      constructor
      · rintro ⟨e, h1, h2⟩
        rcases List.mem_append.1 h1 with h1 | h1
        · exact ⟨e, h1, h2⟩
        · rw [List.mem_singleton.1 h1] at h2; exact absurd h2 hQ
      · rintro ⟨e, h1, h2⟩
        exact ⟨e, List.mem_append_left _ h1, h2⟩
    refine { legal := hs.legal.snoc hA, fi := hs.fi, noInit := ?_, hasInit := ?_, fact := ?_, last := ?_, good := hs.good, first := ?_ }
    · intro h'
      exact absurd (hs.fi hf) (by simp [show s.initialized = false from h'])
    · intro h'
      exact (hI (fun e => e.isInit ∧ e.status = 0) (fun h => h.1)).2 (hs.hasInit h')
    · exact hs.fact.trans (hI (fun e => e.isFact ∧ e.status = 0) (fun h => h.1)).symm
    · intro h'
      refine ⟨m, hm, ?_⟩
      rw [lastFact_snoc]; exact hl
    · intro par m' h'
      rcases List.mem_append.1 h' with h' | h'
      · exact hs.first par m' h'
      · simp at h'
  · unfold Front.solve Front.call
    rw [if_neg (by simp [hf]), hm]
    dsimp only
    rw [if_neg (not_not.2 hx), if_neg (not_not.2 hr)]

theorem toI32_fits {n : Nat} (h : n < 2147483648) : ∃ i, toI32 n = ok i := ⟨_, toI32_lt h⟩

/-- a numeric factorization keeps the invariant -/
theorem numeric_inv2 {L : Laws b} {env : E} {s : Front M V P α} {m : M} {par : P}
    (hl : Legal s.calls) (hi : s.initialized = true) (hI : ∃ e ∈ s.calls, e.isInit ∧ e.status = 0)
    (hf : s.factorized = true ↔ ∃ e ∈ s.calls, e.isFact ∧ e.status = 0) (hm : s.mat = some m)
    (hg : L.good m ∧ L.symOf m = s.initSym ∧ L.ndimOf m = s.initNdim ∧ L.nnzOf m = s.initNnz)
    (hfirst : ∀ par m0, ⟨.init par m0, 0⟩ ∈ s.calls →
      (L.symOf m0 = s.initSym ∧ L.ndimOf m0 = s.initNdim ∧ L.nnzOf m0 = s.initNnz) ∧ L.kept m0 m) :
    ∃ st s', ((s.numeric b lib env m par = .ok s' ∧ st = 0 ∧ s'.factorized = true) ∨
        (st ≠ 0 ∧ s.numeric b lib env m par = .err s' (b.errMsg st))) ∧ Inv2 L s' ∧
      s'.calls = s.calls ++ [⟨.factorize par m (b.view env m), st⟩] ∧ s'.initialized = true := by
  obtain ⟨st, s', h1, h2, h3, h4, h5, h6, h7, h8⟩ := numeric_inv (b := b) (lib := lib) (env := env) (par := par) hl hi hI hf hm
  refine ⟨st, s', ?_, { h2 with good := ?_, first := ?_ }, h3, h4⟩
  · rcases h1 with h1 | ⟨a, b, -⟩
    · exact Or.inl h1
    · exact Or.inr ⟨a, b⟩
  · intro _ m' hm'
    rw [h5] at hm'
    cases hm'
    rw [h6, h7, h8]; exact hg
  · intro par' m' h'
    rw [h3] at h'
    rcases List.mem_append.1 h' with h' | h'
    · rw [h6, h7, h8, h5]
      exact ⟨h4, (hfirst par' m' h').1, fun m'' e => by cases e; exact (hfirst par' m' h').2⟩
    · simp at h'

/-- the calls made by an accepted factorization -/
def factCalls (b : Backend α A E M V P) (env : E) (initialized : Bool) (par : P) (m : M) (st : Int) : List (Event M V P α) :=
  if initialized then [⟨.factorize par m (b.view env m), st⟩]
  else [⟨.init par m, 0⟩, ⟨.factorize par m (b.view env m), st⟩]

/-- A suitable matrix reaches the library. Either the initialization fails, and nothing else happens, or the numeric
factorization is called; the call succeeds if and only if the library does. -/
theorem symbolic_spec {L : Laws b} {env : E} {s : Front M V P α} {m : M} {par : P}
    (hl : Legal s.calls) (hI : s.initialized = true → ∃ e ∈ s.calls, e.isInit ∧ e.status = 0)
    (hN : s.initialized = false → ∀ e ∈ s.calls, e.isInit → e.status ≠ 0)
    (hfi : s.factorized = true → s.initialized = true)
    (hf : s.factorized = true ↔ ∃ e ∈ s.calls, e.isFact ∧ e.status = 0) (hm : s.mat = some m)
    (hg : L.good m ∧ L.symOf m = s.initSym ∧ L.ndimOf m = s.initNdim ∧ L.nnzOf m = s.initNnz)
    (hfirst : ∀ par m0, ⟨.init par m0, 0⟩ ∈ s.calls →
      (L.symOf m0 = s.initSym ∧ L.ndimOf m0 = s.initNdim ∧ L.nnzOf m0 = s.initNnz) ∧ L.kept m0 m) :
    ∃ st s', Inv2 L s' ∧
      ((s.initialized = false ∧ st ≠ 0 ∧ s'.calls = s.calls ++ [⟨.init par m, st⟩] ∧
          s.symbolic b lib env m par = .err s' (b.errMsg st)) ∨
       (s'.calls = s.calls ++ factCalls b env s.initialized par m st ∧ s'.initialized = true ∧
          ((st = 0 ∧ s.symbolic b lib env m par = .ok s' ∧ s'.factorized = true) ∨
           (st ≠ 0 ∧ s.symbolic b lib env m par = .err s' (b.errMsg st))))) := by
  unfold Front.symbolic
  by_cases hi : s.initialized = true
  · rw [if_pos hi]
    obtain ⟨st, s', h1, h2, h3, h4⟩ := numeric_inv2 (b := b) (lib := lib) (env := env) (par := par) (L := L) hl hi (hI hi) hf hm hg hfirst
    refine ⟨st, s', h2, Or.inr ⟨?_, h4, ?_⟩⟩
    · rw [h3, factCalls, if_pos hi]
    · tauto
  · rw [if_neg hi]
    have hi' : s.initialized = false := by simpa using hi
    have hff : s.factorized = false := by
      cases h : s.factorized with
      | true => exact absurd (hfi h) hi
      | false => rfl
    have hA : Allowed s.calls (.init par m : LibCall M V P α) := hN hi'
    have hnof : ∀ ev : Event M V P α, ¬ ev.isFact → ¬ ∃ e ∈ s.calls ++ [ev], e.isFact ∧ e.status = 0 := by
      rintro ev hev ⟨e, h1, h2⟩
      rcases List.mem_append.1 h1 with h1 | h1
      · exact absurd (hf.2 ⟨e, h1, h2⟩) (by simp [hff])
      · rw [List.mem_singleton.1 h1] at h2; exact hev h2.1
    by_cases h0 : (lib s.calls (.init par m)).1 = 0
    · obtain ⟨st, s', h1, h2, h3, h4⟩ := numeric_inv2 (b := b) (lib := lib) (env := env) (par := par) (L := L) (m := m)
        (s := { s with calls := s.calls ++ [⟨.init par m, 0⟩], initialized := true })
        (hl.snoc hA) rfl ⟨_, List.mem_append_right _ (List.mem_singleton.2 rfl), trivial, rfl⟩
        ⟨fun h => absurd h (by simp [hff]), fun h => absurd h (hnof _ id)⟩ hm hg (by
          intro par' m' h'
          rcases List.mem_append.1 h' with h' | h'
          · exact hfirst par' m' h'
          · rw [List.mem_singleton, Event.mk.injEq, LibCall.init.injEq] at h'
            rw [h'.1.2]; exact ⟨hg.2, L.keptRefl m⟩)
      refine ⟨st, s', h2, Or.inr ⟨?_, h4, ?_⟩⟩
      · rw [h3, factCalls, if_neg hi]; simp
      · unfold Front.call
        dsimp only
        rw [h0, if_neg (by simp)]
        tauto
    · refine ⟨(lib s.calls (.init par m)).1, { s with calls := s.calls ++ [⟨.init par m, (lib s.calls (.init par m)).1⟩] }, ?_,
        Or.inl ⟨hi', h0, rfl, ?_⟩⟩
      · refine { legal := hl.snoc hA, fi := hfi, noInit := ?_, hasInit := fun h => absurd h hi, fact := ?_, last := fun h => absurd h hi,
                 good := fun h => absurd h hi, first := ?_ }
        · intro _ e he hin
          rcases List.mem_append.1 he with he | he
          · exact hN hi' e he hin
          · rw [List.mem_singleton.1 he]; exact h0
        · exact ⟨fun h => absurd h (by simp [hff]), fun h => absurd h (hnof _ id)⟩
        · intro par' m' h'
          rcases List.mem_append.1 h' with h' | h'
          · exact absurd rfl (hN hi' _ h' trivial)
          · rw [List.mem_singleton, Event.mk.injEq] at h'
            exact absurd h'.2.symm h0
      · unfold Front.call
        dsimp only
        rw [if_pos h0]

/-- the outcome of `factorize` with a matrix that passes the checks of the first factorization -/
theorem factorize_first {L : Laws b} {env : E} {s : Front M V P α} (hs : Inv2 L s) {a : A} (ha : L.wf a) (params : Option P)
    (hi : s.initialized = false) (h1 : (b.coo a).nrow = (b.coo a).ncol) (h2 : 1 ≤ (b.coo a).nnz)
    (h3 : b.rejects (b.coo a).symmetric = none) (h4 : b.parErr (params.getD b.dflt) = none) :
    ∃ m st s', L.den0 m a ∧ Inv2 L s' ∧
      ((st ≠ 0 ∧ s'.calls = s.calls ++ [⟨.init (params.getD b.dflt) m, st⟩] ∧
          s.factorize b lib env a params = .err s' (b.errMsg st)) ∨
       (s'.calls = s.calls ++ factCalls b env false (params.getD b.dflt) m st ∧ s'.initialized = true ∧
          ((st = 0 ∧ s.factorize b lib env a params = .ok s' ∧ s'.factorized = true) ∨
           (st ≠ 0 ∧ s.factorize b lib env a params = .err s' (b.errMsg st))))) := by
  obtain ⟨m, e, g1, g2, g3, g4, g5⟩ := L.create a ha h1 h2 h3
  obtain ⟨f1, f2⟩ := L.fits a ha
  obtain ⟨i, e1⟩ := toI32_fits f1
  obtain ⟨j, e2⟩ := toI32_fits f2
  have hc : s.convert b a params = .ok { s with initSym := (b.coo a).symmetric, initNdim := (b.coo a).nrow, initNnz := (b.coo a).nnz, mat := some m } := by
    unfold Front.convert
    dsimp only
    rw [if_neg (by simp [hi]), if_neg (not_not.2 h1), if_neg (by omega), h3]
    dsimp only
    rw [e]
  obtain ⟨st, s', k1, k2⟩ := symbolic_spec (b := b) (lib := lib) (env := env) (L := L) (par := params.getD b.dflt) (m := m)
    (s := { s with initSym := (b.coo a).symmetric, initNdim := (b.coo a).nrow, initNnz := (b.coo a).nnz, mat := some m })
    hs.legal hs.hasInit hs.noInit hs.fi hs.fact rfl ⟨g1, g3, g4, g5⟩ (by
      intro par' m' h'
      exact absurd rfl (hs.noInit hi _ h' trivial))
  have hF : s.factorize b lib env a params = Front.symbolic b lib env { s with initSym := (b.coo a).symmetric, initNdim := (b.coo a).nrow, initNnz := (b.coo a).nnz, mat := some m } m (params.getD b.dflt) := by
    unfold Front.factorize
    rw [hc]
    dsimp only
    rw [h4]
    dsimp only
    rw [e1, e2]
  refine ⟨m, st, s', g2, k1, ?_⟩
  rw [hF]
  rcases k2 with ⟨-, k⟩ | k
  · exact Or.inl k
  · refine Or.inr ?_
    rw [← hi]; exact k

/-- the outcome of `factorize` with a matrix that passes the checks of the subsequent factorizations -/
theorem factorize_again {env : E} {L : Laws b} {s : Front M V P α} (hs : Inv2 L s) {a : A} (ha : L.wf a)
    (hi : s.initialized = true) (h1 : (b.coo a).symmetric = s.initSym) (h2 : (b.coo a).nrow = s.initNdim)
    (h3 : (b.coo a).nnz = s.initNnz) {m m' : M} (hm : s.mat = some m) (hu : b.update m a = .ok m')
    (hg : L.good m' ∧ L.symOf m' = L.symOf m ∧ L.ndimOf m' = L.ndimOf m ∧ L.nnzOf m' = L.nnzOf m) :
    ∃ st s', Inv2 L s' ∧ s'.calls = s.calls ++ factCalls b env true b.dflt m' st ∧ s'.initialized = true ∧
      ((st = 0 ∧ s.factorize b lib env a none = .ok s' ∧ s'.factorized = true) ∨
       (st ≠ 0 ∧ s.factorize b lib env a none = .err s' (b.errMsg st))) := by
  obtain ⟨f1, f2⟩ := L.fits a ha
  obtain ⟨i, e1⟩ := toI32_fits f1
  obtain ⟨j, e2⟩ := toI32_fits f2
  obtain ⟨g1, g2, g3, g4⟩ := hs.good hi m hm
  have hc : s.convert b a none = .ok { s with mat := some m' } := by
    unfold Front.convert
    dsimp only
    rw [if_pos hi, if_neg (not_not.2 h1), if_neg (not_not.2 h2), if_neg (not_not.2 h3), if_neg (by simp), hm]
    dsimp only
    rw [hu]
  obtain ⟨st, s', k1, k2⟩ := symbolic_spec (b := b) (lib := lib) (env := env) (L := L) (par := b.dflt) (m := m')
    (s := { s with mat := some m' })
    hs.legal hs.hasInit hs.noInit hs.fi hs.fact rfl ⟨hg.1, by rw [hg.2.1, g2], by rw [hg.2.2.1, g3], by rw [hg.2.2.2, g4]⟩
      (fun par' m0 h' => ⟨(hs.first par' m0 h').2.1, L.keptUpdate m0 m a m' ((hs.first par' m0 h').2.2 m hm) hu⟩)
  have hF : s.factorize b lib env a none = Front.symbolic b lib env { s with mat := some m' } m' b.dflt := by
    unfold Front.factorize
    rw [hc]
    dsimp only
    rw [Option.getD_none, L.dfltOk]
    dsimp only
    rw [e1, e2]
  refine ⟨st, s', k1, ?_⟩
  rw [hF]
  rcases k2 with ⟨k, -⟩ | k
  · exact absurd hi (by simp [show s.initialized = false from k])
  · obtain ⟨c1, c2, c3⟩ := k
    refine ⟨?_, c2, c3⟩
    rw [c1]
    show s.calls ++ factCalls b env s.initialized _ _ _ = _
    rw [hi]

/-- every call of `factorize` keeps the invariant -/
theorem factorize_inv {env : E} {L : Laws b} {s : Front M V P α} (hs : Inv2 L s) {a : A} (ha : L.wf a) (params : Option P) :
    ∃ s', Inv2 L s' ∧ (s.factorize b lib env a params = .ok s' ∨ ∃ msg, s.factorize b lib env a params = .err s' msg) := by
  by_cases hi : s.initialized = true
  · by_cases hx : (b.coo a).symmetric ≠ s.initSym ∨ (b.coo a).nrow ≠ s.initNdim ∨ (b.coo a).nnz ≠ s.initNnz ∨ params.isSome = true
    · exact ⟨s, hs, Or.inr (factorize_mismatch env s a params hi hx)⟩
    · push Not at hx
      obtain ⟨h1, h2, h3, h4⟩ := hx
      have hp : params = none := by
        cases params with
        | none => rfl
        | some p => simp at h4
      subst hp
      obtain ⟨m, hm, -⟩ := hs.last hi
      obtain ⟨g1, g2, g3, g4⟩ := hs.good hi m hm
      have fin : ∀ m', b.update m a = .ok m' → (L.good m' ∧ L.symOf m' = L.symOf m ∧ L.ndimOf m' = L.ndimOf m ∧ L.nnzOf m' = L.nnzOf m) →
          ∃ s', Inv2 L s' ∧ (s.factorize b lib env a none = .ok s' ∨ ∃ msg, s.factorize b lib env a none = .err s' msg) := by
        intro m' hu hg
        obtain ⟨st, s', k1, -, -, k2⟩ := factorize_again (lib := lib) (env := env) hs ha hi h1 h2 h3 hm hu hg
        refine ⟨s', k1, ?_⟩
        rcases k2 with ⟨-, k, -⟩ | ⟨-, k⟩
        · exact Or.inl k
        · exact Or.inr ⟨_, k⟩
      by_cases hsq : (b.coo a).nrow = (b.coo a).ncol
      · obtain ⟨m', hu, k1, -, k2⟩ := L.update m a g1 ha (by rw [g2, h1]) (by rw [g3, h2]) (by rw [g4, h3]) hsq
        exact fin m' hu ⟨k1, k2⟩
      · rcases L.updateRect m a g1 ha (by rw [g2, h1]) (by rw [g3, h2]) (by rw [g4, h3]) hsq with ⟨msg, hu⟩ | hu
        · refine ⟨s, hs, Or.inr ⟨msg, ?_⟩⟩
          have hc : s.convert b a none = .err s msg := by
            unfold Front.convert
            dsimp only
            rw [if_pos hi, if_neg (not_not.2 h1), if_neg (not_not.2 h2), if_neg (not_not.2 h3), if_neg (by simp), hm]
            dsimp only
            rw [hu]
            dsimp only
            rw [← hm]
          unfold Front.factorize; rw [hc]
        · exact fin m hu ⟨g1, rfl, rfl, rfl⟩
  · have hi' : s.initialized = false := by simpa using hi
    by_cases hx : (b.coo a).nrow ≠ (b.coo a).ncol ∨ (b.coo a).nnz < 1 ∨ b.rejects (b.coo a).symmetric ≠ none
    · exact ⟨s, hs, Or.inr (factorize_unsuitable env s a params hi' hx)⟩
    · push Not at hx
      obtain ⟨h1, h2, h3⟩ := hx
      cases h4 : b.parErr (params.getD b.dflt) with
      | none =>
        obtain ⟨m, st, s', -, k1, k2⟩ := factorize_first (lib := lib) (env := env) hs ha params hi' h1 h2 h3 h4
        refine ⟨s', k1, ?_⟩
        rcases k2 with ⟨-, -, k⟩ | ⟨-, -, ⟨-, k, -⟩ | ⟨-, k⟩⟩
        · exact Or.inr ⟨_, k⟩
        · exact Or.inl k
        · exact Or.inr ⟨_, k⟩
      | some msg =>
        obtain ⟨m, e, -⟩ := L.create a ha h1 h2 h3
        refine ⟨{ s with initSym := (b.coo a).symmetric, initNdim := (b.coo a).nrow, initNnz := (b.coo a).nnz, mat := some m }, ?_, Or.inr ⟨msg, ?_⟩⟩
        · exact { legal := hs.legal, fi := hs.fi, noInit := hs.noInit, hasInit := hs.hasInit, fact := hs.fact,
                  last := fun h => absurd h hi, good := fun h => absurd h hi,
                  first := fun par' m' h' => absurd rfl (hs.noInit hi' _ h' trivial) }
        · have hc : s.convert b a params = .ok { s with initSym := (b.coo a).symmetric, initNdim := (b.coo a).nrow, initNnz := (b.coo a).nnz, mat := some m } := by
            unfold Front.convert
            dsimp only
            rw [if_neg (by simp [hi']), if_neg (not_not.2 h1), if_neg (by omega), h3]
            dsimp only
            rw [e]
          unfold Front.factorize
          rw [hc]
          dsimp only
          rw [h4]

theorem solve_inv {L : Laws b} {s : Front M V P α} (hs : Inv2 L s) (x rhs : List α) :
    ∃ s' y, Inv2 L s' ∧ (s.solve b lib x rhs = .ok (s', y) ∨ ∃ msg, s.solve b lib x rhs = .err (s', y) msg) := by
  by_cases hf : s.factorized = true
  · by_cases hx : x.length ≠ s.initNdim ∨ rhs.length ≠ s.initNdim
    · exact ⟨s, x, hs, Or.inr (solve_sizes hs.toInv x rhs hx)⟩
    · push Not at hx
      obtain ⟨m, st, y, s', -, -, -, h1, -, -, -, h2⟩ := solve_spec (lib := lib) hs x rhs hf hx.1 hx.2
      refine ⟨s', y, h1, ?_⟩
      rw [h2]
      by_cases h0 : st ≠ 0
      · rw [if_pos h0]; exact Or.inr ⟨_, rfl⟩
      · rw [if_neg h0]; exact Or.inl rfl
  · exact ⟨s, x, hs, Or.inr (solve_early s x rhs (by simpa using hf))⟩

/-- every sequence of calls keeps the invariant and does not panic -/
theorem run_inv (L : Laws b) (ops : List (Op A E P α)) (hops : ∀ env a params, Op.factorize env a params ∈ ops → L.wf a) :
    ∃ s, Front.new.run b lib ops = ok s ∧ Inv2 L s := by
  have key : ∀ (ops : List (Op A E P α)) (s : Front M V P α), (∀ env a params, Op.factorize env a params ∈ ops → L.wf a) →
      Inv2 L s → ∃ s', s.run b lib ops = ok s' ∧ Inv2 L s' := by
    intro ops
    induction ops with
    | nil => intro s _ hs; exact ⟨s, rfl, hs⟩
    | cons o ops ih =>
      intro s ho hs
      have hstep : ∃ s', s.step b lib o = ok s' ∧ Inv2 L s' := by
        cases o with
        | factorize env a params =>
          obtain ⟨s', k1, k2⟩ := factorize_inv (lib := lib) (env := env) hs (ho env a params List.mem_cons_self) params
          refine ⟨s', ?_, k1⟩
          unfold Front.step
          dsimp only
          rcases k2 with k | ⟨msg, k⟩ <;> rw [k]
        | solve x rhs =>
          obtain ⟨s', y, k1, k2⟩ := solve_inv (lib := lib) hs x rhs
          refine ⟨s', ?_, k1⟩
          unfold Front.step
          dsimp only
          rcases k2 with k | ⟨msg, k⟩ <;> rw [k]
      obtain ⟨s1, e1, h1⟩ := hstep
      obtain ⟨s', e2, h2⟩ := ih s1 (fun env a params h => ho env a params (List.mem_cons_of_mem _ h)) h1
      refine ⟨s', ?_, h2⟩
      rw [Front.run, forList, e1, ok_bind]
      exact e2
  exact key ops Front.new hops (Inv2.new L)

/-! ## Protocol -/

/-- What the front-end guarantees in a state reached by calls. All errors leave the solver and `x` as they were: the
library is not called. -/
structure Enforces (b : Backend α A E M V P) (lib : Lib M V P α) (symOf : M → Sym) (ndimOf nnzOf : M → Nat)
    (s : Front M V P α) : Prop where
  /-- the calls made so far follow the protocol of the library -/
  legal : Legal s.calls
  /-- `solve` is rejected if there was no successful factorization -/
  early : (¬ ∃ e ∈ s.calls, e.isFact ∧ e.status = 0) → ∀ x rhs, ∃ msg, s.solve b lib x rhs = .err (s, x) msg
  /-- `solve` is rejected if a vector has another size than the first matrix -/
  sizes : ∀ par m, ⟨.init par m, 0⟩ ∈ s.calls → ∀ x rhs, x.length ≠ ndimOf m ∨ rhs.length ≠ ndimOf m →
    ∃ msg, s.solve b lib x rhs = .err (s, x) msg
  /-- `factorize` is rejected if the structure differs from the one of the first matrix, or if parameters are given -/
  changed : ∀ par m, ⟨.init par m, 0⟩ ∈ s.calls → ∀ env a params,
    (b.coo a).symmetric ≠ symOf m ∨ (b.coo a).nrow ≠ ndimOf m ∨ (b.coo a).nnz ≠ nnzOf m ∨ params.isSome = true →
    ∃ msg, s.factorize b lib env a params = .err s msg
  /-- an unsuitable matrix is rejected before the initialization -/
  unsuitable : (∀ e ∈ s.calls, e.isInit → e.status ≠ 0) → ∀ env a params,
    (b.coo a).nrow ≠ (b.coo a).ncol ∨ (b.coo a).nnz < 1 ∨ b.rejects (b.coo a).symmetric ≠ none →
    ∃ msg, s.factorize b lib env a params = .err s msg
  /-- otherwise `solve` calls the library once and returns what it returns -/
  solves : ∀ par m0, ⟨.init par m0, 0⟩ ∈ s.calls → (∃ e ∈ s.calls, e.isFact ∧ e.status = 0) →
    ∀ x rhs, x.length = ndimOf m0 → rhs.length = ndimOf m0 → ∃ m st y s', lastFact s.calls = some m ∧
      lib s.calls (.solve m rhs) = (st, y) ∧ s'.calls = s.calls ++ [⟨.solve m rhs, st⟩] ∧
      s.solve b lib x rhs = if st ≠ 0 then .err (s', y) (b.errMsg st) else .ok (s', y)

theorem Inv2.enforces {L : Laws b} {s : Front M V P α} (hs : Inv2 L s) : Enforces b lib L.symOf L.ndimOf L.nnzOf s := by
  have hini : (∀ e ∈ s.calls, e.isInit → e.status ≠ 0) → s.initialized = false := by
    intro h
    cases hi : s.initialized with
    | false => rfl
    | true =>
      obtain ⟨e, h1, h2, h3⟩ := hs.hasInit hi
      exact absurd h3 (h e h1 h2)
  refine ⟨hs.legal, ?_, ?_, ?_, ?_, ?_⟩
  · intro h x rhs
    refine solve_early s x rhs ?_
    cases hf : s.factorized with
    | false => rfl
    | true => exact absurd (hs.fact.1 hf) h
  · intro par m hm x rhs h
    obtain ⟨-, ⟨-, k, -⟩, -⟩ := hs.first par m hm
    exact solve_sizes hs.toInv x rhs (by rw [← k]; exact h)
  · intro par m hm env a params h
    obtain ⟨k1, ⟨k2, k3, k4⟩, -⟩ := hs.first par m hm
    exact factorize_mismatch env s a params k1 (by rw [← k2, ← k3, ← k4]; exact h)
  · intro h env a params h'
    exact factorize_unsuitable env s a params (hini h) h'
  · intro par m0 hm hf x rhs hx hr
    obtain ⟨-, ⟨-, k, -⟩, -⟩ := hs.first par m0 hm
    have hf' := hs.fact.2 hf
    obtain ⟨m, st, y, s', h1, h2, h3, -, -, -, -, h4⟩ := solve_spec (lib := lib) hs x rhs hf' (by rw [hx, k]) (by rw [hr, k])
    obtain ⟨m', h5, h6⟩ := hs.last (hs.fi hf')
    rw [h1] at h5; cases h5
    exact ⟨m, st, y, s', h6, h2, h3, h4⟩

/-! ## UMFPACK -/

/-- `SolverUMFPACK`: keeps a CSC matrix, which is passed to every C function
(/repo/russell_sparse/src/solver_umfpack.rs:232-329) -/
def umfpack [Zero α] [Add α] (P : Type) (dflt : P) (errMsg : Int → String) : Backend α (Coo α) Unit (Csc α) (Csc α) P where
  coo := id
  rejects := fun sym => match sym with
    | .yesLower => some "UMFPACK requires Sym::YesFull for symmetric matrices"
    | .yesUpper => some "UMFPACK requires Sym::YesFull for symmetric matrices"
    | _ => none
  create := Csc.fromCoo
  update := Csc.updateFromCoo
  view := fun _ m => m
  parErr := fun _ => none
  dflt := dflt
  errMsg := errMsg

/-- matrices made with the COO interface, within the range of `i32` -/
def Fits (c : Coo α) : Prop := (∃ es, c.Rep es) ∧ c.nrow < 2147483648 ∧ c.nnz < 2147483648

/-- the CSC matrix and the COO matrix are the same matrix -/
def SameCsc [Zero α] [Add α] (m : Csc α) (c : Coo α) : Prop :=
  (∃ a, m.asDense = ok a ∧ c.asDense = ok a) ∧ m.symmetric = c.symmetric ∧ m.nrow = c.nrow ∧ m.ncol = c.ncol

def umfpackLaws [AddCommMonoid α] (P : Type) (dflt : P) (errMsg : Int → String) : Laws (umfpack (α := α) P dflt errMsg) where
  wf := Fits
  good := fun m => m.Ready m.nrow m.ncol m.values.length ∧ m.nrow = m.ncol
  den0 := SameCsc
  den := SameCsc
  symOf := Csc.symmetric
  ndimOf := Csc.nrow
  nnzOf := fun m => m.values.length
  fits := fun a h => h.2
  dfltOk := rfl
  create := by
    rintro c ⟨⟨es, h⟩, h1, h2⟩ hsq hne -
    simp only [umfpack, id] at *
    have hl := h.nnz
    obtain ⟨s, e, hs, hr, f1, f2, f3⟩ := Csc.fromCoo_spec h (by omega) (by omega)
    obtain ⟨a, g1, g2⟩ := csc_dense_eq h hs f1 f2 f3 (denseOf_conv_comm (atPos_convCol h.rangeI h.rangeJ))
    refine ⟨s, e, ⟨?_, by rw [f2, f3, hsq]⟩, ⟨⟨a, g1, g2⟩, f1, f2, f3⟩, f1, f2, by rw [hr.lenX, hl]⟩
    rw [f2, f3, hr.lenX]; exact hr
  update := by
    rintro m c ⟨hr, hq⟩ ⟨⟨es, h⟩, h1, h2⟩ k1 k2 k3 hsq
    simp only [umfpack, id] at *
    have hl := h.nnz
    have h3 : c.ncol = m.ncol := by rw [← hsq, ← k2, hq]
    obtain ⟨s, e, hs, hr', f1, f2, f3⟩ := Csc.updateFromCoo_match h (by omega) (s := m)
      (by rw [← k2, h3, ← hl, ← k3]; exact hr) k1.symm k2.symm h3
    obtain ⟨a, g1, g2⟩ := csc_dense_eq h hs f1 f2 f3 (denseOf_conv_comm (atPos_convCol h.rangeI h.rangeJ))
    refine ⟨s, e, ⟨?_, by rw [f2, f3, hsq]⟩, ⟨⟨a, g1, g2⟩, f1, f2, f3⟩, by rw [f1, k1], by rw [f2, k2], by rw [hr'.lenX, k3, hl]⟩
    rw [f2, f3, hr'.lenX]; exact hr'
  kept := fun _ _ => True
  keptRefl := fun _ => trivial
  keptUpdate := fun _ _ _ _ _ _ => trivial
  updateRect := by
    rintro m c ⟨hr, hq⟩ - k1 k2 k3 hsq
    simp only [umfpack, id] at *
    exact Or.inl (Csc.updateFromCoo_mismatch (by rintro ⟨-, -, h, -⟩; exact hsq (by rw [h, ← hq, k2])))

/-- C18 (UMFPACK): in every sequence of calls, whatever the library answers, nothing panics, the library is called according
to its protocol, and calls that violate the protocol of the front-end return an error, without a call to the library and
without any change of the solver or the vector. A rectangular matrix is rejected at any time. -/
theorem C18_umfpack_protocol [AddCommMonoid α] (P : Type) (dflt : P) (errMsg : Int → String)
    (lib : Lib (Csc α) (Csc α) P α) (ops : List (Op (Coo α) Unit P α))
    (hops : ∀ env a params, Op.factorize env a params ∈ ops → Fits a) :
    ∃ s, Front.new.run (umfpack P dflt errMsg) lib ops = ok s ∧
      Enforces (umfpack P dflt errMsg) lib Csc.symmetric Csc.nrow (fun m => m.values.length) s ∧
      ∀ env a params, Fits a → a.nrow ≠ a.ncol → ∃ msg, s.factorize (umfpack P dflt errMsg) lib env a params = .err s msg := by
  obtain ⟨s, e, hs⟩ := run_inv (lib := lib) (umfpackLaws P dflt errMsg) ops hops
  refine ⟨s, e, hs.enforces, ?_⟩
  intro env a params hw hsq
  cases hi : s.initialized with
  | false => exact factorize_unsuitable env s a params hi (Or.inl hsq)
  | true =>
    by_cases hx : a.symmetric ≠ s.initSym ∨ a.nrow ≠ s.initNdim ∨ a.nnz ≠ s.initNnz ∨ params.isSome = true
    · exact factorize_mismatch env s a params hi hx
    · push Not at hx
      obtain ⟨h1, h2, h3, h4⟩ := hx
      obtain ⟨m, hm, -⟩ := hs.last hi
      obtain ⟨⟨-, g1⟩, g2, g3, g4⟩ := hs.good hi m hm
      obtain ⟨msg, hu⟩ := Csc.updateFromCoo_mismatch (s := m) (c := a) (by
        rintro ⟨-, h5, h6, -⟩; exact hsq (by rw [h5, h6, g1]))
      refine ⟨msg, ?_⟩
      unfold Front.factorize Front.convert umfpack
      dsimp only [id]
      rw [if_pos hi, if_neg (not_not.2 h1), if_neg (not_not.2 h2), if_neg (not_not.2 h3), if_neg h4, hm]
      dsimp only
      rw [hu]
      dsimp only
      rw [← hm]

/-- C18 (UMFPACK): an admissible call of `factorize` hands the given matrix to the library: the first time to the
initialization and, if this succeeds, to the numeric factorization; later to the numeric factorization. It succeeds if and
only if the library does. -/
theorem C18_umfpack_factorize [AddCommMonoid α] (P : Type) (dflt : P) (errMsg : Int → String)
    (lib : Lib (Csc α) (Csc α) P α) (ops : List (Op (Coo α) Unit P α))
    (hops : ∀ env a params, Op.factorize env a params ∈ ops → Fits a) {s : Front (Csc α) (Csc α) P α}
    (hrun : Front.new.run (umfpack P dflt errMsg) lib ops = ok s) {a : Coo α} (ha : Fits a) (hsq : a.nrow = a.ncol)
    (hne : 1 ≤ a.nnz) :
    ((∀ e ∈ s.calls, e.isInit → e.status ≠ 0) → a.symmetric = .no ∨ a.symmetric = .yesFull → ∀ params, ∃ m st s',
      SameCsc m a ∧
      ((st ≠ 0 ∧ s'.calls = s.calls ++ [⟨.init (params.getD dflt) m, st⟩] ∧
          s.factorize (umfpack P dflt errMsg) lib () a params = .err s' (errMsg st)) ∨
       (s'.calls = s.calls ++ [⟨.init (params.getD dflt) m, 0⟩, ⟨.factorize (params.getD dflt) m m, st⟩] ∧
          ((st = 0 ∧ s.factorize (umfpack P dflt errMsg) lib () a params = .ok s') ∨
           (st ≠ 0 ∧ s.factorize (umfpack P dflt errMsg) lib () a params = .err s' (errMsg st)))))) ∧
    (∀ par m0, ⟨.init par m0, 0⟩ ∈ s.calls → a.symmetric = m0.symmetric → a.nrow = m0.nrow → a.nnz = m0.values.length →
      ∃ m st s', SameCsc m a ∧ s'.calls = s.calls ++ [⟨.factorize dflt m m, st⟩] ∧
       ((st = 0 ∧ s.factorize (umfpack P dflt errMsg) lib () a none = .ok s') ∨
           (st ≠ 0 ∧ s.factorize (umfpack P dflt errMsg) lib () a none = .err s' (errMsg st)))) := by
  obtain ⟨s1, e, hs⟩ := run_inv (lib := lib) (umfpackLaws P dflt errMsg) ops hops
  rw [hrun] at e; cases e
  constructor
  · intro hno hsym params
    have hi : s.initialized = false := by
      cases hi : s.initialized with
      | false => rfl
      | true =>
        obtain ⟨e, h1, h2, h3⟩ := hs.hasInit hi
        exact absurd h3 (hno e h1 h2)
    obtain ⟨m, st, s', h1, -, h2⟩ := factorize_first (lib := lib) (env := ()) hs ha params hi hsq hne
      (by rcases hsym with h | h <;> simp [umfpack, h]) rfl
    refine ⟨m, st, s', h1, ?_⟩
    rcases h2 with h2 | ⟨h2, -, h3⟩
    · exact Or.inl h2
    · refine Or.inr ⟨h2, ?_⟩
      rcases h3 with ⟨k1, k2, -⟩ | h3
      · exact Or.inl ⟨k1, k2⟩
      · exact Or.inr h3
  · intro par m0 hm0 k1 k2 k3
    obtain ⟨hi, ⟨f1, f2, f3⟩, -⟩ := hs.first par m0 hm0
    obtain ⟨m, hm, -⟩ := hs.last hi
    obtain ⟨g1, g2, g3, g4⟩ := hs.good hi m hm
    obtain ⟨m', hu, l1, l2, l3⟩ := (umfpackLaws P dflt errMsg).update m a g1 ha (g2.trans (f1.symm.trans k1.symm))
      (g3.trans (f2.symm.trans k2.symm)) (g4.trans (f3.symm.trans k3.symm)) hsq
    obtain ⟨st, s', -, h1, -, h2⟩ := factorize_again (lib := lib) (env := ()) hs ha hi (k1.trans f1) (k2.trans f2) (k3.trans f3) hm hu ⟨l1, l3⟩
    refine ⟨m', st, s', l2, h1, ?_⟩
    rcases h2 with ⟨k1, k2, -⟩ | h3
    · exact Or.inl ⟨k1, k2⟩
    · exact Or.inr h3

/-! ## cuDSS -/

/-- The CSR matrix kept by `SolverCUDSS`, and the pattern that `solver_cudss_initialize` has copied to the device
(/repo/russell_sparse/c_code/interface_cudss.cu:256-266); `solver_cudss_factorize` copies the values only (lines 424-434). -/
structure CudssMat (α : Type) where
  csr : Csr α
  gpuRowPointers : List Int
  gpuColIndices : List Int
deriving DecidableEq

/-- `SolverCUDSS` (/repo/russell_sparse/src/solver_cudss.rs:194-311); `parErr` is the check of the hybrid memory factor
(lines 246-254) -/
def cudss [Zero α] [Add α] (P : Type) (dflt : P) (parErr : P → Option String) (errMsg : Int → String) :
    Backend α (Coo α) Unit (CudssMat α) (Csr α) P where
  coo := id
  rejects := fun sym => match sym with
    | .yesFull => some "cuDSS requires Sym::YesLower for symmetric matrices"
    | .yesUpper => some "cuDSS requires Sym::YesLower for symmetric matrices"
    | _ => none
  create := fun c => do
    let csr ← Csr.fromCoo c
    ok { csr := csr, gpuRowPointers := csr.rowPointers, gpuColIndices := csr.colIndices }
  update := fun m c => match m.csr.updateFromCoo c with
    | .ok csr => .ok { m with csr := csr }
    | .err csr msg => .err { m with csr := csr } msg
    | .panic => .panic
  view := fun _ m => { m.csr with rowPointers := m.gpuRowPointers, colIndices := m.gpuColIndices }
  parErr := parErr
  dflt := dflt
  errMsg := errMsg

/-- the CSR matrix and the COO matrix are the same matrix -/
def SameCsr [Zero α] [Add α] (m : Csr α) (c : Coo α) : Prop :=
  (∃ a, m.asDense = ok a ∧ c.asDense = ok a) ∧ m.symmetric = c.symmetric ∧ m.nrow = c.nrow ∧ m.ncol = c.ncol

def cudssLaws [AddCommMonoid α] (P : Type) (dflt : P) (parErr : P → Option String) (errMsg : Int → String)
    (hd : parErr dflt = none) : Laws (cudss (α := α) P dflt parErr errMsg) where
  wf := Fits
  good := fun m => m.csr.Ready m.csr.nrow m.csr.ncol m.csr.values.length ∧ m.csr.nrow = m.csr.ncol
  den0 := fun m c => SameCsr m.csr c ∧ m.gpuRowPointers = m.csr.rowPointers ∧ m.gpuColIndices = m.csr.colIndices
  den := fun m c => SameCsr m.csr c
  symOf := fun m => m.csr.symmetric
  ndimOf := fun m => m.csr.nrow
  nnzOf := fun m => m.csr.values.length
  fits := fun a h => h.2
  dfltOk := hd
  create := by
    rintro c ⟨⟨es, h⟩, h1, h2⟩ hsq hne -
    simp only [cudss, id] at *
    have hl := h.nnz
    obtain ⟨s, e, hs, hr, f1, f2, f3⟩ := Csr.fromCoo_spec h (by omega) (by omega)
    obtain ⟨a, g1, g2⟩ := csr_dense_eq h hs f1 f2 f3 (denseOf_conv_comm (atPos_convRow h.rangeI))
    refine ⟨⟨s, s.rowPointers, s.colIndices⟩, by rw [e]; rfl, ⟨?_, by rw [f2, f3, hsq]⟩, ⟨⟨⟨a, g1, g2⟩, f1, f2, f3⟩, rfl, rfl⟩, f1, f2, by rw [hr.lenX, hl]⟩
    rw [f2, f3, hr.lenX]; exact hr
  update := by
    rintro m c ⟨hr, hq⟩ ⟨⟨es, h⟩, h1, h2⟩ k1 k2 k3 hsq
    simp only [cudss, id] at *
    have hl := h.nnz
    have h3 : c.ncol = m.csr.ncol := by rw [← hsq, ← k2, hq]
    obtain ⟨s, e, hs, hr', f1, f2, f3⟩ := Csr.updateFromCoo_match h (by omega) (s := m.csr)
      (by rw [← k2, h3, ← hl, ← k3]; exact hr) k1.symm k2.symm h3
    obtain ⟨a, g1, g2⟩ := csr_dense_eq h hs f1 f2 f3 (denseOf_conv_comm (atPos_convRow h.rangeI))
    refine ⟨{ m with csr := s }, by rw [e], ⟨?_, by rw [f2, f3, hsq]⟩, ⟨⟨a, g1, g2⟩, f1, f2, f3⟩, by rw [f1, k1], by rw [f2, k2], by rw [hr'.lenX, k3, hl]⟩
    rw [f2, f3, hr'.lenX]; exact hr'
  kept := fun m0 m => m.gpuRowPointers = m0.gpuRowPointers ∧ m.gpuColIndices = m0.gpuColIndices
  keptRefl := fun _ => ⟨rfl, rfl⟩
  keptUpdate := by
    intro m0 m a m' h hu
    simp only [cudss] at hu
    cases h' : m.csr.updateFromCoo a with
    | ok c => rw [h'] at hu; cases hu; exact h
    | err c msg => rw [h'] at hu; cases hu
    | panic => rw [h'] at hu; cases hu
  updateRect := by
    rintro m c ⟨hr, hq⟩ - k1 k2 k3 hsq
    simp only [cudss, id] at *
    obtain ⟨msg, h⟩ := Csr.updateFromCoo_mismatch (s := m.csr) (c := c) (by rintro ⟨-, -, h, -⟩; exact hsq (by rw [h, ← hq, k2]))
    exact Or.inl ⟨msg, by rw [h]⟩

/-- C18 (cuDSS): as for UMFPACK. -/
theorem C18_cudss_protocol [AddCommMonoid α] (P : Type) (dflt : P) (parErr : P → Option String) (errMsg : Int → String)
    (hd : parErr dflt = none) (lib : Lib (CudssMat α) (Csr α) P α) (ops : List (Op (Coo α) Unit P α))
    (hops : ∀ env a params, Op.factorize env a params ∈ ops → Fits a) :
    ∃ s, Front.new.run (cudss P dflt parErr errMsg) lib ops = ok s ∧
      Enforces (cudss P dflt parErr errMsg) lib (fun m => m.csr.symmetric) (fun m => m.csr.nrow) (fun m => m.csr.values.length) s := by
  obtain ⟨s, e, hs⟩ := run_inv (lib := lib) (cudssLaws P dflt parErr errMsg hd) ops hops
  exact ⟨s, e, hs.enforces⟩

/-- C18 (cuDSS): at a subsequent factorization the library reads the values of the new matrix with the pattern of the first
one. It therefore reads the new matrix if the patterns of the two CSR matrices are the same. -/
theorem C18_cudss_factorize [AddCommMonoid α] (P : Type) (dflt : P) (parErr : P → Option String) (errMsg : Int → String)
    (hd : parErr dflt = none) (lib : Lib (CudssMat α) (Csr α) P α) (ops : List (Op (Coo α) Unit P α))
    (hops : ∀ env a params, Op.factorize env a params ∈ ops → Fits a) {s : Front (CudssMat α) (Csr α) P α}
    (hrun : Front.new.run (cudss P dflt parErr errMsg) lib ops = ok s) {a : Coo α} (ha : Fits a) (hsq : a.nrow = a.ncol)
    {par : P} {m0 : CudssMat α} (hm0 : ⟨.init par m0, 0⟩ ∈ s.calls) (k1 : a.symmetric = m0.csr.symmetric)
    (k2 : a.nrow = m0.csr.nrow) (k3 : a.nnz = m0.csr.values.length) :
    ∃ m v st s', SameCsr m.csr a ∧ s'.calls = s.calls ++ [⟨.factorize dflt m v, st⟩] ∧
      v.rowPointers = m0.gpuRowPointers ∧ v.colIndices = m0.gpuColIndices ∧ v.values = m.csr.values ∧
      (m.csr.rowPointers = m0.gpuRowPointers → m.csr.colIndices = m0.gpuColIndices → SameCsr v a) ∧
       ((st = 0 ∧ s.factorize (cudss P dflt parErr errMsg) lib () a none = .ok s') ∨
           (st ≠ 0 ∧ s.factorize (cudss P dflt parErr errMsg) lib () a none = .err s' (errMsg st))) := by
  obtain ⟨s1, e, hs⟩ := run_inv (lib := lib) (cudssLaws P dflt parErr errMsg hd) ops hops
  rw [hrun] at e; cases e
  obtain ⟨hi, ⟨f1, f2, f3⟩, hk⟩ := hs.first par m0 hm0
  obtain ⟨m, hm, -⟩ := hs.last hi
  obtain ⟨g1, g2, g3, g4⟩ := hs.good hi m hm
  obtain ⟨m', hu, l1, l2, l3⟩ := (cudssLaws P dflt parErr errMsg hd).update m a g1 ha (g2.trans (f1.symm.trans k1.symm))
    (g3.trans (f2.symm.trans k2.symm)) (g4.trans (f3.symm.trans k3.symm)) hsq
  have hk' := (cudssLaws P dflt parErr errMsg hd).keptUpdate m0 m a m' (hk m hm) hu
  obtain ⟨st, s', -, h1, -, h2⟩ := factorize_again (lib := lib) (env := ()) hs ha hi (k1.trans f1) (k2.trans f2) (k3.trans f3) hm hu ⟨l1, l3⟩
  refine ⟨m', _, st, s', l2, h1, hk'.1, hk'.2, rfl, ?_, ?_⟩
  · intro q1 q2
    have : (cudss P dflt parErr errMsg).view () m' = m'.csr := by
      simp only [cudss]
      rw [hk'.1, hk'.2, ← q1, ← q2]
    rw [this]; exact l2
  · rcases h2 with ⟨k1, k2, -⟩ | h3
    · exact Or.inl ⟨k1, k2⟩
    · exact Or.inr h3

/-! ## MUMPS -/

/-- a COO matrix and the address of its array of values -/
structure CooAt (α : Type) where
  addr : Nat
  coo : Coo α

/-- the content of memory: the arrays that are alive -/
abbrev Mem (α : Type) := Nat → Option (List α)

/-- What MUMPS has been given by `solver_mumps_initialize`: kind, dimension, one-based indices, and the address of the values
(/repo/russell_sparse/c_code/interface_mumps.c, `solver_mumps_initialize`: `solver->data.a = values`) -/
structure MumpsMat where
  sym : Sym
  ndim : Nat
  irn : List Int
  jcn : List Int
  ptr : Nat
deriving DecidableEq

/-- the system read by the library; the values are `none` if the array is not alive any more -/
structure MumpsView (α : Type) where
  irn : List Int
  jcn : List Int
  values : Option (List α)
deriving DecidableEq

/-- the loop of /repo/russell_sparse/src/solver_mumps.rs:237-242 -/
def mumpsIndices (c : Coo α) : Res (List Int × List Int) :=
  forRange 0 c.nnz (List.replicate c.nnz 0, List.replicate c.nnz 0) fun k s => do
    let i ← vget c.indicesI k
    let i ← addI32 i 1
    let a ← vset s.1 k i
    let j ← vget c.indicesJ k
    let j ← addI32 j 1
    let b ← vset s.2 k j
    ok (a, b)

/-- `SolverMUMPS` (/repo/russell_sparse/src/solver_mumps.rs:209-328): a subsequent factorization passes nothing of the matrix to
the library (lines 309-322), which reads the values through the pointer received by the initialization. -/
def mumps (P : Type) (dflt : P) (errMsg : Int → String) : Backend α (CooAt α) (Mem α) MumpsMat (MumpsView α) P where
  coo := CooAt.coo
  rejects := fun sym => match sym with
    | .yesFull => some "MUMPS requires Sym::YesLower for symmetric matrices"
    | .yesUpper => some "MUMPS requires Sym::YesLower for symmetric matrices"
    | _ => none
  create := fun a => do
    let ij ← mumpsIndices a.coo
    ok { sym := a.coo.symmetric, ndim := a.coo.nrow, irn := ij.1, jcn := ij.2, ptr := a.addr }
  update := fun m _ => .ok m
  view := fun mem m => { irn := m.irn, jcn := m.jcn, values := mem m.ptr }
  parErr := fun _ => none
  dflt := dflt
  errMsg := errMsg

/-- one-based indices -/
def oneBased (l : List Int) (n : Nat) : List Int := (l.take n).map (· + 1)

theorem mumpsIndices_spec {c : Coo α} {es : List (Entry α)} (h : c.Rep es) :
    mumpsIndices c = ok (oneBased c.indicesI c.nnz, oneBased c.indicesJ c.nnz) := by
  have hle : c.nnz ≤ c.maxNnz := by rw [h.nnz]; exact h.le
  obtain ⟨s, e, h1, h2, h3, h4⟩ := forRange_spec (f := fun k (s : List Int × List Int) => do
      let i ← vget c.indicesI k
      let i ← addI32 i 1
      let a ← vset s.1 k i
      let j ← vget c.indicesJ k
      let j ← addI32 j 1
      let b ← vset s.2 k j
      ok (a, b)) (lo := 0) (hi := c.nnz)
    (fun k s => s.1.length = c.nnz ∧ s.2.length = c.nnz ∧
      (∀ i, i < k → s.1[i]? = (c.indicesI[i]?).map (· + 1)) ∧ (∀ i, i < k → s.2[i]? = (c.indicesJ[i]?).map (· + 1)))
    (s := (List.replicate c.nnz 0, List.replicate c.nnz 0)) (by omega)
    ⟨by simp, by simp, by omega, by omega⟩ (by
      rintro k ⟨a, b⟩ - hk ⟨h1, h2, h3, h4⟩
      dsimp only at h1 h2 h3 h4
      have hk' : k < es.length := by rw [← h.nnz]; exact hk
      have hi := h.rangeI _ (List.getElem_mem hk')
      have hj := h.rangeJ _ (List.getElem_mem hk')
      have fi := h.fitsI
      have fj := h.fitsJ
      refine ⟨(a.set k ((es[k].1 : Int) + 1), b.set k ((es[k].2.1 : Int) + 1)), ?_, ?_, ?_, ?_, ?_⟩
      · dsimp only
        rw [vget_of (h.entI k hk'), ok_bind, show addI32 ((es[k].1 : Nat) : Int) 1 = ok ((es[k].1 : Int) + 1) from by
            unfold addI32; rw [if_pos (by omega)],
          ok_bind, vset_lt (x := (es[k].1 : Int) + 1) (by omega : k < a.length), ok_bind, vget_of (h.entJ k hk'), ok_bind,
          show addI32 ((es[k].2.1 : Nat) : Int) 1 = ok ((es[k].2.1 : Int) + 1) from by
            unfold addI32; rw [if_pos (by omega)], ok_bind, vset_lt (x := (es[k].2.1 : Int) + 1) (by omega : k < b.length), ok_bind]
      · simp [h1]
      · simp [h2]
      · intro i hi
        dsimp only
        rw [List.getElem?_set]
        by_cases hik : k = i
        · subst hik
          rw [if_pos rfl, if_pos (by omega), h.entI k hk']; rfl
        · rw [if_neg hik]; exact h3 i (by omega)
      · intro i hi
        dsimp only
        rw [List.getElem?_set]
        by_cases hik : k = i
        · subst hik
          rw [if_pos rfl, if_pos (by omega), h.entJ k hk']; rfl
        · rw [if_neg hik]; exact h4 i (by omega))
  have fin : ∀ (l idx : List Int), l.length = c.nnz → (∀ i, i < c.nnz → l[i]? = (idx[i]?).map (· + 1)) →
      idx.length = c.maxNnz → l = oneBased idx c.nnz := by
    intro l idx g1 g2 g3
    unfold oneBased
    apply List.ext_getElem?
    intro i
    by_cases hi : i < c.nnz
    · rw [g2 i hi, List.getElem?_map, List.getElem?_take_of_lt hi]
    · rw [List.getElem?_eq_none (by omega), List.getElem?_eq_none (by simp; omega)]
  unfold mumpsIndices
  rw [e]
  rw [← fin s.1 _ h1 h3 h.lenI, ← fin s.2 _ h2 h4 h.lenJ]

def mumpsLaws (P : Type) (dflt : P) (errMsg : Int → String) : Laws (mumps (α := α) P dflt errMsg) where
  wf := fun a => Fits a.coo
  good := fun _ => True
  den0 := fun m a => m = ⟨a.coo.symmetric, a.coo.nrow, oneBased a.coo.indicesI a.coo.nnz, oneBased a.coo.indicesJ a.coo.nnz, a.addr⟩
  den := fun _ _ => True
  symOf := MumpsMat.sym
  ndimOf := MumpsMat.ndim
  nnzOf := fun m => m.irn.length
  fits := fun a h => h.2
  dfltOk := rfl
  create := by
    rintro a ⟨⟨es, h⟩, h1, h2⟩ hsq hne -
    have hle : a.coo.nnz ≤ a.coo.maxNnz := by rw [h.nnz]; exact h.le
    refine ⟨⟨a.coo.symmetric, a.coo.nrow, oneBased a.coo.indicesI a.coo.nnz, oneBased a.coo.indicesJ a.coo.nnz, a.addr⟩, ?_, trivial, rfl, rfl, rfl, ?_⟩
    · simp only [mumps, mumpsIndices_spec h, ok_bind]
    · simp [oneBased, mumps, h.lenI, hle]
  update := fun m a _ _ _ _ _ _ => ⟨m, rfl, trivial, trivial, rfl, rfl, rfl⟩
  kept := fun m0 m => m = m0
  keptRefl := fun _ => rfl
  keptUpdate := by
    intro m0 m a m' h hu
    simp only [mumps] at hu
    cases hu; exact h
  updateRect := fun m a _ _ _ _ _ _ => Or.inr rfl

/-- C18 (MUMPS): the calls to the library follow its protocol and violations of the protocol of the front-end are rejected
without a call to the library. -/
theorem C18_mumps_protocol (P : Type) (dflt : P) (errMsg : Int → String)
    (lib : Lib MumpsMat (MumpsView α) P α) (ops : List (Op (CooAt α) (Mem α) P α))
    (hops : ∀ env a params, Op.factorize env a params ∈ ops → Fits a.coo) :
    ∃ s, Front.new.run (mumps P dflt errMsg) lib ops = ok s ∧
      Enforces (mumps P dflt errMsg) lib MumpsMat.sym MumpsMat.ndim (fun m => m.irn.length) s := by
  obtain ⟨s, e, hs⟩ := run_inv (lib := lib) (mumpsLaws P dflt errMsg) ops hops
  exact ⟨s, e, hs.enforces⟩

/-- C18 (MUMPS): the first admissible matrix is handed to the library, and the values are read from its array. At a subsequent
factorization the library reads the indices of the first matrix and whatever is in the array of values of the first
matrix at that time; nothing of the matrix given is passed on. So the library reads the given matrix if this is the same object as
the first matrix (with the same positions). -/
theorem C18_mumps_factorize (P : Type) (dflt : P) (errMsg : Int → String)
    (lib : Lib MumpsMat (MumpsView α) P α) (ops : List (Op (CooAt α) (Mem α) P α))
    (hops : ∀ env a params, Op.factorize env a params ∈ ops → Fits a.coo) {s : Front MumpsMat (MumpsView α) P α}
    (hrun : Front.new.run (mumps P dflt errMsg) lib ops = ok s) {a : CooAt α} (ha : Fits a.coo) (mem : Mem α) :
    ((∀ e ∈ s.calls, e.isInit → e.status ≠ 0) → a.coo.nrow = a.coo.ncol → 1 ≤ a.coo.nnz →
      a.coo.symmetric = .no ∨ a.coo.symmetric = .yesLower → ∀ params, ∃ m st s',
      m.sym = a.coo.symmetric ∧ m.ndim = a.coo.nrow ∧ m.irn = oneBased a.coo.indicesI a.coo.nnz ∧
      m.jcn = oneBased a.coo.indicesJ a.coo.nnz ∧ m.ptr = a.addr ∧
      ((st ≠ 0 ∧ s'.calls = s.calls ++ [⟨.init (params.getD dflt) m, st⟩] ∧
          s.factorize (mumps P dflt errMsg) lib mem a params = .err s' (errMsg st)) ∨
       (s'.calls = s.calls ++ [⟨.init (params.getD dflt) m, 0⟩,
            ⟨.factorize (params.getD dflt) m ⟨m.irn, m.jcn, mem a.addr⟩, st⟩] ∧
          ((st = 0 ∧ s.factorize (mumps P dflt errMsg) lib mem a params = .ok s') ∨
           (st ≠ 0 ∧ s.factorize (mumps P dflt errMsg) lib mem a params = .err s' (errMsg st)))))) ∧
    (∀ par m0, ⟨.init par m0, 0⟩ ∈ s.calls → a.coo.symmetric = m0.sym → a.coo.nrow = m0.ndim → a.coo.nnz = m0.irn.length →
      ∃ st s', s'.calls = s.calls ++ [⟨.factorize dflt m0 ⟨m0.irn, m0.jcn, mem m0.ptr⟩, st⟩] ∧
       ((st = 0 ∧ s.factorize (mumps P dflt errMsg) lib mem a none = .ok s') ∨
           (st ≠ 0 ∧ s.factorize (mumps P dflt errMsg) lib mem a none = .err s' (errMsg st)))) := by
  obtain ⟨s1, e, hs⟩ := run_inv (lib := lib) (mumpsLaws P dflt errMsg) ops hops
  rw [hrun] at e; cases e
  constructor
  · intro hno hsq hne hsym params
    have hi : s.initialized = false := by
      cases hi : s.initialized with
      | false => rfl
      | true =>
        obtain ⟨e, h1, h2, h3⟩ := hs.hasInit hi
        exact absurd h3 (hno e h1 h2)
    obtain ⟨m, st, s', h1, -, h2⟩ := factorize_first (lib := lib) (env := mem) hs ha params hi hsq hne
      (by rcases hsym with h | h <;> simp [mumps, h]) rfl
    simp only [mumpsLaws] at h1
    subst h1
    refine ⟨⟨a.coo.symmetric, a.coo.nrow, oneBased a.coo.indicesI a.coo.nnz, oneBased a.coo.indicesJ a.coo.nnz, a.addr⟩, st, s',
      rfl, rfl, rfl, rfl, rfl, ?_⟩
    rcases h2 with h2 | ⟨h2, -, h3⟩
    · exact Or.inl h2
    · refine Or.inr ⟨h2, ?_⟩
      rcases h3 with ⟨k1, k2, -⟩ | h3
      · exact Or.inl ⟨k1, k2⟩
      · exact Or.inr h3
  · intro par m0 hm0 k1 k2 k3
    obtain ⟨hi, ⟨f1, f2, f3⟩, hk⟩ := hs.first par m0 hm0
    obtain ⟨m, hm, -⟩ := hs.last hi
    have hmm : m = m0 := hk m hm
    subst hmm
    obtain ⟨st, s', -, h1, -, h2⟩ := factorize_again (lib := lib) (env := mem) hs ha hi (k1.trans f1) (k2.trans f2) (k3.trans f3) hm
      (m' := m) rfl ⟨trivial, rfl, rfl, rfl⟩
    refine ⟨st, s', h1, ?_⟩
    rcases h2 with ⟨k1, k2, -⟩ | h3
    · exact Or.inl ⟨k1, k2⟩
    · exact Or.inr h3

/-! ## Instances and counterexamples -/

/-- a matrix with one entry -/
def one (x : Int) : Coo Int :=
  { symmetric := .no, nrow := 1, ncol := 1, nnz := 1, maxNnz := 1, indicesI := [0], indicesJ := [0], values := [x] }

theorem one_fits (x : Int) : Fits (one x) := by
  refine ⟨⟨[(0, 0, x)], rfl, rfl, rfl, rfl, by simp [one], ?_, ?_, ?_, by simp [one], by simp [one], by simp [one], by simp [one], by simp [one]⟩, by simp [one], by simp [one]⟩ <;>
    · intro k h
      have : k = 0 := by simp at h; omega
      subst this
      rfl

/-- Non-trivial instance of C18: a rejected solve, a factorization, a rejected factorization with parameters, a solve, and a solve with
a vector of the wrong size. The library is called three times. -/
example : ∃ (s : Front (Csc Int) (Csc Int) Bool Int), Front.new.run (umfpack Bool false fun _ => "") (fun _ _ => (0, [3]))
    [.solve [0] [6], .factorize () (one 2) (some true), .factorize () (one 4) (some true), .solve [0] [6], .solve [0, 0] [6]] = ok s ∧
    s.calls.length = 3 ∧ Fits (one 2) ∧ Fits (one 4) ∧ (∃ e ∈ s.calls, e.isFact ∧ e.status = 0) := by
  refine ⟨_, rfl, rfl, one_fits 2, one_fits 4, ?_⟩
  exact ⟨_, List.mem_of_getElem? (i := 1) rfl, trivial, rfl⟩

/-- C18 does not hold for a factorization that fails after a successful one: the solver still counts as factorized, and `solve` calls
the library, which has no valid factorization (UMFPACK; the other front-ends have the same code). -/
theorem C18_failed_refactorization_counterexample :
    ∃ (lib : Lib (Csc Int) (Csc Int) Unit Int) (s1 s2 s3 : Front (Csc Int) (Csc Int) Unit Int) (m : Csc Int),
      Front.new.factorize (umfpack Unit () fun _ => "failed") lib () (one 2) none = .ok s1 ∧
      s1.factorize (umfpack Unit () fun _ => "failed") lib () (one 0) none = .err s2 "failed" ∧
      s2.calls.getLast? = some ⟨.factorize () m m, 1⟩ ∧
      s2.solve (umfpack Unit () fun _ => "failed") lib [0] [6] = .ok (s3, [7]) ∧
      s3.calls = s2.calls ++ [⟨.solve m [6], 0⟩] := by
  refine ⟨fun _ c => match c with
    | .factorize _ m _ => if m.values = [0] then (1, []) else (0, [])
    | _ => (0, [7]), _, _, _, _, rfl, rfl, rfl, rfl, rfl⟩

/-- C18, MUMPS: a subsequent factorization with another matrix object is accepted, but the library factorizes the first matrix
again: the values 5 of the second matrix are never read. -/
theorem C18_mumps_other_object_counterexample :
    ∃ (s1 s2 : Front MumpsMat (MumpsView Int) Unit Int) (mem : Mem Int),
      mem 0 = some [2] ∧ mem 1 = some [5] ∧
      Front.new.factorize (mumps Unit () fun _ => "") (fun _ _ => (0, [])) mem ⟨0, one 2⟩ none = .ok s1 ∧
      s1.factorize (mumps Unit () fun _ => "") (fun _ _ => (0, [])) mem ⟨1, one 5⟩ none = .ok s2 ∧
      s2.calls.getLast?.map (fun e => e.call) = some (.factorize () ⟨.no, 1, [1], [1], 0⟩ ⟨[1], [1], some [2]⟩) := by
  refine ⟨_, _, fun p => if p = 0 then some [2] else some [5], rfl, rfl, rfl, rfl, rfl⟩

/-- C18, MUMPS: if the first matrix has been dropped, the library reads through a dangling pointer. -/
theorem C18_mumps_dangling_counterexample :
    ∃ (s1 s2 : Front MumpsMat (MumpsView Int) Unit Int) (mem1 mem2 : Mem Int),
      mem1 0 = some [2] ∧ mem2 0 = none ∧ mem2 1 = some [5] ∧
      Front.new.factorize (mumps Unit () fun _ => "") (fun _ _ => (0, [])) mem1 ⟨0, one 2⟩ none = .ok s1 ∧
      s1.factorize (mumps Unit () fun _ => "") (fun _ _ => (0, [])) mem2 ⟨1, one 5⟩ none = .ok s2 ∧
      s2.calls.getLast?.map (fun e => e.call) = some (.factorize () ⟨.no, 1, [1], [1], 0⟩ ⟨[1], [1], none⟩) := by
  refine ⟨_, _, fun p => if p = 0 then some [2] else none, fun p => if p = 0 then none else some [5], rfl, rfl, rfl, rfl, rfl, rfl⟩

/-- C18, MUMPS: the number of columns is not compared at subsequent factorizations; a rectangular matrix is accepted. -/
theorem C18_mumps_rectangular_counterexample :
    ∃ (s1 s2 : Front MumpsMat (MumpsView Int) Unit Int) (mem : Mem Int) (c : Coo Int), c.nrow = 1 ∧ c.ncol = 2 ∧
      Front.new.factorize (mumps Unit () fun _ => "") (fun _ _ => (0, [])) mem ⟨0, one 2⟩ none = .ok s1 ∧
      s1.factorize (mumps Unit () fun _ => "") (fun _ _ => (0, [])) mem ⟨1, c⟩ none = .ok s2 := by
  refine ⟨_, _, fun _ => none, { one 5 with ncol := 2, indicesJ := [1] }, rfl, rfl, rfl, rfl⟩

/-- what the library has read when the last call is a factorization -/
def lastRead (s : Front M V P α) : Option V :=
  match s.calls.getLast? with
  | some ⟨.factorize _ _ v, _⟩ => some v
  | _ => none

def cudssDemo (c1 c2 : Coo Int) : Option (Res (NumMatrix Int)) :=
  let b : Backend Int (Coo Int) Unit (CudssMat Int) (Csr Int) Unit := cudss Unit () (fun _ => none) fun _ => ""
  match Front.new.factorize b (fun _ _ => (0, [])) () c1 none with
  | .ok s1 => match s1.factorize b (fun _ _ => (0, [])) () c2 none with
    | .ok s2 => (lastRead s2).map Csr.asDense
    | _ => none
  | _ => none

/-- C18, cuDSS: a matrix with the same number of entries at other positions is accepted, but the library reads its values at the
positions of the first matrix: the diagonal matrix `diag(1, 2)` is followed by the matrix with rows `(0, 3)`, `(4, 0)`, and the library
reads `diag(3, 4)`. -/
theorem C18_cudss_pattern_counterexample :
    ∃ c0 c1 c2 : Coo Int, Coo.new 2 2 2 .no = ok c0 ∧ c0.run [.put 0 0 1, .put 1 1 2] = ok c1 ∧
      c0.run [.put 0 1 3, .put 1 0 4] = ok c2 ∧ cudssDemo c1 c2 = some (ok ⟨2, 2, [3, 0, 0, 4]⟩) ∧
      c2.asDense = ok ⟨2, 2, [0, 4, 3, 0]⟩ := by
  refine ⟨_, _, _, rfl, rfl, rfl, ?_, rfl⟩
  decide +kernel

/-! ## Kinds of matrices accepted by the libraries -/

section Kinds

variable {b : Backend α A E M V P} {lib : Lib M V P α}

/-- once initialized, the kind of the first matrix is one the library accepts -/
def KindOk (b : Backend α A E M V P) (s : Front M V P α) : Prop := s.initialized = true → b.rejects s.initSym = none

theorem convert_kind {s : Front M V P α} {a : A} {params : Option P} (h : KindOk b s) :
    (∀ s', s.convert b a params = .ok s' → b.rejects s'.initSym = none) ∧
    (∀ s' msg, s.convert b a params = .err s' msg → KindOk b s') := by
  unfold Front.convert
  dsimp only
  by_cases hi : s.initialized = true
  · rw [if_pos hi]
    split_ifs
    · exact ⟨(by rintro s' h'; cases h'), by rintro s' msg h'; cases h'; exact h⟩
    · exact ⟨(by rintro s' h'; cases h'), by rintro s' msg h'; cases h'; exact h⟩
    · exact ⟨(by rintro s' h'; cases h'), by rintro s' msg h'; cases h'; exact h⟩
    · exact ⟨(by rintro s' h'; cases h'), by rintro s' msg h'; cases h'; exact h⟩
    · cases s.mat with
      | none => exact ⟨(by rintro s' h'; cases h'), by rintro s' msg h'; cases h'⟩
      | some m =>
        dsimp only
        cases b.update m a with
        | ok m' => exact ⟨(by rintro s' h'; cases h'; exact h hi), by rintro s' msg h'; cases h'⟩
        | err m' msg => exact ⟨(by rintro s' h'; cases h'), by rintro s' msg h'; cases h'; exact h⟩
        | panic => exact ⟨(by rintro s' h'; cases h'), by rintro s' msg h'; cases h'⟩
  · rw [if_neg hi]
    split_ifs
    · exact ⟨(by rintro s' h'; cases h'), by rintro s' msg h'; cases h'; exact h⟩
    · exact ⟨(by rintro s' h'; cases h'), by rintro s' msg h'; cases h'; exact h⟩
    · cases hr : b.rejects (b.coo a).symmetric with
      | some msg => exact ⟨(by rintro s' h'; cases h'), by rintro s' msg h'; cases h'; exact h⟩
      | none =>
        dsimp only
        cases b.create a with
        | ok m => exact ⟨(by rintro s' h'; cases h'; exact hr), by rintro s' msg h'; cases h'⟩
        | err msg => exact ⟨(by rintro s' h'; cases h'), by rintro s' msg h'; cases h'; intro _; exact hr⟩
        | panic => exact ⟨(by rintro s' h'; cases h'), by rintro s' msg h'; cases h'⟩

theorem numeric_kind {s : Front M V P α} {env : E} {m : M} {par : P} (h : b.rejects s.initSym = none) :
    (∀ s', s.numeric b lib env m par = .ok s' → KindOk b s') ∧ (∀ s' msg, s.numeric b lib env m par = .err s' msg → KindOk b s') := by
  unfold Front.numeric
  dsimp only
  split_ifs
  · exact ⟨(by rintro s' h'; cases h'), by rintro s' msg h'; cases h'; intro _; exact h⟩
  · exact ⟨(by rintro s' h'; cases h'; intro _; exact h), by rintro s' msg h'; cases h'⟩

theorem symbolic_kind {s : Front M V P α} {env : E} {m : M} {par : P} (h : b.rejects s.initSym = none) :
    (∀ s', s.symbolic b lib env m par = .ok s' → KindOk b s') ∧ (∀ s' msg, s.symbolic b lib env m par = .err s' msg → KindOk b s') := by
  unfold Front.symbolic
  dsimp only
  split_ifs
  · exact numeric_kind h
  · exact ⟨(by rintro s' h'; cases h'), by rintro s' msg h'; cases h'; intro _; exact h⟩
  · exact numeric_kind h

theorem factorize_kind {s : Front M V P α} {env : E} {a : A} {params : Option P} (h : KindOk b s) :
    (∀ s', s.factorize b lib env a params = .ok s' → KindOk b s') ∧
    (∀ s' msg, s.factorize b lib env a params = .err s' msg → KindOk b s') := by
  obtain ⟨k1, k2⟩ := convert_kind (a := a) (params := params) h
  unfold Front.factorize
  cases hc : s.convert b a params with
  | panic => exact ⟨(by rintro s' h'; cases h'), by rintro s' msg h'; cases h'⟩
  | err s1 msg => exact ⟨(by rintro s' h'; cases h'), by rintro s' msg h'; cases h'; exact k2 _ _ hc⟩
  | ok s1 =>
    have k := k1 s1 hc
    dsimp only
    cases s1.mat with
    | none => exact ⟨(by rintro s' h'; cases h'), by rintro s' msg h'; cases h'⟩
    | some m =>
      dsimp only
      cases b.parErr (params.getD b.dflt) with
      | some msg => exact ⟨(by rintro s' h'; cases h'), by rintro s' msg h'; cases h'; intro _; exact k⟩
      | none =>
        dsimp only
        split
        · exact symbolic_kind k
        · exact ⟨(by rintro s' h'; cases h'), by rintro s' msg h'; cases h'⟩

theorem solve_kind {s : Front M V P α} {x rhs : List α} (h : KindOk b s) :
    (∀ s', s.solve b lib x rhs = .ok s' → KindOk b s'.1) ∧ (∀ s' msg, s.solve b lib x rhs = .err s' msg → KindOk b s'.1) := by
  unfold Front.solve
  by_cases hf : (!s.factorized) = true
  · rw [if_pos hf]
    exact ⟨(by rintro s' h'; cases h'), by rintro s' msg h'; cases h'; exact h⟩
  · rw [if_neg hf]
    cases s.mat with
    | none => exact ⟨(by rintro s' h'; cases h'), by rintro s' msg h'; cases h'⟩
    | some m =>
      dsimp only
      split_ifs
      · exact ⟨(by rintro s' h'; cases h'), by rintro s' msg h'; cases h'; exact h⟩
      · exact ⟨(by rintro s' h'; cases h'), by rintro s' msg h'; cases h'; exact h⟩
      · exact ⟨(by rintro s' h'; cases h'), by rintro s' msg h'; cases h'; exact h⟩
      · exact ⟨(by rintro s' h'; cases h'; exact h), by rintro s' msg h'; cases h'⟩

theorem run_kind (ops : List (Op A E P α)) {s s' : Front M V P α} (h : KindOk b s) (hr : s.run b lib ops = ok s') : KindOk b s' := by
  induction ops generalizing s with
  | nil => cases hr; exact h
  | cons o ops ih =>
    rw [Front.run, forList] at hr
    obtain ⟨s1, h1, h2⟩ := Res.bind_eq_ok.1 hr
    refine ih ?_ h2
    unfold Front.step at h1
    cases o with
    | factorize env a params =>
      obtain ⟨k1, k2⟩ := factorize_kind (lib := lib) (env := env) (a := a) (params := params) h
      dsimp only at h1
      cases hf : s.factorize b lib env a params with
      | panic => rw [hf] at h1; cases h1
      | err s2 msg => rw [hf] at h1; cases h1; exact k2 _ _ hf
      | ok s2 => rw [hf] at h1; cases h1; exact k1 _ hf
    | solve x rhs =>
      obtain ⟨k1, k2⟩ := solve_kind (lib := lib) (x := x) (rhs := rhs) h
      dsimp only at h1
      cases hf : s.solve b lib x rhs with
      | panic => rw [hf] at h1; cases h1
      | err s2 msg => rw [hf] at h1; cases h1; exact k2 _ _ hf
      | ok s2 => rw [hf] at h1; cases h1; exact k1 _ hf

theorem factorize_rejects {ops : List (Op A E P α)} {s : Front M V P α} (hr : Front.new.run b lib ops = ok s) (env : E) (a : A)
    (params : Option P) (h : b.rejects (b.coo a).symmetric ≠ none) : ∃ msg, s.factorize b lib env a params = .err s msg := by
  have hk := run_kind ops (s := Front.new) (by intro h; cases h) hr
  cases hi : s.initialized with
  | false => exact factorize_unsuitable env s a params hi (Or.inr (Or.inr h))
  | true => exact factorize_mismatch env s a params hi (Or.inl (by intro h'; rw [h'] at h; exact h (hk hi)))

end Kinds

/-- C18 (kinds): UMFPACK gets full matrices only, MUMPS and cuDSS get general matrices or lower triangles only: at any time, a matrix of
another kind is rejected, without a call to the library and without a change of the solver. -/
theorem C18_kinds [Zero α] [Add α] (P : Type) (dflt : P) (parErr : P → Option String) (errMsg : Int → String) (params : Option P) :
    (∀ lib ops s (a : Coo α), Front.new.run (umfpack P dflt errMsg) lib ops = ok s → a.symmetric = .yesLower ∨ a.symmetric = .yesUpper →
      ∃ msg, s.factorize (umfpack P dflt errMsg) lib () a params = .err s msg) ∧
    (∀ lib ops s (a : Coo α), Front.new.run (cudss P dflt parErr errMsg) lib ops = ok s → a.symmetric = .yesFull ∨ a.symmetric = .yesUpper →
      ∃ msg, s.factorize (cudss P dflt parErr errMsg) lib () a params = .err s msg) ∧
    (∀ lib ops s (a : CooAt α) mem, Front.new.run (mumps P dflt errMsg) lib ops = ok s →
      a.coo.symmetric = .yesFull ∨ a.coo.symmetric = .yesUpper → ∃ msg, s.factorize (mumps P dflt errMsg) lib mem a params = .err s msg) := by
  refine ⟨?_, ?_, ?_⟩
  · intro lib ops s a hr h
    refine factorize_rejects hr _ _ _ ?_
    rcases h with h | h <;> simp [umfpack, h]
  · intro lib ops s a hr h
    refine factorize_rejects hr _ _ _ ?_
    rcases h with h | h <;> simp [cudss, h]
  · intro lib ops s a mem hr h
    refine factorize_rejects hr _ _ _ ?_
    rcases h with h | h <;> simp [mumps, h]

/-- Non-trivial instance: after a factorization a triangular matrix of the same size arrives. -/
example : ∃ (s : Front (Csc Int) (Csc Int) Bool Int), Front.new.run (umfpack Bool false fun _ => "") (fun _ _ => (0, [3]))
    [.factorize () (one 2) none] = ok s ∧ s.calls.length = 2 ∧ ({ one 2 with symmetric := .yesLower } : Coo Int).symmetric = .yesLower :=
  ⟨_, rfl, rfl, rfl⟩

end Solver

end Russell.Sparse
