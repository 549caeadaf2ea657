import Verif.Lab.Durations
import Verif.Sparse.Solver
import Verif.Pde.Fdm

/-!
# Options and error messages of the linear solvers (property C106)

Models of the enumerations (russell_sparse/src/enums.rs), of the numbers that the three solvers hand to the C code and of the names they
report, of the error messages and of `is_memory_error`.

Simplifications: texts are lists of characters; `to_lowercase` is modelled on ASCII letters only.
-/

namespace Russell.Sparse

open Russell Russell.Res Russell.Lab
open Russell.Pde (Genie)

/-! ## Enumerations -/

/-- `enum Ordering` (/repo/russell_sparse/src/enums.rs:71-152) -/
inductive Ordering where
  | amd | amf | auto | best | btfColamd | cholmod | colamd | metis | no | pord | qamd | scotch
  deriving DecidableEq, Repr

/-- `enum Scaling` (/repo/russell_sparse/src/enums.rs:159-226) -/
inductive Scaling where
  | auto | column | diagonal | max | no | rowCol | rowColIter | rowColRig | sum
  deriving DecidableEq, Repr

/-- `enum Matching` (/repo/russell_sparse/src/enums.rs:233-275) -/
inductive Matching where
  | none | auto | maxDiagCount | maxMinDiag | maxMinDiagAlt | maxDiagSum | maxDiagProduct
  deriving DecidableEq, Repr

/-- `enum Pivoting` (/repo/russell_sparse/src/enums.rs:282-332) -/
inductive Pivoting where
  | auto | none | globalCol | globalRow | diagonal | localBlock
  deriving DecidableEq, Repr

/-- the list of the characters of a string literal -/
syntax (name := charsLit) "chars!" str : term

macro_rules
  | `(chars! $s:str) => do
    let cs := (s.getString.toList.map Lean.Syntax.mkCharLit).toArray
    `(([$cs,*] : List Char))

/-- `str::to_lowercase` on ASCII letters -/
def lowercase (s : List Char) : List Char := s.map Char.toLower

/-- the first entry of a table with the given key, or the default: a `match` on literals with a final `_` -/
def lookupOr {κ β : Type} [DecidableEq κ] (k : κ) (dflt : β) : List (κ × β) → β
  | [] => dflt
  | (a, b) :: t => if k = a then b else lookupOr k dflt t

/-- `Genie::from` (/repo/russell_sparse/src/enums.rs:336-343) -/
def genieFrom (s : List Char) : Genie :=
  lookupOr (lowercase s) .Umfpack [(chars! "cudss", .Cudss), (chars! "mumps", .Mumps), (chars! "umfpack", .Umfpack)]

/-- `Genie::to_string` (/repo/russell_sparse/src/enums.rs:346-352) -/
def genieText : Genie → List Char
  | .Cudss => chars! "cudss"
  | .Mumps => chars! "mumps"
  | .Umfpack => chars! "umfpack"

/-- `Sym::yes` (/repo/russell_sparse/src/enums.rs:379-381) -/
def Sym.yes (s : Sym) : Bool := decide (s ≠ .no)

/-- `Ordering::from` (/repo/russell_sparse/src/enums.rs:391-406) -/
def Ordering.from (s : List Char) : Ordering :=
  lookupOr (lowercase s) .auto [(chars! "amd", .amd), (chars! "amf", .amf), (chars! "auto", .auto), (chars! "best", .best),
    (chars! "cholmod", .cholmod), (chars! "colamd", .colamd), (chars! "metis", .metis), (chars! "no", .no), (chars! "pord", .pord),
    (chars! "qamd", .qamd), (chars! "scotch", .scotch)]

/-- `Scaling::from` (/repo/russell_sparse/src/enums.rs:411-424) -/
def Scaling.from (s : List Char) : Scaling :=
  lookupOr (lowercase s) .auto [(chars! "auto", .auto), (chars! "column", .column), (chars! "diagonal", .diagonal),
    (chars! "max", .max), (chars! "no", .no), (chars! "rowcol", .rowCol), (chars! "rowcoliter", .rowColIter),
    (chars! "rowcolrig", .rowColRig), (chars! "sum", .sum)]

/-- `Matching::from` (/repo/russell_sparse/src/enums.rs:429-440) -/
def Matching.from (s : List Char) : Matching :=
  lookupOr (lowercase s) .none [(chars! "none", .none), (chars! "auto", .auto), (chars! "maxdiagcount", .maxDiagCount),
    (chars! "maxmindiag", .maxMinDiag), (chars! "maxmindiagalt", .maxMinDiagAlt), (chars! "maxdiagsum", .maxDiagSum),
    (chars! "maxdiagproduct", .maxDiagProduct)]

/-- `Pivoting::from` (/repo/russell_sparse/src/enums.rs:445-455) -/
def Pivoting.from (s : List Char) : Pivoting :=
  lookupOr (lowercase s) .auto [(chars! "auto", .auto), (chars! "none", .none), (chars! "globalcol", .globalCol),
    (chars! "globalrow", .globalRow), (chars! "diagonal", .diagonal), (chars! "localblock", .localBlock)]

/-! ## Names of the options: the derived `Debug` texts, i.e. the names of the variants in the source -/

def Ordering.name : Ordering → List Char
  | .amd => chars! "Amd" | .amf => chars! "Amf" | .auto => chars! "Auto" | .best => chars! "Best" | .btfColamd => chars! "BtfColamd"
  | .cholmod => chars! "Cholmod" | .colamd => chars! "Colamd" | .metis => chars! "Metis" | .no => chars! "No" | .pord => chars! "Pord"
  | .qamd => chars! "Qamd" | .scotch => chars! "Scotch"

def Scaling.name : Scaling → List Char
  | .auto => chars! "Auto" | .column => chars! "Column" | .diagonal => chars! "Diagonal" | .max => chars! "Max" | .no => chars! "No"
  | .rowCol => chars! "RowCol" | .rowColIter => chars! "RowColIter" | .rowColRig => chars! "RowColRig" | .sum => chars! "Sum"

def Matching.name : Matching → List Char
  | .none => chars! "None" | .auto => chars! "Auto" | .maxDiagCount => chars! "MaxDiagCount" | .maxMinDiag => chars! "MaxMinDiag"
  | .maxMinDiagAlt => chars! "MaxMinDiagAlt" | .maxDiagSum => chars! "MaxDiagSum" | .maxDiagProduct => chars! "MaxDiagProduct"

def Pivoting.name : Pivoting → List Char
  | .auto => chars! "Auto" | .none => chars! "None" | .globalCol => chars! "GlobalCol" | .globalRow => chars! "GlobalRow"
  | .diagonal => chars! "Diagonal" | .localBlock => chars! "LocalBlock"

/-! ## The numbers handed to the C code, and the names reported afterwards -/

/-- `mumps_ordering` (/repo/russell_sparse/src/solver_mumps.rs:444-450, 460-475) -/
def mumpsOrdering : Ordering → Int
  | .amd => 0 | .amf => 2 | .auto => 7 | .best => 7 | .btfColamd => 7 | .cholmod => 7 | .colamd => 7 | .metis => 5 | .no => 7 | .pord => 4
  | .qamd => 6 | .scotch => 3

/-- the name of the effective ordering in `update_stats` (/repo/russell_sparse/src/solver_mumps.rs:393-402) -/
def mumpsOrderingName (code : Int) : List Char :=
  lookupOr code (chars! "Unknown") [(0, chars! "Amd"), (2, chars! "Amf"), (7, chars! "Auto"), (5, chars! "Metis"), (4, chars! "Pord"),
    (6, chars! "Qamd"), (3, chars! "Scotch")]

/-- `mumps_scaling` (/repo/russell_sparse/src/solver_mumps.rs:452-458, 477-489) -/
def mumpsScaling : Scaling → Int
  | .auto => 77 | .column => 3 | .diagonal => 1 | .max => 77 | .no => 0 | .rowCol => 4 | .rowColIter => 7 | .rowColRig => 8 | .sum => 77

/-- the name of the effective scaling in `update_stats` (/repo/russell_sparse/src/solver_mumps.rs:403-413) -/
def mumpsScalingName (code : Int) : List Char :=
  lookupOr code (chars! "Unknown") [(77, chars! "Auto"), (3, chars! "Column"), (1, chars! "Diagonal"), (0, chars! "No"),
    (4, chars! "RowCol"), (7, chars! "RowColIter"), (8, chars! "RowColRig"), (-2, chars! "Scaling done during analysis")]

/-- `umfpack_ordering` (/repo/russell_sparse/src/solver_umfpack.rs:444-449, 457-472) -/
def umfpackOrdering : Ordering → Int
  | .amd => 1 | .amf => 1 | .auto => 1 | .best => 4 | .btfColamd => 1 | .cholmod => 0 | .colamd => 0 | .metis => 3 | .no => 5 | .pord => 1
  | .qamd => 1 | .scotch => 1

/-- the name of the effective ordering in `update_stats` (/repo/russell_sparse/src/solver_umfpack.rs:399-406) -/
def umfpackOrderingName (code : Int) : List Char :=
  lookupOr code (chars! "Unknown") [(0, chars! "Cholmod"), (1, chars! "Amd"), (3, chars! "Metis"), (4, chars! "Best"), (5, chars! "No")]

/-- `umfpack_scaling` (/repo/russell_sparse/src/solver_umfpack.rs:451-454, 475-487) -/
def umfpackScaling : Scaling → Int
  | .auto => 1 | .column => 1 | .diagonal => 1 | .max => 2 | .no => 0 | .rowCol => 1 | .rowColIter => 1 | .rowColRig => 1 | .sum => 1

/-- the name of the effective scaling in `update_stats` (/repo/russell_sparse/src/solver_umfpack.rs:407-412) -/
def umfpackScalingName (code : Int) : List Char :=
  lookupOr code (chars! "Unknown") [(0, chars! "No"), (1, chars! "Sum"), (2, chars! "Max")]

/-- `cudss_ordering` (/repo/russell_sparse/src/solver_cudss.rs:417-440) -/
def cudssOrdering : Ordering → Int
  | .amd => 3 | .amf => 0 | .auto => 0 | .best => 0 | .btfColamd => 1 | .cholmod => 0 | .colamd => 2 | .metis => 4 | .no => 5 | .pord => 0
  | .qamd => 0 | .scotch => 0

/-- `cudss_matching` (/repo/russell_sparse/src/solver_cudss.rs:450-469) -/
def cudssMatching : Matching → Int
  | .none => 0 | .auto => 6 | .maxDiagCount => 1 | .maxMinDiag => 2 | .maxMinDiagAlt => 3 | .maxDiagSum => 4 | .maxDiagProduct => 5

/-- the name of the effective matching in `update_stats` (/repo/russell_sparse/src/solver_cudss.rs:370-379) -/
def cudssMatchingName (code : Int) : List Char :=
  lookupOr code (chars! "Unknown") [(0, chars! "None"), (6, chars! "Auto"), (1, chars! "MaxDiagCount"), (2, chars! "MaxMinDiag"),
    (3, chars! "MaxMinDiagAlt"), (4, chars! "MaxDiagSum"), (5, chars! "MaxDiagProduct")]

/-- `cudss_pivoting` (/repo/russell_sparse/src/solver_cudss.rs:479-496) -/
def cudssPivoting : Pivoting → Int
  | .auto => 0 | .none => 1 | .globalCol => 2 | .globalRow => 3 | .diagonal => 4 | .localBlock => 5

/-- the name of the effective pivoting in `update_stats` (/repo/russell_sparse/src/solver_cudss.rs:382-390) -/
def cudssPivotingName (code : Int) : List Char :=
  lookupOr code (chars! "Unknown") [(0, chars! "Auto"), (1, chars! "None"), (2, chars! "GlobalCol"), (3, chars! "GlobalRow"),
    (4, chars! "Diagonal"), (5, chars! "LocalBlock")]

/-! ## Error messages -/

/-- the entries of `handle_mumps_error_code` (/repo/russell_sparse/src/solver_mumps.rs:491-572) -/
def mumpsErrors : List (Int × List Char) := [
  (-1, chars! "Error(-1): error on some processor"),
  (-2, chars! "Error(-2): nnz is out of range"),
  (-3, chars! "Error(-3): solver called with an invalid job value"),
  (-4, chars! "Error(-4): error in user-provided permutation array"),
  (-5, chars! "Error(-5): problem with real workspace allocation during analysis"),
  (-6, chars! "Error(-6): matrix is singular in structure"),
  (-7, chars! "Error(-7): problem with integer workspace allocation during analysis"),
  (-8, chars! "Error(-8): internal integer work array is too small for factorization"),
  (-9, chars! "Error(-9): internal real/complex work array is too small"),
  (-10, chars! "Error(-10): numerically singular matrix"),
  (-11, chars! "Error(-11): real/complex work array or lwk user is too small for solution"),
  (-12, chars! "Error(-12): real/complex work array is too small for iterative refinement"),
  (-13, chars! "Error(-13): problem with workspace allocation during factorization or solution"),
  (-14, chars! "Error(-14): integer work array is too small for solution"),
  (-15, chars! "Error(-15): integer work array is too small for iterative refinement and/or error analysis"),
  (-16, chars! "Error(-16): n is out of range"),
  (-17, chars! "Error(-17): internal send buffer is too small."),
  (-18, chars! "Error(-18): blocking size for multiple rhs is too large"),
  (-19, chars! "Error(-19): maximum allowed size of working memory is too small for the factorization"),
  (-20, chars! "Error(-20): reception buffer is too small"),
  (-21, chars! "Error(-21): value of par=0 is not allowed"),
  (-22, chars! "Error(-22): problem with a pointer array provided by the user"),
  (-23, chars! "Error(-23): mpi was not initialized"),
  (-24, chars! "Error(-24): nelt is out of range"),
  (-25, chars! "Error(-25): problem with the initialization of BLACS"),
  (-26, chars! "Error(-26): lrhs is out of range"),
  (-27, chars! "Error(-27): nz rhs and irhs ptr(nrhs+1) do not match"),
  (-28, chars! "Error(-28): irhs ptr(1) is not equal to 1"),
  (-29, chars! "Error(-29): lsol loc is smaller than required"),
  (-30, chars! "Error(-30): Schur lld is out of range"),
  (-31, chars! "Error(-31): block cyclic symmetric Schur complement is required"),
  (-32, chars! "Error(-32): incompatible values of nrhs"),
  (-33, chars! "Error(-33): ICNTL(26) was asked for during solve/factorization phase"),
  (-34, chars! "Error(-34): lredrhs is out of range"),
  (-35, chars! "Error(-35): problem with the expansion phase"),
  (-36, chars! "Error(-36): incompatible values of ICNTL(25) and INFOG(28)"),
  (-37, chars! "Error(-37): value of ICNTL(25) is invalid"),
  (-38, chars! "Error(-38): parallel analysis requires PT-SCOTCH or ParMetis"),
  (-39, chars! "Error(-39): incompatible values for ICNTL(28), ICNTL(5) and/or ICNTL(19) and/or ICNTL(6)"),
  (-40, chars! "Error(-40): the matrix is not positive definite as assumed"),
  (-41, chars! "Error(-41): incompatible value of lwk user from factorization to solution"),
  (-42, chars! "Error(-42): incompatible ICNTL(32) value"),
  (-43, chars! "Error(-43): Incompatible values of ICNTL(32) and ICNTL(xx)"),
  (-44, chars! "Error(-44): the solve phase (JOB=3) cannot be performed"),
  (-45, chars! "Error(-45): nrhs less than 0"),
  (-46, chars! "Error(-46): nz rhs less than 0"),
  (-47, chars! "Error(-47): problem with entries of A-1"),
  (-48, chars! "Error(-48): A-1 incompatible values of ICNTL(30) and ICNTL(xx)"),
  (-49, chars! "Error(-49): size Schur has an incorrect value"),
  (-50, chars! "Error(-50): problem with fill-reducing ordering during analysis"),
  (-51, chars! "Error(-51): problem with external ordering (Metis/ParMetis, SCOTCH/PT-SCOTCH, PORD)"),
  (-52, chars! "Error(-52): problem with default Fortran integers"),
  (-53, chars! "Error(-53): inconsistent input data between two consecutive calls"),
  (-54, chars! "Error(-54): incompatible ICNTL(35)=0"),
  (-55, chars! "Error(-55): problem with solution and distributed right-hand side"),
  (-56, chars! "Error(-56): problem with solution and distributed right-hand side"),
  (-70, chars! "Error(-70): problem with the file to save the current instance"),
  (-71, chars! "Error(-71): problem with the creation of one of the files"),
  (-72, chars! "Error(-72): error while saving data"),
  (-73, chars! "Error(-73): problem with incompatible parameter of the current instance"),
  (-74, chars! "Error(-74): problem with output file"),
  (-75, chars! "Error(-75): error while restoring data"),
  (-76, chars! "Error(-76): error while deleting the files"),
  (-77, chars! "Error(-77): neither save dir nor the environment variable are defined."),
  (-78, chars! "Error(-78): problem of workspace allocation during the restore step"),
  (-79, chars! "Error(-79): problem with the file unit used to open the save/restore file"),
  (-90, chars! "Error(-90): error in out-of-core management"),
  (-800, chars! "Error(-800): temporary error associated to the current release"),
  (1, chars! "Error(+1): index (in irn or jcn) is out of range"),
  (2, chars! "Error(+2): during error analysis the max-norm of the computed solution is close to zero"),
  (4, chars! "Error(+4): not used in current version"),
  (8, chars! "Error(+8): problem with the iterative refinement routine"),
  (100000, chars! "MUMPS failed due to NULL POINTER error"),
  (200000, chars! "MUMPS failed due to MALLOC error"),
  (300000, chars! "MUMPS failed due to VERSION error"),
  (400000, chars! "MUMPS is not AVAILABLE"),
  (500000, chars! "MUMPS failed because INITIALIZATION is needed"),
  (600000, chars! "MUMPS failed because FACTORIZATION is needed"),
  (700000, chars! "MUMPS failed because INITIALIZATION has been completed already")]

/-- the entries of `handle_umfpack_error_code` (/repo/russell_sparse/src/solver_umfpack.rs:490-513) -/
def umfpackErrors : List (Int × List Char) := [
  (1, chars! "Error(1): Matrix is singular"),
  (2, chars! "Error(2): The determinant is nonzero, but smaller than allowed"),
  (3, chars! "Error(3): The determinant is larger than allowed"),
  (-1, chars! "Error(-1): Not enough memory"),
  (-3, chars! "Error(-3): Invalid numeric object"),
  (-4, chars! "Error(-4): Invalid symbolic object"),
  (-5, chars! "Error(-5): Argument missing"),
  (-6, chars! "Error(-6): Nrow or ncol must be greater than zero"),
  (-8, chars! "Error(-8): Invalid matrix"),
  (-11, chars! "Error(-11): Different pattern"),
  (-13, chars! "Error(-13): Invalid system"),
  (-15, chars! "Error(-15): Invalid permutation"),
  (-17, chars! "Error(-17): Failed to save/load file"),
  (-18, chars! "Error(-18): Ordering method failed"),
  (-911, chars! "Error(-911): An internal error has occurred"),
  (100000, chars! "UMFPACK failed due to NULL POINTER error"),
  (200000, chars! "UMFPACK failed due to MALLOC error"),
  (300000, chars! "UMFPACK failed due to VERSION error"),
  (400000, chars! "UMFPACK is not AVAILABLE"),
  (500000, chars! "UMFPACK failed because INITIALIZATION is needed"),
  (600000, chars! "UMFPACK failed because FACTORIZATION is needed"),
  (700000, chars! "UMFPACK failed because INITIALIZATION has been completed already")]

/-- the entries of `handle_cudss_error_code` (/repo/russell_sparse/src/solver_cudss.rs:523-560) -/
def cudssErrors : List (Int × List Char) := [
  (100, chars! "cudaMalloc failed in the C code (cuDSS)"),
  (200, chars! "cudaMemcpy failed in the C code (cuDSS)"),
  (300, chars! "cudaStreamSynchronize failed in the C code (cuDSS)"),
  (400, chars! "cudssConfigSet failed in the C code (cuDSS)"),
  (450, chars! "cudssConfigGet failed in the C code (cuDSS)"),
  (500, chars! "cudssMatrixCreateDn failed in the C code (cuDSS)"),
  (550, chars! "cudssMatrixSetValues failed in the C code (cuDSS)"),
  (600, chars! "cudssMatrixCreateCsr failed in the C code (cuDSS)"),
  (1000, chars! "cuDSS device-side error (check CUDSS_DATA_INFO for details)"),
  (701, chars! "cuDSS symbolic factorization failed: CUDSS_STATUS_NOT_INITIALIZED"),
  (702, chars! "cuDSS symbolic factorization failed: CUDSS_STATUS_ALLOC_FAILED"),
  (703, chars! "cuDSS symbolic factorization failed: CUDSS_STATUS_INVALID_VALUE"),
  (704, chars! "cuDSS symbolic factorization failed: CUDSS_STATUS_NOT_SUPPORTED"),
  (705, chars! "cuDSS symbolic factorization failed: CUDSS_STATUS_EXECUTION_FAILED"),
  (706, chars! "cuDSS symbolic factorization failed: CUDSS_STATUS_INTERNAL_ERROR"),
  (707, chars! "cuDSS symbolic factorization failed: CUDSS_STATUS_IR_FAILED"),
  (801, chars! "cuDSS numeric factorization failed: CUDSS_STATUS_NOT_INITIALIZED"),
  (802, chars! "cuDSS numeric factorization failed: CUDSS_STATUS_ALLOC_FAILED"),
  (803, chars! "cuDSS numeric factorization failed: CUDSS_STATUS_INVALID_VALUE"),
  (804, chars! "cuDSS numeric factorization failed: CUDSS_STATUS_NOT_SUPPORTED"),
  (805, chars! "cuDSS numeric factorization failed: CUDSS_STATUS_EXECUTION_FAILED"),
  (806, chars! "cuDSS numeric factorization failed: CUDSS_STATUS_INTERNAL_ERROR"),
  (807, chars! "cuDSS numeric factorization failed: CUDSS_STATUS_IR_FAILED"),
  (901, chars! "cuDSS solve failed: CUDSS_STATUS_NOT_INITIALIZED"),
  (902, chars! "cuDSS solve failed: CUDSS_STATUS_ALLOC_FAILED"),
  (903, chars! "cuDSS solve failed: CUDSS_STATUS_INVALID_VALUE"),
  (904, chars! "cuDSS solve failed: CUDSS_STATUS_NOT_SUPPORTED"),
  (905, chars! "cuDSS solve failed: CUDSS_STATUS_EXECUTION_FAILED"),
  (906, chars! "cuDSS solve failed: CUDSS_STATUS_INTERNAL_ERROR"),
  (907, chars! "cuDSS solve failed: CUDSS_STATUS_IR_FAILED")]

/-- `handle_mumps_error_code` (/repo/russell_sparse/src/solver_mumps.rs:491-575) -/
def handleMumpsErrorCode (e : Int) : List Char := lookupOr e (chars! "Error: unknown error returned by c-code (MUMPS)") mumpsErrors

/-- `handle_umfpack_error_code` (/repo/russell_sparse/src/solver_umfpack.rs:490-516) -/
def handleUmfpackErrorCode (e : Int) : List Char := lookupOr e (chars! "Error: unknown error returned by c-code (UMFPACK)") umfpackErrors

/-- `handle_cudss_error_code` (/repo/russell_sparse/src/solver_cudss.rs:523-563) -/
def handleCudssErrorCode (e : Int) : List Char := lookupOr e (chars! "Error: unknown error returned by c-code (cuDSS)") cudssErrors

/-- `str::contains` -/
def containsText (pat : List Char) : List Char → Bool
  | [] => pat.isEmpty
  | c :: cs => pat.isPrefixOf (c :: cs) || containsText pat cs

/-- `is_memory_error` (/repo/russell_sparse/src/stats_lin_sol.rs:334-340) -/
def isMemoryError (e : List Char) : Bool :=
  containsText (chars! "MALLOC") e || containsText (chars! "Not enough memory") e || containsText (chars! "ALLOC_FAILED") e ||
    containsText (chars! "cudaMalloc") e || containsText (chars! "memory is too small") e

/-! ## Tables -/

theorem lookupOr_cases {κ β : Type} [DecidableEq κ] (k : κ) (d : β) (t : List (κ × β)) :
    (lookupOr k d t = d ∧ ∀ p ∈ t, p.1 ≠ k) ∨ (k, lookupOr k d t) ∈ t := by
  induction t with
  | nil => left; exact ⟨rfl, by simp⟩
  | cons p t ih =>
    obtain ⟨a, b⟩ := p
    rw [lookupOr]
    by_cases h : k = a
    · right; rw [if_pos h, h]; simp
    · rw [if_neg h]
      rcases ih with ⟨h1, h2⟩ | h1
      · left
        refine ⟨h1, ?_⟩
        intro p hp
        rcases List.mem_cons.1 hp with rfl | hp
        · exact fun e => h e.symm
        · exact h2 p hp
      · right; exact List.mem_cons_of_mem _ h1

/-- a table of names read by `lookupOr` -/
theorem lookupOr_names {κ β : Type} [DecidableEq κ] (nm : β → κ) (P : β → Prop) (k : κ) (d : β) (t : List (κ × β))
    (h1 : ∀ p ∈ t, p.1 = nm p.2) (h2 : ∀ p ∈ t, P p.2) (h3 : ∀ y, P y → (nm y, y) ∈ t) (hinj : ∀ x y, nm x = nm y → x = y) (x : β) :
    lookupOr k d t = x ↔ (P x ∧ k = nm x) ∨ (x = d ∧ ∀ y, P y → k ≠ nm y) := by
  rcases lookupOr_cases k d t with ⟨e, hn⟩ | hm
  · have hk : ∀ y, P y → k ≠ nm y := fun y hy e => hn _ (h3 y hy) e.symm
    rw [e]
    constructor
    · rintro rfl; exact Or.inr ⟨rfl, hk⟩
    · rintro (⟨hx, h⟩ | ⟨h, -⟩)
      · exact absurd h (hk x hx)
      · exact h.symm
  · have e1 : k = nm (lookupOr k d t) := h1 _ hm
    have e2 : P (lookupOr k d t) := h2 _ hm
    constructor
    · rintro rfl; exact Or.inl ⟨e2, e1⟩
    · rintro (⟨-, h⟩ | ⟨-, h⟩)
      · exact hinj _ _ (e1.symm.trans h)
      · exact absurd e1 (h _ e2)

/-- C106: the options are selected by name: a text selects an option if and only if it is the name of the option up to the case of the
letters, and the default otherwise -/
theorem C106_options_by_name (s : List Char) :
    (∀ x, Scaling.from s = x ↔ lowercase s = lowercase x.name ∨ (x = .auto ∧ ∀ y : Scaling, lowercase s ≠ lowercase y.name)) ∧
    (∀ x, Matching.from s = x ↔ lowercase s = lowercase x.name ∨ (x = .none ∧ ∀ y : Matching, lowercase s ≠ lowercase y.name)) ∧
    (∀ x, Pivoting.from s = x ↔ lowercase s = lowercase x.name ∨ (x = .auto ∧ ∀ y : Pivoting, lowercase s ≠ lowercase y.name)) ∧
    (∀ x, genieFrom s = x ↔ lowercase s = lowercase (genieText x) ∨ (x = .Umfpack ∧ ∀ y : Genie, lowercase s ≠ lowercase (genieText y))) ∧
    (∀ x, x ≠ .btfColamd → (Ordering.from s = x ↔ lowercase s = lowercase x.name ∨
      (x = .auto ∧ ∀ y : Ordering, y ≠ .btfColamd → lowercase s ≠ lowercase y.name))) := by
  refine ⟨fun x => ?_, fun x => ?_, fun x => ?_, fun x => ?_, fun x hx => ?_⟩
  · have := lookupOr_names (fun y : Scaling => lowercase y.name) (fun _ => True) (lowercase s) .auto
      [(chars! "auto", .auto), (chars! "column", .column), (chars! "diagonal", .diagonal),
        (chars! "max", .max), (chars! "no", .no), (chars! "rowcol", .rowCol), (chars! "rowcoliter", .rowColIter),
        (chars! "rowcolrig", .rowColRig), (chars! "sum", .sum)] (by decide +kernel) (by simp)
      (fun y _ => by cases y <;> decide +kernel) (fun x y => by cases x <;> cases y <;> decide +kernel) x
    rw [Scaling.from, this]
    simp only [true_and, forall_const, ne_eq]
  · have := lookupOr_names (fun y : Matching => lowercase y.name) (fun _ => True) (lowercase s) .none
      [(chars! "none", .none), (chars! "auto", .auto), (chars! "maxdiagcount", .maxDiagCount),
        (chars! "maxmindiag", .maxMinDiag), (chars! "maxmindiagalt", .maxMinDiagAlt), (chars! "maxdiagsum", .maxDiagSum),
        (chars! "maxdiagproduct", .maxDiagProduct)] (by decide +kernel) (by simp)
      (fun y _ => by cases y <;> decide +kernel) (fun x y => by cases x <;> cases y <;> decide +kernel) x
    rw [Matching.from, this]
    simp only [true_and, forall_const, ne_eq]
  · have := lookupOr_names (fun y : Pivoting => lowercase y.name) (fun _ => True) (lowercase s) .auto
      [(chars! "auto", .auto), (chars! "none", .none), (chars! "globalcol", .globalCol),
        (chars! "globalrow", .globalRow), (chars! "diagonal", .diagonal), (chars! "localblock", .localBlock)] (by decide +kernel) (by simp)
      (fun y _ => by cases y <;> decide +kernel) (fun x y => by cases x <;> cases y <;> decide +kernel) x
    rw [Pivoting.from, this]
    simp only [true_and, forall_const, ne_eq]
  · have := lookupOr_names (fun y : Genie => lowercase (genieText y)) (fun _ => True) (lowercase s) .Umfpack
      [(chars! "cudss", .Cudss), (chars! "mumps", .Mumps), (chars! "umfpack", .Umfpack)] (by decide +kernel) (by simp)
      (fun y _ => by cases y <;> decide +kernel) (fun x y => by cases x <;> cases y <;> decide +kernel) x
    rw [genieFrom, this]
    simp only [true_and, forall_const, ne_eq]
  · have := lookupOr_names (fun y : Ordering => lowercase y.name) (fun y => y ≠ .btfColamd) (lowercase s) .auto
      [(chars! "amd", .amd), (chars! "amf", .amf), (chars! "auto", .auto), (chars! "best", .best),
        (chars! "cholmod", .cholmod), (chars! "colamd", .colamd), (chars! "metis", .metis), (chars! "no", .no), (chars! "pord", .pord),
        (chars! "qamd", .qamd), (chars! "scotch", .scotch)] (by decide +kernel) (by decide +kernel)
      (fun y hy => by cases y <;> first | exact absurd rfl hy | decide +kernel) (fun x y => by cases x <;> cases y <;> decide +kernel) x
    rw [Ordering.from, this]
    simp only [hx, ne_eq, not_false_eq_true, true_and]

example : Scaling.from (chars! "RowColIter") = .rowColIter ∧ Ordering.from (chars! "METIS") = .metis ∧ genieFrom (chars! "pardiso") = .Umfpack := by
  decide +kernel

/-- C106 (deviation): the ordering `BtfColamd` cannot be selected by name; its own name selects `Auto` -/
theorem C106_ordering_by_name_counterexample :
    (∀ s, Ordering.from s ≠ .btfColamd) ∧ Ordering.from Ordering.btfColamd.name = .auto := by
  refine ⟨fun s h => ?_, by decide +kernel⟩
  rcases lookupOr_cases (lowercase s) Ordering.auto [(chars! "amd", .amd), (chars! "amf", .amf), (chars! "auto", .auto), (chars! "best", .best),
    (chars! "cholmod", .cholmod), (chars! "colamd", .colamd), (chars! "metis", .metis), (chars! "no", .no), (chars! "pord", .pord),
    (chars! "qamd", .qamd), (chars! "scotch", .scotch)] with ⟨e, -⟩ | hm
  · rw [Ordering.from, e] at h; cases h
  · rw [← Ordering.from, h] at hm
    simp at hm

/-- C106: after a run, the option reported is the one requested if the solver has it, and the default of the solver otherwise -/
theorem C106_mumps_options :
    (∀ o : Ordering, mumpsOrderingName (mumpsOrdering o) =
      if o ∈ [.amd, .amf, .auto, .metis, .pord, .qamd, .scotch] then o.name else Ordering.auto.name) ∧
    (∀ x : Scaling, mumpsScalingName (mumpsScaling x) = if x ∈ [.max, .sum] then Scaling.auto.name else x.name) := by
  refine ⟨fun o => ?_, fun x => ?_⟩
  · cases o <;> decide +kernel
  · cases x <;> decide +kernel

/-- C106: the same for UMFPACK, where the defaults are `Amd` and `Sum`, and `Colamd` means the ordering of CHOLMOD -/
theorem C106_umfpack_options :
    (∀ o : Ordering, umfpackOrderingName (umfpackOrdering o) =
      if o = .colamd then Ordering.cholmod.name
      else if o ∈ [.amd, .best, .cholmod, .metis, .no] then o.name else Ordering.amd.name) ∧
    (∀ x : Scaling, umfpackScalingName (umfpackScaling x) = if x ∈ [.max, .no, .sum] then x.name else Scaling.sum.name) := by
  refine ⟨fun o => ?_, fun x => ?_⟩
  · cases o <;> decide +kernel
  · cases x <;> decide +kernel

/-- C106: cuDSS has all matchings and pivotings; its orderings are `Amd`, `BtfColamd`, `Colamd`, `Metis`, `No` and the default for all
others -/
theorem C106_cudss_options :
    (∀ x : Matching, cudssMatchingName (cudssMatching x) = x.name) ∧
    (∀ x : Pivoting, cudssPivotingName (cudssPivoting x) = x.name) ∧
    (∀ o o' : Ordering, cudssOrdering o = cudssOrdering o' ↔
      o = o' ∨ (o ∉ [.amd, .btfColamd, .colamd, .metis, .no] ∧ o' ∉ [.amd, .btfColamd, .colamd, .metis, .no])) := by
  refine ⟨fun o => ?_, fun x => ?_, fun o o' => ?_⟩
  · cases o <;> decide +kernel
  · cases x <;> decide +kernel
  · cases o <;> cases o' <;> decide +kernel

/-- C106: the kind of storage given by `get_sym` for a solver is the only one that the solver accepts for matrices that are (or are not)
symmetric -/
theorem C106_get_sym {α : Type} [Zero α] [Add α] (P : Type) (dflt : P) (parErr : P → Option String) (errMsg : Int → String) (s : Sym) :
    ((Solver.umfpack (α := α) P dflt errMsg).rejects s = none ↔ s = Genie.Umfpack.getSym s.yes) ∧
    ((Solver.cudss (α := α) P dflt parErr errMsg).rejects s = none ↔ s = Genie.Cudss.getSym s.yes) ∧
    ((Solver.mumps (α := α) P dflt errMsg).rejects s = none ↔ s = Genie.Mumps.getSym s.yes) ∧
    (∀ (g : Genie) (b : Bool), (g.getSym b).yes = b) := by
  refine ⟨?_, ?_, ?_, fun g b => ?_⟩
  · cases s <;> simp [Solver.umfpack, Genie.getSym, Sym.yes]
  · cases s <;> simp [Solver.cudss, Genie.getSym, Sym.yes]
  · cases s <;> simp [Solver.mumps, Genie.getSym, Sym.yes]
  · cases g <;> cases b <;> decide

/-! ## Error messages -/

theorem lookupOr_memory (S : List Int) (d : List Char) (t : List (Int × List Char)) (h0 : isMemoryError d = false)
    (h1 : ∀ p ∈ t, (isMemoryError p.2 = true ↔ p.1 ∈ S)) (h2 : ∀ k ∈ S, k ∈ t.map Prod.fst) (e : Int) :
    isMemoryError (lookupOr e d t) = true ↔ e ∈ S := by
  rcases lookupOr_cases e d t with ⟨h, hn⟩ | hm
  · rw [h, h0]
    refine ⟨fun h => absurd h (by decide), fun h => ?_⟩
    obtain ⟨p, hp, rfl⟩ := List.mem_map.1 (h2 e h)
    exact absurd rfl (hn p hp)
  · exact h1 _ hm

theorem lookupOr_inj (d : List Char) (t : List (Int × List Char)) (h1 : ∀ p ∈ t, ∀ q ∈ t, p.2 = q.2 → p.1 = q.1) {e e' : Int}
    (h : lookupOr e d t = lookupOr e' d t) (hd : lookupOr e d t ≠ d) : e = e' := by
  rcases lookupOr_cases e d t with ⟨h', -⟩ | hm
  · exact absurd h' hd
  · rcases lookupOr_cases e' d t with ⟨h', -⟩ | hm'
    · exact absurd (h.trans h') hd
    · exact h1 _ hm _ hm' h

/-- C106: the error codes reported as out-of-memory conditions are exactly these -/
theorem C106_memory_errors (e : Int) :
    (isMemoryError (handleMumpsErrorCode e) = true ↔ e ∈ [-19, 200000]) ∧
    (isMemoryError (handleUmfpackErrorCode e) = true ↔ e ∈ [-1, 200000]) ∧
    (isMemoryError (handleCudssErrorCode e) = true ↔ e ∈ [100, 702, 802, 902]) :=
  ⟨lookupOr_memory _ _ _ (by decide +kernel) (by decide +kernel) (by decide +kernel) e,
   lookupOr_memory _ _ _ (by decide +kernel) (by decide +kernel) (by decide +kernel) e,
   lookupOr_memory _ _ _ (by decide +kernel) (by decide +kernel) (by decide +kernel) e⟩

/-- C106 (deviation): the failed workspace allocations of MUMPS (codes -5, -7, -13, -78) are not recognised as memory errors -/
theorem C106_memory_errors_counterexample :
    ∀ e ∈ ([-5, -7, -13, -78] : List Int), containsText (chars! "workspace allocation") (handleMumpsErrorCode e) = true ∧
      isMemoryError (handleMumpsErrorCode e) = false := by
  decide +kernel

/-- C106: different error codes have different messages, unless both are unknown -/
theorem C106_messages_differ (e e' : Int) :
    (handleMumpsErrorCode e = handleMumpsErrorCode e' → e ≠ e' →
      handleMumpsErrorCode e = chars! "Error: unknown error returned by c-code (MUMPS)") ∧
    (handleUmfpackErrorCode e = handleUmfpackErrorCode e' → e ≠ e' →
      handleUmfpackErrorCode e = chars! "Error: unknown error returned by c-code (UMFPACK)") ∧
    (handleCudssErrorCode e = handleCudssErrorCode e' → e ≠ e' →
      handleCudssErrorCode e = chars! "Error: unknown error returned by c-code (cuDSS)") :=
  ⟨fun h hn => by_contra fun hd => hn (lookupOr_inj _ _ (by decide +kernel) h hd),
   fun h hn => by_contra fun hd => hn (lookupOr_inj _ _ (by decide +kernel) h hd),
   fun h hn => by_contra fun hd => hn (lookupOr_inj _ _ (by decide +kernel) h hd)⟩

/-- the text `Error(<sign><number>): ` at the beginning of the messages of the C libraries; `plus` is the text of a positive sign -/
def errorHead (plus : List Char) (e : Int) : List Char :=
  chars! "Error(" ++ (if e < 0 then ['-'] else plus) ++ Text.decimal e.natAbs ++ chars! "): "

theorem lookupOr_head (plus : List Char) (d : List Char) (t : List (Int × List Char)) (n : Nat)
    (h1 : ∀ p ∈ t, p.1.natAbs < n → (errorHead plus p.1).isPrefixOf p.2 = true) {e : Int} (he : e.natAbs < n)
    (hd : lookupOr e d t ≠ d) : errorHead plus e <+: (lookupOr e d t) := by
  rcases lookupOr_cases e d t with ⟨h', -⟩ | hm
  · exact absurd h' hd
  · exact List.isPrefixOf_iff_prefix.1 (h1 _ hm he)

/-- C106: the messages for the codes of the libraries MUMPS and UMFPACK begin with the code itself -/
theorem C106_messages_show_code (e : Int) (he : e.natAbs < 1000) :
    (handleMumpsErrorCode e ≠ chars! "Error: unknown error returned by c-code (MUMPS)" → errorHead ['+'] e <+: (handleMumpsErrorCode e)) ∧
    (handleUmfpackErrorCode e ≠ chars! "Error: unknown error returned by c-code (UMFPACK)" → errorHead [] e <+: (handleUmfpackErrorCode e)) :=
  ⟨lookupOr_head _ _ _ 1000 (by decide +kernel) he, lookupOr_head _ _ _ 1000 (by decide +kernel) he⟩

example : handleMumpsErrorCode (-10) = chars! "Error(-10): numerically singular matrix" ∧ errorHead ['+'] (-10) = chars! "Error(-10): " := by
  decide +kernel

end Russell.Sparse
