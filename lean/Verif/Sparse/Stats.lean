import Verif.Lab.Durations
import Mathlib.Data.Rat.Floor
import Mathlib.Algebra.Order.Floor.Semifield
import Mathlib.Tactic.Linarith
import Mathlib.Tactic.Ring
import Mathlib.Algebra.Order.Field.Basic

/-!
# Statistics of the linear solvers (property C106)

Model of the times kept by `StatsLinSol` (russell_sparse/src/stats_lin_sol.rs) and of the values derived from them. Simplifications: the
averages are computed with exact rational numbers; the times are natural numbers (`u128` in the code, without overflow).
-/

namespace Russell.Sparse

open Russell Russell.Res Russell.Lab

/-! ## Model -/

/-- `StatsLinSolTimeNanoseconds` (/repo/russell_sparse/src/stats_lin_sol.rs:88-101) -/
structure TimeNs where
  readMatrix : Nat := 0
  initializeArray : List Nat := []
  initTime : Nat := 0
  factorizeArray : List Nat := []
  factorize : Nat := 0
  solveArray : List Nat := []
  solve : Nat := 0
  totalArray : List Nat := []
  total : Nat := 0
  verify : Nat := 0
  deriving DecidableEq

/-- `StatsLinSolTimeHuman` (/repo/russell_sparse/src/stats_lin_sol.rs:71-86) -/
structure TimeHuman where
  readMatrix : List Char := []
  initializeArray : List (List Char) := []
  initTime : List Char := []
  factorizeArray : List (List Char) := []
  factorize : List Char := []
  solveArray : List (List Char) := []
  solve : List Char := []
  totalArray : List (List Char) := []
  total : List Char := []
  verify : List Char := []
  deriving DecidableEq

/-- the times of `StatsLinSol` (/repo/russell_sparse/src/stats_lin_sol.rs:103-115); the defaults are those of `new` (lines 117-213) -/
structure Stats where
  ns : TimeNs := {}
  human : TimeHuman := {}
  deriving DecidableEq

/-- the end of `update_stats`, the same in all solvers (/repo/russell_sparse/src/solver_umfpack.rs:419-421, solver_mumps.rs:423-425,
solver_cudss.rs:365-367) -/
def Stats.update (s : Stats) (init fact solve : Nat) : Stats :=
  { s with ns := { s.ns with
      initializeArray := s.ns.initializeArray ++ [init]
      factorizeArray := s.ns.factorizeArray ++ [fact]
      solveArray := s.ns.solveArray ++ [solve] } }

/-- the local variables of the loop of `compute_derived_values` -/
structure Derived where
  aveInit : ℚ
  aveFact : ℚ
  aveSolve : ℚ
  aveTotal : ℚ
  totalArray : List Nat
  hInit : List (List Char)
  hFact : List (List Char)
  hSolve : List (List Char)
  hTotal : List (List Char)

/-- the loop body of `compute_derived_values` (/repo/russell_sparse/src/stats_lin_sol.rs:295-308) -/
def derivedStep (ns : TimeNs) (i : Nat) (d : Derived) : Res Derived := do
  let tInit ← vget ns.initializeArray i
  let tFact ← vget ns.factorizeArray i
  let tSolve ← vget ns.solveArray i
  let tTotal := tInit + tFact + tSolve
  let totalArray ← vset d.totalArray i tTotal
  let hInit ← vset d.hInit i (formatNanoseconds tInit)
  let hFact ← vset d.hFact i (formatNanoseconds tFact)
  let hSolve ← vset d.hSolve i (formatNanoseconds tSolve)
  let hTotal ← vset d.hTotal i (formatNanoseconds tTotal)
  ok { aveInit := d.aveInit + tInit, aveFact := d.aveFact + tFact, aveSolve := d.aveSolve + tSolve, aveTotal := d.aveTotal + tTotal,
       totalArray, hInit, hFact, hSolve, hTotal }

/-- the averages (/repo/russell_sparse/src/stats_lin_sol.rs:285-318) -/
def Stats.averages (s : Stats) (nrun : Nat) : Res Stats := do
  let d ← forRange 0 nrun
    { aveInit := 0, aveFact := 0, aveSolve := 0, aveTotal := 0, totalArray := List.replicate nrun 0, hInit := List.replicate nrun [],
      hFact := List.replicate nrun [], hSolve := List.replicate nrun [], hTotal := List.replicate nrun [] }
    (derivedStep s.ns)
  ok { ns := { s.ns with
         totalArray := d.totalArray
         initTime := ⌊d.aveInit / (nrun : ℚ)⌋₊
         factorize := ⌊d.aveFact / (nrun : ℚ)⌋₊
         solve := ⌊d.aveSolve / (nrun : ℚ)⌋₊
         total := ⌊d.aveTotal / (nrun : ℚ)⌋₊ }
       human := { s.human with
         initializeArray := d.hInit
         factorizeArray := d.hFact
         solveArray := d.hSolve
         totalArray := d.hTotal } }

/-- the human readable times (/repo/russell_sparse/src/stats_lin_sol.rs:321-327) -/
def Stats.humanTimes (s : Stats) : Stats :=
  { s with human := { s.human with
      readMatrix := formatNanoseconds s.ns.readMatrix
      initTime := formatNanoseconds s.ns.initTime
      factorize := formatNanoseconds s.ns.factorize
      solve := formatNanoseconds s.ns.solve
      total := formatNanoseconds s.ns.total
      verify := formatNanoseconds s.ns.verify } }

/-- `compute_derived_values`, called by `get_json` and `write_json` (/repo/russell_sparse/src/stats_lin_sol.rs:276-328); the number of threads
is left out -/
def Stats.computeDerived (s : Stats) : Res Stats :=
  let nrun := s.ns.initializeArray.length
  if s.ns.factorizeArray.length ≠ nrun then panic
  else if s.ns.solveArray.length ≠ nrun then panic
  else if nrun > 0 then do
    let s ← s.averages nrun
    ok s.humanTimes
  else ok s.humanTimes

/-- what can be done with the statistics: a run of a solver (followed by `update_stats`), the times of reading and of the verification,
`get_json` -/
inductive StatsOp where
  | run (init fact solve : Nat)
  | setOther (readMatrix verify : Nat)
  | json
  deriving DecidableEq

/-- the effect of one operation -/
def Stats.step (s : Stats) : StatsOp → Res Stats
  | .run a b c => ok (s.update a b c)
  | .setOther r v => ok { s with ns := { s.ns with readMatrix := r, verify := v } }
  | .json => s.computeDerived

/-- the runs of a history -/
def runsOf : List StatsOp → List (Nat × Nat × Nat)
  | [] => []
  | .run a b c :: t => (a, b, c) :: runsOf t
  | _ :: t => runsOf t

/-! ## Theorems -/

/-- the state of the loop after `k` runs -/
structure DerivedInv (ns : TimeNs) (n k : Nat) (d : Derived) : Prop where
  a1 : d.aveInit = (((ns.initializeArray.take k).sum : Nat) : ℚ)
  a2 : d.aveFact = (((ns.factorizeArray.take k).sum : Nat) : ℚ)
  a3 : d.aveSolve = (((ns.solveArray.take k).sum : Nat) : ℚ)
  a4 : d.aveTotal = d.aveInit + d.aveFact + d.aveSolve
  l1 : d.totalArray.length = n
  l2 : d.hInit.length = n
  l3 : d.hFact.length = n
  l4 : d.hSolve.length = n
  l5 : d.hTotal.length = n
  v1 : ∀ i, i < k → d.totalArray[i]? = some (ns.initializeArray.getD i 0 + ns.factorizeArray.getD i 0 + ns.solveArray.getD i 0)
  v2 : ∀ i, i < k → d.hInit[i]? = some (formatNanoseconds (ns.initializeArray.getD i 0))
  v3 : ∀ i, i < k → d.hFact[i]? = some (formatNanoseconds (ns.factorizeArray.getD i 0))
  v4 : ∀ i, i < k → d.hSolve[i]? = some (formatNanoseconds (ns.solveArray.getD i 0))
  v5 : ∀ i, i < k → d.hTotal[i]? = some (formatNanoseconds
    (ns.initializeArray.getD i 0 + ns.factorizeArray.getD i 0 + ns.solveArray.getD i 0))

theorem set_prefix {β : Type} {l : List β} {n k : Nat} {f : Nat → β} (hl : l.length = n) (hk : k < n)
    (h : ∀ i, i < k → l[i]? = some (f i)) : ∀ i, i < k + 1 → (l.set k (f k))[i]? = some (f i) := by
  intro i hi
  by_cases e : i = k
  · subst e
    rw [List.getElem?_set_self (by omega)]
  · rw [List.getElem?_set_ne (by omega)]
    exact h i (by omega)

theorem eq_map_range {β : Type} {l : List β} {n : Nat} {f : Nat → β} (hl : l.length = n) (h : ∀ i, i < n → l[i]? = some (f i)) :
    l = (List.range n).map f := by
  apply List.ext_getElem?
  intro i
  by_cases hi : i < n
  · rw [h i hi]; simp [hi]
  · rw [List.getElem?_eq_none (by omega), List.getElem?_eq_none (by simpa using hi)]

theorem derived_loop (ns : TimeNs) {n : Nat} (h1 : ns.initializeArray.length = n) (h2 : ns.factorizeArray.length = n)
    (h3 : ns.solveArray.length = n) :
    ∃ d, forRange 0 n
      { aveInit := 0, aveFact := 0, aveSolve := 0, aveTotal := 0, totalArray := List.replicate n 0, hInit := List.replicate n [],
        hFact := List.replicate n [], hSolve := List.replicate n [], hTotal := List.replicate n [] } (derivedStep ns) = ok d ∧
      DerivedInv ns n n d := by
  refine forRange_spec (DerivedInv ns n) (Nat.zero_le n) ?_ ?_
  · constructor <;> simp
  · rintro k d - hk ⟨a1, a2, a3, a4, l1, l2, l3, l4, l5, v1, v2, v3, v4, v5⟩
    have g1 : ns.initializeArray.getD k 0 = ns.initializeArray[k]'(by omega) := by rw [List.getD_eq_getElem?_getD, List.getElem?_eq_getElem (by omega)]; rfl
    have g2 : ns.factorizeArray.getD k 0 = ns.factorizeArray[k]'(by omega) := by rw [List.getD_eq_getElem?_getD, List.getElem?_eq_getElem (by omega)]; rfl
    have g3 : ns.solveArray.getD k 0 = ns.solveArray[k]'(by omega) := by rw [List.getD_eq_getElem?_getD, List.getElem?_eq_getElem (by omega)]; rfl
    refine ⟨_, by
      rw [derivedStep, vget_lt (by omega : k < ns.initializeArray.length)]
      simp only [ok_bind]
      rw [vget_lt (by omega : k < ns.factorizeArray.length)]
      simp only [ok_bind]
      rw [vget_lt (by omega : k < ns.solveArray.length)]
      simp only [ok_bind]
      rw [vset_lt _ (by omega)]
      simp only [ok_bind]
      rw [vset_lt _ (by omega)]
      simp only [ok_bind]
      rw [vset_lt _ (by omega)]
      simp only [ok_bind]
      rw [vset_lt _ (by omega)]
      simp only [ok_bind]
      rw [vset_lt _ (by omega)]
      simp only [ok_bind]
      rfl, ?_⟩
    rw [← g1, ← g2, ← g3]
    constructor
    · rw [List.take_add_one, List.sum_append, a1, List.getElem?_eq_getElem (by omega), g1]; simp
    · rw [List.take_add_one, List.sum_append, a2, List.getElem?_eq_getElem (by omega), g2]; simp
    · rw [List.take_add_one, List.sum_append, a3, List.getElem?_eq_getElem (by omega), g3]; simp
    · simp only [a4, Nat.cast_add]; ring
    · simpa using l1
    · simpa using l2
    · simpa using l3
    · simpa using l4
    · simpa using l5
    · exact set_prefix (f := fun i => ns.initializeArray.getD i 0 + ns.factorizeArray.getD i 0 + ns.solveArray.getD i 0) l1 hk v1
    · exact set_prefix (f := fun i => formatNanoseconds (ns.initializeArray.getD i 0)) l2 hk v2
    · exact set_prefix (f := fun i => formatNanoseconds (ns.factorizeArray.getD i 0)) l3 hk v3
    · exact set_prefix (f := fun i => formatNanoseconds (ns.solveArray.getD i 0)) l4 hk v4
    · exact set_prefix (f := fun i => formatNanoseconds
        (ns.initializeArray.getD i 0 + ns.factorizeArray.getD i 0 + ns.solveArray.getD i 0)) l5 hk v5

theorem map_range_getD {β : Type} {l : List Nat} {n : Nat} (hl : l.length = n) (g : Nat → β) :
    (List.range n).map (fun i => g (l.getD i 0)) = l.map g := by
  subst hl
  apply List.ext_getElem
  · simp
  · intro i h1 h2
    simp at h1
    simp [h1]

/-- the effect of `compute_derived_values` on statistics whose three arrays list the given runs -/
theorem computeDerived_spec {s : Stats} {runs : List (Nat × Nat × Nat)} (h1 : s.ns.initializeArray = runs.map (·.1))
    (h2 : s.ns.factorizeArray = runs.map (·.2.1)) (h3 : s.ns.solveArray = runs.map (·.2.2))
    (h0 : runs = [] → s.ns.initTime = 0 ∧ s.ns.factorize = 0 ∧ s.ns.solve = 0 ∧ s.ns.total = 0 ∧ s.ns.totalArray = [] ∧
      s.human.initializeArray = [] ∧ s.human.factorizeArray = [] ∧ s.human.solveArray = [] ∧ s.human.totalArray = []) :
    s.computeDerived = ok
      { ns := { readMatrix := s.ns.readMatrix
                initializeArray := runs.map (·.1)
                initTime := (runs.map (·.1)).sum / runs.length
                factorizeArray := runs.map (·.2.1)
                factorize := (runs.map (·.2.1)).sum / runs.length
                solveArray := runs.map (·.2.2)
                solve := (runs.map (·.2.2)).sum / runs.length
                totalArray := runs.map fun t => t.1 + t.2.1 + t.2.2
                total := (runs.map fun t => t.1 + t.2.1 + t.2.2).sum / runs.length
                verify := s.ns.verify }
        human := { readMatrix := formatNanoseconds s.ns.readMatrix
                   initializeArray := runs.map fun t => formatNanoseconds t.1
                   initTime := formatNanoseconds ((runs.map (·.1)).sum / runs.length)
                   factorizeArray := runs.map fun t => formatNanoseconds t.2.1
                   factorize := formatNanoseconds ((runs.map (·.2.1)).sum / runs.length)
                   solveArray := runs.map fun t => formatNanoseconds t.2.2
                   solve := formatNanoseconds ((runs.map (·.2.2)).sum / runs.length)
                   totalArray := runs.map fun t => formatNanoseconds (t.1 + t.2.1 + t.2.2)
                   total := formatNanoseconds ((runs.map fun t => t.1 + t.2.1 + t.2.2).sum / runs.length)
                   verify := formatNanoseconds s.ns.verify } } := by
  have n1 : s.ns.initializeArray.length = runs.length := by simp [h1]
  have n2 : s.ns.factorizeArray.length = runs.length := by simp [h2]
  have n3 : s.ns.solveArray.length = runs.length := by simp [h3]
  rw [Stats.computeDerived]
  rw [if_neg (by omega), if_neg (by omega)]
  by_cases hn : runs = []
  · rw [if_neg (by rw [n1, hn]; simp)]
    obtain ⟨k1, k2, k3, k4, k5, k6, k7, k8, k9⟩ := h0 hn
    subst hn
    simp only [List.map_nil] at h1 h2 h3
    simp only [Stats.humanTimes, k1, k2, k3, k4, List.map_nil, List.sum_nil, Nat.zero_div]
    obtain ⟨⟨f1, f2, f3, f4, f5, f6, f7, f8, f9, f10⟩, ⟨q1, q2, q3, q4, q5, q6, q7, q8, q9, q10⟩⟩ := s
    simp only at h1 h2 h3 k1 k2 k3 k4 k5 k6 k7 k8 k9
    subst h1 h2 h3 k1 k2 k3 k4 k5 k6 k7 k8 k9
    rfl
  · have hpos : 0 < runs.length := List.length_pos_iff.2 hn
    rw [if_pos (by omega)]
    obtain ⟨d, hd, ⟨a1, a2, a3, a4, l1, l2, l3, l4, l5, v1, v2, v3, v4, v5⟩⟩ := derived_loop s.ns n1 n2 n3
    rw [n1, Stats.averages, hd]
    simp only [ok_bind, Stats.humanTimes]
    rw [List.take_of_length_le (by omega)] at a1 a2 a3
    have hsum : s.ns.initializeArray.sum + s.ns.factorizeArray.sum + s.ns.solveArray.sum = (runs.map fun t => t.1 + t.2.1 + t.2.2).sum := by
      rw [h1, h2, h3]
      clear * -
      induction runs with
      | nil => rfl
      | cons t r ih => simp only [List.map_cons, List.sum_cons]; omega
    have a4' : d.aveTotal = (((runs.map fun t => t.1 + t.2.1 + t.2.2).sum : Nat) : ℚ) := by
      rw [a4, a1, a2, a3, ← hsum]; push_cast; ring
    have w1 := eq_map_range l1 v1
    have w2 := eq_map_range l2 v2
    have w3 := eq_map_range l3 v3
    have w4 := eq_map_range l4 v4
    have w5 := eq_map_range l5 v5
    rw [map_range_getD n1] at w2
    rw [map_range_getD n2] at w3
    rw [map_range_getD n3] at w4
    have tot : ∀ i, i < runs.length → s.ns.initializeArray.getD i 0 + s.ns.factorizeArray.getD i 0 + s.ns.solveArray.getD i 0 =
        (runs.map fun t => t.1 + t.2.1 + t.2.2).getD i 0 := by
      intro i hi
      rw [h1, h2, h3]
      simp [hi]
    have hl : (runs.map fun t => t.1 + t.2.1 + t.2.2).length = runs.length := by simp
    rw [List.map_congr_left (g := fun i => id ((runs.map fun t => t.1 + t.2.1 + t.2.2).getD i 0))
      (fun i hi => tot i (List.mem_range.1 hi)), map_range_getD hl] at w1
    rw [List.map_congr_left (g := fun i => formatNanoseconds ((runs.map fun t => t.1 + t.2.1 + t.2.2).getD i 0))
      (fun i hi => by rw [tot i (List.mem_range.1 hi)]), map_range_getD hl] at w5
    rw [a1, a2, a3, a4', w1, w2, w3, w4, w5, h1, h2, h3]
    simp only [Nat.floor_div_eq_div, List.map_map]
    rfl

/-- what holds between the operations -/
structure StatsInv (s : Stats) (runs : List (Nat × Nat × Nat)) : Prop where
  i1 : s.ns.initializeArray = runs.map (·.1)
  i2 : s.ns.factorizeArray = runs.map (·.2.1)
  i3 : s.ns.solveArray = runs.map (·.2.2)
  i0 : runs = [] → s.ns.initTime = 0 ∧ s.ns.factorize = 0 ∧ s.ns.solve = 0 ∧ s.ns.total = 0 ∧ s.ns.totalArray = [] ∧
      s.human.initializeArray = [] ∧ s.human.factorizeArray = [] ∧ s.human.solveArray = [] ∧ s.human.totalArray = []

theorem computeDerived_inv {s : Stats} {runs : List (Nat × Nat × Nat)} (h : StatsInv s runs) :
    ∃ s', s.computeDerived = ok s' ∧ StatsInv s' runs :=
  ⟨_, computeDerived_spec h.i1 h.i2 h.i3 h.i0, rfl, rfl, rfl,
    fun e => by rw [e]; exact ⟨rfl, rfl, rfl, rfl, rfl, rfl, rfl, rfl, rfl⟩⟩

theorem stats_run {s : Stats} {runs : List (Nat × Nat × Nat)} (h : StatsInv s runs) (ops : List StatsOp) :
    ∃ s', forList ops s (fun op s => s.step op) = ok s' ∧ StatsInv s' (runs ++ runsOf ops) := by
  induction ops generalizing s runs with
  | nil => exact ⟨s, rfl, by simpa [runsOf] using h⟩
  | cons op ops ih =>
    obtain ⟨i1, i2, i3, i0⟩ := h
    cases op with
    | run a b c =>
      have h' : StatsInv (s.update a b c) (runs ++ [(a, b, c)]) := by
        refine ⟨?_, ?_, ?_, fun h => absurd h (by simp)⟩ <;> simp [Stats.update, i1, i2, i3]
      obtain ⟨s', e, hs⟩ := ih h'
      exact ⟨s', by rw [forList]; exact e, by simpa [runsOf, List.append_assoc] using hs⟩
    | setOther r v =>
      have h' : StatsInv { s with ns := { s.ns with readMatrix := r, verify := v } } runs := ⟨i1, i2, i3, i0⟩
      obtain ⟨s', e, hs⟩ := ih h'
      exact ⟨s', by rw [forList]; exact e, by simpa [runsOf] using hs⟩
    | json =>
      obtain ⟨s1, e0, h1⟩ := computeDerived_inv ⟨i1, i2, i3, i0⟩
      obtain ⟨s', e, hs⟩ := ih h1
      refine ⟨s', ?_, by simpa [runsOf] using hs⟩
      rw [forList, Stats.step, e0, ok_bind]
      exact e

/-- C106: whatever the history of runs and of calls of `get_json`, the next `get_json` does not panic and shows: the times of all runs, their
totals, the averages rounded down, and each of them as text -/
theorem C106_statistics (ops : List StatsOp) :
    ∃ s s' : Stats, forList ops ({} : Stats) (fun op s => s.step op) = ok s ∧ s.computeDerived = ok s' ∧
      s'.ns.initializeArray = (runsOf ops).map (·.1) ∧ s'.ns.factorizeArray = (runsOf ops).map (·.2.1) ∧
      s'.ns.solveArray = (runsOf ops).map (·.2.2) ∧ s'.ns.totalArray = (runsOf ops).map (fun t => t.1 + t.2.1 + t.2.2) ∧
      s'.ns.initTime = ((runsOf ops).map (·.1)).sum / (runsOf ops).length ∧
      s'.ns.factorize = ((runsOf ops).map (·.2.1)).sum / (runsOf ops).length ∧
      s'.ns.solve = ((runsOf ops).map (·.2.2)).sum / (runsOf ops).length ∧
      s'.ns.total = ((runsOf ops).map fun t => t.1 + t.2.1 + t.2.2).sum / (runsOf ops).length ∧
      s'.human.initializeArray = s'.ns.initializeArray.map formatNanoseconds ∧
      s'.human.factorizeArray = s'.ns.factorizeArray.map formatNanoseconds ∧
      s'.human.solveArray = s'.ns.solveArray.map formatNanoseconds ∧
      s'.human.totalArray = s'.ns.totalArray.map formatNanoseconds ∧
      s'.human.initTime = formatNanoseconds s'.ns.initTime ∧ s'.human.factorize = formatNanoseconds s'.ns.factorize ∧
      s'.human.solve = formatNanoseconds s'.ns.solve ∧ s'.human.total = formatNanoseconds s'.ns.total ∧
      s'.ns.readMatrix = s.ns.readMatrix ∧ s'.ns.verify = s.ns.verify ∧
      s'.human.readMatrix = formatNanoseconds s.ns.readMatrix ∧ s'.human.verify = formatNanoseconds s.ns.verify ∧
      s'.computeDerived = ok s' := by
  obtain ⟨s, e, hs⟩ := stats_run (s := {}) (runs := []) ⟨rfl, rfl, rfl, fun _ => by simp⟩ ops
  rw [List.nil_append] at hs
  obtain ⟨i1, i2, i3, i0⟩ := hs
  refine ⟨s, _, e, computeDerived_spec i1 i2 i3 i0, rfl, rfl, rfl, rfl, rfl, rfl, rfl, rfl, ?_, ?_, ?_, ?_, rfl, rfl, rfl, rfl, rfl, rfl,
    rfl, rfl, ?_⟩
  · simp
  · simp
  · simp
  · simp
  · exact computeDerived_spec (runs := runsOf ops) rfl rfl rfl (fun h => by simp [h])

/-- C106: the average total time differs from the sum of the three averages by less than three nanoseconds, because of rounding -/
theorem C106_total_is_sum (ops : List StatsOp) :
    ∃ s s' : Stats, forList ops ({} : Stats) (fun op s => s.step op) = ok s ∧ s.computeDerived = ok s' ∧
      s'.ns.initTime + s'.ns.factorize + s'.ns.solve ≤ s'.ns.total ∧
      s'.ns.total ≤ s'.ns.initTime + s'.ns.factorize + s'.ns.solve + 2 := by
  obtain ⟨s, s', h1, h2, -, -, -, -, h3, h4, h5, h6, -⟩ := C106_statistics ops
  refine ⟨s, s', h1, h2, ?_⟩
  rw [h3, h4, h5, h6]
  have hsum : ∀ r : List (Nat × Nat × Nat), (r.map fun t => t.1 + t.2.1 + t.2.2).sum =
      (r.map (·.1)).sum + (r.map (·.2.1)).sum + (r.map (·.2.2)).sum := by
    intro r
    induction r with
    | nil => rfl
    | cons t r ih => simp only [List.map_cons, List.sum_cons]; omega
  rw [hsum]
  generalize ((runsOf ops).map (·.1)).sum = a
  generalize ((runsOf ops).map (·.2.1)).sum = b
  generalize ((runsOf ops).map (·.2.2)).sum = c
  generalize (runsOf ops).length = n
  rcases Nat.eq_zero_or_pos n with rfl | hn
  · simp
  · have ea := Nat.div_add_mod a n
    have eb := Nat.div_add_mod b n
    have ec := Nat.div_add_mod c n
    have la := Nat.mod_lt a hn
    have lb := Nat.mod_lt b hn
    have lc := Nat.mod_lt c hn
    constructor
    · rw [Nat.le_div_iff_mul_le hn]
      have : (a / n + b / n + c / n) * n = n * (a / n) + n * (b / n) + n * (c / n) := by ring
      omega
    · rw [← Nat.lt_succ_iff, Nat.div_lt_iff_lt_mul hn]
      have : (a / n + b / n + c / n + 2).succ * n = n * (a / n) + n * (b / n) + n * (c / n) + 3 * n := by
        rw [Nat.succ_eq_add_one]; ring
      omega

example : runsOf [.run 10 20 30, .json, .setOther 5 6, .run 11 20 30] = [(10, 20, 30), (11, 20, 30)] := by decide

end Russell.Sparse
