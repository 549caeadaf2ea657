import Verif.Prelude
import Verif.Text
import Verif.Lab.CodeText

/-!
# The logger of the nonlinear solver (property C123)

/repo/russell_nonlin/src/logger.rs. Texts are lists of characters. `sci x w p` stands for `format_scientific(x, w, p)` on a type `F` of floats, and
the texts of the statistics and of the status are given. What is printed and the content of the log file are the state `World`.
-/

namespace Russell.Nonlin

open Russell Russell.Text

/-- `NCHAR` (logger.rs:10) -/
def nchar : Nat := 68

/-- `{:>w}` -/
def logPad (w : Nat) (s : List Char) : List Char := List.replicate (w - s.length) ' ' ++ s

/-- `{:c^w}`: the larger half of the fill is on the right -/
def logCenter (c : Char) (w : Nat) (s : List Char) : List Char :=
  List.replicate ((w - s.length) / 2) c ++ s ++ List.replicate (w - s.length - (w - s.length) / 2) c

/-- the fields of `Config` used here -/
structure LogConfig where
  arclength : Bool
  verbose : Bool
  verboseIterations : Bool
  verboseLegend : Bool
  verboseStats : Bool
  logFile : Option (List Char)

/-- `struct Logger` (logger.rs:13-36) -/
structure Logger where
  arclength : Bool
  enabled : Bool
  withIterations : Bool
  withLegend : Bool
  withStatistics : Bool
  buffer : List Char
  fullPath : Option (List Char)

/-- `new` (logger.rs:40-50) -/
def Logger.new (c : LogConfig) : Logger :=
  { arclength := c.arclength, enabled := c.verbose || c.logFile.isSome, withIterations := c.verboseIterations, withLegend := c.verboseLegend,
    withStatistics := c.verboseStats, buffer := [], fullPath := c.logFile }

/-- the standard output and the content of the log file (`none`: there is no such file) -/
structure World where
  stdout : List Char
  file : Option (List Char)

/-- which operations of the system succeed; `written` is what a failed `write_all` has written -/
structure Disk where
  flush : Bool
  mkdir : Bool
  create : Bool
  write : Bool
  sync : Bool
  written : Nat

/-- `println!` to the standard output or `writeln!` to the buffer (logger.rs:60-64, 80-88, 105-109, 150-154, 165-169) -/
def Logger.emit (st : Logger × World) (text : List Char) : Logger × World :=
  if st.1.fullPath.isNone then (st.1, { st.2 with stdout := st.2.stdout ++ (text ++ ['\n']) })
  else ({ st.1 with buffer := st.1.buffer ++ (text ++ ['\n']) }, st.2)

def legendText : List Char := "Legend:\n  ✅  Converged\n  🎈  Diverging\n  🔹  Not converged".toList

/-- the titles of the columns (logger.rs:68-77) -/
def columnHeaders (arclength : Bool) : List Char :=
  let f := fun a b c d e g : String => logPad 10 a.toList ++ [' '] ++ logPad 10 b.toList ++ [' '] ++ logPad 5 c.toList ++ [' '] ++ logPad 10 d.toList ++
    " ➖ ".toList ++ logPad 10 e.toList ++ [' '] ++ logPad 12 g.toList ++ " ➖".toList
  if arclength then f "λ" "Δs" "iter" "‖(G,N)‖∞" "‖(δu,δλ)‖∞" "Rel((δu,δλ))"
  else f "λ" "Δλ" "iter" "‖G‖∞" "‖δu‖∞" "Rel(δu)"

/-- `header` (logger.rs:53-89) -/
def Logger.header (st : Logger × World) : Logger × World :=
  if ¬ st.1.enabled then st
  else
    let st := if st.1.withLegend then Logger.emit st legendText else st
    let st' := Logger.emit st (List.replicate nchar '─')
    let st' := Logger.emit st' (columnHeaders st.1.arclength)
    Logger.emit st' (List.replicate nchar '─')

section
variable {F : Type} (sci : F → Nat → Nat → List Char)

/-- `step` (logger.rs:91-110) -/
def Logger.step (h l : F) (last : Bool) (st : Logger × World) : Logger × World :=
  if ¬ st.1.enabled then st
  else
    let strL := sci l 10 3
    let output := if last then strL else strL ++ [' '] ++ sci h 10 3
    Logger.emit st output

/-- the fields of `IterationError` used here -/
structure LogError (F : Type) where
  residualMax : F
  deltaMax : F
  deltaRms : F
  residualConverged : Bool
  residualDiverging : Bool
  deltaConverged : Bool
  deltaDiverging : Bool

/-- `icon` (logger.rs:215-225) -/
def icon (iter : Nat) (converged diverging : Bool) : List Char :=
  if converged then ['✅']
  else if diverging then ['🎈']
  else if iter = 0 then [' ', ' ']
  else ['🔹']

/-- the text of `iteration` (logger.rs:117-148) -/
def iterationText (arclength : Bool) (iter : Nat) (err : LogError F) : List Char :=
  let iconGh := icon iter err.residualConverged err.residualDiverging
  let iconUl := icon iter err.deltaConverged err.deltaDiverging
  let lead := logPad 10 ['·'] ++ [' '] ++ logPad 10 ['·'] ++ [' '] ++ logPad 5 (decimal iter) ++ [' ']
  let full := lead ++ sci err.residualMax 10 2 ++ [' '] ++ iconGh ++ [' '] ++ sci err.deltaMax 10 2 ++ [' '] ++ sci err.deltaRms 12 2 ++ [' '] ++ iconUl
  if arclength then full
  else if err.residualConverged then
    lead ++ sci err.residualMax 10 2 ++ [' '] ++ iconGh ++ [' '] ++ logPad 10 ['·'] ++ [' '] ++ logPad 12 ['·']
  else full

/-- `iteration` (logger.rs:112-155) -/
def Logger.iteration (iter : Nat) (err : LogError F) (st : Logger × World) : Logger × World :=
  if ¬ (st.1.enabled ∧ st.1.withIterations) then st
  else Logger.emit st (iterationText sci st.1.arclength iter err)

/-- `did_not_converge` (logger.rs:158-170) -/
def Logger.didNotConverge (st : Logger × World) : Logger × World :=
  if ¬ st.1.enabled then st
  else Logger.emit st (logCenter ' ' nchar "(rejected: did not converge)".toList)

/-- the text of `footer` (logger.rs:178-189); `stats` and `status` are the texts of the statistics and of the status -/
def footerText (withStatistics : Bool) (stats : List Char) (failure : Bool) (status : List Char) : List Char :=
  let output := List.replicate nchar '─' ++ ['\n']
  let output := if withStatistics then output ++ (['\n'] ++ stats ++ ['\n']) else output
  if failure then
    output ++ (['\n'] ++ logCenter '═' nchar " FAILURE ".toList ++ ['\n']) ++ (['❌', ' '] ++ status ++ [' ', '❌'] ++ ['\n']) ++
      (List.replicate nchar '═' ++ ['\n'] ++ ['\n'])
  else output

/-- `footer` (logger.rs:173-211). `File::create` makes the file empty -/
def Logger.footer (disk : Disk) (stats : List Char) (failure : Bool) (status : List Char) (st : Logger × World) : MRes (Logger × World) :=
  if ¬ st.1.enabled then .ok st
  else
    let output := footerText st.1.withStatistics stats failure status
    if st.1.fullPath.isNone then
      let st := (st.1, { st.2 with stdout := st.2.stdout ++ output })
      if ¬ disk.flush then .err st "cannot flush stdout" else .ok st
    else
      let log : Logger := { st.1 with buffer := st.1.buffer ++ output }
      if ¬ disk.mkdir then .err (log, st.2) "cannot create directory"
      else if ¬ disk.create then .err (log, st.2) "cannot create file"
      else if ¬ disk.write then .err (log, { st.2 with file := some (log.buffer.take disk.written) }) "cannot write file"
      else
        let st := (log, { st.2 with file := some log.buffer })
        if ¬ disk.sync then .err st "cannot sync file" else .ok st

/-! ## Sequences of calls -/

/-- a call before `footer` -/
inductive LogCall (F : Type) where
  | header
  | step (h l : F) (last : Bool)
  | iteration (iter : Nat) (err : LogError F)
  | didNotConverge

def Logger.call (st : Logger × World) : LogCall F → Logger × World
  | .header => Logger.header st
  | .step h l last => Logger.step sci h l last st
  | .iteration iter err => Logger.iteration sci iter err st
  | .didNotConverge => Logger.didNotConverge st

def Logger.run (st : Logger × World) (cs : List (LogCall F)) : Logger × World := cs.foldl (Logger.call sci) st

/-- a logger that writes to a file and one that prints, which have got the same text -/
def Twin (w0 w1 : World) (a b : Logger × World) : Prop :=
  a.1.enabled = true ∧ b.1.enabled = true ∧ a.1.fullPath.isNone = false ∧ b.1.fullPath.isNone = true ∧ a.1.arclength = b.1.arclength ∧
  a.1.withIterations = b.1.withIterations ∧ a.1.withLegend = b.1.withLegend ∧ a.1.withStatistics = b.1.withStatistics ∧
  a.2 = w0 ∧ b.2.file = w1.file ∧ b.2.stdout = w1.stdout ++ a.1.buffer

theorem twin_emit {w0 w1 : World} {a b : Logger × World} (h : Twin w0 w1 a b) (t : List Char) : Twin w0 w1 (Logger.emit a t) (Logger.emit b t) := by
  obtain ⟨h1, h2, h3, h4, h5, h6, h7, h8, h9, h10, h11⟩ := h
  unfold Logger.emit
  rw [h3, h4]
  exact ⟨h1, h2, h3, h4, h5, h6, h7, h8, h9, h10, by simp [h11]⟩

theorem twin_call {w0 w1 : World} {a b : Logger × World} (h : Twin w0 w1 a b) (c : LogCall F) : Twin w0 w1 (Logger.call sci a c) (Logger.call sci b c) := by
  obtain ⟨h1, h2, h3, h4, h5, h6, h7, h8, h9⟩ := id h
  cases c with
  | header =>
    simp only [Logger.call, Logger.header, h1, h2, not_true, if_false, h7]
    cases hl : b.1.withLegend with
    | true =>
      simp only [if_true]
      have e1 := twin_emit h legendText
      have e2 := e1.2.2.2.2.1
      rw [e2]
      exact twin_emit (twin_emit (twin_emit e1 _) _) _
    | false =>
      simp only [Bool.false_eq_true, if_false]
      rw [h5]
      exact twin_emit (twin_emit (twin_emit h _) _) _
  | step x l last =>
    simp only [Logger.call, Logger.step, h1, h2, not_true, if_false]
    exact twin_emit h _
  | iteration iter err =>
    simp only [Logger.call, Logger.iteration, h1, h2, h6, true_and]
    split
    · exact h
    · rw [h5]
      exact twin_emit h _
  | didNotConverge =>
    simp only [Logger.call, Logger.didNotConverge, h1, h2, not_true, if_false]
    exact twin_emit h _

theorem twin_run {w0 w1 : World} {a b : Logger × World} (h : Twin w0 w1 a b) (cs : List (LogCall F)) : Twin w0 w1 (Logger.run sci a cs) (Logger.run sci b cs) := by
  induction cs generalizing a b with
  | nil => exact h
  | cons c cs ih => exact ih (twin_call sci h c)

theorem twin_new (c : LogConfig) (path : List Char) (w0 w1 : World) :
    Twin w0 w1 (Logger.new { c with logFile := some path }, w0) (Logger.new { c with verbose := true, logFile := none }, w1) :=
  ⟨by simp [Logger.new], rfl, rfl, rfl, rfl, rfl, rfl, rfl, rfl, rfl, by simp [Logger.new]⟩

/-- C123: with a log file, nothing is printed, the file is not touched before `footer`, and if `footer` succeeds the file holds exactly the text that
is printed with the same configuration, verbose and without log file, whatever the file held before and whether or not `verbose` is set -/
theorem C123_file_is_output (c : LogConfig) (path : List Char) (w w' : World) (cs : List (LogCall F)) (disk disk' : Disk) (hf : disk'.flush = true)
    (stats : List Char) (failure : Bool) (status : List Char) :
    (Logger.run sci (Logger.new { c with logFile := some path }, w) cs).2 = w ∧
    ∀ r, Logger.footer disk stats failure status (Logger.run sci (Logger.new { c with logFile := some path }, w) cs) = .ok r →
      r.2.stdout = w.stdout ∧
      ∃ r' text, Logger.footer disk' stats failure status (Logger.run sci (Logger.new { c with verbose := true, logFile := none }, w') cs) = .ok r' ∧
        r'.2.stdout = w'.stdout ++ text ∧ r'.2.file = w'.file ∧ r.2.file = some text := by
  obtain ⟨h1, h2, h3, h4, h5, h6, h7, h8, h9, h10, h11⟩ := twin_run sci (twin_new c path w w') cs
  refine ⟨h9, fun r hr => ?_⟩
  revert hr h1 h2 h3 h4 h8 h9 h10 h11
  generalize Logger.run sci (Logger.new { c with logFile := some path }, w) cs = a
  generalize Logger.run sci (Logger.new { c with verbose := true, logFile := none }, w') cs = b
  intro h1 h2 h3 h4 h8 h9 h10 h11 hr
  simp only [Logger.footer, h1, h2, h3, h4, hf, not_true, if_false, if_true, Bool.false_eq_true] at hr ⊢
  split at hr
  · cases hr
  split at hr
  · cases hr
  split at hr
  · cases hr
  split at hr
  · cases hr
  cases hr
  refine ⟨by rw [h9], _, a.1.buffer ++ footerText a.1.withStatistics stats failure status, rfl, ?_, h10, rfl⟩
  simp [h11, h8]

/-- one solution: the calls, the disk with a log file and without, and the arguments of `footer` -/
structure LogSolve (F : Type) where
  cs : List (LogCall F)
  disk : Disk
  disk' : Disk
  stats : List Char
  failure : Bool
  status : List Char

/-- several solutions with one logger, up to the first error -/
def Logger.solves (disk : LogSolve F → Disk) : List (LogSolve F) → Logger × World → MRes (Logger × World)
  | [], st => .ok st
  | s :: ss, st =>
    match Logger.footer (disk s) s.stats s.failure s.status (Logger.run sci st s.cs) with
    | .ok st => Logger.solves disk ss st
    | .err st msg => .err st msg
    | .panic => .panic

theorem twin_footer {w0 w1 : World} {a b r : Logger × World} (h : Twin w0 w1 a b) (disk disk' : Disk) (hf : disk'.flush = true)
    (stats : List Char) (failure : Bool) (status : List Char) (hr : Logger.footer disk stats failure status a = .ok r) :
    ∃ r', Logger.footer disk' stats failure status b = .ok r' ∧ Twin { w0 with file := some r.1.buffer } w1 r r' := by
  obtain ⟨h1, h2, h3, h4, h5, h6, h7, h8, h9, h10, h11⟩ := h
  simp only [Logger.footer, h1, h2, h3, h4, hf, not_true, if_false, if_true, Bool.false_eq_true] at hr ⊢
  split at hr
  · cases hr
  split at hr
  · cases hr
  split at hr
  · cases hr
  split at hr
  · cases hr
  cases hr
  exact ⟨_, rfl, rfl, by simp [h2], h3, h4, h5, h6, h7, h8, by rw [h9], h10, by simp [h11, h8]⟩

theorem twin_solves {w0 w1 : World} {a b : Logger × World} (h : Twin w0 w1 a b) (ss : List (LogSolve F)) (hf : ∀ s ∈ ss, s.disk'.flush = true)
    {r : Logger × World} (hr : Logger.solves sci LogSolve.disk ss a = .ok r) :
    ∃ r' w, Logger.solves sci LogSolve.disk' ss b = .ok r' ∧ Twin w w1 r r' ∧ w.stdout = w0.stdout ∧ (ss ≠ [] → w.file = some r.1.buffer) := by
  induction ss generalizing a b w0 with
  | nil =>
    cases hr
    exact ⟨b, w0, rfl, h, rfl, fun h => absurd rfl h⟩
  | cons s ss ih =>
    simp only [Logger.solves] at hr ⊢
    have h1 := twin_run sci h s.cs
    cases hc : Logger.footer s.disk s.stats s.failure s.status (Logger.run sci a s.cs) with
    | panic => rw [hc] at hr; cases hr
    | err st msg => rw [hc] at hr; cases hr
    | ok st =>
      rw [hc] at hr
      obtain ⟨st', e1, e2⟩ := twin_footer h1 s.disk s.disk' (hf s (by simp)) _ _ _ hc
      rw [e1]
      obtain ⟨r', w, k1, k2, k3, k4⟩ := ih e2 (fun s hs => hf s (by simp [hs])) hr
      refine ⟨r', w, k1, k2, k3, fun _ => ?_⟩
      cases ss with
      | nil =>
        cases hr
        exact (congrArg World.file k2.2.2.2.2.2.2.2.2.1).symm.trans (congrArg World.file e2.2.2.2.2.2.2.2.2.1)
      | cons _ _ => exact k4 (by simp)

/-- C123: several solutions with the same solver: after the last one the log file holds the texts of all of them, not only of the last -/
theorem C123_several_solves (c : LogConfig) (path : List Char) (w w' : World) (ss : List (LogSolve F)) (hne : ss ≠ [])
    (hf : ∀ s ∈ ss, s.disk'.flush = true) (r : Logger × World)
    (hr : Logger.solves sci LogSolve.disk ss (Logger.new { c with logFile := some path }, w) = .ok r) :
    r.2.stdout = w.stdout ∧
    ∃ r' text, Logger.solves sci LogSolve.disk' ss (Logger.new { c with verbose := true, logFile := none }, w') = .ok r' ∧
      r'.2.stdout = w'.stdout ++ text ∧ r'.2.file = w'.file ∧ r.2.file = some text := by
  obtain ⟨r', v, k1, k2, k3, k4⟩ := twin_solves sci (twin_new c path w w') ss hf hr
  obtain ⟨-, -, -, -, -, -, -, -, h9, h10, h11⟩ := k2
  exact ⟨by rw [h9, k3], r', r.1.buffer, k1, h11, h10, by rw [h9, k4 hne]⟩

/-- C123: a logger that is neither verbose nor has a log file does nothing and does not fail -/
theorem C123_disabled (c : LogConfig) (h1 : c.verbose = false) (h2 : c.logFile = none) (w : World) (cs : List (LogCall F)) (disk : Disk)
    (stats : List Char) (failure : Bool) (status : List Char) :
    ∃ log, Logger.footer disk stats failure status (Logger.run sci (Logger.new c, w) cs) = .ok (log, w) := by
  have h0 : (Logger.new c).enabled = false := by simp [Logger.new, h1, h2]
  have hr : Logger.run sci (Logger.new c, w) cs = (Logger.new c, w) := by
    unfold Logger.run
    induction cs with
    | nil => rfl
    | cons d cs ih =>
      rw [List.foldl_cons]
      have : Logger.call sci (Logger.new c, w) d = (Logger.new c, w) := by
        cases d <;> simp [Logger.call, Logger.header, Logger.step, Logger.iteration, Logger.didNotConverge, h0]
      rw [this]
      exact ih
  exact ⟨Logger.new c, by rw [hr]; simp [Logger.footer, h0]⟩

/-- C123: the errors of `footer`: a logger with a log file fails exactly if one of the operations on the file does, with the message of the first
one; the file keeps its content if it could not be opened -/
theorem C123_footer_errors (c : LogConfig) (path : List Char) (w : World) (cs : List (LogCall F)) (disk : Disk)
    (stats : List Char) (failure : Bool) (status : List Char) :
    let res := Logger.footer disk stats failure status (Logger.run sci (Logger.new { c with logFile := some path }, w) cs)
    (disk.mkdir = false → ∃ log, res = .err (log, w) "cannot create directory") ∧
    (disk.mkdir = true → disk.create = false → ∃ log, res = .err (log, w) "cannot create file") ∧
    (disk.mkdir = true → disk.create = true → disk.write = false → ∃ r, res = .err r "cannot write file") ∧
    (disk.mkdir = true → disk.create = true → disk.write = true → disk.sync = false → ∃ r, res = .err r "cannot sync file") ∧
    (disk.mkdir = true → disk.create = true → disk.write = true → disk.sync = true → ∃ r, res = .ok r) := by
  obtain ⟨h1, -, h3, -, -, -, -, -, h9, -⟩ := twin_run sci (twin_new c path w w) cs
  intro res
  simp only [res, Logger.footer, h1, h3, not_true, if_false, Bool.false_eq_true]
  refine ⟨fun q => ?_, fun q q1 => ?_, fun q q1 q2 => ?_, fun q q1 q2 q3 => ?_, fun q q1 q2 q3 => ?_⟩ <;> simp [*]

end

/-- C123: the icon says whether the iteration has converged, else whether it diverges; the first iteration has no other icon -/
theorem C123_icon (iter : Nat) (converged diverging : Bool) :
    ('✅' ∈ icon iter converged diverging ↔ converged = true) ∧ ('🎈' ∈ icon iter converged diverging ↔ converged = false ∧ diverging = true) ∧
    ('🔹' ∈ icon iter converged diverging ↔ converged = false ∧ diverging = false ∧ iter ≠ 0) := by
  unfold icon
  cases converged <;> cases diverging <;> by_cases h : iter = 0 <;> simp [h]

/-! ## The columns of the table

On a terminal the icons and the sign `➖` take two columns, all other characters of the table one. -/

/-- the number of columns of a text -/
def dispWidth (s : List Char) : Nat := (s.map fun c => if c = '✅' ∨ c = '🎈' ∨ c = '🔹' ∨ c = '➖' then 2 else 1).sum

/-- the text `t` is part of the line `s` and ends at the column `col` -/
def EndsAt (s t : List Char) (col : Nat) : Prop := ∃ pre post, s = pre ++ t ++ post ∧ dispWidth (pre ++ t) = col

theorem dispWidth_append (s t : List Char) : dispWidth (s ++ t) = dispWidth s + dispWidth t := by simp [dispWidth]

theorem dispWidth_replicate (n : Nat) : dispWidth (List.replicate n ' ') = n := by
  unfold dispWidth
  rw [List.map_replicate, if_neg (by decide), List.sum_replicate]
  simp

theorem dispWidth_decimal (n : Nat) : dispWidth (decimal n) = (decimal n).length := by
  have h := decimal_chars n
  unfold dispWidth
  generalize decimal n = l at h
  induction l with
  | nil => rfl
  | cons c l ih =>
    obtain ⟨d, hd, rfl⟩ := h c (by simp)
    rw [List.map_cons, List.sum_cons, ih (fun c hc => h c (by simp [hc])), List.length_cons, if_neg, Nat.add_comm]
    interval_cases d <;> decide

theorem dispWidth_pad {w : Nat} {s : List Char} (h : dispWidth s = s.length) (hw : s.length ≤ w) : dispWidth (logPad w s) = w := by
  unfold logPad
  rw [dispWidth_append, dispWidth_replicate, h]
  omega

theorem dispWidth_icon (iter : Nat) (a b : Bool) : dispWidth (icon iter a b) = 2 := by
  unfold icon
  cases a <;> cases b <;> by_cases h : iter = 0 <;> simp [h] <;> decide

theorem endsAt_intro (pre t post : List Char) {s : List Char} {col : Nat} (h : s = pre ++ (t ++ post)) (hw : dispWidth (pre ++ t) = col) : EndsAt s t col :=
  ⟨pre, post, by rw [h, List.append_assoc], hw⟩

/-- C123: the titles and the lines of the iterations and of the steps agree: the number of the iteration, the residual and its icon, the two measures
of the correction and their icon end at the columns at which their titles end, and λ and the step end where theirs do. The titles fill the width of the
rules. With the natural parametrization the correction is not shown if the residual has converged. The numbers fill the width asked for, and the
number of the iteration has at most five digits -/
theorem C123_columns {F : Type} (sci : F → Nat → Nat → List Char) (hs : ∀ x w p, dispWidth (sci x w p) = w) (arclength : Bool) (iter : Nat) (hi : iter < 100000)
    (err : LogError F) (h l : F) (st : Logger × World) (hen : st.1.enabled = true) :
    (EndsAt (columnHeaders arclength) ['λ'] 10 ∧ EndsAt (columnHeaders arclength) (if arclength then ['Δ', 's'] else ['Δ', 'λ']) 21 ∧
      EndsAt (columnHeaders arclength) ['i', 't', 'e', 'r'] 27 ∧
      EndsAt (columnHeaders arclength) (if arclength then "‖(G,N)‖∞".toList else "‖G‖∞".toList) 38 ∧ EndsAt (columnHeaders arclength) ['➖'] 41 ∧
      EndsAt (columnHeaders arclength) (if arclength then "‖(δu,δλ)‖∞".toList else "‖δu‖∞".toList) 52 ∧
      EndsAt (columnHeaders arclength) (if arclength then "Rel((δu,δλ))".toList else "Rel(δu)".toList) 65 ∧ EndsAt (columnHeaders arclength) ['➖'] 68 ∧
      dispWidth (columnHeaders arclength) = dispWidth (List.replicate nchar '─')) ∧
    (let t := iterationText sci arclength iter err
     EndsAt t (decimal iter) 27 ∧ EndsAt t (sci err.residualMax 10 2) 38 ∧ EndsAt t (icon iter err.residualConverged err.residualDiverging) 41 ∧
     (arclength = true ∨ err.residualConverged = false →
       EndsAt t (sci err.deltaMax 10 2) 52 ∧ EndsAt t (sci err.deltaRms 12 2) 65 ∧ EndsAt t (icon iter err.deltaConverged err.deltaDiverging) 68 ∧
       dispWidth t = nchar) ∧
     (arclength = false ∧ err.residualConverged = true → EndsAt t ['·'] 52 ∧ EndsAt t ['·'] 65)) ∧
    (∀ last, ∃ t, Logger.step sci h l last st = Logger.emit st t ∧ EndsAt t (sci l 10 3) 10 ∧ (last = false → EndsAt t (sci h 10 3) 21)) := by
  have hd : (decimal iter).length ≤ 5 := Russell.Lab.decimalAux_length 5 (by norm_num) _ _ (by norm_num; exact hi)
  have hp := dispWidth_pad (dispWidth_decimal iter) hd
  have h10 : dispWidth (logPad 10 ['·']) = 10 := by decide +kernel
  have h12 : dispWidth (logPad 12 ['·']) = 12 := by decide +kernel
  have h1 : dispWidth [' '] = 1 := by decide
  have e10 : logPad 10 ['·'] = List.replicate 9 ' ' ++ ['·'] := rfl
  have e12 : logPad 12 ['·'] = List.replicate 11 ' ' ++ ['·'] := rfl
  refine ⟨?_, ?_, fun last => ?_⟩
  · have hh : ∀ a : Bool, ∀ (t : List Char) (i col : Nat), columnHeaders a = (columnHeaders a).take i ++ t ++ (columnHeaders a).drop (i + t.length) →
        dispWidth ((columnHeaders a).take i ++ t) = col → EndsAt (columnHeaders a) t col := fun a t i col e1 e2 => ⟨_, _, e1, e2⟩
    cases arclength
    · refine ⟨hh _ _ 9 _ ?_ ?_, hh _ _ 19 _ ?_ ?_, hh _ _ 23 _ ?_ ?_, hh _ _ 34 _ ?_ ?_, hh _ _ 39 _ ?_ ?_, hh _ _ 46 _ ?_ ?_, hh _ _ 57 _ ?_ ?_, hh _ _ 65 _ ?_ ?_, ?_⟩ <;> decide +kernel
    · refine ⟨hh _ _ 9 _ ?_ ?_, hh _ _ 19 _ ?_ ?_, hh _ _ 23 _ ?_ ?_, hh _ _ 30 _ ?_ ?_, hh _ _ 39 _ ?_ ?_, hh _ _ 41 _ ?_ ?_, hh _ _ 52 _ ?_ ?_, hh _ _ 65 _ ?_ ?_, ?_⟩ <;> decide +kernel
  · have hlead : ∀ r : List Char, EndsAt (logPad 10 ['·'] ++ [' '] ++ logPad 10 ['·'] ++ [' '] ++ logPad 5 (decimal iter) ++ [' '] ++ r) (decimal iter) 27 := by
      intro r
      refine endsAt_intro (logPad 10 ['·'] ++ [' '] ++ logPad 10 ['·'] ++ [' '] ++ List.replicate (5 - (decimal iter).length) ' ') _ ([' '] ++ r) ?_ ?_
      · simp only [logPad, List.append_assoc]
      · simp only [dispWidth_append, h10, h1, dispWidth_replicate, dispWidth_decimal]
        omega
    have hl : dispWidth (logPad 10 ['·'] ++ [' '] ++ logPad 10 ['·'] ++ [' '] ++ logPad 5 (decimal iter) ++ [' ']) = 28 := by
      simp only [dispWidth_append, h10, h1, hp]
    generalize hL : logPad 10 ['·'] ++ [' '] ++ logPad 10 ['·'] ++ [' '] ++ logPad 5 (decimal iter) ++ [' '] = L at hlead hl
    have key : ∀ r : List Char, EndsAt (L ++ (sci err.residualMax 10 2 ++ ([' '] ++ (icon iter err.residualConverged err.residualDiverging ++ r)))) (decimal iter) 27 ∧
        EndsAt (L ++ (sci err.residualMax 10 2 ++ ([' '] ++ (icon iter err.residualConverged err.residualDiverging ++ r)))) (sci err.residualMax 10 2) 38 ∧
        EndsAt (L ++ (sci err.residualMax 10 2 ++ ([' '] ++ (icon iter err.residualConverged err.residualDiverging ++ r))))
          (icon iter err.residualConverged err.residualDiverging) 41 := by
      intro r
      refine ⟨hlead _, endsAt_intro L _ _ rfl ?_, endsAt_intro (L ++ sci err.residualMax 10 2 ++ [' ']) _ r ?_ ?_⟩
      · simp only [dispWidth_append, hl, hs]
      · simp only [List.append_assoc]
      · simp only [dispWidth_append, hl, hs, h1, dispWidth_icon]
    by_cases hc : arclength = true ∨ err.residualConverged = false
    · have ht : iterationText sci arclength iter err = L ++ (sci err.residualMax 10 2 ++ ([' '] ++ (icon iter err.residualConverged err.residualDiverging ++
          ([' '] ++ (sci err.deltaMax 10 2 ++ ([' '] ++ (sci err.deltaRms 12 2 ++ ([' '] ++ icon iter err.deltaConverged err.deltaDiverging)))))))) := by
        rw [← hL]
        unfold iterationText
        rcases hc with hc | hc
        · simp only [hc, if_true, List.append_assoc]
        · simp only [hc, Bool.false_eq_true, if_false, ite_self, List.append_assoc]
      intro t
      obtain ⟨k1, k2, k3⟩ := key ([' '] ++ (sci err.deltaMax 10 2 ++ ([' '] ++ (sci err.deltaRms 12 2 ++ ([' '] ++ icon iter err.deltaConverged err.deltaDiverging)))))
      rw [← ht] at k1 k2 k3
      refine ⟨k1, k2, k3, fun _ => ⟨?_, ?_, ?_, ?_⟩, fun q => ?_⟩
      · refine endsAt_intro (L ++ sci err.residualMax 10 2 ++ [' '] ++ icon iter err.residualConverged err.residualDiverging ++ [' ']) _
          ([' '] ++ (sci err.deltaRms 12 2 ++ ([' '] ++ icon iter err.deltaConverged err.deltaDiverging))) ?_ ?_
        · simp only [t, ht, List.append_assoc]
        · simp only [dispWidth_append, hl, hs, h1, dispWidth_icon]
      · refine endsAt_intro (L ++ sci err.residualMax 10 2 ++ [' '] ++ icon iter err.residualConverged err.residualDiverging ++ [' '] ++ sci err.deltaMax 10 2 ++ [' ']) _
          ([' '] ++ icon iter err.deltaConverged err.deltaDiverging) ?_ ?_
        · simp only [t, ht, List.append_assoc]
        · simp only [dispWidth_append, hl, hs, h1, dispWidth_icon]
      · refine endsAt_intro (L ++ sci err.residualMax 10 2 ++ [' '] ++ icon iter err.residualConverged err.residualDiverging ++ [' '] ++ sci err.deltaMax 10 2 ++ [' '] ++
          sci err.deltaRms 12 2 ++ [' ']) _ [] ?_ ?_
        · simp only [t, ht, List.append_assoc, List.append_nil]
        · simp only [dispWidth_append, hl, hs, h1, dispWidth_icon]
      · simp only [t, ht, dispWidth_append, hl, hs, h1, dispWidth_icon, nchar]
      · rcases hc with hc | hc
        · rw [q.1] at hc; cases hc
        · rw [q.2] at hc; cases hc
    · have hc1 : arclength = false := by cases arclength <;> simp_all
      have hc2 : err.residualConverged = true := by cases hq : err.residualConverged <;> simp_all
      have ht : iterationText sci arclength iter err = L ++ (sci err.residualMax 10 2 ++ ([' '] ++ (icon iter err.residualConverged err.residualDiverging ++
          ([' '] ++ (logPad 10 ['·'] ++ ([' '] ++ logPad 12 ['·'])))))) := by
        rw [← hL]
        unfold iterationText
        simp only [hc1, hc2, Bool.false_eq_true, if_false, if_true, List.append_assoc]
      intro t
      obtain ⟨k1, k2, k3⟩ := key ([' '] ++ (logPad 10 ['·'] ++ ([' '] ++ logPad 12 ['·'])))
      rw [← ht] at k1 k2 k3
      refine ⟨k1, k2, k3, fun q => absurd q hc, fun _ => ⟨?_, ?_⟩⟩
      · refine endsAt_intro (L ++ sci err.residualMax 10 2 ++ [' '] ++ icon iter err.residualConverged err.residualDiverging ++ [' '] ++ List.replicate 9 ' ') _
          ([' '] ++ logPad 12 ['·']) ?_ ?_
        · simp only [t, ht, e10, List.append_assoc]
        · simp only [dispWidth_append, hl, hs, h1, dispWidth_icon, dispWidth_replicate]
          decide
      · refine endsAt_intro (L ++ sci err.residualMax 10 2 ++ [' '] ++ icon iter err.residualConverged err.residualDiverging ++ [' '] ++ logPad 10 ['·'] ++ [' '] ++
          List.replicate 11 ' ') _ [] ?_ ?_
        · simp only [t, ht, e12, List.append_assoc, List.append_nil]
        · simp only [dispWidth_append, hl, hs, h1, h10, dispWidth_icon, dispWidth_replicate]
          decide
  · cases last
    · refine ⟨sci l 10 3 ++ [' '] ++ sci h 10 3, by simp [Logger.step, hen], endsAt_intro [] _ ([' '] ++ sci h 10 3) (by simp) (by simp [hs]),
        fun _ => endsAt_intro (sci l 10 3 ++ [' ']) _ [] (by simp) (by simp only [dispWidth_append, hs, h1])⟩
    · exact ⟨sci l 10 3, by simp [Logger.step, hen], endsAt_intro [] _ [] (by simp) (by simp [hs]), fun q => by cases q⟩

/-! ## Instances -/

example : EndsAt (iterationText (fun (_ : Nat) w _ => List.replicate w ' ') true 12 ⟨0, 0, 0, false, true, true, false⟩) ['1', '2'] 27 :=
  (C123_columns (fun (_ : Nat) w _ => List.replicate w ' ') (fun _ w _ => dispWidth_replicate w) true 12 (by norm_num) _ 0 0
    (Logger.new ⟨true, true, true, true, true, none⟩, ⟨[], none⟩) rfl).2.1.1

def exSci (x : Nat) (w _p : Nat) : List Char := logPad w (decimal x)

example : (columnHeaders true).length = 66 ∧ (columnHeaders false).length = 66 := by decide +kernel

example : ∃ r, Logger.footer ⟨true, true, true, true, true, 0⟩ [] false []
    (Logger.run exSci (Logger.new ⟨true, false, true, false, false, some ['f']⟩, ⟨[], none⟩) [.step 1 2 true, .didNotConverge]) = .ok r ∧
    r.2.file = some ("         2\n".toList ++ (List.replicate 20 ' ' ++ "(rejected: did not converge)".toList ++ List.replicate 20 ' ' ++ ['\n']) ++
      (List.replicate 68 '─' ++ ['\n'])) ∧ r.2.stdout = [] := by
  refine ⟨_, rfl, ?_, ?_⟩ <;> decide +kernel

example : ∃ log, Logger.footer ⟨true, true, false, true, true, 0⟩ [] false []
    (Logger.run exSci (Logger.new ⟨true, false, true, false, false, some ['f']⟩, ⟨[], some ['o', 'l', 'd']⟩) [.header]) =
      .err (log, ⟨[], some ['o', 'l', 'd']⟩) "cannot create file" :=
  (C123_footer_errors exSci ⟨true, false, true, false, false, none⟩ ['f'] _ _ ⟨true, true, false, true, true, 0⟩ _ _ _).2.1 rfl rfl

example : ∃ r r' text, Logger.footer ⟨true, true, true, true, true, 0⟩ ['s'] true ['t']
    (Logger.run exSci (Logger.new ⟨false, false, true, true, true, some ['f']⟩, ⟨['x'], none⟩) [.header, .iteration 1 ⟨1, 2, 3, false, true, false, false⟩]) = .ok r ∧
    Logger.footer ⟨true, false, false, false, false, 0⟩ ['s'] true ['t']
    (Logger.run exSci (Logger.new ⟨false, true, true, true, true, none⟩, ⟨[], none⟩) [.header, .iteration 1 ⟨1, 2, 3, false, true, false, false⟩]) = .ok r' ∧
    r.2.file = some text ∧ r'.2.stdout = [] ++ text ∧ r.2.stdout = ['x'] := by
  obtain ⟨r, hr⟩ := (C123_footer_errors exSci ⟨false, false, true, true, true, none⟩ ['f'] ⟨['x'], none⟩
    [.header, .iteration 1 ⟨1, 2, 3, false, true, false, false⟩] ⟨true, true, true, true, true, 0⟩ ['s'] true ['t']).2.2.2.2 rfl rfl rfl rfl
  obtain ⟨h1, r', text, h2, h3, -, h4⟩ := (C123_file_is_output exSci ⟨false, false, true, true, true, none⟩ ['f'] ⟨['x'], none⟩ ⟨[], none⟩
    [.header, .iteration 1 ⟨1, 2, 3, false, true, false, false⟩] ⟨true, true, true, true, true, 0⟩ ⟨true, false, false, false, false, 0⟩ rfl ['s'] true ['t']).2 r hr
  exact ⟨r, r', text, hr, h2, h4, h3, h1⟩

example : ∃ log, Logger.footer ⟨false, false, false, false, false, 0⟩ [] true []
    (Logger.run exSci (Logger.new ⟨true, false, true, true, true, none⟩, ⟨['x'], none⟩) [.header, .step 1 2 true]) = .ok (log, ⟨['x'], none⟩) :=
  C123_disabled exSci _ rfl rfl _ _ _ _ _ _

example : ∃ r, Logger.solves exSci LogSolve.disk [⟨[.step 1 2 true], ⟨true, true, true, true, true, 0⟩, ⟨true, true, true, true, true, 0⟩, [], false, []⟩,
      ⟨[.step 1 3 true], ⟨true, true, true, true, true, 0⟩, ⟨true, true, true, true, true, 0⟩, [], false, []⟩]
    (Logger.new ⟨true, false, true, false, false, some ['f']⟩, ⟨[], none⟩) = .ok r ∧
    r.2.file = some ("         2\n".toList ++ List.replicate 68 '─' ++ ['\n'] ++ "         3\n".toList ++ List.replicate 68 '─' ++ ['\n']) := by
  refine ⟨_, rfl, ?_⟩
  decide +kernel

end Russell.Nonlin
