import Verif.Lab.Durations
import Mathlib.Algebra.BigOperators.Group.List.Basic

/-!
# `Stopwatch` (property C122)

/repo/russell_lab/src/base/stopwatch.rs. A reading of the clock is a number of nanoseconds; the readings are inputs of the model. `duration_since` gives
zero if the earlier reading is the larger one (truncated subtraction of `Nat`).
-/

namespace Russell.Lab

/-- `struct Stopwatch` (stopwatch.rs:63-66) -/
structure Stopwatch where
  initialTime : Nat
  finalTime : Nat

namespace Stopwatch

/-- `new` (stopwatch.rs:86-92) -/
def new (now : Nat) : Stopwatch := ⟨now, now⟩

/-- `stop` (stopwatch.rs:113-116) -/
def stop (s : Stopwatch) (now : Nat) : Stopwatch × Nat :=
  let s := { s with finalTime := now }
  (s, s.finalTime - s.initialTime)

/-- `reset` (stopwatch.rs:132-136) -/
def reset (_ : Stopwatch) (now : Nat) : Stopwatch := ⟨now, now⟩

/-- `stop_and_reset` (stopwatch.rs:158-168), which reads the clock twice -/
def stopAndReset (s : Stopwatch) (now now' : Nat) : Stopwatch × Nat :=
  let s := { s with finalTime := now }
  let elapsed := s.finalTime - s.initialTime
  let s := { s with initialTime := now' }
  let s := { s with finalTime := now' }
  (s, elapsed)

/-- `fmt` (stopwatch.rs:172-176) -/
def display (s : Stopwatch) : List Char := formatNanoseconds (s.finalTime - s.initialTime)

end Stopwatch

/-- a call, with the readings of the clock that it makes -/
inductive SwCall where
  | stop (t : Nat)
  | reset (t : Nat)
  | stopAndReset (t t' : Nat)

/-- the readings of a call -/
def SwCall.readings : SwCall → List Nat
  | .stop t => [t]
  | .reset t => [t]
  | .stopAndReset t t' => [t, t']

/-- one call; the number returned by `reset` does not exist -/
def Stopwatch.call (s : Stopwatch) : SwCall → Stopwatch × Option Nat
  | .stop t => ((s.stop t).1, some (s.stop t).2)
  | .reset t => (s.reset t, none)
  | .stopAndReset t t' => ((s.stopAndReset t t').1, some (s.stopAndReset t t').2)

/-- a sequence of calls: the stopwatch after the last one and the numbers returned -/
def Stopwatch.run (s : Stopwatch) : List SwCall → Stopwatch × List (Option Nat)
  | [] => (s, [])
  | c :: cs => (((s.call c).1.run cs).1, (s.call c).2 :: ((s.call c).1.run cs).2)

/-- the clock does not go back -/
def Monotonic (t0 : Nat) (cs : List SwCall) : Prop := (t0 :: (cs.map SwCall.readings).flatten).Pairwise (· ≤ ·)

/-- the calls that start a new measurement at `t` -/
def SwCall.Starts (t : Nat) : SwCall → Prop
  | .stop _ => False
  | .reset t' => t' = t
  | .stopAndReset _ t' => t' = t

theorem Stopwatch.run_append (s : Stopwatch) (cs ds : List SwCall) :
    s.run (cs ++ ds) = (((s.run cs).1.run ds).1, (s.run cs).2 ++ ((s.run cs).1.run ds).2) := by
  induction cs generalizing s with
  | nil => rfl
  | cons c cs ih => simp only [List.cons_append, Stopwatch.run, ih]

theorem Stopwatch.run_stops (s : Stopwatch) (cs : List SwCall) (h : ∀ c ∈ cs, ∃ t, c = .stop t) : (s.run cs).1.initialTime = s.initialTime := by
  induction cs generalizing s with
  | nil => rfl
  | cons c cs ih =>
    obtain ⟨t, rfl⟩ := h c (by simp)
    simp only [Stopwatch.run]
    rw [ih _ (fun c hc => h c (by simp [hc]))]
    rfl

theorem Stopwatch.run_start (s : Stopwatch) (cs : List SwCall) (c : SwCall) (t : Nat) (hc : c.Starts t) :
    (s.run (cs ++ [c])).1 = ⟨t, t⟩ := by
  rw [Stopwatch.run_append]
  cases c with
  | stop _ => exact hc.elim
  | reset t' => cases hc; rfl
  | stopAndReset _ t' => cases hc; rfl

/-- C122: `stop` and `stop_and_reset` return the time since the last call that started a measurement (`new`, `reset` or `stop_and_reset`), whatever
was called before it and however often `stop` was called since, and `stop` does not end the measurement. `start` is the reading of that call: the
last one before the calls `cs`, which are `stop` -/
theorem C122_elapsed (t0 : Nat) (before cs : List SwCall) (start t : Nat) (hcs : ∀ c ∈ cs, ∃ t, c = .stop t)
    (hb : (before = [] ∧ start = t0) ∨ ∃ pre c, before = pre ++ [c] ∧ c.Starts start) (last : SwCall) (hl : last = .stop t ∨ ∃ t', last = .stopAndReset t t')
    (hm : Monotonic t0 (before ++ cs ++ [last])) :
    ∃ e, ((Stopwatch.new t0).run (before ++ cs ++ [last])).2.getLast? = some (some e) ∧ start + e = t := by
  have h0 : ((Stopwatch.new t0).run before).1.initialTime = start := by
    rcases hb with ⟨rfl, rfl⟩ | ⟨pre, c, rfl, hc⟩
    · rfl
    · rw [Stopwatch.run_start _ _ _ _ hc]
  have h1 : ((Stopwatch.new t0).run (before ++ cs)).1.initialTime = start := by
    rw [Stopwatch.run_append]
    exact (Stopwatch.run_stops _ _ hcs).trans h0
  have hle : start ≤ t := by
    have hmem : t ∈ last.readings := by
      rcases hl with rfl | ⟨t', rfl⟩ <;> simp [SwCall.readings]
    unfold Monotonic at hm
    rcases hb with ⟨rfl, rfl⟩ | ⟨pre, c, rfl, hc⟩
    · refine (List.pairwise_cons.1 hm).1 t ?_
      simp only [List.mem_flatten, List.mem_map]
      exact ⟨_, ⟨last, by simp, rfl⟩, hmem⟩
    · have hs : start ∈ c.readings := by
        cases c with
        | stop _ => exact hc.elim
        | reset t' => cases hc; simp [SwCall.readings]
        | stopAndReset _ t' => cases hc; simp [SwCall.readings]
      have h2 := (List.pairwise_cons.1 hm).2
      rw [List.map_append, List.flatten_append] at h2
      refine (List.pairwise_append.1 h2).2.2 start ?_ t ?_
      · simp only [List.mem_flatten, List.mem_map]
        exact ⟨_, ⟨c, by simp, rfl⟩, hs⟩
      · simpa using hmem
  refine ⟨t - start, ?_, by omega⟩
  rw [Stopwatch.run_append]
  rcases hl with rfl | ⟨t', rfl⟩
  · simp [Stopwatch.run, Stopwatch.call, Stopwatch.stop, h1]
  · simp [Stopwatch.run, Stopwatch.call, Stopwatch.stopAndReset, h1]

/-- C122: the displayed time is the number returned by the last call if this is `stop`; it is `0ns` after `new`, `reset` and `stop_and_reset` -/
theorem C122_display (t0 : Nat) (cs : List SwCall) :
    (Stopwatch.new t0).display = ['0', 'n', 's'] ∧
    (∀ t, ∃ e, ((Stopwatch.new t0).run (cs ++ [.stop t])).2.getLast? = some (some e) ∧
      ((Stopwatch.new t0).run (cs ++ [.stop t])).1.display = formatNanoseconds e) ∧
    (∀ c t, c.Starts t → ((Stopwatch.new t0).run (cs ++ [c])).1.display = ['0', 'n', 's']) := by
  have h0 : ∀ t : Nat, (⟨t, t⟩ : Stopwatch).display = ['0', 'n', 's'] := by
    intro t
    unfold Stopwatch.display
    rw [show (⟨t, t⟩ : Stopwatch).finalTime - (⟨t, t⟩ : Stopwatch).initialTime = 0 from Nat.sub_self t]
    decide +kernel
  refine ⟨h0 t0, fun t => ⟨t - ((Stopwatch.new t0).run cs).1.initialTime, ?_, ?_⟩, fun c t hc => ?_⟩
  · rw [Stopwatch.run_append]
    simp [Stopwatch.run, Stopwatch.call, Stopwatch.stop]
  · rw [Stopwatch.run_append]
    rfl
  · rw [Stopwatch.run_start _ _ _ _ hc]
    exact h0 t

/-- C122: measurements with `stop_and_reset` do not overlap: the numbers returned, together with the times that the calls themselves take between their
two readings, add up to the time from the creation to the last reading -/
theorem C122_laps (t0 : Nat) (laps : List (Nat × Nat)) (hm : Monotonic t0 (laps.map fun p => .stopAndReset p.1 p.2)) :
    ∃ es : List Nat, ((Stopwatch.new t0).run (laps.map fun p => .stopAndReset p.1 p.2)).2 = es.map some ∧
      t0 + es.sum + (laps.map fun p => p.2 - p.1).sum = (laps.getLast?.map Prod.snd).getD t0 := by
  induction laps generalizing t0 with
  | nil => exact ⟨[], rfl, rfl⟩
  | cons p laps ih =>
    have h1 : t0 ≤ p.1 ∧ p.1 ≤ p.2 ∧ Monotonic p.2 (laps.map fun p => .stopAndReset p.1 p.2) := by
      unfold Monotonic at hm ⊢
      simp only [List.map_cons, SwCall.readings, List.flatten_cons, List.cons_append, List.nil_append] at hm
      obtain ⟨a1, a2⟩ := List.pairwise_cons.1 hm
      obtain ⟨b1, b2⟩ := List.pairwise_cons.1 a2
      exact ⟨a1 _ (by simp), b1 _ (by simp), b2⟩
    obtain ⟨q1, q2, q3⟩ := h1
    obtain ⟨es, e1, e2⟩ := ih p.2 q3
    refine ⟨(p.1 - t0) :: es, ?_, ?_⟩
    · simp only [List.map_cons, Stopwatch.run]
      congr 1
    · simp only [List.sum_cons, List.map_cons]
      have e3 : ((p :: laps).getLast?.map Prod.snd).getD t0 = (laps.getLast?.map Prod.snd).getD p.2 := by
        cases laps with
        | nil => rfl
        | cons q laps => simp [List.getLast?_eq_some_getLast]
      rw [e3, ← e2]
      omega

/-! ## Instances -/

example : ∃ e, ((Stopwatch.new 5).run ([.stop 7, .reset 10] ++ [.stop 12, .stop 15] ++ [.stopAndReset 21 22])).2.getLast? = some (some e) ∧ 10 + e = 21 :=
  C122_elapsed 5 [.stop 7, .reset 10] [.stop 12, .stop 15] 10 21 (by simp) (Or.inr ⟨[.stop 7], .reset 10, rfl, rfl⟩) _ (Or.inr ⟨22, rfl⟩)
    (by simp [Monotonic, SwCall.readings])

example : ((Stopwatch.new 5).run [.stop 7, .reset 10, .stop 12, .stop 15, .stopAndReset 21 22]).2 = [some 2, none, some 2, some 5, some 11] := by decide

example : ((Stopwatch.new 5).run ([.stop 7] ++ [.reset 10])).1.display = ['0', 'n', 's'] := (C122_display 5 [.stop 7]).2.2 _ 10 rfl

example : ((Stopwatch.new 5).run [.stop 7]).1.display = ['2', 'n', 's'] := by decide +kernel

example : ∃ es : List Nat, ((Stopwatch.new 5).run [.stopAndReset 9 10, .stopAndReset 20 22]).2 = List.map some es ∧ 5 + es.sum + (1 + (2 + 0)) = 22 :=
  C122_laps 5 [(9, 10), (20, 22)] (by simp [Monotonic, SwCall.readings])

end Russell.Lab
