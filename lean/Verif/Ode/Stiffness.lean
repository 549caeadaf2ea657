import Verif.Ode.ErkCases

/-!
# Detection of stiffness (C64)

The history of the calls of `detect_stiffness` is a list, the most recent call first.
-/

set_option linter.unusedSectionVars false

namespace Russell.Ode
open Russell Russell.Res Russell.Lab

variable {K : Type} [Field K] [LinearOrder K] [IsStrictOrderedRing K] [FloorSemiring K]

/-- One call: the station, the value `h ρ` and the number of accepted steps at that time. -/
structure Probe (K : Type) where
  x : K
  h_rho : K
  n_accepted : Nat

/-- The calls of `detect_stiffness`, one after the other; `h_rho` and `n_accepted` are written by `accept` and `solve`. -/
def detectAll (p : ErkParams K) (w : Workspace K) : List (Probe K) → Res (Workspace K)
  | [] => ok w
  | e :: l => do
    let w ← detectAll p w l
    detectStiffness { w with stiff_h_times_rho := e.h_rho, stats := { w.stats with n_accepted := e.n_accepted } } e.x p

/-- The probes which are taken into account. -/
def Probe.counts (p : ErkParams K) (e : Probe K) : Bool := p.skip_first_n_accepted_step < e.n_accepted

/-- The value `h ρ` is beyond the limit. -/
def Probe.high (p : ErkParams K) (e : Probe K) : Bool := p.h_times_rho_max < e.h_rho

/-- The last `ignored_after_nstep` probes were not high. -/
def Quiet (p : ErkParams K) (l : List (Probe K)) : Prop :=
  p.ignored_after_nstep ≤ l.length ∧ ∀ e ∈ l.take p.ignored_after_nstep, e.high p = false

instance (p : ErkParams K) (l : List (Probe K)) : Decidable (Quiet p l) := by unfold Quiet; infer_instance

/-- The positions (0 is the most recent one) of the high probes after which the solution was not quiet any more. -/
def suspects (p : ErkParams K) (l : List (Probe K)) : Finset Nat :=
  (Finset.range l.length).filter fun i => (∀ e, l[i]? = some e → e.high p = true) ∧ ∀ j, j ≤ i → ¬ Quiet p (l.drop j)

/-- The number of low probes at the end. -/
def trail (p : ErkParams K) : List (Probe K) → Nat
  | [] => 0
  | e :: l => if e.high p then 0 else trail p l + 1

theorem trail_le (p : ErkParams K) : ∀ l : List (Probe K), trail p l ≤ l.length
  | [] => le_refl _
  | e :: l => by
    have := trail_le p l
    simp only [trail]; split
    · omega
    · simpa using this

theorem trail_take (p : ErkParams K) : ∀ (l : List (Probe K)) (n : Nat),
    n ≤ trail p l ↔ n ≤ l.length ∧ ∀ e ∈ l.take n, e.high p = false
  | [], n => by simp [trail]
  | e :: l, 0 => by simp
  | e :: l, n + 1 => by
    have ih := trail_take p l n
    simp only [trail, List.take_succ_cons, List.mem_cons, forall_eq_or_imp, List.length_cons, Nat.add_le_add_iff_right]
    by_cases h : e.high p = true
    · simp [h]
    · simp only [h, Bool.false_eq_true, if_false, Nat.add_le_add_iff_right, ih]
      simp only [Bool.not_eq_true] at h
      tauto

theorem quiet_iff (p : ErkParams K) (l : List (Probe K)) : Quiet p l ↔ p.ignored_after_nstep ≤ trail p l :=
  (trail_take p l _).symm

theorem suspects_nil (p : ErkParams K) : suspects p ([] : List (Probe K)) = ∅ := by simp [suspects]

theorem suspects_quiet {p : ErkParams K} {l : List (Probe K)} (h : Quiet p l) : suspects p l = ∅ := by
  apply Finset.filter_eq_empty_iff.2
  rintro i - ⟨-, h2⟩
  exact h2 0 (Nat.zero_le _) h

theorem suspects_cons {p : ErkParams K} {e : Probe K} {l : List (Probe K)} (h : ¬ Quiet p (e :: l)) :
    suspects p (e :: l) = (if e.high p then {0} else ∅) ∪ (suspects p l).map ⟨Nat.succ, Nat.succ_injective⟩ := by
  ext i
  rcases i with _ | i
  · by_cases he : e.high p = true
    · simp [suspects, he, h]
    · simp [suspects, he]
  · have hm : i + 1 ∈ (if e.high p then {0} else ∅ : Finset Nat) ∪ (suspects p l).map ⟨Nat.succ, Nat.succ_injective⟩ ↔
        i ∈ suspects p l := by
      by_cases he : e.high p = true <;> simp [he]
    rw [hm]
    simp only [suspects, Finset.mem_filter, Finset.mem_range, List.length_cons, Nat.add_lt_add_iff_right, List.getElem?_cons_succ]
    constructor
    · rintro ⟨a, b, c⟩
      exact ⟨a, b, fun j hj => by simpa using c (j + 1) (by omega)⟩
    · rintro ⟨a, b, c⟩
      refine ⟨a, b, fun j hj => ?_⟩
      rcases j with _ | j
      · simpa using h
      · simpa using c j (by omega)

theorem card_suspects_cons {p : ErkParams K} {e : Probe K} {l : List (Probe K)} (h : ¬ Quiet p (e :: l)) :
    (suspects p (e :: l)).card = (if e.high p then 1 else 0) + (suspects p l).card := by
  rw [suspects_cons h, Finset.card_union_of_disjoint]
  · rw [Finset.card_map]
    congr 1
    split <;> simp
  · rw [Finset.disjoint_left]
    intro a ha hb
    obtain ⟨b, -, rfl⟩ := Finset.mem_map.1 hb
    revert ha
    split <;> simp

/-- What the workspace holds after the probes. -/
structure Detected (p : ErkParams K) (l : List (Probe K)) (w : Workspace K) : Prop where
  no : w.stiff_n_detection_no = trail p l
  yes : w.stiff_n_detection_yes = (suspects p l).card
  le : ∀ i ∈ suspects p l, ∀ e, l[i]? = some e → w.stiff_x_first_detect ≤ e.x
  eq : w.stiff_x_first_detect = f64Max ∨ ∃ i ∈ suspects p l, ∃ e, l[i]? = some e ∧ w.stiff_x_first_detect = e.x
  none : suspects p l = ∅ → w.stiff_x_first_detect = f64Max

theorem detect_counts {p : ErkParams K} (hi : 0 < p.ignored_after_nstep) {l : List (Probe K)} {w : Workspace K} (hw : Detected p l w)
    {e : Probe K} (he : e.counts p = true) :
    (e.high p = true ∧ (suspects p (e :: l)).card = p.ratified_after_nstep ∧ p.stop_with_error = true ∧
      detectStiffness { w with stiff_h_times_rho := e.h_rho, stats := { w.stats with n_accepted := e.n_accepted } } e.x p =
        Res.err "stiffness detected") ∨
    (¬ (e.high p = true ∧ (suspects p (e :: l)).card = p.ratified_after_nstep ∧ p.stop_with_error = true) ∧
      ∃ w', detectStiffness { w with stiff_h_times_rho := e.h_rho, stats := { w.stats with n_accepted := e.n_accepted } } e.x p = ok w' ∧
        Detected p (e :: l) w' ∧
        (w'.stiff_detected = true ↔ e.high p = true ∧ (suspects p (e :: l)).card = p.ratified_after_nstep)) := by
  have hn : ¬ e.n_accepted ≤ p.skip_first_n_accepted_step := by simpa [Probe.counts] using he
  unfold detectStiffness
  simp only [if_neg hn]
  by_cases hh : e.high p = true
  · have hh' : p.h_times_rho_max < e.h_rho := by simpa [Probe.high] using hh
    have hq : ¬ Quiet p (e :: l) := by rw [quiet_iff]; simp [trail, hh]; omega
    have hc : (suspects p (e :: l)).card = w.stiff_n_detection_yes + 1 := by
      rw [card_suspects_cons hq, hw.yes, if_pos hh, Nat.add_comm]
    have hs : suspects p (e :: l) = {0} ∪ (suspects p l).map ⟨Nat.succ, Nat.succ_injective⟩ := by rw [suspects_cons hq, if_pos hh]
    have hD : ∀ b, Detected p (e :: l) { w with
        stiff_h_times_rho := e.h_rho, stats := { w.stats with n_accepted := e.n_accepted },
        stiff_detected := b, stiff_x_first_detect := fmin e.x w.stiff_x_first_detect, stiff_n_detection_no := 0,
        stiff_n_detection_yes := w.stiff_n_detection_yes + 1 } := by
      intro b
      refine ⟨by simp [trail, hh], hc.symm, ?_, ?_, ?_⟩
      · intro i hi e' he'
        rw [hs] at hi
        rcases Finset.mem_union.1 hi with hi | hi
        · rw [Finset.mem_singleton.1 hi] at he'
          obtain rfl : e = e' := by simpa using he'
          simp only [fmin_eq]
          exact min_le_left _ _
        · obtain ⟨j, hj, rfl⟩ := Finset.mem_map.1 hi
          simp only [fmin_eq]
          exact (min_le_right _ _).trans (hw.le j hj e' (by simpa using he'))
      · simp only [fmin_eq, hs]
        rcases min_choice e.x w.stiff_x_first_detect with h | h
        · exact Or.inr ⟨0, by simp, e, by simp, h⟩
        · rw [h]
          rcases hw.eq with h | ⟨i, hi, e', h1, h2⟩
          · exact Or.inl h
          · exact Or.inr ⟨i + 1, by simp [hi], e', by simpa using h1, h2⟩
      · intro h0
        rw [hs] at h0
        simp at h0
    rw [if_pos hh']
    by_cases hr : w.stiff_n_detection_yes + 1 = p.ratified_after_nstep
    · rw [if_pos hr]
      by_cases hst : p.stop_with_error = true
      · rw [if_pos hst]
        exact Or.inl ⟨hh, hc.trans hr, hst, rfl⟩
      · rw [if_neg hst]
        exact Or.inr ⟨fun h => hst h.2.2, _, rfl, hD true, by simp [hh, hc, hr]⟩
    · rw [if_neg hr]
      exact Or.inr ⟨fun h => hr (hc ▸ h.2.1), _, rfl, hD false, by simp [hc, hr]⟩
  · have hh' : ¬ p.h_times_rho_max < e.h_rho := by simpa [Probe.high] using hh
    have ht : trail p (e :: l) = w.stiff_n_detection_no + 1 := by simp [trail, hh, hw.no]
    rw [if_neg hh']
    refine Or.inr ⟨fun h => hh h.1, ?_⟩
    by_cases hr : w.stiff_n_detection_no + 1 = p.ignored_after_nstep
    · rw [if_pos hr]
      have hs : suspects p (e :: l) = ∅ := suspects_quiet ((quiet_iff _ _).2 (by rw [ht, hr]))
      exact ⟨_, rfl, ⟨ht.symm, by simp [hs], by simp [hs], Or.inl rfl, fun _ => rfl⟩, by simp [hh]⟩
    · rw [if_neg hr]
      have hc : suspects p (e :: l) = (suspects p l).map ⟨Nat.succ, Nat.succ_injective⟩ := by
        by_cases hq : Quiet p (e :: l)
        · rw [suspects_quiet hq, suspects_quiet, Finset.map_empty]
          rw [quiet_iff, ht] at hq
          rw [quiet_iff, ← hw.no]
          omega
        · rw [suspects_cons hq, if_neg hh, Finset.empty_union]
      refine ⟨_, rfl, ⟨ht.symm, by rw [hc, Finset.card_map]; exact hw.yes, ?_, ?_, ?_⟩, by simp [hh]⟩
      · intro i hi e' he'
        rw [hc] at hi
        obtain ⟨j, hj, rfl⟩ := Finset.mem_map.1 hi
        exact hw.le j hj e' (by simpa using he')
      · rcases hw.eq with h | ⟨i, hi, e', h1, h2⟩
        · exact Or.inl h
        · exact Or.inr ⟨i + 1, by rw [hc]; simp [hi], e', by simpa using h1, h2⟩
      · intro h0
        rw [hc, Finset.map_eq_empty] at h0
        exact hw.none h0

/-- A probe before enough steps are accepted changes nothing. -/
theorem detect_skip {p : ErkParams K} {l : List (Probe K)} {w : Workspace K} (hw : Detected p l w) {e : Probe K}
    (he : e.counts p = false) :
    ∃ w', detectStiffness { w with stiff_h_times_rho := e.h_rho, stats := { w.stats with n_accepted := e.n_accepted } } e.x p = ok w' ∧
      Detected p l w' ∧ w'.stiff_detected = false := by
  have hn : e.n_accepted ≤ p.skip_first_n_accepted_step := by simpa [Probe.counts] using he
  unfold detectStiffness
  simp only [if_pos hn]
  exact ⟨_, rfl, ⟨hw.no, hw.yes, hw.le, hw.eq, hw.none⟩, rfl⟩

theorem detected_reset (p : ErkParams K) (h r : K) : Detected p [] (Workspace.reset h r) := by
  refine ⟨rfl, by rw [suspects_nil]; rfl, by simp [suspects_nil], Or.inl ?_, fun _ => ?_⟩ <;> rfl

theorem detected_all {p : ErkParams K} (hi : 0 < p.ignored_after_nstep) (h r : K) : ∀ l : List (Probe K), ∀ w,
    detectAll p (Workspace.reset h r) l = ok w → Detected p (l.filter (Probe.counts p)) w := by
  intro l
  induction l with
  | nil => intro w hw; cases hw; exact detected_reset p h r
  | cons e l ih =>
    intro w hw
    obtain ⟨w1, h1, h2⟩ := Res.bind_eq_ok.1 hw
    have hD := ih w1 h1
    by_cases he : e.counts p = true
    · rw [List.filter_cons_of_pos he]
      rcases detect_counts hi hD he with ⟨-, -, -, h3⟩ | ⟨-, w', h3, h4, -⟩
      · rw [h3] at h2; cases h2
      · rw [h3] at h2; cases h2; exact h4
    · rw [List.filter_cons_of_neg he]
      obtain ⟨w', h3, h4, -⟩ := detect_skip hD (e := e) (by simpa using he)
      rw [h3] at h2; cases h2; exact h4

/-- **C64**: stiffness detection over all histories of calls. After any sequence of calls (only those count for which enough steps were
accepted before) without the error, the counters and the first station are determined by the high values `h ρ` after which there
was no quiet time of `ignored_after_nstep` values: their number, and the smallest of their stations. Stiffness is reported by a call
exactly when its value is high and is the `ratified_after_nstep`-th of these. -/
theorem C64_detect {p : ErkParams K} (hi : 0 < p.ignored_after_nstep) (h r : K) (l : List (Probe K)) (e : Probe K) {w : Workspace K}
    (hw : detectAll p (Workspace.reset h r) (e :: l) = ok w) :
    let c := (e :: l).filter (Probe.counts p)
    w.stiff_n_detection_yes = (suspects p c).card ∧
      (∀ i ∈ suspects p c, ∀ e', c[i]? = some e' → w.stiff_x_first_detect ≤ e'.x) ∧
      (w.stiff_x_first_detect = f64Max ∨ ∃ i ∈ suspects p c, ∃ e', c[i]? = some e' ∧ w.stiff_x_first_detect = e'.x) ∧
      (suspects p c = ∅ → w.stiff_x_first_detect = f64Max) ∧
      (w.stiff_detected = true ↔ e.counts p = true ∧ e.high p = true ∧ (suspects p c).card = p.ratified_after_nstep) := by
  obtain ⟨w1, h1, h2⟩ := Res.bind_eq_ok.1 hw
  have hD := detected_all hi h r l w1 h1
  have hD' := detected_all hi h r (e :: l) w hw
  refine ⟨hD'.yes, hD'.le, hD'.eq, hD'.none, ?_⟩
  by_cases he : e.counts p = true
  · rw [List.filter_cons_of_pos he]
    rcases detect_counts hi hD he with ⟨-, -, -, h3⟩ | ⟨-, w', h3, -, h4⟩
    · rw [h3] at h2; cases h2
    · rw [h3] at h2; cases h2
      simpa [he] using h4
  · obtain ⟨w', h3, -, h4⟩ := detect_skip hD (e := e) (by simpa using he)
    rw [h3] at h2; cases h2
    simp [h4, he]

/-- **C64**: with `stop_with_error`, a call returns the error exactly when stiffness would be reported; a call never panics. -/
theorem C64_error {p : ErkParams K} (hi : 0 < p.ignored_after_nstep) (h r : K) (l : List (Probe K)) (e : Probe K) {w : Workspace K}
    (hw : detectAll p (Workspace.reset h r) l = ok w) :
    detectAll p (Workspace.reset h r) (e :: l) ≠ Res.panic ∧
    (detectAll p (Workspace.reset h r) (e :: l) = Res.err "stiffness detected" ↔
      p.stop_with_error = true ∧ e.counts p = true ∧ e.high p = true ∧
        (suspects p ((e :: l).filter (Probe.counts p))).card = p.ratified_after_nstep) := by
  have hD := detected_all hi h r l w hw
  simp only [detectAll, hw, Res.ok_bind]
  by_cases he : e.counts p = true
  · rw [List.filter_cons_of_pos he]
    rcases detect_counts hi hD he with ⟨h1, h2, h3, h4⟩ | ⟨h1, w', h4, -⟩
    · rw [h4]; exact ⟨by simp, by simp [h1, h2, h3, he]⟩
    · rw [h4]
      refine ⟨by simp, fun h => by simp at h, fun h => absurd ⟨h.2.2.1, h.2.2.2, h.1⟩ h1⟩
  · obtain ⟨w', h4, -⟩ := detect_skip hD (e := e) (by simpa using he)
    rw [h4]
    exact ⟨by simp, by simp [he]⟩

/-- Parameters: values beyond 3 are high, stiffness is reported at the second one, two low values in a row reset. -/
def stiffParams : ErkParams ℚ :=
  { paramsQ .DoPri5 with
    stiff_enabled := true, stop_with_error := false, ratified_after_nstep := 2, ignored_after_nstep := 2, h_times_rho_max := 3
    skip_first_n_accepted_step := 1 }

/-- A case: high, low, low (reset), high, low, high. -/
example : ∃ w, detectAll stiffParams (Workspace.reset 1 1)
      [⟨7, 4, 8⟩, ⟨6, 1, 7⟩, ⟨5, 4, 6⟩, ⟨4, 1, 5⟩, ⟨3, 1, 4⟩, ⟨2, 4, 3⟩, ⟨1, 4, 1⟩] = ok w ∧
    w.stiff_n_detection_yes = 2 ∧ w.stiff_x_first_detect = 5 ∧ w.stiff_detected = true :=
  ⟨_, rfl, by decide +kernel, by decide +kernel, by decide +kernel⟩

/-- The values are the ones of the theorem. -/
example : (suspects stiffParams [⟨7, 4, 8⟩, ⟨6, 1, 7⟩, ⟨5, 4, 6⟩, ⟨4, 1, 5⟩, ⟨3, 1, 4⟩, ⟨2, 4, 3⟩]) = {0, 2} := by
  decide +kernel

end Russell.Ode
