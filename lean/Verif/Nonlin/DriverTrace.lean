import Verif.Nonlin.DriverProp
import Mathlib.Analysis.Real.Pi.Bounds

/-!
# C76, continued: invariants of the two loops of the driver
-/

namespace Russell.Nonlin

open Russell Russell.Res

variable {n : Nat} {A σ : Type}

/-- a sequence of points starting at `x0` and ending at the last index, with consecutive points related by `R` -/
inductive Path {X : Type} (R : X → X → Prop) (x0 : X) : List X → X → Prop where
  | start : Path R x0 [x0] x0
  | next {pts x y} : Path R x0 pts x → R x y → Path R x0 (pts ++ [y]) y

/-- the same trial state, stepsize and tangent vector -/
structure Same (w w' : Work n) : Prop where
  h : w'.h = w.h
  u : w'.u = w.u
  l : w'.l = w.l
  duds : w'.duds = w.duds
  dlds : w'.dlds = w.dlds

theorem Same.refl (w : Work n) : Same w w := ⟨rfl, rfl, rfl, rfl, rfl⟩

/-- An invariant `J` of a method (on its state, the workspace and the current point) and a relation `R` between consecutive
accepted points. -/
structure Guide (c : Config) (M : Method n A σ) (stop : Stop) (J : σ → Work n → Vec n → ℝ → Prop)
    (R : Vec n × ℝ → Vec n × ℝ → Prop) : Prop where
  frame : ∀ {s w w' u l}, w'.h = w.h → w'.duds = w.duds → w'.dlds = w.dlds → J s w u l → J s w' u l
  accept : ∀ {s w u l a s' w' a' w'' s'' u'' l'' rd}, J s w u l → M.step s w u l stop a = ok (s', w', a', .success) →
    Same w' w'' → M.accept s' w'' u l = ok (s'', u'', l'', rd) →
    R (u, l) (u'', l'') ∧ ∀ hn, (0 < w'.h → 0 < hn) → (∃ i, stop.now i u'' l'' = ok false) →
      J s'' { w' with h := hn } u'' l''
  reject : ∀ {s w u l a s' w' a' st w'' s'' w3 a''}, J s w u l → M.step s w u l stop a = ok (s', w', a', st) →
    Same w' w'' → M.reject s' w'' a' = ok (s'', w3, a'') → J s'' { w3 with h := w3.h * c.mFailure } u l

/-- the guide without content -/
theorem Guide.trivial (c : Config) (M : Method n A σ) (stop : Stop) :
    Guide c M stop (fun _ _ _ _ => True) (fun _ _ => True) :=
  ⟨fun _ _ _ _ => True.intro, fun _ _ _ _ => ⟨True.intro, fun _ _ _ => True.intro⟩, fun _ _ _ _ => True.intro⟩

/-! ## Output -/

/-- the component `m` of a vector (zero when out of bounds) -/
def comp (u : Vec n) (m : Nat) : ℝ := if h : m < n then u ⟨m, h⟩ else 0

theorem pushAll_spec (x : Vec n) : ∀ (us : List (Nat × List ℝ)) {us'}, pushAll x us = ok us' →
    us' = us.map (fun p => (p.1, p.2 ++ [comp x p.1]))
  | [], us', h => by
    unfold pushAll at h
    cases ok.inj h
    rfl
  | (m, xs) :: rest, us', h => by
    unfold pushAll at h
    obtain ⟨y, hy, h⟩ := bind_eq_ok.1 h
    obtain ⟨r, hr, h⟩ := bind_eq_ok.1 h
    cases ok.inj h
    rw [pushAll_spec x rest hr]
    unfold Vec.at at hy
    split at hy
    · next hm =>
      cases ok.inj hy
      simp [comp, hm]
    · cases hy

/-- what an output object `o'` has recorded in addition to `o` -/
structure Recorded (o : Output n A) (pts : List (Vec n × ℝ)) (o' : Output n A) : Prop where
  l : o'.l = o.l ++ pts.map Prod.snd
  h : o'.h.length = o.h.length + pts.length
  u : o'.u = o.u.map (fun p => (p.1, p.2 ++ pts.map (fun q => comp q.1 p.1)))

/-- the callback has been called at the points and has not asked to stop -/
def Silent (o : Output n A) (pts : List (Vec n × ℝ)) : Prop :=
  ∀ cb, o.callback = some cb → ∀ p ∈ pts, ∃ stats h a a', cb stats p.1 p.2 h a = ok (false, a')

/-- the output object of a run, compared with the one given initially, as long as the callback has not asked to stop -/
inductive OutInv : Option (Output n A) → List (Vec n × ℝ) → Option (Output n A) → Prop where
  | none {pts} : OutInv none pts none
  | some {o o' pts} : o'.callback = o.callback → o'.recording = o.recording → Silent o pts →
    (o.recording = true → Recorded o pts o') → OutInv (some o) pts (some o')

/-- the output object at the end of a run: the last point may be the one for which the callback has asked to stop, which is not
recorded -/
inductive OutEnd : Option (Output n A) → List (Vec n × ℝ) → Option (Output n A) → Prop where
  | all {out pts out'} : OutInv out pts out' → OutEnd out pts out'
  | asked {o cb pts x out' stats h a a'} : OutInv (some o) pts out' → o.callback = some cb →
    cb stats x.1 x.2 h a = ok (true, a') → OutEnd (some o) (pts ++ [x]) out'

theorem record_spec {c : Config} {w : Work n} {u : Vec n} {l : ℝ} {o o' : Output n A} (h : o.record c w u l = ok o') :
    o'.callback = o.callback ∧ o'.recording = o.recording ∧
    (o.recording = true → o'.l = o.l ++ [l] ∧ o'.h = o.h ++ [w.h] ∧
      o'.u = o.u.map (fun p => (p.1, p.2 ++ [comp u p.1]))) := by
  unfold Output.record at h
  split at h
  · next hr =>
    obtain ⟨o1, h1, h⟩ := bind_eq_ok.1 h
    obtain ⟨us, h2, h⟩ := bind_eq_ok.1 h
    have e1 : o1.callback = o.callback ∧ o1.recording = o.recording ∧ o1.l = o.l ∧ o1.h = o.h ∧ o1.u = o.u := by
      unfold Output.pushNorm at h1
      split at h1
      · cases ok.inj h1; exact ⟨rfl, rfl, rfl, rfl, rfl⟩
      · obtain ⟨x, -, h1⟩ := bind_eq_ok.1 h1
        cases ok.inj h1; exact ⟨rfl, rfl, rfl, rfl, rfl⟩
    have e2 := pushAll_spec u _ h2
    unfold Output.pushTangent at h
    split at h
    · obtain ⟨d, -, h⟩ := bind_eq_ok.1 h
      cases ok.inj h
      refine ⟨e1.1, e1.2.1, fun _ => ⟨?_, ?_, ?_⟩⟩
      · simp [e1.2.2.1]
      · simp [e1.2.2.2.1]
      · simp only [e2, e1.2.2.2.2]
    · cases ok.inj h
      refine ⟨e1.1, e1.2.1, fun _ => ⟨?_, ?_, ?_⟩⟩
      · simp [e1.2.2.1]
      · simp [e1.2.2.2.1]
      · simp only [e2, e1.2.2.2.2]
  · next hr =>
    cases ok.inj h
    exact ⟨rfl, rfl, fun h => absurd h hr⟩

/-- the callback given initially has asked to stop at the present point -/
def Graceful (out : Option (Output n A)) (r : Run n A σ) : Prop :=
  ∃ o cb a0, out = some o ∧ o.callback = some cb ∧ cb r.sv.w.stats r.u r.l r.sv.w.h a0 = ok (true, r.a)

theorem doOutput_spec {c : Config} {r r' : Run n A σ} {g : Bool} {out : Option (Output n A)} {pts : List (Vec n × ℝ)}
    (ho : OutInv out pts r.out) (h : doOutput c r = ok (g, r')) :
    r'.sv = r.sv ∧ r'.u = r.u ∧ r'.l = r.l ∧ OutEnd out (pts ++ [(r.u, r.l)]) r'.out ∧
    (g = false → OutInv out (pts ++ [(r.u, r.l)]) r'.out) ∧ (g = true → Graceful out r') := by
  unfold doOutput at h
  split at h
  · next hn =>
    cases ok.inj h
    rw [hn] at ho ⊢
    cases ho
    exact ⟨rfl, rfl, rfl, .all .none, fun _ => .none, fun h => by cases h⟩
  · next o1 hn =>
    rw [hn] at ho
    obtain ⟨⟨g1, o2, a2⟩, h1, h⟩ := bind_eq_ok.1 h
    cases ok.inj h
    have hcase := ho
    cases hcase with
    | @some o _ _ hcb hrec hS hR =>
    have hRec : ∀ {o3}, o1.record c r.sv.w r.u r.l = ok o3 → o.recording = true → Recorded o (pts ++ [(r.u, r.l)]) o3 := by
      intro o3 h2 hr
      obtain ⟨-, -, e3⟩ := record_spec h2
      obtain ⟨f1, f2, f3⟩ := e3 (hrec.trans hr)
      obtain ⟨g1, g2, g3⟩ := hR hr
      refine ⟨?_, ?_, ?_⟩
      · rw [f1, g1]; simp
      · rw [f2]; simp [g2]; omega
      · rw [f3, g3]; simp
    unfold Output.execute at h1
    split at h1
    · next hcb' =>
      obtain ⟨o3, h2, h1⟩ := bind_eq_ok.1 h1
      cases ok.inj h1
      obtain ⟨e1, e2, -⟩ := record_spec h2
      have key : OutInv (some o) (pts ++ [(r.u, r.l)]) (some o2) := by
        refine .some (e1.trans hcb) (e2.trans hrec) ?_ (hRec h2)
        intro cb h
        rw [← hcb, hcb'] at h
        cases h
      exact ⟨rfl, rfl, rfl, .all key, fun _ => key, fun h => by cases h⟩
    · next cb hcb' =>
      obtain ⟨⟨gr, a3⟩, h2, h1⟩ := bind_eq_ok.1 h1
      simp only at h1
      split at h1
      · next hgr =>
        cases ok.inj h1
        have hcb2 : o.callback = some cb := by rw [← hcb, hcb']
        rw [hgr] at h2
        exact ⟨rfl, rfl, rfl, .asked ho hcb2 h2, fun h => (by cases h), fun _ => ⟨o, cb, r.a, rfl, hcb2, h2⟩⟩
      · next hgr =>
        obtain ⟨o3, h3, h1⟩ := bind_eq_ok.1 h1
        cases ok.inj h1
        obtain ⟨e1, e2, -⟩ := record_spec h3
        have key : OutInv (some o) (pts ++ [(r.u, r.l)]) (some o2) := by
          refine .some (e1.trans hcb) (e2.trans hrec) ?_ (hRec h3)
          intro cb1 h p hp
          rw [← hcb, hcb'] at h
          cases h
          rcases List.mem_append.1 hp with hp | hp
          · exact hS cb (by rw [← hcb, hcb']) p hp
          · obtain rfl : p = _ := by simpa using hp
            rw [Bool.not_eq_true] at hgr
            rw [hgr] at h2
            exact ⟨_, _, _, _, h2⟩
        exact ⟨rfl, rfl, rfl, .all key, fun _ => key, fun h => by cases h⟩

theorem stepExit_spec {c : Config} {stop : Stop} {i : Nat} {r r' : Run n A σ} {leave : Bool} {out : Option (Output n A)}
    {pts : List (Vec n × ℝ)} (ho : OutInv out pts r.out) (h : stepExit c stop i r = ok (r', leave)) :
    r'.sv = r.sv ∧ r'.u = r.u ∧ r'.l = r.l ∧ OutEnd out (pts ++ [(r.u, r.l)]) r'.out ∧
    (leave = false → OutInv out (pts ++ [(r.u, r.l)]) r'.out) ∧
    (leave = true → Graceful out r' ∨ stop.now i r'.u r'.l = ok true) ∧
    (leave = false → stop.now i r'.u r'.l = ok false) := by
  unfold stepExit at h
  obtain ⟨⟨g, r1⟩, h1, h⟩ := bind_eq_ok.1 h
  obtain ⟨e1, e2, e3, e4, e6, e5⟩ := doOutput_spec ho h1
  simp only at h
  split at h
  · next hg =>
    cases ok.inj h
    exact ⟨e1, e2, e3, e4, fun h => (by cases h), fun _ => Or.inl (e5 hg), fun h => by cases h⟩
  · next hg =>
    obtain ⟨now, h2, h⟩ := bind_eq_ok.1 h
    cases ok.inj h
    exact ⟨e1, e2, e3, e4, fun _ => e6 (by simpa using hg), fun hl => Or.inr (hl ▸ h2), fun hl => hl ▸ h2⟩

/-! ## Stepsize -/

/-- a factor that is not negative -/
def Ext.Nonneg : Ext → Prop
  | .num r => 0 ≤ r
  | _ => True

theorem Ext.powf_nonneg (x : Ext) (y : ℝ) : (x.powf y).Nonneg := by
  unfold Ext.powf
  split
  · repeat' split
    · next h => exact (Real.rpow_pos_of_pos h y).le
    · exact zero_le_one (α := ℝ)
    · exact True.intro
    · exact le_refl (0 : ℝ)
    · exact True.intro
  · repeat' split
    · exact zero_le_one (α := ℝ)
    · exact True.intro
    · exact le_refl (0 : ℝ)
  · split
    · exact zero_le_one (α := ℝ)
    · exact True.intro

theorem Ext.mul_nonneg' {x y : Ext} (hx : x.Nonneg) (hy : y.Nonneg) : (x.mul y).Nonneg := by
  unfold Ext.mul
  repeat' split
  all_goals first | exact True.intro | exact mul_nonneg hx hy

theorem rhoOf_nonneg {c : Config} (hrho : 0 ≤ c.rhoTiny) (sv : Solver n σ) (rdiff : ℝ) : (rhoOf c sv rdiff).Nonneg := by
  unfold rhoOf
  split
  · split
    · exact hrho
    split
    · unfold rhoPid
      exact Ext.mul_nonneg' (Ext.mul_nonneg' (Ext.powf_nonneg _ _) (Ext.powf_nonneg _ _)) (Ext.powf_nonneg _ _)
    · unfold rhoFilter
      have h1 := Ext.powf_nonneg (Ext.div 1 rdiff) c.beta1
      simp only
      repeat' split
      · exact Ext.mul_nonneg' (Ext.mul_nonneg' (Ext.mul_nonneg' (Ext.mul_nonneg' h1 (Ext.powf_nonneg _ _))
          (Ext.powf_nonneg _ _)) (Ext.powf_nonneg _ _)) (Ext.powf_nonneg _ _)
      · exact Ext.mul_nonneg' (Ext.mul_nonneg' h1 (Ext.powf_nonneg _ _)) (Ext.powf_nonneg _ _)
      · exact Ext.mul_nonneg' (Ext.mul_nonneg' h1 (Ext.powf_nonneg _ _)) (Ext.powf_nonneg _ _)
      · exact h1
  · exact zero_le_one (α := ℝ)

theorem ksi_nonneg (c : Config) (w : Work n) : 0 ≤ ksi c w := by
  unfold ksi
  split
  · positivity
  · exact zero_le_one

theorem smooth_spec {k h h' : ℝ} {rho : Ext} (hk : 0 ≤ k) (hr : rho.Nonneg) (hs : smooth k h rho = ok h') :
    ∃ m, h' = h * m ∧ 1 - Real.pi / 4 ≤ m ∧ m ≤ 1 + Real.pi / 2 := by
  have hpi := Real.pi_pos
  unfold smooth at hs
  split at hs
  · cases hs
  · exact ⟨_, (ok.inj hs).symm, by linarith, le_refl _⟩
  · next r =>
    refine ⟨_, (ok.inj hs).symm, ?_, ?_⟩
    · have h1 : Real.arctan (-1) ≤ Real.arctan (k * r - 1) := by
        apply Real.arctan_strictMono.monotone
        have := mul_nonneg hk hr
        linarith
      rw [Real.arctan_neg, Real.arctan_one] at h1
      linarith
    · have := Real.arctan_lt_pi_div_two (k * r - 1)
      linarith

theorem pi_lt_four : 1 - Real.pi / 4 > 0 := by
  have := Real.pi_lt_d2
  norm_num at this
  linarith

/-- the stepsize is multiplied by a number between `1 - π/4` and `1 + π/2` -/
theorem adapt_spec {c : Config} (hrho : 0 ≤ c.rhoTiny) {sv sv' : Solver n σ} {rdiff h : ℝ}
    (hs : adaptStepsize c sv rdiff = ok (sv', h)) :
    sv'.w = sv.w ∧ sv'.st = sv.st ∧ 0 ≤ rdiff ∧ ∃ m, h = sv.w.h * m ∧ 1 - Real.pi / 4 ≤ m ∧ m ≤ 1 + Real.pi / 2 := by
  unfold adaptStepsize at hs
  split at hs
  · cases hs
  · next hr =>
    obtain ⟨h1, h2, hs⟩ := bind_eq_ok.1 hs
    cases ok.inj hs
    exact ⟨rfl, rfl, by simpa using hr, smooth_spec (ksi_nonneg _ _) (rhoOf_nonneg hrho _ _) h2⟩

/-- the new stepsize of an accepted step, from the one of the step -/
theorem autoAdapt_spec {c : Config} (hrho : 0 ≤ c.rhoTiny) {r r' : Run n A σ} {rdiff : ℝ}
    (h : autoAdapt c r rdiff = ok r') :
    r'.u = r.u ∧ r'.l = r.l ∧ r'.a = r.a ∧ r'.out = r.out ∧ r'.sv.st = r.sv.st ∧
    (∃ hn, r'.sv.w = { r.sv.w with
      h := hn, stats := { r.sv.w.stats with hAccepted := hn }, nContFailure := 0, nContRejection := 0,
      followsFailure := false, followsRejection := false } ∧
      ((r.sv.w.followsFailure = true ∨ r.sv.w.followsRejection = true) → hn ≤ r.sv.w.h) ∧
      ∃ m, hn = r.sv.w.h * m ∧ (0 < r.sv.w.h → 1 - Real.pi / 4 ≤ m ∧ m ≤ 1 + Real.pi / 2)) := by
  unfold autoAdapt at h
  obtain ⟨⟨sv, hEst⟩, h1, h⟩ := bind_eq_ok.1 h
  obtain ⟨e1, e2, e3, m, e4, e5, e6⟩ := adapt_spec hrho h1
  have hpi := Real.pi_pos
  cases ok.inj h
  refine ⟨rfl, rfl, rfl, rfl, e2, _, by rw [e1], ?_, ?_⟩
  · intro hf
    rw [if_pos (by simpa using hf)]
    exact min_le_right _ _
  · rw [e4]
    split
    · rcases le_total (r.sv.w.h * m) r.sv.w.h with hle | hle
      · rw [min_eq_left hle]
        exact ⟨m, rfl, fun _ => ⟨e5, e6⟩⟩
      · rw [min_eq_right hle]
        exact ⟨1, (mul_one _).symm, fun _ => ⟨by linarith, by linarith⟩⟩
    · exact ⟨m, rfl, fun _ => ⟨e5, e6⟩⟩

/-! ## One pass of the loops -/

theorem doStep_spec {M : Method n A σ} {stop : Stop} {r r' : Run n A σ} {st : Status}
    (h : doStep M stop r = ok (r', st)) :
    r'.u = r.u ∧ r'.l = r.l ∧ r'.out = r.out ∧ ∃ w, w = { r.sv.w with stats := { r.sv.w.stats with nSteps := r.sv.w.stats.nSteps + 1 } } ∧
      M.step r.sv.st w r.u r.l stop r.a = ok (r'.sv.st, r'.sv.w, r'.a, st) := by
  unfold doStep at h
  obtain ⟨⟨s1, w1, a1, st1⟩, h1, h⟩ := bind_eq_ok.1 h
  cases ok.inj h
  exact ⟨rfl, rfl, rfl, _, rfl, h1⟩

theorem doAccept_spec {M : Method n A σ} {r r' : Run n A σ} {rd : ℝ}
    (h : doAccept M r = ok (r', rd)) :
    r'.out = r.out ∧ r'.a = r.a ∧ r'.sv.w = { r.sv.w with stats := { r.sv.w.stats with nAccepted := r.sv.w.stats.nAccepted + 1 } } ∧
      M.accept r.sv.st r'.sv.w r.u r.l = ok (r'.sv.st, r'.u, r'.l, rd) := by
  unfold doAccept at h
  obtain ⟨⟨s1, u1, l1, rd1⟩, h1, h⟩ := bind_eq_ok.1 h
  cases ok.inj h
  exact ⟨rfl, rfl, rfl, h1⟩

/-- the counters of the loop with variable stepsize -/
structure Counters (c : Config) (w : Work n) (i : Nat) : Prop where
  steps : w.stats.nSteps = i
  sum : i = w.stats.nAccepted + w.stats.nRejected
  contRej : w.nContRejection = 0
  target : w.targetReached = false
  fail : w.nContFailure < c.nContFailureMax
  ff : w.followsFailure = decide (0 < w.nContFailure)
  fr : w.followsRejection = decide (0 < w.nContFailure)
  bound : w.stats.nRejected ≤ (c.nContFailureMax - 1) * w.stats.nAccepted + w.nContFailure

/-- the invariant of the loop with variable stepsize -/
structure AutoInv (c : Config) (J : σ → Work n → Vec n → ℝ → Prop) (R : Vec n × ℝ → Vec n × ℝ → Prop)
    (out : Option (Output n A)) (x0 : Vec n × ℝ) (i : Nat) (r : Run n A σ) (st : Status) : Prop where
  cnt : Counters c r.sv.w i
  j : J r.sv.st r.sv.w r.u r.l
  path : ∃ pts, Path R x0 pts (r.u, r.l) ∧ pts.length = r.sv.w.stats.nAccepted + 1 ∧ OutInv out pts r.out
  st : st = .success ∨ (st.tryAgain = true ∧ st ≠ .rejection)

/-- how a run ends -/
inductive Outcome (c : Config) (stop : Stop) (out : Option (Output n A)) (r : Run n A σ) : Status → Prop where
  /-- the stop criterion holds at the last point -/
  | met : stop.now (r.sv.w.stats.nSteps - 1) r.u r.l = ok true → 0 < r.sv.w.stats.nAccepted →
    r.sv.w.stats.nSteps = r.sv.w.stats.nAccepted + r.sv.w.stats.nRejected → Outcome c stop out r .success
  /-- the callback has asked to stop -/
  | graceful : Graceful out r → r.sv.w.stats.nSteps = r.sv.w.stats.nAccepted + r.sv.w.stats.nRejected →
    Outcome c stop out r .success
  /-- the number of steps is exhausted -/
  | exhausted {st} : r.sv.w.stats.nSteps = c.nStepMax →
    r.sv.w.stats.nSteps = r.sv.w.stats.nAccepted + r.sv.w.stats.nRejected → st = .success ∨ (st.tryAgain = true ∧ st ≠ .rejection) →
    Outcome c stop out r st
  /-- the stepsize became too small -/
  | small : r.sv.w.h < hMin → r.sv.w.stats.nSteps = r.sv.w.stats.nAccepted + r.sv.w.stats.nRejected →
    Outcome c stop out r .smallStepsize
  /-- too many failures in a row -/
  | gaveUp : r.sv.w.nContFailure = c.nContFailureMax →
    r.sv.w.stats.nSteps = r.sv.w.stats.nAccepted + r.sv.w.stats.nRejected + 1 → Outcome c stop out r .continuedFailure
  /-- a failure that must not be tried again -/
  | fatal {st} : st.ofStep = true → st ≠ .success → st.tryAgain = false →
    r.sv.w.stats.nSteps = r.sv.w.stats.nAccepted + r.sv.w.stats.nRejected + 1 → Outcome c stop out r st

/-- what is known at the end of a run -/
structure Final (c : Config) (R : Vec n × ℝ → Vec n × ℝ → Prop) (stop : Stop)
    (out : Option (Output n A)) (x0 : Vec n × ℝ) (r : Run n A σ) (st : Status) : Prop where
  path : ∃ pts, Path R x0 pts (r.u, r.l) ∧ pts.length = r.sv.w.stats.nAccepted + 1 ∧ OutEnd out pts r.out
  outcome : Outcome c stop out r st
  steps : r.sv.w.stats.nSteps ≤ c.nStepMax
  bound : r.sv.w.stats.nRejected ≤ (c.nContFailureMax - 1) * (r.sv.w.stats.nAccepted + 1)

theorem loopUntil_rule {body : Nat → Run n A σ → Res (Run n A σ × Status × Bool)} {I : Nat → Run n A σ → Status → Prop}
    {Q : Run n A σ → Status → Prop} {N : Nat}
    (hb : ∀ i r st r' st' leave, i < N → I i r st → body i r = ok (r', st', leave) →
      if leave then Q r' st' else I (i + 1) r' st')
    (hQ : ∀ r st, I N r st → Q r st) :
    ∀ (k i : Nat) (r : Run n A σ) (st : Status) {r' st'}, i + k = N → I i r st →
      loopUntil body k i r st = ok (r', st') → Q r' st'
  | 0, i, r, st, r', st', hi, hI, h => by
    unfold loopUntil at h
    cases ok.inj h
    exact hQ _ _ (by rw [← hi]; exact hI)
  | k + 1, i, r, st, r', st', hi, hI, h => by
    unfold loopUntil at h
    obtain ⟨⟨r1, st1, leave⟩, h1, h⟩ := bind_eq_ok.1 h
    have hb1 := hb i r st r1 st1 leave (by omega) hI h1
    cases leave with
    | true =>
      cases ok.inj h
      exact hb1
    | false => exact loopUntil_rule hb hQ k (i + 1) r1 st1 (by omega) hb1 h

end Russell.Nonlin
