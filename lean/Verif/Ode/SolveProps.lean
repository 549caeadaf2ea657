import Verif.Ode.SolverProps

/-!
# The solution as a whole (C50, C58)

What `OdeSolver::solve` has done when it returns `Ok` and no callback has stopped it: which steps were taken, where it
ended, and what was reported.
-/

namespace Russell.Ode

open Russell Russell.Res Russell.Lab

variable {K σ M : Type}

section
variable [Field K] [LinearOrder K] [FloorSemiring K]

/-- The output after `initialize`. -/
def InitOut (x0 x1 : K) (b : Bool) (out o0 : Option (Output K σ)) : Prop :=
  (out = none ∧ o0 = none) ∨ ∃ o q, out = some o ∧ o0 = some q ∧ o.initialize x0 x1 b = ok q

/-- The step records are empty, or will be emptied by `initialize`. -/
def Output.Fresh (o : Output K σ) : Prop :=
  o.initialized = true ∨ (o.step_h = [] ∧ o.step_x = [] ∧ ∀ p ∈ o.step_y, p.2 = [])

/-- What `initialize` keeps, and the emptied step records. -/
theorem initialize_keeps {o q : Output K σ} {x0 x1 : K} {b : Bool} (he : o.initialize x0 x1 b = ok q) :
    x0 < x1 ∧ q.initialized = true ∧ q.withDenseOutput = o.withDenseOutput ∧ q.step_recording = o.step_recording ∧
      q.step_callback = o.step_callback ∧ q.step_file = o.step_file ∧ q.dense_recording = o.dense_recording ∧
      q.dense_callback = o.dense_callback ∧ q.dense_file = o.dense_file ∧
      q.step_calls = o.step_calls ∧ q.dense_calls = o.dense_calls ∧
      q.step_y.map Prod.fst = o.step_y.map Prod.fst ∧ q.dense_y.map Prod.fst = o.dense_y.map Prod.fst ∧
      (o.Fresh → o.step_recording = true → q.step_h = [] ∧ q.step_x = [] ∧ ∀ p ∈ q.step_y, p.2 = []) := by
  unfold Output.initialize at he
  split at he
  · cases he
  · rename_i hx
    rw [not_not] at hx
    refine ⟨hx, ?_⟩
    dsimp only at he
    have hc : (o.cleared b).withDenseOutput = o.withDenseOutput ∧ (o.cleared b).step_recording = o.step_recording ∧
        (o.cleared b).step_callback = o.step_callback ∧ (o.cleared b).step_file = o.step_file ∧
        (o.cleared b).dense_recording = o.dense_recording ∧ (o.cleared b).dense_callback = o.dense_callback ∧
        (o.cleared b).dense_file = o.dense_file ∧ (o.cleared b).step_calls = o.step_calls ∧
        (o.cleared b).dense_calls = o.dense_calls ∧
        (o.cleared b).step_y.map Prod.fst = o.step_y.map Prod.fst ∧
        (o.cleared b).dense_y.map Prod.fst = o.dense_y.map Prod.fst ∧
        (o.Fresh → o.step_recording = true →
          (o.cleared b).step_h = [] ∧ (o.cleared b).step_x = [] ∧ ∀ p ∈ (o.cleared b).step_y, p.2 = []) := by
      unfold Output.cleared Output.withDenseOutput Output.Fresh
      dsimp only
      cases hi : o.initialized <;> cases hr : o.step_recording <;> cases b <;> simp
    obtain ⟨c1, c2, c3, c4, c5, c6, c7, c8, c9, c10, c11, c12⟩ := hc
    split at he
    · rw [bind_eq_ok] at he
      obtain ⟨dx, -, he⟩ := he
      cases he
      refine ⟨rfl, c1, c2, c3, c4, c5, c6, c7, c8, c9, c10, ?_, c12⟩
      rw [← c11]
      simp
    · cases he
      exact ⟨rfl, c1, c2, c3, c4, c5, c6, c7, c8, c9, c10, c11, c12⟩

theorem Path.sorted [IsStrictOrderedRing K] {Φ : K → List K → K → K → Bool → M → List K → Prop} {x0 x : K} {y0 y : List K}
    {l : List (Accepted K M)} (h : Path Φ x0 y0 l x y) :
    (x0 :: l.map (·.x)).Pairwise (· < ·) ∧ (∀ z ∈ x0 :: l.map (·.x), z ≤ x) ∧ (x0 :: l.map (·.x)).getLast? = some x := by
  induction h with
  | nil => simp
  | snoc a hp h1 h2 _ ih =>
    rename_i l x y _
    obtain ⟨i1, i2, i3⟩ := ih
    have hlt : x < a.x := by rw [h2]; linarith
    have e : x0 :: (l ++ [a]).map (·.x) = (x0 :: l.map (·.x)) ++ [a.x] := by simp
    rw [e]
    refine ⟨?_, ?_, by rw [List.getLast?_concat]⟩
    · rw [List.pairwise_append]
      refine ⟨i1, by simp, ?_⟩
      intro z hz w hw
      simp only [List.mem_singleton] at hw
      subst hw
      exact (i2 z hz).trans_lt hlt
    · intro z hz
      rcases List.mem_append.1 hz with hz | hz
      · exact ((i2 z hz).trans_lt hlt).le
      · simp only [List.mem_singleton] at hz
        exact hz.le

variable [IsStrictOrderedRing K] {st : Stepper K σ M} {p : SolveParams K} {fin : List K → Res Unit} {c : Contract K M}

/-- The contract holds at the beginning: after `enable_dense_output`, or without it. -/
def StartsWith (c : Contract K M) (st : Stepper K σ M) (m : M) (x0 : K) (y0 : List K) (out : Option (Output K σ)) : Prop :=
  match out with
  | none => c.J m 0 false x0 y0
  | some o => ∀ m', enableDense st o m = ok m' → c.J m' 0 false x0 y0

omit [Field K] [LinearOrder K] [FloorSemiring K] [IsStrictOrderedRing K] in
theorem startsWith_none {m : M} {x0 : K} {y0 : List K} {out : Option (Output K σ)} :
    StartsWith Contract.none st m x0 y0 out := by
  unfold StartsWith
  split
  · trivial
  · intros; trivial

/-- The beginning of a solution. -/
theorem firstOutput_spec {x0 x1 : K} {s s' : State K σ M} (he : firstOutput st p x0 x1 s = ok (s', false))
    (hx : x0 < x1) (hsx : s.x = x0)
    (hstat : s.work.stats.n_accepted = 0 ∧ s.work.stats.n_rejected = 0 ∧ s.work.stats.n_steps = 0)
    (hfl : s.work.follows_reject_step = false) (hJ : StartsWith c st s.m x0 s.y s.out)
    (hS : ∀ o, s.out = some o → o.withDenseOutput = true → StationsSet o) :
    ∃ o0, InitOut x0 x1 p.save_results s.out o0 ∧ Inv c st o0 x1 (s.h, x0, s.y) [] s' ∧ s'.x = s.x ∧ s'.h = s.h ∧
      s'.y = s.y ∧ s'.last_step = s.last_step ∧ s'.work = s.work := by
  obtain ⟨n1, n2, n3⟩ := hstat
  unfold firstOutput at he
  cases ho : s.out with
  | none =>
    rw [ho] at he
    dsimp only at he
    cases he
    rw [ho] at hJ
    refine ⟨none, Or.inl ⟨rfl, rfl⟩, ⟨?_, by rw [n1, hfl, hsx]; exact hJ, by simpa using n1, by omega, Or.inl ⟨rfl, ho⟩⟩, rfl, rfl, rfl, rfl, rfl⟩
    rw [hsx]; exact Path.nil
  | some o =>
    rw [ho] at he
    dsimp only at he
    rw [bind_eq_ok] at he
    obtain ⟨q, hq, he⟩ := he
    rw [bind_eq_ok] at he
    obtain ⟨m, hm, he⟩ := he
    unfold runOutput at he
    dsimp only at he
    rw [bind_eq_ok] at he
    obtain ⟨⟨o1, a1, stop⟩, h1, he⟩ := he
    cases he
    have hk := initialize_keeps hq
    have hg : q.withDenseOutput = true →
        GoodStations x0 x1 q.dense_x ∧ ∀ p ∈ q.dense_y, p.2.length = q.dense_x.length := by
      intro hw
      rw [hk.2.2.1] at hw
      obtain ⟨g1, g2, -⟩ := C50_initialize (hS o ho hw) hw hx hq
      exact ⟨g1, g2⟩
    have hrec : q.dense_recording = true → q.withDenseOutput = true := by
      intro h; unfold Output.withDenseOutput; simp [h]
    rw [hsx] at h1
    obtain ⟨f1, f2, f3⟩ := execute_first (st := st) (x1 := x1) n1 (fun h => (hg (hrec h)).2) (fun h => (hg h).1) h1
    refine ⟨some q, Or.inr ⟨o, q, rfl, rfl, hq⟩, ⟨?_, ?_, by simpa using n1, by dsimp only; omega, ?_⟩, rfl, rfl, rfl, rfl, rfl⟩
    · dsimp only; rw [hsx]; exact Path.nil
    · dsimp only
      rw [n1, hfl, hsx]
      rw [ho] at hJ
      unfold enableDense at hm
      rw [hk.2.2.1] at hm
      exact hJ m hm
    · dsimp only
      rw [hsx]
      exact Or.inr ⟨q, o1, rfl, rfl, fun h => (hg h).1, by simpa using f1, f2, f3⟩

/-- The whole of `solve`, when it returns `Ok` and no callback has stopped it: the state `s` before the final report. -/
theorem solve_spec {m : M} {y0 : List K} {x0 x1 : K} {h_equal : Option K} {args : σ} {out : Option (Output K σ)}
    {r : Solved K σ M} (he : solve st p fin m y0 x0 x1 h_equal args out = ok r) (hstop : r.stopped = false)
    (hreg : st.Meets c) (hJ : StartsWith c st m x0 y0 out)
    (hS : ∀ o, out = some o → o.withDenseOutput = true → StationsSet o) :
    ∃ h0 o0 acc s, x0 < x1 ∧ y0.length = p.ndim ∧ InitOut x0 x1 p.save_results out o0 ∧ Inv c st o0 x1 (h0, x0, y0) acc s ∧
      runLast s = ok r.state ∧ s.x ≤ x1 ∧ x1 - s.x ≤ tenEps ∧ 
      ((h_equal = none ∧ p.embedded = true ∧ s.work.stats.n_steps ≤ p.n_step_max ∧ Controlled c acc) ∨
        ∃ n : Nat, 0 < n ∧ h0 = (x1 - x0) / n ∧ s.h = h0 ∧ s.x = x1 ∧ s.work.stats.n_steps = n ∧ acc.length = n ∧
          (∀ a ∈ acc, a.h = h0) ∧
          ((h_equal = none ∧ p.embedded = false ∧ n = 10) ∨ ∃ h, h_equal = some h ∧ tenEps ≤ h ∧ n = ⌈(x1 - x0) / h⌉₊)) := by
  unfold solve at he
  split at he
  · cases he
  · rename_i hdim
    rw [not_not] at hdim
    split at he
    · cases he
    · rename_i hx
      rw [not_le] at hx
      rw [bind_eq_ok] at he
      obtain ⟨⟨equal, h⟩, hini, he⟩ := he
      dsimp only at he
      split at he
      · cases he
      · rename_i hpos
        rw [not_not, lit_eq] at hpos
        have hpos' : (0 : K) < h := by simpa using hpos
        rw [bind_eq_ok] at he
        obtain ⟨⟨s, stop⟩, h1, he⟩ := he
        dsimp only at he
        split at he
        · cases he; cases hstop
        · rename_i hst
          have hst' : stop = false := by simpa using hst
          subst hst'
          obtain ⟨o0, i1, i2, i3, i4, i5, i6, i7⟩ := firstOutput_spec h1 hx rfl ⟨rfl, rfl, rfl⟩ rfl hJ hS
          dsimp only at i1 i2 i3 i4 i5 i6 i7
          cases equal
          · -- variable steps
            rw [if_neg (by simp), bind_eq_ok] at he
            obtain ⟨t, ht, he⟩ := he
            have hcase : h_equal = none ∧ p.embedded = true := by
              unfold initialStep at hini
              cases h_equal with
              | some h_eq =>
                dsimp only at hini
                split at hini <;> cases hini
              | none =>
                dsimp only at hini
                split at hini
                · rename_i hemb; exact ⟨rfl, hemb⟩
                · cases hini
            have hV : VInv c st o0 x1 (h, x0, y0) 0 s := ⟨⟨[], i2, ⟨by simp, List.IsChain.nil⟩, by simp⟩, by rw [i3]; exact hx.le, by rw [i7]; exact le_rfl,
              by rw [i7]; rfl, fun hl => by rw [i6] at hl; cases hl⟩
            rcases turns_spec (fun k s => VInv c st o0 x1 (h, x0, y0) k s)
              (fun s' b => b = true ∧ ∃ acc, Inv c st o0 x1 (h, x0, y0) acc s' ∧ Controlled c acc ∧ s'.x ≤ x1 ∧ x1 - s'.x ≤ tenEps ∧
                s'.work.stats.n_steps ≤ p.n_step_max) p.n_step_max 0 s t hV
              (by
                intro j s t _ hj hI ht
                rcases variableTurn_spec hreg hI ht with h | h | ⟨acc, s', h1, h2, hC, h3, h4, h5⟩
                · exact Or.inl h
                · exact Or.inr (Or.inl h)
                · exact Or.inr (Or.inr ⟨s', true, h1, rfl, acc, h2, hC, h3, h4, by omega⟩)) ht with
              ⟨s', rfl⟩ | ⟨s', rfl, -⟩ | ⟨s', b, rfl, rfl, acc, g1, gC, g2, g3, g4⟩
            · cases he; cases hstop
            · unfold finish at he
              dsimp only at he
              rw [bind_eq_ok] at he
              obtain ⟨s2, -, he⟩ := he
              rw [if_neg (by simp)] at he
              cases he
            · unfold finish at he
              dsimp only at he
              rw [bind_eq_ok] at he
              obtain ⟨s2, hs2, he⟩ := he
              rw [if_pos rfl] at he
              cases he
              exact ⟨h, o0, acc, s', hx, hdim, i1, g1, hs2, g2, g3, Or.inl ⟨hcase.1, hcase.2, g4, gC⟩⟩
          · -- equal steps
            rw [if_pos rfl, bind_eq_ok] at he
            obtain ⟨t, ht, he⟩ := he
            have hcase : ∃ n : Nat, 0 < n ∧ h = (x1 - x0) / n ∧
                ((h_equal = none ∧ p.embedded = false ∧ n = 10) ∨
                  ∃ h, h_equal = some h ∧ tenEps ≤ h ∧ n = ⌈(x1 - x0) / h⌉₊) := by
              unfold initialStep at hini
              cases h_equal with
              | some h_eq =>
                dsimp only at hini
                split at hini
                · cases hini
                · rename_i hh
                  cases hini
                  rw [not_lt] at hh
                  have hq : 0 < (x1 - x0) / h_eq := div_pos (sub_pos.2 hx) (lt_of_lt_of_le tenEps_pos hh)
                  refine ⟨⌈(x1 - x0) / h_eq⌉₊, Nat.ceil_pos.2 hq, ?_, Or.inr ⟨h_eq, rfl, hh, rfl⟩⟩
                  rw [lit_eq]
                  simp [F64Ops.ceilU]
              | none =>
                dsimp only at hini
                split at hini
                · cases hini
                · rename_i hemb
                  cases hini
                  refine ⟨10, by norm_num, ?_, Or.inl ⟨rfl, by simpa using hemb, rfl⟩⟩
                  rw [lit_eq]; norm_num
            obtain ⟨n, hn, hh, hcase⟩ := hcase
            have hn' : (0 : K) < n := by exact_mod_cast hn
            have hcnt : F64Ops.ceilU ((x1 - s.x) / h) = n := by
              rw [i3, hh, div_div_cancel₀ (sub_pos.2 hx).ne']
              exact Nat.ceil_natCast n
            rw [hcnt] at ht
            rcases turns_spec (fun k s => ∃ acc, Inv c st o0 x1 (h, x0, y0) acc s ∧ s.h = h ∧ s.x = x0 + k * h ∧
                s.work.stats.n_steps = k ∧ acc.length = k ∧ (∀ a ∈ acc, a.h = h) ∧ s.work.follows_reject_step = false)
              (fun s' b => False) n 0 s t ⟨[], i2, i4, by simp [i3], by rw [i7]; rfl, rfl, by simp, by rw [i7]; rfl⟩
              (by
                rintro j s t _ hj ⟨acc, hI, e1, e2, e3, e4, e5, e6⟩ ht
                cases t with
                | next s' =>
                  obtain ⟨a, k1, k2, k3, k4, k5, k6⟩ := equalTurn_spec hreg hI (by rw [e1]; exact hpos') e6 ht
                  refine Or.inr (Or.inl ⟨s', rfl, acc ++ [a], k1, k4.trans e1, ?_, by omega, by simp [e4], ?_, k6⟩)
                  · rw [k3, e2, e1]; push_cast; ring
                  · intro b hb
                    rcases List.mem_append.1 hb with hb | hb
                    · exact e5 b hb
                    · simp only [List.mem_singleton] at hb
                      rw [hb, k2, e1]
                | stopped s' => exact Or.inl ⟨s', rfl⟩
                | finished s' b =>
                  exfalso
                  unfold equalTurn at ht
                  dsimp only at ht
                  rw [bind_eq_ok] at ht
                  obtain ⟨⟨m1, w1, a1⟩, -, ht⟩ := ht
                  dsimp only at ht
                  rw [bind_eq_ok] at ht
                  obtain ⟨⟨m2, w2, x2, y2, a2⟩, -, ht⟩ := ht
                  dsimp only at ht
                  rw [bind_eq_ok] at ht
                  obtain ⟨_, -, ht⟩ := ht
                  rw [bind_eq_ok] at ht
                  obtain ⟨⟨s3, stop⟩, -, ht⟩ := ht
                  dsimp only at ht
                  split at ht <;> cases ht) ht with
              ⟨s', rfl⟩ | ⟨s', rfl, acc, hI, e1, e2, e3, e4, e5, -⟩ | ⟨_, _, _, h⟩
            · cases he; cases hstop
            · unfold finish at he
              dsimp only at he
              rw [bind_eq_ok] at he
              obtain ⟨s2, hs2, he⟩ := he
              rw [if_pos rfl] at he
              cases he
              have hxe : s'.x = x1 := by
                rw [e2, hh]
                push_cast
                rw [zero_add]
                field_simp
                ring
              refine ⟨h, o0, acc, s', hx, hdim, i1, hI, hs2, hxe.le, ?_, Or.inr ⟨n, hn, hh, e1, hxe, by omega, by omega, e5, hcase⟩⟩
              rw [hxe, sub_self]; exact tenEps_pos.le
            · exact h.elim

omit [IsStrictOrderedRing K] in
theorem runLast_keeps {s s' : State K σ M} (he : runLast s = ok s') :
    s'.m = s.m ∧ s'.work = s.work ∧ s'.x = s.x ∧ s'.y = s.y ∧ s'.h = s.h := by
  unfold runLast at he
  cases ho : s.out with
  | none => rw [ho] at he; cases he; exact ⟨rfl, rfl, rfl, rfl, rfl⟩
  | some o =>
    rw [ho] at he
    dsimp only at he
    rw [bind_eq_ok] at he
    obtain ⟨⟨o1, a1⟩, -, he⟩ := he
    cases he
    exact ⟨rfl, rfl, rfl, rfl, rfl⟩

/-- **C50**: during a solution every station of the dense output is reported exactly once, in order, whatever the steps
are: first the initial state, then the interior stations, each computed by the interpolation of the method within the
accepted step that contains the station, finally the state at the end of the solution. -/
theorem C50_reported {m : M} {y0 : List K} {x0 x1 : K} {h_equal : Option K} {args : σ} {o : Output K σ}
    {r : Solved K σ M} (he : solve st p fin m y0 x0 x1 h_equal args (some o) = ok r) (hstop : r.stopped = false)
    (hreg : st.Meets c) (hJ : StartsWith c st m x0 y0 (some o)) (hS : StationsSet o) (hd : o.withDenseOutput = true) :
    ∃ q o' h0 acc mid, o.initialize x0 x1 p.save_results = ok q ∧ GoodStations x0 x1 q.dense_x ∧
      r.state.out = some o' ∧ Path c.Φ x0 y0 acc r.state.x r.state.y ∧ r.state.x ≤ x1 ∧ x1 - r.state.x ≤ tenEps ∧
      Reported q ((h0, x0, y0) :: mid ++ [(r.state.h, r.state.x, r.state.y)]) o' ∧
      x0 :: mid.map (fun a : Report K => a.2.1) ++ [x1] = q.dense_x ∧
      ∀ a ∈ mid, ∃ b ∈ acc, a.1 = b.h ∧ b.x - b.h < a.2.1 ∧ a.2.1 ≤ b.x ∧
        ∃ aux, st.dense_output b.m aux a.2.1 b.x b.y b.h = ok a.2.2 := by
  obtain ⟨h0, o0, acc, s, hx, -, hin, hI, hl, hle, hend, -⟩ := solve_spec he hstop hreg hJ (by
    intro o2 h2 _; cases h2; exact hS)
  obtain ⟨k1, k2, k3, k4, k5⟩ := runLast_keeps hl
  rcases hin with ⟨h, -⟩ | ⟨o2, q, h2, rfl, hq⟩
  · cases h
  · cases h2
    have hk := initialize_keeps hq
    have hw : q.withDenseOutput = true := by rw [hk.2.2.1]; exact hd
    rcases hI.out with ⟨h, -⟩ | ⟨q', o1, e1, e2, e3, e4, e5, e6⟩
    · cases h
    · cases e1
      obtain ⟨rs, hR, hi, hSI⟩ := e6 hw
      have hg := e3 hw
      unfold runLast at hl
      rw [e2] at hl
      dsimp only at hl
      rw [bind_eq_ok] at hl
      obtain ⟨⟨o3, a3⟩, h3, hl⟩ := hl
      dsimp only at hl
      obtain ⟨l1, l2, l3⟩ := last_spec hR hi hw h3
      obtain ⟨mid, hmid⟩ := hSI.ne
      subst hmid
      refine ⟨q, o3, h0, acc, mid, hq, hg, ?_, ?_, ?_, ?_, ?_, ?_, ?_⟩
      · simp only [Res.ok.injEq] at hl
        rw [← hl]
      · rw [k3, k4]; exact hI.path
      · rw [k3]; exact hle
      · rw [k3]; exact hend
      · rw [k3, k4, k5]; exact l2
      · have hm := hSI.map
        simp only [List.map_cons] at hm
        have hlast := hg.last
        rw [List.getLast?_eq_getElem?] at hlast
        have htake : q.dense_x = q.dense_x.take ((h0, x0, y0) :: mid).length ++ [x1] := by
          obtain ⟨b, hb⟩ := List.getElem?_eq_some_iff.1 hlast
          conv_lhs => rw [← List.take_append_drop ((h0, x0, y0) :: mid).length q.dense_x]
          congr 1
          have e : ((h0, x0, y0) :: mid).length = q.dense_x.length - 1 := by omega
          rw [e, List.drop_eq_getElem_cons b, hb, List.drop_eq_nil_of_le (by omega)]
        rw [htake, ← hm]
      · intro a ha
        exact hSI.src a (by simpa using ha)

/-- **C50**: what is found in the output afterwards. With `set_dense_recording` the series of a selected component has one
entry for each station of `dense_x`: the initial value, the interpolated values, and the final value. The callback was
called with the same data in the same order. -/
theorem C50_recorded {m : M} {y0 : List K} {x0 x1 : K} {h_equal : Option K} {args : σ} {o : Output K σ}
    {r : Solved K σ M} (he : solve st p fin m y0 x0 x1 h_equal args (some o) = ok r) (hstop : r.stopped = false)
    (hreg : st.Meets c) (hJ : StartsWith c st m x0 y0 (some o)) (hS : StationsSet o) (hd : o.withDenseOutput = true) :
    ∃ o' rs, r.state.out = some o' ∧ GoodStations x0 x1 o'.dense_x ∧
      rs.length = o'.dense_x.length ∧
      (∀ (j : Nat) (a : Report K), rs[j]? = some a → j + 1 < rs.length → o'.dense_x[j]? = some a.2.1) ∧
      (∃ h0, rs.head? = some (h0, x0, y0)) ∧ rs.getLast? = some (r.state.h, r.state.x, r.state.y) ∧
      (o.dense_recording = true → o'.dense_y.map Prod.fst = o.dense_y.map Prod.fst ∧
        ∀ q ∈ o'.dense_y, q.2.map some = rs.map (fun a : Report K => a.2.2[q.1]?)) ∧
      (o.dense_callback.isSome = true → o'.dense_calls = o.dense_calls ++ rs) := by
  obtain ⟨q, o', h0, acc, mid, h1, h2, h3, -, -, -, h7, h8, -⟩ := C50_reported he hstop hreg hJ hS hd
  obtain ⟨-, -, k2, -, -, -, k6, k7, k8, -, k10, -, k12, -⟩ := initialize_keeps h1
  have hdx := h7.dx
  have hlen : ((h0, x0, y0) :: mid ++ [(r.state.h, r.state.x, r.state.y)]).length = q.dense_x.length := by
    rw [← h8]; simp
  refine ⟨o', (h0, x0, y0) :: mid ++ [(r.state.h, r.state.x, r.state.y)], h3, ?_, ?_, ?_, ⟨h0, rfl⟩,
    by rw [List.getLast?_concat], ?_, ?_⟩
  · rw [hdx]; exact h2
  · rw [hdx]; exact hlen
  · intro j a ha hj
    rw [hdx, ← h8]
    rw [List.getElem?_append_left (by simp at hj ⊢; omega)] at ha
    rw [List.getElem?_append_left (by simp at hj ⊢; omega)]
    have := congrArg (Option.map (fun a : Report K => a.2.1)) ha
    rw [← List.getElem?_map] at this
    simpa using this
  · intro hrec
    refine ⟨h7.keys.trans k12, ?_⟩
    intro z hz
    obtain ⟨s1, s2⟩ := h7.series (by rw [k6]; exact hrec) z hz
    apply List.ext_getElem?
    intro j
    rw [List.getElem?_map, List.getElem?_map]
    cases hj : ((h0, x0, y0) :: mid ++ [(r.state.h, r.state.x, r.state.y)])[j]? with
    | none =>
      rw [List.getElem?_eq_none_iff] at hj
      rw [List.getElem?_eq_none (by omega)]
      rfl
    | some a =>
      obtain ⟨v, v1, v2⟩ := s2 j a hj
      rw [v2]
      simp [v1]
  · intro hcb
    have := h7.calls
    rw [k7, hcb, if_pos rfl, k10] at this
    exact this

/-- **C58**: equal steps. The solution ends exactly at `x1`, after `⌈(x1 - x0) / h_equal⌉` steps (10 steps when no
stepsize is given and the method has no error estimator) of the same size, which does not exceed the size wanted; no step
is rejected. -/
theorem C58_equal_steps {m : M} {y0 : List K} {x0 x1 : K} {h_equal : Option K} {args : σ} {out : Option (Output K σ)}
    {r : Solved K σ M} (he : solve st p fin m y0 x0 x1 h_equal args out = ok r) (hstop : r.stopped = false)
    (hreg : st.Meets c) (hJ : StartsWith c st m x0 y0 out) (hS : ∀ o, out = some o → o.withDenseOutput = true → StationsSet o)
    (heq : h_equal.isSome = true ∨ p.embedded = false) :
    ∃ (n : Nat) (acc : List (Accepted K M)), 0 < n ∧ Path c.Φ x0 y0 acc x1 r.state.y ∧ r.state.x = x1 ∧ r.state.h = (x1 - x0) / n ∧
      acc.length = n ∧ (∀ a ∈ acc, a.h = (x1 - x0) / n) ∧
      r.state.work.stats.n_steps = n ∧ r.state.work.stats.n_accepted = n ∧ r.state.work.stats.n_rejected = 0 ∧
      (h_equal = none → n = 10) ∧
      (∀ h, h_equal = some h → n = ⌈(x1 - x0) / h⌉₊ ∧ r.state.h ≤ h ∧ (x1 - x0) / h ≤ n ∧ (n : K) < (x1 - x0) / h + 1) := by
  obtain ⟨h0, o0, acc, s, hx, -, -, hI, hl, -, -, hcase⟩ := solve_spec he hstop hreg hJ hS
  obtain ⟨k1, k2, k3, k4, k5⟩ := runLast_keeps hl
  rcases hcase with ⟨e1, e2, -⟩ | ⟨n, hn, e1, e2, e3, e4, e5, e6, e7⟩
  · rcases heq with h | h
    · rw [e1] at h; cases h
    · rw [e2] at h; cases h
  · have hpath := hI.path
    rw [e3] at hpath
    have hacc := hI.nacc
    have hrej := hI.nrej
    refine ⟨n, acc, hn, by rw [k4]; exact hpath, by rw [k3, e3], by rw [k5, e2, e1], e5, by rw [← e1]; exact e6, by rw [k2, e4],
      by rw [k2, hacc, e5], by rw [k2]; omega, ?_, ?_⟩
    · intro h
      rcases e7 with ⟨-, -, h2⟩ | ⟨h2, h3, -⟩
      · exact h2
      · rw [h] at h3; cases h3
    · intro h hh
      rcases e7 with ⟨h1, -⟩ | ⟨h2, h3, h4, h5⟩
      · rw [h1] at hh; cases hh
      · rw [h3] at hh
        cases hh
        have hpos : 0 < h := lt_of_lt_of_le tenEps_pos h4
        have hn' : (0 : K) < n := by exact_mod_cast hn
        have hc : (x1 - x0) / h ≤ n := by rw [h5]; exact Nat.le_ceil _
        refine ⟨h5, ?_, hc, ?_⟩
        · rw [k5, e2, e1, div_le_iff₀ hn', mul_comm, ← div_le_iff₀ hpos]
          exact hc
        · rw [h5]
          exact Nat.ceil_lt_add_one (div_nonneg (sub_pos.2 hx).le hpos.le)

/-- **C58**: variable steps. The solution ends at most `10 ε` before `x1`, never beyond it; the accepted steps lead from
`x0` to the end, their number is `n_accepted`, and accepted and rejected steps together do not exceed the number of steps
computed, which does not exceed `n_step_max`. The error estimate of every accepted step is below one, its iterations were not flagged as diverging, and the stepsizes of
consecutive accepted steps are in the relation `U` promised by the method. -/
theorem C58_variable_steps {m : M} {y0 : List K} {x0 x1 : K} {args : σ} {out : Option (Output K σ)}
    {r : Solved K σ M} (he : solve st p fin m y0 x0 x1 none args out = ok r) (hstop : r.stopped = false)
    (hreg : st.Meets c) (hJ : StartsWith c st m x0 y0 out) (hS : ∀ o, out = some o → o.withDenseOutput = true → StationsSet o) (hemb : p.embedded = true) :
    ∃ acc : List (Accepted K M), Path c.Φ x0 y0 acc r.state.x r.state.y ∧ r.state.x ≤ x1 ∧ x1 - r.state.x ≤ tenEps ∧
      r.state.work.stats.n_accepted = acc.length ∧
      r.state.work.stats.n_accepted + r.state.work.stats.n_rejected ≤ r.state.work.stats.n_steps ∧
      r.state.work.stats.n_steps ≤ p.n_step_max ∧ (∀ a ∈ acc, a.err < 1 ∧ a.div = false) ∧ acc.IsChain fun a b => c.U a.h b.h := by
  obtain ⟨h0, o0, acc, s, hx, -, -, hI, hl, hle, hend, hcase⟩ := solve_spec he hstop hreg hJ hS
  obtain ⟨k1, k2, k3, k4, k5⟩ := runLast_keeps hl
  rcases hcase with ⟨-, -, e3⟩ | ⟨n, hn, e1, e2, e3, e4, e5, e6, e7⟩
  · exact ⟨acc, by rw [k3, k4]; exact hI.path, by rw [k3]; exact hle, by rw [k3]; exact hend, by rw [k2]; exact hI.nacc,
      by rw [k2]; exact hI.nrej, by rw [k2]; exact e3.1, e3.2.err, e3.2.chain⟩
  · rcases e7 with ⟨-, h, -⟩ | ⟨_, h, -⟩
    · rw [hemb] at h; cases h
    · cases h

/-- **C58**: the record of the steps. With `set_step_recording` the output holds `x0` and the station of every accepted
step, strictly increasing, the last one being the end of the solution; the stepsizes; and for every selected component
its values. One entry more than the number of accepted steps. -/
theorem C58_step_record {m : M} {y0 : List K} {x0 x1 : K} {h_equal : Option K} {args : σ} {o : Output K σ}
    {r : Solved K σ M} (he : solve st p fin m y0 x0 x1 h_equal args (some o) = ok r) (hstop : r.stopped = false)
    (hreg : st.Meets c) (hJ : StartsWith c st m x0 y0 (some o)) (hS : o.withDenseOutput = true → StationsSet o) (hf : o.Fresh) (hr : o.step_recording = true) :
    ∃ o' h0 acc, r.state.out = some o' ∧ Path c.Φ x0 y0 acc r.state.x r.state.y ∧ r.state.work.stats.n_accepted = acc.length ∧
      o'.step_x = x0 :: acc.map (fun a : Accepted K M => a.x) ∧ o'.step_x.Pairwise (· < ·) ∧
      o'.step_x.getLast? = some r.state.x ∧ o'.step_x.length = r.state.work.stats.n_accepted + 1 ∧
      o'.step_h = h0 :: acc.map (fun a : Accepted K M => a.h) ∧
      o'.step_y.map Prod.fst = o.step_y.map Prod.fst ∧
      ∀ q ∈ o'.step_y, q.2.map some = y0[q.1]? :: acc.map (fun a : Accepted K M => a.y[q.1]?) := by
  obtain ⟨h0, o0, acc, s, hx, -, hin, hI, hl, hle, hend, -⟩ := solve_spec he hstop hreg hJ (by
    intro o2 h2 hw; cases h2; exact hS hw)
  obtain ⟨k1, k2, k3, k4, k5⟩ := runLast_keeps hl
  rcases hin with ⟨h, -⟩ | ⟨o2, q, h2, rfl, hq⟩
  · cases h
  · cases h2
    obtain ⟨-, -, kd, kr, -, -, -, -, -, -, -, ky, -, kc⟩ := initialize_keeps hq
    obtain ⟨c1, c2, c3⟩ := kc hf hr
    rw [hr] at kr
    rcases hI.out with ⟨h, -⟩ | ⟨q', o1, e1, e2, e3, e4, e5, e6⟩
    · cases h
    · cases e1
      unfold runLast at hl
      rw [e2] at hl
      dsimp only at hl
      rw [bind_eq_ok] at hl
      obtain ⟨⟨o3, a3⟩, h3, hl⟩ := hl
      simp only [Res.ok.injEq] at hl
      have hSt : Stepped q ((h0, x0, y0) :: acc.map Accepted.report) o3 := by
        cases hw : q.withDenseOutput
        · have := last_plain (by rw [e5, hw]) h3
          rw [this]; exact e4
        · obtain ⟨rs, hR, hi, hSI⟩ := e6 hw
          obtain ⟨-, -, l3⟩ := last_spec hR hi hw h3
          exact e4.congr l3
      obtain ⟨p1, p2, p3⟩ := hI.path.sorted
      have hxs : o3.step_x = x0 :: acc.map (fun a : Accepted K M => a.x) := by
        rw [hSt.xs, c2, if_pos kr]
        simp [Accepted.report]
      refine ⟨o3, h0, acc, by rw [← hl], by rw [k3, k4]; exact hI.path, by rw [k2]; exact hI.nacc, hxs, by rw [hxs]; exact p1,
        by rw [hxs, k3]; exact p3, by rw [hxs, k2, hI.nacc]; simp, ?_, ?_, ?_⟩
      · rw [hSt.hs, c1, if_pos kr]
        simp [Accepted.report]
      · rw [← ky]
        exact forall₂_map_fst hSt.ys fun p q h => h.1
      · intro z hz
        obtain ⟨w, hw, g1, g2⟩ := forall₂_mem_right hSt.ys hz
        rw [g2, c3 w hw, if_pos kr, g1]
        simp [Accepted.report]

/-- **C50**: when the steps are over, nothing but the final station is left to be reported, provided the interior stations
are not within `10 ε` of `x1`; so the assertion in `Output::last` holds. -/
theorem C50_last_ready {o0 : Output K σ} {o' : Option (Output K σ)} {first : Report K} {x1 x : K} {acc : List (Accepted K M)}
    (hO : OutInv st (some o0) x1 first acc x o') (hd : o0.withDenseOutput = true) (hend : x1 - x ≤ tenEps)
    (hst : ∀ (j : Nat) (z : K), 0 < j → j + 1 < o0.dense_x.length → o0.dense_x[j]? = some z → z ≤ x1 - tenEps) :
    ∃ o, o' = some o ∧ o.dense_index + 1 = o.dense_x.length := by
  rcases hO with ⟨h, -⟩ | ⟨q, o, e1, e2, e3, e4, e5, e6⟩
  · cases h
  · cases e1
    obtain ⟨rs, hR, hi, hSI⟩ := e6 hd
    refine ⟨o, e2, ?_⟩
    rw [hi, hR.dx]
    have h1 := hSI.le
    by_contra hne
    have hlt : rs.length < o0.dense_x.length := by omega
    have hpos : 0 < rs.length := by
      obtain ⟨tl, htl⟩ := hSI.ne
      rw [htl]; simp
    have h2 := hSI.next rs.length (o0.dense_x[rs.length]) le_rfl (by omega) (List.getElem?_eq_getElem hlt)
    have h3 := hst rs.length (o0.dense_x[rs.length]) hpos (by omega) (List.getElem?_eq_getElem hlt)
    linarith

end

end Russell.Ode
