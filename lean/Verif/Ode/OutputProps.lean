import Verif.Ode.Stations

/-!
# Invariants of `Output::execute` and `Output::last`

`Reported o0 rs o`: since the state `o0` (after `initialize`) the dense output has reported the list `rs`, through every
channel that is switched on (callback, files, record). `Stepped o0 ss o`: the same for the step output.
-/

namespace Russell.Ode

open Russell Russell.Res Russell.Lab

variable {K σ : Type}

/-- The dense output reported exactly `rs` (stepsize, station, solution), in this order, since the state `o0`. -/
structure Reported (o0 : Output K σ) (rs : List (Report K)) (o : Output K σ) : Prop where
  init : o.initialized = o0.initialized
  dx : o.dense_x = o0.dense_x
  cb : o.dense_callback = o0.dense_callback
  file : o.dense_file = o0.dense_file
  record : o.dense_recording = o0.dense_recording
  /-- the callback was called with the elements of `rs` -/
  calls : o.dense_calls = o0.dense_calls ++ (if o0.dense_callback.isSome then rs else [])
  count : o.dense_file_count = o0.dense_file_count + (if o0.dense_file then rs.length else 0)
  /-- the files are numbered consecutively and hold the elements of `rs` -/
  written : o.dense_written = o0.dense_written ++
    (if o0.dense_file then (rs.zipIdx o0.dense_file_count).map Prod.swap else [])
  keys : o.dense_y.map Prod.fst = o0.dense_y.map Prod.fst
  /-- the record of the component `m` begins with the components `m` of the elements of `rs` -/
  series : o0.dense_recording = true → ∀ p ∈ o.dense_y, p.2.length = o0.dense_x.length ∧
    ∀ (j : Nat) (r : Report K), rs[j]? = some r → ∃ v, r.2.2[p.1]? = some v ∧ p.2[j]? = some v

/-- The step output reported exactly `ss` (stepsize, station, solution), in this order, since the state `o0`. -/
structure Stepped (o0 : Output K σ) (ss : List (Report K)) (o : Output K σ) : Prop where
  cb : o.step_callback = o0.step_callback
  file : o.step_file = o0.step_file
  record : o.step_recording = o0.step_recording
  calls : o.step_calls = o0.step_calls ++ (if o0.step_callback.isSome then ss else [])
  count : o.step_file_count = o0.step_file_count + (if o0.step_file then ss.length else 0)
  written : o.step_written = o0.step_written ++ (if o0.step_file then (ss.zipIdx o0.step_file_count).map Prod.swap else [])
  hs : o.step_h = o0.step_h ++ (if o0.step_recording then ss.map (fun r : Report K => r.1) else [])
  xs : o.step_x = o0.step_x ++ (if o0.step_recording then ss.map (fun r : Report K => r.2.1) else [])
  ys : List.Forall₂ (fun p q => q.1 = p.1 ∧ q.2.map some = p.2.map some ++
    (if o0.step_recording then ss.map (fun r : Report K => r.2.2[p.1]?) else [])) o0.step_y o.step_y

/-- The fields written by the step part. -/
def Output.stepPart (o : Output K σ) :=
  (o.step_callback, o.step_file, o.step_recording, o.step_calls, o.step_file_count, o.step_written, o.step_h, o.step_x,
    o.step_y)

/-- The fields of the dense part. -/
def Output.densePart (o : Output K σ) :=
  (o.initialized, o.dense_x, o.dense_callback, o.dense_file, o.dense_recording, o.dense_calls, o.dense_file_count,
    o.dense_written, o.dense_y, o.dense_index)

theorem Stepped.congr {o0 o o' : Output K σ} {ss : List (Report K)} (h : Stepped o0 ss o)
    (he : o'.stepPart = o.stepPart) : Stepped o0 ss o' := by
  simp only [Output.stepPart, Prod.mk.injEq] at he
  obtain ⟨e1, e2, e3, e4, e5, e6, e7, e8, e9⟩ := he
  exact ⟨e1.trans h.cb, e2.trans h.file, e3.trans h.record, e4.trans h.calls, e5.trans h.count, e6.trans h.written,
    e7.trans h.hs, e8.trans h.xs, by rw [e9]; exact h.ys⟩

theorem Reported.congr {o0 o o' : Output K σ} {rs : List (Report K)} (h : Reported o0 rs o)
    (he : o'.densePart = o.densePart) : Reported o0 rs o' ∧ o'.dense_index = o.dense_index := by
  simp only [Output.densePart, Prod.mk.injEq] at he
  obtain ⟨e0, e1, e2, e3, e4, e5, e6, e7, e8, e9⟩ := he
  exact ⟨⟨e0.trans h.init, e1.trans h.dx, e2.trans h.cb, e3.trans h.file, e4.trans h.record, e5.trans h.calls, e6.trans h.count,
    e7.trans h.written, by rw [e8]; exact h.keys, by rw [e8]; exact h.series⟩, e9⟩

theorem Stepped.refl (o : Output K σ) : Stepped o [] o :=
  ⟨rfl, rfl, rfl, by simp, by simp, by simp, by simp, by simp, by
    simp only [List.map_nil, ite_self, List.append_nil]
    exact List.forall₂_same.2 fun p _ => ⟨rfl, rfl⟩⟩

theorem withDense_eq {o o0 : Output K σ} (h1 : o.dense_callback = o0.dense_callback) (h2 : o.dense_file = o0.dense_file)
    (h3 : o.dense_recording = o0.dense_recording) : o.withDenseOutput = o0.withDenseOutput := by
  unfold Output.withDenseOutput; rw [h1, h2, h3]

theorem withDense_of_densePart {o o' : Output K σ} (he : o'.densePart = o.densePart) :
    o'.withDenseOutput = o.withDenseOutput := by
  simp only [Output.densePart, Prod.mk.injEq] at he
  obtain ⟨-, -, e2, e3, e4, -⟩ := he
  exact withDense_eq e2 e3 e4

theorem setAll_spec {idx : Nat} {y : List K} {d d' : List (Nat × List K)} (h : setAll idx y d = ok d') :
    List.Forall₂ (fun p q => q.1 = p.1 ∧ idx < p.2.length ∧ ∃ v, y[p.1]? = some v ∧ q.2 = p.2.set idx v) d d' := by
  induction d generalizing d' with
  | nil => cases h; exact .nil
  | cons p r ih =>
    obtain ⟨m, ym⟩ := p
    unfold setAll at h
    rw [bind_eq_ok] at h
    obtain ⟨v, hv, h⟩ := h
    rw [bind_eq_ok] at h
    obtain ⟨ym', hym, h⟩ := h
    rw [bind_eq_ok] at h
    obtain ⟨r', hr, h⟩ := h
    cases h
    have hlt : idx < ym.length := by
      by_contra hc
      rw [vset_ge _ (by omega)] at hym
      cases hym
    rw [vset_lt _ hlt] at hym
    cases hym
    exact .cons ⟨rfl, hlt, v, vget_eq_ok.1 hv, rfl⟩ (ih hr)

theorem forall₂_map_fst {d d' : List (Nat × List K)} {R : Nat × List K → Nat × List K → Prop}
    (h : List.Forall₂ R d d') (hR : ∀ p q, R p q → q.1 = p.1) : d'.map Prod.fst = d.map Prod.fst := by
  induction h with
  | nil => rfl
  | cons h1 _ ih => rw [List.map_cons, List.map_cons, ih, hR _ _ h1]

theorem forall₂_mem_right {α β : Type} {R : α → β → Prop} {l : List α} {l' : List β} (h : List.Forall₂ R l l') {q : β}
    (hq : q ∈ l') : ∃ p ∈ l, R p q := by
  induction h with
  | nil => cases hq
  | cons h1 _ ih =>
    rcases List.mem_cons.1 hq with rfl | hq
    · exact ⟨_, by simp, h1⟩
    · obtain ⟨p, hp, hr⟩ := ih hq
      exact ⟨p, by simp [hp], hr⟩

/-- The three channels of one report, given the new record. -/
theorem Reported.add {o0 o : Output K σ} {rs : List (Report K)} (hR : Reported o0 rs o) (r : Report K) {o' : Output K σ}
    (h0 : o'.initialized = o.initialized) (h1 : o'.dense_x = o.dense_x) (h2 : o'.dense_callback = o.dense_callback)
    (h3 : o'.dense_file = o.dense_file) (h4 : o'.dense_recording = o.dense_recording)
    (h5 : o'.dense_calls = o.dense_calls ++ (if o.dense_callback.isSome then [r] else []))
    (h6 : o'.dense_file_count = o.dense_file_count + (if o.dense_file then 1 else 0))
    (h7 : o'.dense_written = o.dense_written ++ (if o.dense_file then [(o.dense_file_count, r)] else []))
    (h8 : (o.dense_recording = true ∧ setAll rs.length r.2.2 o.dense_y = ok o'.dense_y) ∨
      (o.dense_recording = false ∧ o'.dense_y = o.dense_y)) : Reported o0 (rs ++ [r]) o' where
  init := h0.trans hR.init
  dx := h1.trans hR.dx
  cb := h2.trans hR.cb
  file := h3.trans hR.file
  record := h4.trans hR.record
  calls := by
    rw [h5, hR.calls, hR.cb]
    cases o0.dense_callback.isSome <;> simp
  count := by
    rw [h6, hR.count, hR.file]
    cases o0.dense_file
    · simp
    · simp [Nat.add_assoc]
  written := by
    rw [h7, hR.written, hR.file, hR.count]
    cases hf : o0.dense_file
    · simp
    · simp [List.zipIdx_append]
  keys := by
    rcases h8 with ⟨-, h8⟩ | ⟨-, h8⟩
    · rw [forall₂_map_fst (setAll_spec h8) (fun p q h => h.1), hR.keys]
    · rw [h8, hR.keys]
  series := by
    intro hrec q hq
    rcases h8 with ⟨-, h8⟩ | ⟨h8, -⟩
    · obtain ⟨p, hp, hq1, hq2, v, hv, hq3⟩ := forall₂_mem_right (setAll_spec h8) hq
      obtain ⟨hl, hs⟩ := hR.series hrec p hp
      refine ⟨by rw [hq3, List.length_set, hl], ?_⟩
      intro j s hj
      rw [hq1, hq3]
      rcases Nat.lt_trichotomy j rs.length with hlt | rfl | hgt
      · rw [List.getElem?_append_left hlt] at hj
        obtain ⟨w, hw1, hw2⟩ := hs j s hj
        exact ⟨w, hw1, by rw [List.getElem?_set_ne (by omega)]; exact hw2⟩
      · rw [List.getElem?_append_right le_rfl] at hj
        simp only [Nat.sub_self, List.getElem?_cons_zero, Option.some.injEq] at hj
        subst hj
        exact ⟨v, hv, List.getElem?_set_self hq2⟩
      · rw [List.getElem?_eq_none (by simp; omega)] at hj
        cases hj
    · rw [← hR.record, h8] at hrec
      cases hrec

section
variable [Add K] [Sub K] [Mul K] [Div K] [LE K] [LT K] [DecidableLE K] [DecidableLT K] [F64Ops K]

theorem callDense_eq {o o1 : Output K σ} {stats : Stats K} {h x : K} {y : List K} {args a1 : σ} {stop : Bool}
    (h1 : o.callDense stats h x y args = ok (o1, a1, stop)) :
    o1 = { o with dense_calls := o.dense_calls ++ (if o.dense_callback.isSome then [(h, x, y)] else []) } := by
  unfold Output.callDense at h1
  split at h1
  · rename_i cb hcb
    rw [bind_eq_ok] at h1
    obtain ⟨⟨b, a⟩, -, h1⟩ := h1
    cases h1
    simp [hcb]
  · rename_i hcb
    cases h1
    rw [hcb, Option.isSome_none, if_neg (by simp), List.append_nil, ← hcb]

theorem callStep_eq {o o1 : Output K σ} {stats : Stats K} {h x : K} {y : List K} {args a1 : σ} {stop : Bool}
    (h1 : o.callStep stats h x y args = ok (o1, a1, stop)) :
    o1 = { o with step_calls := o.step_calls ++ (if o.step_callback.isSome then [(h, x, y)] else []) } := by
  unfold Output.callStep at h1
  split at h1
  · rename_i cb hcb
    rw [bind_eq_ok] at h1
    obtain ⟨⟨b, a⟩, -, h1⟩ := h1
    cases h1
    simp [hcb]
  · rename_i hcb
    cases h1
    rw [hcb, Option.isSome_none, if_neg (by simp), List.append_nil, ← hcb]

/-- One report that does not stop. -/
theorem report_spec {o0 o o' : Output K σ} {rs : List (Report K)} (hR : Reported o0 rs o) (hidx : o.dense_index = rs.length)
    {stats : Stats K} {h x : K} {y : List K} {args args' : σ} (he : o.report stats h x y args = ok (o', args', false)) :
    Reported o0 (rs ++ [(h, x, y)]) o' ∧ o'.dense_index = o.dense_index ∧ o'.stepPart = o.stepPart := by
  unfold Output.report at he
  rw [bind_eq_ok] at he
  obtain ⟨⟨o1, a1, stop⟩, h1, h2⟩ := he
  dsimp only at h2
  split at h2
  · cases h2
  · -- the callback
    have e1 : o1 = { o with dense_calls := o.dense_calls ++ (if o.dense_callback.isSome then [(h, x, y)] else []) } := by
      exact callDense_eq h1
    subst e1
    clear h1
    cases hf : o.dense_file
    · simp only [hf, Bool.false_eq_true, if_false] at h2
      split at h2
      · rename_i hrec
        rw [bind_eq_ok] at h2
        obtain ⟨dy, hdy, h2⟩ := h2
        cases h2
        refine ⟨hR.add _ rfl rfl rfl hf.symm rfl rfl (by simp [hf]) (by simp [hf]) (Or.inl ⟨hrec, ?_⟩), rfl, rfl⟩
        rw [← hidx]; exact hdy
      · rename_i hrec
        cases h2
        exact ⟨hR.add _ rfl rfl rfl hf.symm rfl rfl (by simp [hf]) (by simp [hf]) (Or.inr ⟨by simpa using hrec, rfl⟩), rfl, rfl⟩
    · simp only [hf, if_true] at h2
      split at h2
      · rename_i hrec
        rw [bind_eq_ok] at h2
        obtain ⟨dy, hdy, h2⟩ := h2
        cases h2
        refine ⟨hR.add _ rfl rfl rfl hf.symm rfl rfl (by simp [hf]) (by simp [hf]) (Or.inl ⟨hrec, ?_⟩), rfl, rfl⟩
        rw [← hidx]; exact hdy
      · rename_i hrec
        cases h2
        exact ⟨hR.add _ rfl rfl rfl hf.symm rfl rfl (by simp [hf]) (by simp [hf]) (Or.inr ⟨by simpa using hrec, rfl⟩),
          rfl, rfl⟩

/-- `last` reports the final station. -/
theorem last_spec {o0 o o' : Output K σ} {rs : List (Report K)} (hR : Reported o0 rs o) (hidx : o.dense_index = rs.length)
    (hd : o0.withDenseOutput = true)
    {work : Workspace K} {h x : K} {y : List K} {args args' : σ} (he : o.last work h x y args = ok (o', args')) :
    rs.length + 1 = o0.dense_x.length ∧ Reported o0 (rs ++ [(h, x, y)]) o' ∧ o'.stepPart = o.stepPart := by
  unfold Output.last at he
  rw [if_pos (by rw [withDense_eq hR.cb hR.file hR.record]; exact hd), bind_eq_ok] at he
  obtain ⟨n_out, hn, he⟩ := he
  have hn' : n_out + 1 = o0.dense_x.length := by
    rw [hR.dx] at hn
    unfold subUsize at hn
    split at hn
    · cases hn; omega
    · cases hn
  split at he
  · cases he
  · rename_i hni
    rw [not_not] at hni
    refine ⟨by omega, ?_⟩
    rw [bind_eq_ok] at he
    obtain ⟨⟨o1, a1, stop⟩, h1, h2⟩ := he
    dsimp only at h2
    have e1 : o1 = { o with dense_calls := o.dense_calls ++ (if o.dense_callback.isSome then [(h, x, y)] else []) } := by
      exact callDense_eq h1
    subst e1
    clear h1
    cases hf : o.dense_file
    · simp only [hf, Bool.false_eq_true, if_false] at h2
      split at h2
      · rename_i hrec
        rw [bind_eq_ok] at h2
        obtain ⟨dy, hdy, h2⟩ := h2
        cases h2
        refine ⟨hR.add _ rfl rfl rfl hf.symm rfl rfl (by simp [hf]) (by simp [hf]) (Or.inl ⟨hrec, ?_⟩), rfl⟩
        rw [← hidx]; exact hdy
      · rename_i hrec
        cases h2
        exact ⟨hR.add _ rfl rfl rfl hf.symm rfl rfl (by simp [hf]) (by simp [hf]) (Or.inr ⟨by simpa using hrec, rfl⟩), rfl⟩
    · simp only [hf, if_true] at h2
      split at h2
      · rename_i hrec
        rw [bind_eq_ok] at h2
        obtain ⟨dy, hdy, h2⟩ := h2
        cases h2
        refine ⟨hR.add _ rfl rfl rfl hf.symm rfl rfl (by simp [hf]) (by simp [hf]) (Or.inl ⟨hrec, ?_⟩), rfl⟩
        rw [← hidx]; exact hdy
      · rename_i hrec
        cases h2
        exact ⟨hR.add _ rfl rfl rfl hf.symm rfl rfl (by simp [hf]) (by simp [hf]) (Or.inr ⟨by simpa using hrec, rfl⟩), rfl⟩

omit [Add K] [Sub K] [Mul K] [Div K] [LE K] [LT K] [DecidableLE K] [DecidableLT K] [F64Ops K] in
/-- Without dense output `last` does nothing. -/
theorem last_plain {o o' : Output K σ} (hd : o.withDenseOutput = false)
    {work : Workspace K} {h x : K} {y : List K} {args args' : σ} (he : o.last work h x y args = ok (o', args')) : o' = o := by
  unfold Output.last at he
  rw [if_neg (by simp [hd])] at he
  cases he
  rfl

theorem pushAll_spec {y : List K} {d d' : List (Nat × List K)} (h : pushAll y d = ok d') :
    List.Forall₂ (fun p q => q.1 = p.1 ∧ q.2.map some = p.2.map some ++ [y[p.1]?]) d d' := by
  induction d generalizing d' with
  | nil => cases h; exact .nil
  | cons p r ih =>
    obtain ⟨m, ym⟩ := p
    unfold pushAll at h
    rw [bind_eq_ok] at h
    obtain ⟨v, hv, h⟩ := h
    rw [bind_eq_ok] at h
    obtain ⟨r', hr, h⟩ := h
    cases h
    refine .cons ⟨rfl, ?_⟩ (ih hr)
    dsimp only
    rw [vget_eq_ok.1 hv]
    simp

theorem Stepped.add {o0 o : Output K σ} {ss : List (Report K)} (hS : Stepped o0 ss o) (r : Report K) {o' : Output K σ}
    (h2 : o'.step_callback = o.step_callback)
    (h3 : o'.step_file = o.step_file) (h4 : o'.step_recording = o.step_recording)
    (h5 : o'.step_calls = o.step_calls ++ (if o.step_callback.isSome then [r] else []))
    (h6 : o'.step_file_count = o.step_file_count + (if o.step_file then 1 else 0))
    (h7 : o'.step_written = o.step_written ++ (if o.step_file then [(o.step_file_count, r)] else []))
    (h8 : (o.step_recording = true ∧ pushAll r.2.2 o.step_y = ok o'.step_y ∧ o'.step_h = o.step_h ++ [r.1] ∧
        o'.step_x = o.step_x ++ [r.2.1]) ∨
      (o.step_recording = false ∧ o'.step_y = o.step_y ∧ o'.step_h = o.step_h ∧ o'.step_x = o.step_x)) :
    Stepped o0 (ss ++ [r]) o' where
  cb := h2.trans hS.cb
  file := h3.trans hS.file
  record := h4.trans hS.record
  calls := by
    rw [h5, hS.calls, hS.cb]
    cases o0.step_callback.isSome <;> simp
  count := by
    rw [h6, hS.count, hS.file]
    cases o0.step_file
    · simp
    · simp [Nat.add_assoc]
  written := by
    rw [h7, hS.written, hS.file, hS.count]
    cases hf : o0.step_file
    · simp
    · simp [List.zipIdx_append]
  hs := by
    rcases h8 with ⟨a, -, b, -⟩ | ⟨a, -, b, -⟩
    · rw [b, hS.hs, ← hS.record, a]; simp
    · rw [b, hS.hs, ← hS.record, a]; simp
  xs := by
    rcases h8 with ⟨a, -, -, b⟩ | ⟨a, -, -, b⟩
    · rw [b, hS.xs, ← hS.record, a]; simp
    · rw [b, hS.xs, ← hS.record, a]; simp
  ys := by
    have hy := hS.ys
    rcases h8 with ⟨a, b, -, -⟩ | ⟨a, b, -, -⟩
    · rw [← hS.record, a] at hy ⊢
      have hp := pushAll_spec b
      generalize o0.step_y = d0 at hy
      generalize o.step_y = d1 at hy hp
      generalize o'.step_y = d2 at hp
      clear * - hy hp
      induction hy generalizing d2 with
      | nil => cases hp; exact .nil
      | cons h1 _ ih =>
        cases hp with
        | cons h2 h3 =>
          refine .cons ⟨h2.1.trans h1.1, ?_⟩ (ih _ h3)
          rw [h2.2, h1.2, h1.1]
          simp
    · rw [b]
      rw [← hS.record, a] at hy ⊢
      simpa using hy

/-- The step part of `execute`. -/
theorem executeStep_spec {o0 o o' : Output K σ} {ss : List (Report K)} (hS : Stepped o0 ss o)
    {work : Workspace K} {h x : K} {y : List K} {args args' : σ}
    (he : o.executeStep work h x y args = ok (o', args', false)) :
    Stepped o0 (ss ++ [(h, x, y)]) o' ∧ o'.densePart = o.densePart := by
  unfold Output.executeStep at he
  rw [bind_eq_ok] at he
  obtain ⟨⟨o1, a1, stop⟩, h1, h2⟩ := he
  dsimp only at h2
  split at h2
  · cases h2
  · have e1 : o1 = { o with step_calls := o.step_calls ++ (if o.step_callback.isSome then [(h, x, y)] else []) } := by
      exact callStep_eq h1
    subst e1
    clear h1
    -- the part after the file
    have key : ∀ (o2 : Output K σ), o2.densePart = o.densePart → o2.step_callback = o.step_callback →
        o2.step_file = o.step_file → o2.step_recording = o.step_recording →
        o2.step_calls = o.step_calls ++ (if o.step_callback.isSome then [(h, x, y)] else []) →
        o2.step_file_count = o.step_file_count + (if o.step_file then 1 else 0) →
        o2.step_written = o.step_written ++ (if o.step_file then [(o.step_file_count, (h, x, y))] else []) →
        o2.step_y = o.step_y → o2.step_h = o.step_h → o2.step_x = o.step_x →
        (if o2.step_recording then do
          let sy ← pushAll y o2.step_y
          let o : Output K σ := { o2 with step_h := o2.step_h ++ [h], step_x := o2.step_x ++ [x], step_y := sy }
          o.globalError x y a1
        else ok (o2, a1, false)) = ok (o', args', false) →
        Stepped o0 (ss ++ [(h, x, y)]) o' ∧ o'.densePart = o.densePart := by
      intro o2 d0 d1 d2 d3 d4 d5 d6 d7 d8 d9 hk
      split at hk
      · rename_i hrec
        rw [bind_eq_ok] at hk
        obtain ⟨sy, hsy, hk⟩ := hk
        dsimp only at hk
        rw [d7] at hsy
        rw [d3] at hrec
        unfold Output.globalError at hk
        split at hk
        · rw [bind_eq_ok] at hk
          obtain ⟨err, -, hk⟩ := hk
          cases hk
          exact ⟨hS.add _ d1 d2 d3 d4 d5 d6 (Or.inl ⟨hrec, hsy, by dsimp only; rw [d8], by dsimp only; rw [d9]⟩), d0⟩
        · cases hk
          exact ⟨hS.add _ d1 d2 d3 d4 d5 d6 (Or.inl ⟨hrec, hsy, by dsimp only; rw [d8], by dsimp only; rw [d9]⟩), d0⟩
      · rename_i hrec
        cases hk
        rw [d3] at hrec
        exact ⟨hS.add _ d1 d2 d3 d4 d5 d6 (Or.inr ⟨by simpa using hrec, d7, d8, d9⟩), d0⟩
    cases hf : o.step_file
    · simp only [hf, Bool.false_eq_true, if_false] at h2
      exact key { o with step_file := false, step_calls := o.step_calls ++ (if o.step_callback.isSome then [(h, x, y)] else []) }
        (by simp [Output.densePart]) rfl hf.symm rfl rfl (by simp [hf]) (by simp [hf]) rfl rfl rfl h2
    · simp only [hf, if_true] at h2
      exact key { o with
          step_file := true
          step_calls := o.step_calls ++ (if o.step_callback.isSome then [(h, x, y)] else [])
          step_file_count := o.step_file_count + 1
          step_written := o.step_written ++ [(o.step_file_count, h, x, y)] }
        (by simp [Output.densePart]) rfl hf.symm rfl rfl (by simp [hf]) (by simp [hf]) rfl rfl rfl h2

theorem executeStiff_parts (o : Output K σ) (work : Workspace K) :
    (o.executeStiff work).densePart = o.densePart ∧ (o.executeStiff work).stepPart = o.stepPart := by
  unfold Output.executeStiff
  dsimp only
  split
  · split <;> exact ⟨rfl, rfl⟩
  · exact ⟨rfl, rfl⟩

end

end Russell.Ode
