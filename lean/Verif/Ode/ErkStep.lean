import Verif.Ode.Erk
import Verif.Ode.Post
import Mathlib.Algebra.BigOperators.Field
import Mathlib.Algebra.Order.Field.Basic

/-!
# The steps of the explicit Runge-Kutta methods (C59)

Exact arithmetic in an ordered field. `RkStep` is the textbook definition of a Runge-Kutta step.
-/

namespace Russell.Ode

open Russell Russell.Res Russell.Lab

variable {K σ : Type}

set_option linter.unusedSectionVars false

/-! ### Lists of vectors -/

theorem getD_lt {α : Type} {l : List α} {i : Nat} {d : α} (h : i < l.length) : l.getD i d = l[i] := by simp [h]

/-- `a` has `s` rows of `n` entries. -/
structure Rows (a : List (List K)) (s n : Nat) : Prop where
  len : a.length = s
  row : ∀ r ∈ a, r.length = n

theorem Rows.get {a : List (List K)} {s n i : Nat} (h : Rows a s n) (hi : i < s) :
    vget a i = ok (a.getD i []) ∧ (a.getD i []).length = n := by
  have hlt : i < a.length := by rw [h.len]; exact hi
  rw [vget_lt hlt, getD_lt hlt]
  exact ⟨rfl, h.row _ (List.getElem_mem hlt)⟩

theorem Rows.set {a : List (List K)} {s n i : Nat} (h : Rows a s n) (hi : i < s) {r : List K} (hr : r.length = n) :
    vset a i r = ok (a.set i r) ∧ Rows (a.set i r) s n ∧
      ∀ j, (a.set i r).getD j [] = if j = i then r else a.getD j [] := by
  have hlt : i < a.length := by rw [h.len]; exact hi
  refine ⟨vset_lt _ hlt, ⟨by rw [List.length_set]; exact h.len, ?_⟩, ?_⟩
  · intro q hq
    rcases List.mem_or_eq_of_mem_set hq with hq | hq
    · exact h.row q hq
    · rw [hq]; exact hr
  · intro j
    simp only [List.getD_eq_getElem?_getD, List.getElem?_set]
    by_cases hj : j = i
    · subst hj; simp [hlt]
    · rw [if_neg (fun e => hj e.symm), if_neg hj]

theorem rows_replicate (s n : Nat) (x : K) : Rows (List.replicate s (List.replicate n x)) s n := by
  refine ⟨by simp, ?_⟩
  intro r hr
  rw [List.eq_of_mem_replicate hr]; simp

section
variable [Zero K]

/-- The component `m` of a vector. -/
def comp (l : List K) (m : Nat) : K := l.getD m 0

theorem vget_comp {l : List K} {n m : Nat} (hl : l.length = n) (hm : m < n) : vget l m = ok (comp l m) := by
  have hlt : m < l.length := by rw [hl]; exact hm
  rw [vget_lt hlt, comp, getD_lt hlt]

theorem vset_comp {l : List K} {n m : Nat} (hl : l.length = n) (hm : m < n) (x : K) :
    vset l m x = ok (l.set m x) ∧ (l.set m x).length = n ∧ ∀ q, comp (l.set m x) q = if q = m then x else comp l q := by
  have hlt : m < l.length := by rw [hl]; exact hm
  refine ⟨vset_lt _ hlt, by rw [List.length_set]; exact hl, ?_⟩
  intro q
  unfold comp
  simp only [List.getD_eq_getElem?_getD, List.getElem?_set]
  by_cases hj : q = m
  · subst hj; simp [hlt]
  · rw [if_neg (fun e => hj e.symm), if_neg hj]

theorem Rows.get2 {a : List (List K)} {s n i m : Nat} (h : Rows a s n) (hi : i < s) (hm : m < n) :
    Ode.get2 a i m = ok (comp (a.getD i []) m) := by
  obtain ⟨h1, h2⟩ := h.get hi
  unfold Ode.get2
  rw [h1, ok_bind, vget_comp h2 hm]

theorem Rows.set2 {a : List (List K)} {s n i m : Nat} (h : Rows a s n) (hi : i < s) (hm : m < n) (x : K) :
    ∃ a', Ode.set2 a i m x = ok a' ∧ Rows a' s n ∧
      ∀ j q, comp (a'.getD j []) q = if j = i ∧ q = m then x else comp (a.getD j []) q := by
  obtain ⟨h1, h2⟩ := h.get hi
  obtain ⟨g1, g2, g3⟩ := vset_comp h2 hm x
  obtain ⟨k1, k2, k3⟩ := h.set hi g2
  refine ⟨_, ?_, k2, ?_⟩
  · unfold Ode.set2
    rw [h1, ok_bind, g1, ok_bind, k1]
  · intro j q
    rw [k3]
    by_cases hj : j = i
    · subst hj; simp only [true_and, if_true]; exact g3 q
    · simp [hj]

theorem ext_comp {l l' : List K} {n : Nat} (h : l.length = n) (h' : l'.length = n) (he : ∀ m, m < n → comp l m = comp l' m) :
    l = l' := by
  apply List.ext_getElem (by rw [h, h'])
  intro m h1 h2
  have := he m (by omega)
  unfold comp at this
  rwa [getD_lt h1, getD_lt h2] at this

theorem comp_map_range (n : Nat) (f : Nat → K) {m : Nat} (hm : m < n) : comp ((List.range n).map f) m = f m := by
  unfold comp
  rw [getD_lt (by simpa using hm)]
  simp

end

section
variable [Field K]

/-- `y + h (c_0 k_0 + … + c_{s-1} k_{s-1})`. -/
def lin (n : Nat) (y : List K) (h : K) (s : Nat) (c : Nat → K) (k : Nat → List K) : List K :=
  (List.range n).map fun m => comp y m + h * ∑ j ∈ Finset.range s, c j * comp (k j) m

theorem lin_length (n : Nat) (y : List K) (h : K) (s : Nat) (c : Nat → K) (k : Nat → List K) : (lin n y h s c k).length = n := by
  simp [lin]

theorem comp_lin {n : Nat} (y : List K) (h : K) (s : Nat) (c : Nat → K) (k : Nat → List K) {m : Nat} (hm : m < n) :
    comp (lin n y h s c k) m = comp y m + h * ∑ j ∈ Finset.range s, c j * comp (k j) m := comp_map_range n _ hm

theorem lin_congr {n : Nat} {y : List K} {h : K} {s : Nat} {c c' : Nat → K} {k k' : Nat → List K}
    (hc : ∀ j, j < s → c j = c' j) (hk : ∀ j, j < s → k j = k' j) : lin n y h s c k = lin n y h s c' k' := by
  unfold lin
  congr 1
  funext m
  congr 2
  apply Finset.sum_congr rfl
  intro j hj
  rw [hc j (Finset.mem_range.1 hj), hk j (Finset.mem_range.1 hj)]

theorem lin_zero {n : Nat} {y : List K} (hy : y.length = n) (h : K) (c : Nat → K) (k : Nat → List K) :
    lin n y h 0 c k = y := by
  apply ext_comp (lin_length ..) hy
  intro m hm
  rw [comp_lin _ _ _ _ _ hm]; simp

/-- The stages of an explicit Runge-Kutta method. -/
def RkStages (n s : Nat) (a : Nat → Nat → K) (c : Nat → K) (F : K → List K → List K) (x : K) (y : List K) (h : K)
    (k : Nat → List K) : Prop :=
  ∀ i, i < s → k i = F (x + h * c i) (lin n y h i (a i) k)

/-- `w` is the result of a Runge-Kutta step with the matrix `a`, the weights `b` and the nodes `c`. -/
def RkStep (n s : Nat) (a : Nat → Nat → K) (b c : Nat → K) (F : K → List K → List K) (x : K) (y : List K) (h : K)
    (w : List K) : Prop :=
  ∃ k, RkStages n s a c F x y h k ∧ w = lin n y h s b k

/-- The stages are determined. -/
theorem RkStages.unique {n s : Nat} {a : Nat → Nat → K} {c : Nat → K} {F : K → List K → List K} {x : K} {y : List K} {h : K}
    {k k' : Nat → List K} (hk : RkStages n s a c F x y h k) (hk' : RkStages n s a c F x y h k') :
    ∀ i, i < s → k i = k' i := by
  intro i
  induction i using Nat.strong_induction_on with
  | _ i ih =>
    intro hi
    rw [hk i hi, hk' i hi]
    congr 1
    exact lin_congr (fun _ _ => rfl) fun j hj => ih j hj (by omega)

end

/-! ### The system -/

/-- The function of the system computes `F`: the result does not depend on the old content of the vector nor on the
arguments, and it may fail, but not panic. -/
structure Computes (sys : System K σ) (F : K → List K → List K) : Prop where
  call : ∀ kold x y (a : σ), kold.length = sys.ndim → y.length = sys.ndim →
    Post (sys.function kold x y a) fun r => r.1 = F x y
  len : ∀ x y, y.length = sys.ndim → (F x y).length = sys.ndim

/-- The coefficients of the method as functions. -/
structure Coefs (K : Type) where
  s : Nat
  a : Nat → Nat → K
  b : Nat → K
  c : Nat → K
  e : Nat → K

section
variable [Field K] [LinearOrder K] [FloorSemiring K]

/-- The arrays of the dense output have the right sizes. -/
structure ErkDense.Holds (o : ErkDense K) (n : Nat) (me : Method) : Prop where
  method : o.method = me
  ndim : o.ndim = n
  five : me = .DoPri5 → Rows o.d 5 n
  eight : me = .DoPri8 → Rows o.d 8 n ∧ Rows o.kd 3 n ∧ o.yd.length = n

/-- The structure `e` holds these coefficients and arrays of the right sizes. -/
structure Erk.Holds (e : Erk K) (n : Nat) (t : Coefs K) : Prop where
  nstage : e.nstage = t.s
  pos : 0 < t.s
  aa : ∀ i j, i < t.s → j < i → get2 e.aa i j = ok (t.a i j)
  bb : ∀ i, i < t.s → vget e.bb i = ok (t.b i)
  cc : ∀ i, i < t.s → vget e.cc i = ok (t.c i)
  c0 : t.c 0 = 0
  ee : e.info.embedded = true → ∃ l, e.ee = some l ∧ ∀ i, i < t.s → vget l i = ok (t.e i)
  same : e.info.first_step_same_as_last = true →
    t.c (t.s - 1) = 1 ∧ (∀ j, j < t.s - 1 → t.a (t.s - 1) j = t.b j) ∧ t.b (t.s - 1) = 0
  five : e.params.method = .DoPri5 → t.s = 7
  eight : e.params.method = .DoPri8 → t.s = 12 ∧ e.info.first_step_same_as_last = false
  dense : ∀ o, e.dense_out = some o → o.Holds n e.params.method
  k : Rows e.k t.s n
  v : Rows e.v t.s n
  w : e.w.length = n

variable {fns : MathFns K} {sys : System K σ} {F : K → List K → List K} {e : Erk K} {t : Coefs K}

theorem lit_zero : (lit 0 : K) = 0 := by rw [lit_eq]; simp
theorem lit_one : (lit 1 : K) = 1 := by rw [lit_eq]; simp

omit [LinearOrder K] [FloorSemiring K] in
theorem post_vecUpdate {n : Nat} {v u : List K} (hv : v.length = n) (hu : u.length = n) (α : K) :
    ∃ r, vecUpdate v α u = ok r ∧ r.length = n ∧ ∀ m, m < n → comp r m = comp v m + α * comp u m := by
  refine ⟨_, by unfold vecUpdate; rw [if_neg (by rw [hu, hv]; simp)], by simp [hu, hv], ?_⟩
  intro m hm
  unfold comp
  rw [getD_lt (by simp [hu, hv, hm]), getD_lt (by omega), getD_lt (by omega)]
  simp

/-- The vector of a stage. -/
theorem stageVector_post (hH : e.Holds sys.ndim t) {y : List K} (hy : y.length = sys.ndim) (h : K) {i : Nat} (hi : i < t.s)
    {k : List (List K)} (hk : Rows k t.s sys.ndim) {vi : List K} (hvi : vi.length = sys.ndim) :
    Post (e.stageVector y h i k vi) fun r => r = lin sys.ndim y h i (t.a i) (fun j => k.getD j []) := by
  unfold Erk.stageVector
  refine Post.bind_ok (a := y) (by unfold copyInto; rw [if_neg (by rw [hy, hvi]; simp)]) ?_
  refine Post.mono (post_forRange (fun j r => r = lin sys.ndim y h j (t.a i) (fun j => k.getD j [])) (Nat.zero_le _)
    (lin_zero hy h _ _).symm ?_) fun r hr => hr
  rintro j r - hj rfl
  rw [hH.aa i j hi hj, ok_bind, (hk.get (by omega : j < t.s)).1, ok_bind]
  obtain ⟨r', h1, h2, h3⟩ := post_vecUpdate (lin_length sys.ndim y h j (t.a i) (fun j => k.getD j []))
    (hk.get (by omega : j < t.s)).2 (h * t.a i j)
  rw [h1]
  apply ext_comp h2 (lin_length ..)
  intro m hm
  rw [h3 m hm, comp_lin _ _ _ _ _ hm, comp_lin _ _ _ _ _ hm, Finset.sum_range_succ]
  ring

/-- The state of the loop over the stages: the first `i` stages are done. -/
structure StagesInv (n : Nat) (t : Coefs K) (F : K → List K → List K) (x : K) (y : List K) (h : K) (work : Workspace K)
    (i : Nat) (s : ErkStages K σ) : Prop where
  k : Rows s.k t.s n
  v : Rows s.v t.s n
  stages : RkStages n i t.a t.c F x y h (fun j => s.k.getD j [])
  vecs : ∀ j, 0 < j → j < i → s.v.getD j [] = lin n y h j (t.a j) (fun j => s.k.getD j [])
  work : s.work = work.addFunction (i - 1)

omit [Field K] [LinearOrder K] [FloorSemiring K] in
theorem addFunction_add (w : Workspace K) (a b : Nat) : (w.addFunction a).addFunction b = w.addFunction (a + b) := by
  simp [Workspace.addFunction, Nat.add_assoc]

/-- One stage. -/
theorem stage_post (hF : Computes sys F) (hH : e.Holds sys.ndim t) {x : K} {y : List K} (hy : y.length = sys.ndim) {h : K}
    {work : Workspace K} {i : Nat} (h1 : 1 ≤ i) (hi : i < t.s) {s : ErkStages K σ}
    (hI : StagesInv sys.ndim t F x y h work i s) :
    Post (e.stage sys x y h i s) (StagesInv sys.ndim t F x y h work (i + 1)) := by
  unfold Erk.stage
  rw [hH.cc i hi, ok_bind, (hI.v.get hi).1, ok_bind]
  refine Post.bind (stageVector_post hH hy h hi hI.k (hI.v.get hi).2) ?_
  rintro vi rfl
  obtain ⟨g1, g2, g3⟩ := hI.v.set hi (lin_length sys.ndim y h i (t.a i) (fun j => s.k.getD j []))
  rw [g1, ok_bind, (hI.k.get hi).1, ok_bind]
  refine Post.bind (hF.call _ _ _ _ (hI.k.get hi).2 (lin_length ..)) ?_
  rintro ⟨ki, args⟩ hr
  dsimp only at hr ⊢
  subst hr
  obtain ⟨q1, q2, q3⟩ := hI.k.set hi (hF.len (x + h * t.c i) _ (lin_length sys.ndim y h i (t.a i) (fun j => s.k.getD j [])))
  rw [q1, ok_bind]
  apply post_ok
  have hcong : ∀ j, j ≤ i → lin sys.ndim y h j (t.a j) (fun l => (s.k.set i (F (x + h * t.c i)
      (lin sys.ndim y h i (t.a i) (fun j => s.k.getD j [])))).getD l []) =
      lin sys.ndim y h j (t.a j) (fun l => s.k.getD l []) := by
    intro j hj
    apply lin_congr (fun _ _ => rfl)
    intro l hl
    rw [q3, if_neg (by omega)]
  refine ⟨q2, g2, ?_, ?_, ?_⟩
  · intro j hj
    dsimp only
    rw [hcong j (by omega), q3]
    by_cases hji : j = i
    · rw [if_pos hji, hji]
    · rw [if_neg hji]; exact hI.stages j (by omega)
  · intro j h0 hj
    dsimp only
    rw [hcong j (by omega), g3]
    by_cases hji : j = i
    · rw [if_pos hji, hji]
    · rw [if_neg hji]; exact hI.vecs j h0 (by omega)
  · dsimp only
    rw [hI.work, addFunction_add]
    congr 1
    omega

/-- The first stage is there already. -/
def Erk.Reused (e : Erk K) (work : Workspace K) : Prop :=
  (0 < work.stats.n_accepted ∧ e.info.first_step_same_as_last = true) ∨ work.follows_reject_step = true

instance (e : Erk K) (work : Workspace K) : Decidable (e.Reused work) := by unfold Erk.Reused; infer_instance

/-- The computation of the first stage. -/
theorem first_post (hF : Computes sys F) (hH : e.Holds sys.ndim t) {x : K} {y : List K} (hy : y.length = sys.ndim)
    {work : Workspace K} (args : σ) (hre : e.Reused work → e.k.getD 0 [] = F x y) :
    Post (e.first sys work x y args) fun r => Rows r.1 t.s sys.ndim ∧ r.1.getD 0 [] = F x y ∧
      ((e.Reused work ∧ r.2.1 = work) ∨ (¬ e.Reused work ∧ r.2.1 = work.addFunction 1)) := by
  unfold Erk.first
  split
  · rename_i hc
    rw [(hH.k.get hH.pos).1, ok_bind]
    refine Post.bind (hF.call _ _ _ _ (hH.k.get hH.pos).2 hy) ?_
    rintro ⟨k0, args'⟩ hr
    dsimp only at hr ⊢
    subst hr
    obtain ⟨q1, q2, q3⟩ := hH.k.set hH.pos (hF.len x y hy)
    rw [q1, ok_bind]
    refine post_ok ⟨q2, by dsimp only; rw [q3]; simp, Or.inr ⟨?_, rfl⟩⟩
    rintro (⟨h1, h2⟩ | h)
    · rcases hc.1 with h | h
      · omega
      · exact h h2
    · exact hc.2 h
  · rename_i hc
    have hr : e.Reused work := by
      unfold Erk.Reused
      by_contra hn
      push Not at hn
      apply hc
      refine ⟨?_, hn.2⟩
      by_cases h0 : work.stats.n_accepted = 0
      · exact Or.inl h0
      · exact Or.inr (hn.1 (by omega))
    exact post_ok ⟨hH.k, hre hr, Or.inl ⟨hr, rfl⟩⟩

/-! ### Update and error estimate -/

/-- `Erk.scale` in the usual notation. -/
theorem scale_eq [IsStrictOrderedRing K] (e : Erk K) (a b : K) :
    e.scale a b = e.params.tol_abs + e.params.tol_rel * max |a| |b| := by
  have habs : ∀ a : K, fabs a = |a| := by
    intro a
    unfold fabs
    rw [lit_zero]
    split
    · rename_i h; rw [abs_of_nonpos h]; simp
    · rename_i h; rw [abs_of_nonneg (le_of_not_ge h)]
  unfold Erk.scale
  rw [habs, habs]
  unfold fmax
  split
  · rename_i h; rw [max_eq_right h]
  · rename_i h; rw [max_eq_left (le_of_not_ge h)]

theorem fmax_eq (a b : K) : fmax a b = max a b := by
  unfold fmax
  split
  · rename_i h; rw [max_eq_right h]
  · rename_i h; rw [max_eq_left (le_of_not_ge h)]

theorem fmin_eq (a b : K) : fmin a b = min a b := by
  unfold fmin
  split
  · rename_i h; rw [min_eq_left h]
  · rename_i h; rw [min_eq_right (le_of_not_ge h)]

/-- A vector of which the first `m` components are known. -/
def Filled (n : Nat) (w : List K) (m : Nat) (f : Nat → K) : Prop := w.length = n ∧ ∀ q, q < m → comp w q = f q

/-- The component computed by the update. -/
def newComp (t : Coefs K) (y : List K) (h : K) (k : List (List K)) (s m : Nat) : K :=
  comp y m + h * ∑ j ∈ Finset.range s, t.b j * comp (k.getD j []) m

omit [LinearOrder K] [FloorSemiring K] in
theorem filled_lin {n : Nat} {t : Coefs K} {y w : List K} {h : K} {k : List (List K)}
    (hw : Filled n w n (newComp t y h k t.s)) : w = lin n y h t.s t.b (fun j => k.getD j []) := by
  apply ext_comp hw.1 (lin_length ..)
  intro m hm
  rw [hw.2 m hm, comp_lin _ _ _ _ _ hm]
  rfl

theorem plainBody_post (hH : e.Holds sys.ndim t) {y : List K} (hy : y.length = sys.ndim) (h : K) {k : List (List K)}
    (hk : Rows k t.s sys.ndim) {m : Nat} (hm : m < sys.ndim) {w : List K} (hw : Filled sys.ndim w m (newComp t y h k t.s)) :
    Post (e.plainBody y h k m w) fun w' => Filled sys.ndim w' (m + 1) (newComp t y h k t.s) := by
  unfold Erk.plainBody
  obtain ⟨g1, g2, g3⟩ := vset_comp hw.1 hm (comp y m)
  rw [vget_comp hy hm, ok_bind, g1, ok_bind, hH.nstage]
  refine Post.mono (post_forRange (fun i w => w.length = sys.ndim ∧ comp w m = newComp t y h k i m ∧
    ∀ q, q < m → comp w q = newComp t y h k t.s q) (Nat.zero_le _) ⟨g2, ?_, ?_⟩ ?_) ?_
  · rw [g3]; simp [newComp]
  · intro q hq
    rw [g3, if_neg (by omega)]; exact hw.2 q hq
  · rintro i w' - hi ⟨q1, q2, q3⟩
    rw [hH.bb i hi, ok_bind, hk.get2 hi hm, ok_bind, vget_comp q1 hm, ok_bind]
    obtain ⟨r1, r2, r3⟩ := vset_comp q1 hm (comp w' m + t.b i * comp (k.getD i []) m * h)
    rw [r1]
    refine post_ok ⟨r2, ?_, ?_⟩
    · rw [r3, if_pos rfl, q2]
      unfold newComp
      rw [Finset.sum_range_succ]; ring
    · intro q hq
      rw [r3, if_neg (by omega)]; exact q3 q hq
  · rintro w' ⟨q1, q2, q3⟩
    refine ⟨q1, ?_⟩
    intro q hq
    rcases Nat.lt_succ_iff_lt_or_eq.1 hq with h' | h'
    · exact q3 q h'
    · rw [h']; exact q2

/-- The error estimate of a component: `h (e_0 k_0 + … )`. -/
def errComp (t : Coefs K) (h : K) (k : List (List K)) (s m : Nat) : K :=
  h * ∑ j ∈ Finset.range s, t.e j * comp (k.getD j []) m

/-- The sum of the squares of the scaled errors of the first `n` components. -/
def errSum (e : Erk K) (t : Coefs K) (y : List K) (h : K) (k : List (List K)) (n : Nat) : K :=
  ∑ m ∈ Finset.range n, (errComp t h k t.s m / e.scale (comp y m) (newComp t y h k t.s m)) ^ 2

theorem errorBody_post (hH : e.Holds sys.ndim t) {ee : List K} (hee : ∀ i, i < t.s → vget ee i = ok (t.e i)) {y : List K}
    (hy : y.length = sys.ndim) (h : K) {k : List (List K)}
    (hk : Rows k t.s sys.ndim) {m : Nat} (hm : m < sys.ndim) {s : List K × K}
    (hw : Filled sys.ndim s.1 m (newComp t y h k t.s)) (hs : s.2 = errSum e t y h k m) :
    Post (e.errorBody ee y h k m s) fun s' => Filled sys.ndim s'.1 (m + 1) (newComp t y h k t.s) ∧
      s'.2 = errSum e t y h k (m + 1) := by
  unfold Erk.errorBody
  obtain ⟨g1, g2, g3⟩ := vset_comp hw.1 hm (comp y m)
  rw [vget_comp hy hm, ok_bind, g1, ok_bind, hH.nstage]
  refine Post.bind (post_forRange (fun i (s : List K × K) => s.1.length = sys.ndim ∧ comp s.1 m = newComp t y h k i m ∧
    (∀ q, q < m → comp s.1 q = newComp t y h k t.s q) ∧ s.2 = errComp t h k i m) (Nat.zero_le _) ⟨g2, ?_, ?_, ?_⟩ ?_) ?_
  · rw [g3]; simp [newComp]
  · intro q hq
    rw [g3, if_neg (by omega)]; exact hw.2 q hq
  · rw [lit_zero]; simp [errComp]
  · rintro i w' - hi ⟨q1, q2, q3, q4⟩
    rw [hk.get2 hi hm, ok_bind, hH.bb i hi, ok_bind, vget_comp q1 hm, ok_bind]
    obtain ⟨r1, r2, r3⟩ := vset_comp q1 hm (comp w'.1 m + t.b i * (comp (k.getD i []) m * h))
    rw [r1, ok_bind, hee i hi, ok_bind]
    refine post_ok ⟨r2, ?_, ?_, ?_⟩
    · dsimp only
      rw [r3, if_pos rfl, q2]
      unfold newComp
      rw [Finset.sum_range_succ]; ring
    · intro q hq
      dsimp only
      rw [r3, if_neg (by omega)]; exact q3 q hq
    · dsimp only
      rw [q4]
      unfold errComp
      rw [Finset.sum_range_succ]; ring
  · rintro ⟨w', er⟩ ⟨q1, q2, q3, q4⟩
    dsimp only at q1 q2 q3 q4 ⊢
    rw [vget_comp q1 hm, ok_bind]
    refine post_ok ⟨⟨q1, ?_⟩, ?_⟩
    · intro q hq
      rcases Nat.lt_succ_iff_lt_or_eq.1 hq with h' | h'
      · exact q3 q h'
      · rw [h']; exact q2
    · dsimp only
      rw [hs, q2, q4]
      unfold errSum
      rw [Finset.sum_range_succ]; ring

/-- The coefficients of the third order error estimate of DoPri8. -/
def coef3 (t : Coefs K) (j : Nat) : K :=
  t.b j - if j = 0 then lit doPri8Bhh1 else if j = 8 then lit doPri8Bhh2 else if j = 11 then lit doPri8Bhh3 else 0

/-- The sum of the squares of `(c_0 k_0 + …) / scale` over the first `n` components. -/
def errSum8 (e : Erk K) (t : Coefs K) (c : Nat → K) (y : List K) (h : K) (k : List (List K)) (n : Nat) : K :=
  ∑ m ∈ Finset.range n, ((∑ j ∈ Finset.range t.s, c j * comp (k.getD j []) m) /
    e.scale (comp y m) (newComp t y h k t.s m)) ^ 2

omit [LinearOrder K] [FloorSemiring K] in
theorem coef3_sum [LinearOrder K] [FloorSemiring K] {t : Coefs K} (h12 : t.s = 12) (g : Nat → K) :
    ∑ j ∈ Finset.range t.s, coef3 t j * g j = ∑ j ∈ Finset.range t.s, t.b j * g j -
      (lit doPri8Bhh1 * g 0 + lit doPri8Bhh2 * g 8 + lit doPri8Bhh3 * g 11) := by
  unfold coef3
  rw [h12]
  simp only [Finset.sum_range_succ, Finset.sum_range_zero, sub_mul]
  simp
  ring

theorem errorBody8_post (hH : e.Holds sys.ndim t) (h12 : t.s = 12) {ee : List K} (hee : ∀ i, i < t.s → vget ee i = ok (t.e i))
    {y : List K} (hy : y.length = sys.ndim) (h : K) {k : List (List K)}
    (hk : Rows k t.s sys.ndim) {m : Nat} (hm : m < sys.ndim) {s : List K × K × K}
    (hw : Filled sys.ndim s.1 m (newComp t y h k t.s)) (hs3 : s.2.1 = errSum8 e t (coef3 t) y h k m)
    (hs5 : s.2.2 = errSum8 e t t.e y h k m) :
    Post (e.errorBody8 ee y h k m s) fun s' => Filled sys.ndim s'.1 (m + 1) (newComp t y h k t.s) ∧
      s'.2.1 = errSum8 e t (coef3 t) y h k (m + 1) ∧ s'.2.2 = errSum8 e t t.e y h k (m + 1) := by
  unfold Erk.errorBody8
  obtain ⟨g1, g2, g3⟩ := vset_comp hw.1 hm (comp y m)
  rw [vget_comp hy hm, ok_bind, g1, ok_bind, hH.nstage]
  refine Post.bind (post_forRange (fun i (s : List K × K × K) => s.1.length = sys.ndim ∧ comp s.1 m = newComp t y h k i m ∧
    (∀ q, q < m → comp s.1 q = newComp t y h k t.s q) ∧ s.2.1 = ∑ j ∈ Finset.range i, t.b j * comp (k.getD j []) m ∧
    s.2.2 = ∑ j ∈ Finset.range i, t.e j * comp (k.getD j []) m) (Nat.zero_le _) ⟨g2, ?_, ?_, ?_, ?_⟩ ?_) ?_
  · rw [g3]; simp [newComp]
  · intro q hq
    rw [g3, if_neg (by omega)]; exact hw.2 q hq
  · rw [lit_zero]; simp
  · rw [lit_zero]; simp
  · rintro i w' - hi ⟨q1, q2, q3, q4, q5⟩
    rw [hk.get2 hi hm, ok_bind, hH.bb i hi, ok_bind, vget_comp q1 hm, ok_bind]
    obtain ⟨r1, r2, r3⟩ := vset_comp q1 hm (comp w'.1 m + t.b i * comp (k.getD i []) m * h)
    rw [r1, ok_bind, hee i hi, ok_bind]
    refine post_ok ⟨r2, ?_, ?_, ?_, ?_⟩
    · dsimp only
      rw [r3, if_pos rfl, q2]
      unfold newComp
      rw [Finset.sum_range_succ]; ring
    · intro q hq
      dsimp only
      rw [r3, if_neg (by omega)]; exact q3 q hq
    · dsimp only
      rw [q4, Finset.sum_range_succ]
    · dsimp only
      rw [q5, Finset.sum_range_succ]
  · rintro ⟨w', er3, er5⟩ ⟨q1, q2, q3, q4, q5⟩
    dsimp only at q1 q2 q3 q4 q5 ⊢
    rw [vget_comp q1 hm, ok_bind, hk.get2 (by omega) hm, ok_bind, hk.get2 (by omega) hm, ok_bind,
      hk.get2 (by omega) hm, ok_bind]
    refine post_ok ⟨⟨q1, ?_⟩, ?_, ?_⟩
    · intro q hq
      rcases Nat.lt_succ_iff_lt_or_eq.1 hq with h' | h'
      · exact q3 q h'
      · rw [h']; exact q2
    · dsimp only
      rw [hs3, q2, q4]
      unfold errSum8
      rw [Finset.sum_range_succ, coef3_sum h12 (fun j => comp (k.getD j []) m)]; ring
    · dsimp only
      rw [hs5, q2, q5]
      unfold errSum8
      rw [Finset.sum_range_succ]; ring

/-- The relative error computed by a step with the stages `k`. -/
def relError (fns : MathFns K) (n : Nat) (e : Erk K) (t : Coefs K) (y : List K) (h : K) (k : List (List K)) (old : K) : K :=
  if e.info.embedded = true then
    if e.params.method = .DoPri8 then
      let e5 := errSum8 e t t.e y h k n
      let e3 := errSum8 e t (coef3 t) y h k n
      let den := e5 + lit (1 / 100) * e3
      fabs h * e5 * fns.sqrt (lit 1 / (lit (n : ℚ) * if den ≤ lit 0 then lit 1 else den))
    else fmax (fns.sqrt (errSum e t y h k n / lit (n : ℚ))) (lit (1 / 10000000000))
  else old

/-- The update. -/
theorem update_post (hH : e.Holds sys.ndim t) {y : List K} (hy : y.length = sys.ndim) (h : K) {k : List (List K)}
    (hk : Rows k t.s sys.ndim) (old : K) :
    Post (e.update fns sys.ndim y h k old) fun r => r.1 = lin sys.ndim y h t.s t.b (fun j => k.getD j []) ∧
      r.2 = relError fns sys.ndim e t y h k old := by
  unfold Erk.update relError
  split
  · rename_i hemb
    refine Post.bind (post_forRange (fun m w => Filled sys.ndim w m (newComp t y h k t.s)) (Nat.zero_le _)
      ⟨hH.w, fun q hq => absurd hq (Nat.not_lt_zero q)⟩
      (fun m w _ hm hw => plainBody_post hH hy h hk hm hw)) ?_
    intro w hw
    exact post_ok ⟨filled_lin hw, rfl⟩
  · rename_i hemb
    rw [not_not] at hemb
    obtain ⟨ee, he1, he2⟩ := hH.ee hemb
    rw [he1]
    dsimp only
    split
    · rename_i h8
      refine Post.bind (post_forRange (fun m (s : List K × K × K) => Filled sys.ndim s.1 m (newComp t y h k t.s) ∧
        s.2.1 = errSum8 e t (coef3 t) y h k m ∧ s.2.2 = errSum8 e t t.e y h k m) (Nat.zero_le _)
        ⟨⟨hH.w, fun q hq => absurd hq (Nat.not_lt_zero q)⟩, by rw [lit_zero]; simp [errSum8], by rw [lit_zero]; simp [errSum8]⟩
        (fun m s _ hm hs => errorBody8_post hH (hH.eight h8).1 he2 hy h hk hm hs.1 hs.2.1 hs.2.2)) ?_
      rintro ⟨w, e3, e5⟩ ⟨q1, q2, q3⟩
      dsimp only at q1 q2 q3 ⊢
      exact post_ok ⟨filled_lin q1, by rw [q2, q3]⟩
    · rename_i h8
      refine Post.bind (post_forRange (fun m (s : List K × K) => Filled sys.ndim s.1 m (newComp t y h k t.s) ∧
        s.2 = errSum e t y h k m) (Nat.zero_le _)
        ⟨⟨hH.w, fun q hq => absurd hq (Nat.not_lt_zero q)⟩, by rw [lit_zero]; simp [errSum]⟩
        (fun m s _ hm hs => errorBody_post hH he2 hy h hk hm hs.1 hs.2)) ?_
      rintro ⟨w, er⟩ ⟨q1, q2⟩
      dsimp only at q1 q2 ⊢
      exact post_ok ⟨filled_lin q1, by rw [q2]⟩

/-- What a step leaves in the structure. -/
structure Done (n : Nat) (t : Coefs K) (F : K → List K → List K) (x : K) (y : List K) (h : K) (e : Erk K) : Prop where
  stages : RkStages n t.s t.a t.c F x y h (fun j => e.k.getD j [])
  vecs : ∀ j, 0 < j → j < t.s → e.v.getD j [] = lin n y h j (t.a j) (fun j => e.k.getD j [])
  w : e.w = lin n y h t.s t.b (fun j => e.k.getD j [])
  len : y.length = n

/-- A whole step. -/
theorem step_post (hF : Computes sys F) (hH : e.Holds sys.ndim t) {x : K} {y : List K} (hy : y.length = sys.ndim) (h : K)
    {work : Workspace K} (args : σ) (hre : e.Reused work → e.k.getD 0 [] = F x y) :
    Post (e.step fns sys work x y h args) fun r => r.1.Holds sys.ndim t ∧ Done sys.ndim t F x y h r.1 ∧
      (∃ v k w, r.1 = { e with v := v, k := k, w := w }) ∧
      r.2.1 = { work.addFunction (t.s - if e.Reused work then 1 else 0) with
        rel_error := relError fns sys.ndim e t y h r.1.k work.rel_error } := by
  unfold Erk.step
  refine Post.bind (first_post hF hH hy args hre) ?_
  rintro ⟨k, work', args'⟩ ⟨h1, h2, h3⟩
  dsimp only at h1 h2 h3 ⊢
  have hs := hH.pos
  have hn := hH.nstage
  refine Post.bind (post_forRange (fun i s => StagesInv sys.ndim t F x y h work' i s) (by omega) ?_
    (fun i s h1 hi hI => stage_post hF hH hy h1 (by omega) hI)) ?_
  · refine ⟨h1, hH.v, ?_, by intro j h0 hj; omega, by simp [Workspace.addFunction]⟩
    intro i hi
    have hi0 : i = 0 := by omega
    subst hi0
    dsimp only
    rw [h2, hH.c0, lin_zero hy]; simp
  · intro s hI
    rw [hn] at hI
    refine Post.bind (update_post (fns := fns) hH hy h hI.k _) ?_
    rintro ⟨w, er⟩ ⟨q1, q2⟩
    dsimp only at q1 q2 ⊢
    apply post_ok
    refine ⟨?_, ⟨hI.stages, hI.vecs, q1, hy⟩, ⟨_, _, _, rfl⟩, ?_⟩
    · exact ⟨hH.nstage, hH.pos, hH.aa, hH.bb, hH.cc, hH.c0, hH.ee, hH.same, hH.five, hH.eight, hH.dense, hI.k, hI.v,
        by dsimp only; rw [q1]; exact lin_length ..⟩
    · dsimp only
      rw [q2, hI.work]
      rcases h3 with ⟨r1, r2⟩ | ⟨r1, r2⟩
      · rw [if_pos r1, r2]; rfl
      · rw [if_neg r1, r2, addFunction_add]
        have : 1 + (t.s - 1) = t.s - 0 := by omega
        rw [this]; rfl

end

end Russell.Ode
