import Verif.Lab.Newton

/-!
# Consequences for Newton's method (property C80)
-/

namespace Russell.Lab

open Russell Russell.Res

section props
variable {α : Type} [Field α] [LinearOrder α] [IsStrictOrderedRing α] {A : Type}
variable {P : NwParams α} {calcF : NwCalcF α A} {calcJ : NwCalcJ α A} {lin : NwLin α} {F : List α → List α}
  {J : List α → Nat → Nat → α}

/-- `F` is the affine function with the matrix `a` and the right-hand side `b` -/
def IsAffine (n : Nat) (F : List α → List α) (a : Nat → Nat → α) (b : Nat → α) : Prop :=
  ∀ y, y.length = n → ∀ i, i < n → (F y).getD i 0 = ∑ k ∈ Finset.range n, a i k * y.getD k 0 - b i

omit [LinearOrder α] [IsStrictOrderedRing α] in
theorem along_getD {y p : List α} {n k : Nat} (hy : y.length = n) (hp : p.length = n) (hk : k < n) (t : α) :
    (along y p t).getD k 0 = y.getD k 0 + t * p.getD k 0 := by
  unfold along
  rw [List.getD_eq_getElem _ _ (by rw [List.length_zipWith]; omega), List.getD_eq_getElem _ _ (by omega),
    List.getD_eq_getElem _ _ (by omega), List.getElem_zipWith]

theorem nwPath_length {x0 y : List α} {m : Nat} (hx : x0.length = P.ndim) (h : NwPath P F J x0 m y) : y.length = P.ndim := by
  induction h with
  | start => exact hx
  | step _ _ _ hs ih =>
    obtain ⟨p, hp, ⟨-, e⟩ | ⟨-, k, -, e, -⟩⟩ := hs <;> rw [e] <;> exact along_length ih hp.1 _

omit [IsStrictOrderedRing α] in
theorem fromCallback_mono {n : Nat} {R R' : List α → Prop} {m : String} (hR : ∀ y, R y → R' y)
    (h : FromCallback n calcF calcJ lin J R m) : FromCallback n calcF calcJ lin J R' m := by
  rcases h with h | ⟨a, b, c, h1, h2⟩ | ⟨a, b, c, h1, h2⟩
  · exact Or.inl h
  · exact Or.inr (Or.inl ⟨a, b, c, hR _ h1, h2⟩)
  · exact Or.inr (Or.inr ⟨a, b, c, hR _ h1, h2⟩)

/-- C80: the linear equations solved in each iteration make a full step exact for affine functions. -/
theorem C80_affine_step {a : Nat → Nat → α} {b : Nat → α} (hF : IsAffine P.ndim F a b)
    (hJ : ∀ y i k, J y i k = a i k) (hu : P.useLineSearch = false) {y z : List α} (hy : y.length = P.ndim)
    (h : NwStep P F J y z) : ∀ i, i < P.ndim → (F z).getD i 0 = 0 := by
  intro i hi
  obtain ⟨p, hp, ⟨-, e⟩ | ⟨hl, -⟩⟩ := h
  · have hz : z.length = P.ndim := by rw [e]; exact along_length hy hp.1 _
    rw [hF z hz i hi]
    have h1 := hp.2 i hi
    rw [hF y hy i hi] at h1
    simp only [hJ] at h1
    have h2 : ∑ k ∈ Finset.range P.ndim, a i k * z.getD k 0 =
        ∑ k ∈ Finset.range P.ndim, a i k * y.getD k 0 + ∑ k ∈ Finset.range P.ndim, a i k * p.getD k 0 := by
      rw [← Finset.sum_add_distrib]
      refine Finset.sum_congr rfl fun k hk => ?_
      rw [e, along_getD hy hp.1 (Finset.mem_range.1 hk)]
      ring
    rw [h2, h1]; ring
  · rw [hu] at hl; cases hl

omit [LinearOrder α] [IsStrictOrderedRing α] in
theorem all_zero_of_getD {l : List α} {n : Nat} (hl : l.length = n) (h : ∀ i, i < n → l.getD i 0 = 0) : ∀ v ∈ l, v = 0 := by
  intro v hv
  obtain ⟨i, hi, rfl⟩ := List.getElem_of_mem hv
  rw [← List.getD_eq_getElem _ 0]
  exact h i (by omega)

/-- C80: for an affine function and `max_iterations ≥ 2`, if the callbacks and the linear solver return no error, `solve`
succeeds after at most one step; the returned point is an exact solution unless the initial point was already good enough. -/
theorem C80_affine (h : NwSpec P.ndim calcF calcJ lin F J) (hp : NwParamsOk P) (h0 : P.ndim ≠ 0) (hbig : P.ndim < 2147483648)
    {a : Nat → Nat → α} {b : Nat → α} (hF : IsAffine P.ndim F a b) (hJ : ∀ y i k, J y i k = a i k)
    (hu : P.useLineSearch = false) (h2 : 2 ≤ P.maxIterations) (hno : ∀ m, ¬ FromCallback P.ndim calcF calcJ lin J (fun y => y.length = P.ndim) m)
    (s : NwState α A) (hx : s.x.length = P.ndim) :
    ∃ s', nwSolve P calcF calcJ lin s = MRes.ok s' ∧
      ((Converged P F s.x ∧ s'.x = s.x) ∨ (¬ Converged P F s.x ∧ NwStep P F J s.x s'.x ∧ ∀ v ∈ F s'.x, v = 0)) := by
  have htol : 0 < P.tolerance := lt_of_lt_of_le (by positivity) hp.2.1
  -- a path of one step ends with an exact solution; no path is longer
  have key : ∀ m y, NwPath P F J s.x m y → (m = 0 ∧ y = s.x) ∨
      (m = 1 ∧ NwStep P F J s.x y ∧ (∀ v ∈ F y, v = 0) ∧ Converged P F y ∧ ¬ Converged P F s.x) := by
    intro m y hpath
    induction hpath with
    | start => exact Or.inl ⟨rfl, rfl⟩
    | @step m y z hq hnc hnd hs ih =>
      rcases ih with ⟨rfl, rfl⟩ | ⟨rfl, -, -, hc, -⟩
      · right
        have hz := C80_affine_step hF hJ hu hx hs
        have hlz : z.length = P.ndim := nwPath_length hx (NwPath.step hq hnc hnd hs)
        have hz0 := all_zero_of_getD (h.len z hlz) hz
        exact ⟨rfl, hs, hz0, fun v hv => by rw [hz0 v hv, abs_zero]; exact htol, hnc⟩
      · exact absurd hc hnc
  have hout := C80_solve h hp h0 hbig s hx
  cases hres : nwSolve P calcF calcJ lin s with
  | ok s' =>
    rw [hres] at hout
    obtain ⟨m, -, hpath, hc, -⟩ := hout
    refine ⟨s', rfl, ?_⟩
    rcases key m _ hpath with ⟨-, e⟩ | ⟨-, hs, hz, -, hn⟩
    · left; rw [e] at hc; exact ⟨hc, e⟩
    · right; exact ⟨hn, hs, hz⟩
  | err s' msg =>
    rw [hres] at hout
    rcases hout with ⟨-, hpath⟩ | ⟨-, m, hm, -, hpath, hnc, -⟩ | ⟨hc, -⟩
    · rcases key _ _ hpath with ⟨e, -⟩ | ⟨e, -⟩ <;> omega
    · rcases key _ _ hpath with ⟨e, -⟩ | ⟨-, -, -, hc, -⟩
      · omega
      · exact absurd hc hnc
    · exact absurd (fromCallback_mono (fun y ⟨m, _, hq⟩ => nwPath_length hx hq) hc) (hno _)
  | panic => rw [hres] at hout; exact hout.elim

/-- C80: with a single iteration allowed, the exact solution of an affine problem is computed and stored in `x`, but the call
ends with the error "failed to converge": the residual after the last update is never examined. -/
theorem C80_last_update_unchecked_counterexample (h : NwSpec P.ndim calcF calcJ lin F J) (hp : NwParamsOk P) (h0 : P.ndim ≠ 0)
    (hbig : P.ndim < 2147483648) {a : Nat → Nat → α} {b : Nat → α} (hF : IsAffine P.ndim F a b)
    (hJ : ∀ y i k, J y i k = a i k) (hu : P.useLineSearch = false) (h1 : P.maxIterations = 1)
    (hno : ∀ m, ¬ FromCallback P.ndim calcF calcJ lin J (fun y => y.length = P.ndim) m) (s : NwState α A) (hx : s.x.length = P.ndim) (hnc : ¬ Converged P F s.x) :
    ∃ s', nwSolve P calcF calcJ lin s = MRes.err s' "Newton solver failed to converge" ∧ (∀ v ∈ F s'.x, v = 0) ∧
      Converged P F s'.x := by
  have htol : 0 < P.tolerance := lt_of_lt_of_le (by positivity) hp.2.1
  have hout := C80_solve h hp h0 hbig s hx
  cases hres : nwSolve P calcF calcJ lin s with
  | ok s' =>
    rw [hres] at hout
    obtain ⟨m, hm, hpath, hc, -⟩ := hout
    rw [h1, Nat.lt_one_iff] at hm
    subst hm
    generalize hy : s'.x = y at hpath hc
    cases hpath
    exact absurd hc hnc
  | err s' msg =>
    rw [hres] at hout
    rcases hout with ⟨rfl, hpath⟩ | ⟨-, m, hm, hlt, -⟩ | ⟨hc, -⟩
    · refine ⟨s', rfl, ?_⟩
      rw [h1] at hpath
      generalize s'.x = y at hpath
      cases hpath with
      | @step _ w _ hq hnc' hnd hs =>
        cases hq
        have hz := C80_affine_step hF hJ hu hx hs
        have hlz : y.length = P.ndim := nwPath_length hx (NwPath.step NwPath.start hnc' hnd hs)
        have hz0 := all_zero_of_getD (h.len y hlz) hz
        exact ⟨hz0, fun v hv => by rw [hz0 v hv, abs_zero]; exact htol⟩
    · omega
    · exact absurd (fromCallback_mono (fun y ⟨m, _, hq⟩ => nwPath_length hx hq) hc) (hno _)
  | panic => rw [hres] at hout; exact hout.elim

omit [IsStrictOrderedRing α] in
/-- C80: with the line search, a step either has the sufficient decrease, which is a decrease of the sum of squares of the
residual when `α₀ ≤ 5000`, or it is the last trial `α₀/2^19`, taken although none of the twenty trials had it. -/
theorem C80_line_search_step [IsStrictOrderedRing α] (hu : P.useLineSearch = true) (ha : 0 < P.initialAlpha)
    {y z : List α} (h : NwStep P F J y z) :
    (∃ p k, k < 20 ∧ IsDirection P.ndim F J y p ∧ z = along y p (P.initialAlpha / 2 ^ k) ∧
      halfSq (F z) ≤ halfSq (F y) ∧ (halfSq (F y) ≠ 0 → halfSq (F z) < halfSq (F y))) ∨
    (∃ p, IsDirection P.ndim F J y p ∧ z = along y p (P.initialAlpha / 2 ^ 19) ∧
      ∀ i, i < 20 → ¬ Decrease F y p (P.initialAlpha / 2 ^ i)) := by
  obtain ⟨p, hp, ⟨hf, -⟩ | ⟨-, k, hk, e, hbad, hgood⟩⟩ := h
  · rw [hu] at hf; cases hf
  · by_cases hd : Decrease F y p (P.initialAlpha / 2 ^ k)
    · left
      have hnn : 0 ≤ halfSq (F y) := by
        unfold halfSq
        exact div_nonneg (List.sum_nonneg fun v hv => by
          obtain ⟨w, -, rfl⟩ := List.mem_map.1 hv; exact sq_nonneg w) (by norm_num)
      have ht : 0 < P.initialAlpha / 2 ^ k := by positivity
      unfold Decrease at hd
      rw [← e] at hd
      refine ⟨p, k, hk, hp, e, ?_, ?_⟩
      · nlinarith
      · intro hne
        have hpos : 0 < halfSq (F y) := lt_of_le_of_ne hnn (Ne.symm hne)
        nlinarith [mul_pos ht hpos]
    · right
      have hk19 : k = 19 := by rcases hgood with hg | hg; exacts [absurd hg hd, hg]
      subst hk19
      refine ⟨p, hp, e, fun i hi => ?_⟩
      by_cases h19 : i = 19
      · rw [h19]; exact hd
      · exact hbad i (by omega)

end props

section cases

/-- the linear solver for one unknown: division, or an error for a zero coefficient -/
def divLin : NwLin ℚ := fun jj b =>
  if jj 0 0 = 0 then err "singular" else ok (b.map fun v => v / jj 0 0, jj)

/-- callbacks for a function of one unknown with derivative `d`; the extra argument counts the calls -/
def oneF (g : ℚ → ℚ) : NwCalcF ℚ Nat := fun _ x n => ok (x.map g, n + 1)
/-- see `oneF` -/
def oneJ (d : ℚ → ℚ) : NwCalcJ ℚ Nat := fun _ x n => ok (fun _ _ => d (x.getD 0 0), n)

theorem one_spec (g d : ℚ → ℚ) :
    NwSpec 1 (oneF g) (oneJ d) divLin (fun x => x.map g) (fun x _ _ => d (x.getD 0 0)) where
  len := fun x hx => by rw [List.length_map, hx]
  f := fun r x a _ => Or.inl ⟨a + 1, rfl⟩
  j := fun jj x a _ => Or.inl ⟨_, _, rfl, fun _ _ _ _ => rfl⟩
  lin := fun jj b hb => by
    unfold divLin
    split_ifs with h0
    · exact Or.inr ⟨_, rfl⟩
    · left
      refine ⟨_, _, rfl, by rw [List.length_map, hb], fun i hi => ?_⟩
      obtain ⟨v, rfl⟩ := List.length_eq_one_iff.1 hb
      obtain rfl : i = 0 := by omega
      simp
      field_simp

/-- the parameters of a solver for one unknown -/
def oneP (maxIterations : Nat) (ls : Bool) : NwParams ℚ :=
  { ndim := 1, maxIterations, tolerance := 1 / 10 ^ 10, divergentTol := 10 ^ 6, useLineSearch := ls, initialAlpha := 1,
    stats := true }

theorem oneP_ok (n : Nat) (hn : 1 ≤ n) (ls : Bool) : NwParamsOk (oneP n ls) := by
  refine ⟨hn, ?_, ?_, ?_⟩ <;> simp only [oneP] <;> norm_num

/-- the state of a new solver -/
def oneS (x : ℚ) : NwState ℚ Nat :=
  { x := [x], r := [0], p := [0], jj := fun _ _ => 0, args := 0, nFunction := 0, nJacobian := 0, nIterations := 0 }

/-- the hypotheses of `C80_affine` and of the counterexample hold for `F(x) = 2x - 6` -/
example : IsAffine 1 (fun x : List ℚ => x.map fun x => 2 * x - 6) (fun _ _ => 2) (fun _ => 6) ∧
    (¬ Converged (oneP 1 false) (fun x : List ℚ => x.map fun x => 2 * x - 6) [1]) := by
  constructor
  · intro y hy i hi
    obtain ⟨v, rfl⟩ := List.length_eq_one_iff.1 hy
    obtain rfl : i = 0 := by omega
    simp
  · intro h
    have := h (-4) (by norm_num)
    simp only [oneP] at this
    norm_num at this

theorem one_no_error (g d : ℚ → ℚ) (R : List ℚ → Prop) (h : ∀ x, R [x] → d x ≠ 0) (hR : ∀ y, R y → y.length = 1) (m : String) :
    ¬ FromCallback 1 (oneF g) (oneJ d) divLin (fun x _ _ => d (x.getD 0 0)) R m := by
  rintro (⟨r, x, a, -, e⟩ | ⟨r, x, a, -, e⟩ | ⟨y, jj, b, hy, hj, e⟩)
  · cases e
  · cases e
  · unfold divLin at e
    obtain ⟨v, rfl⟩ := List.length_eq_one_iff.1 (hR y hy)
    rw [hj 0 0 (by omega) (by omega), if_neg (by simpa using h v hy)] at e
    cases e

/-- `F(x) = 2x - 6` from `x = 1`: the solution `3` -/
example : ∃ s, nwSolve (oneP 20 false) (oneF fun x => 2 * x - 6) (oneJ fun _ => 2) divLin (oneS 1) = MRes.ok s ∧ s.x = [3] := by
  obtain ⟨s', h1, h2⟩ := C80_affine (one_spec (fun x => 2 * x - 6) (fun _ => 2)) (P := oneP 20 false) (oneP_ok 20 (by decide) _)
    (by decide) (by decide) (a := fun _ _ => 2) (b := fun _ => 6) (by
      intro y hy i hi
      obtain ⟨v, rfl⟩ := List.length_eq_one_iff.1 hy
      obtain rfl : i = 0 := by change i < 1 at hi; omega
      simp [oneP]) (fun _ _ _ => rfl) rfl (by decide)
    (one_no_error _ _ _ (fun _ _ => by norm_num) (fun _ h => h)) (oneS 1) rfl
  refine ⟨s', h1, ?_⟩
  rcases h2 with ⟨hc, -⟩ | ⟨-, ⟨p, hp, hz⟩, h3⟩
  · have := hc (-4) (by simp [oneS]; norm_num)
    simp only [oneP] at this
    norm_num at this
  · have hl : s'.x.length = 1 := by
      rcases hz with ⟨-, e⟩ | ⟨-, k, -, e, -⟩ <;> rw [e] <;> exact along_length rfl hp.1 _
    obtain ⟨v, hv⟩ := List.length_eq_one_iff.1 hl
    rw [hv] at h3 ⊢
    have := h3 (2 * v - 6) (by simp)
    rw [show v = 3 by linarith]

/-- C80: the line search can give up silently. `F(x) = x² + 1` with its true derivative from `x = 10^-9`: none of the twenty
trials decreases the merit function; the solver moves to the last trial, where the residual is 100000 times larger, and goes
on without an error of the line search. -/
theorem C80_line_search_exhausted_counterexample :
    ∃ s, nwSolve (oneP 1 true) (oneF fun x => x ^ 2 + 1) (oneJ fun x => 2 * x) divLin (oneS (1 / 10 ^ 9)) =
        MRes.err s "Newton solver failed to converge" ∧
      ∃ x, s.x = [x] ∧ 100000 * ((1 / 10 ^ 9) ^ 2 + 1) < x ^ 2 + 1 := by
  have hspec := one_spec (fun x => x ^ 2 + 1) (fun x => 2 * x)
  have hno : ∀ (p : ℚ) (k : Nat), k < 20 → 2 * (1 / 10 ^ 9) * p = -((1 / 10 ^ 9) ^ 2 + 1) →
      ¬ Decrease (fun x : List ℚ => x.map fun x => x ^ 2 + 1) [1 / 10 ^ 9] [p] (1 / 2 ^ k) := by
    intro p k hk hp hd
    have hp' : p = -((1 / 10 ^ 9) ^ 2 + 1) / (2 * (1 / 10 ^ 9)) := by
      rw [eq_div_iff (by norm_num)]; linarith
    have ht : (1 : ℚ) / 2 ^ 19 ≤ 1 / 2 ^ k := by
      apply one_div_le_one_div_of_le (by positivity)
      exact pow_le_pow_right₀ (by norm_num) (by omega)
    have ht1 : (1 : ℚ) / 2 ^ k ≤ 1 := by
      rw [div_le_one (by positivity)]; exact one_le_pow₀ (by norm_num)
    generalize (1 : ℚ) / 2 ^ k = t at hd ht ht1
    unfold Decrease halfSq along at hd
    simp only [List.zipWith_cons_cons, List.zipWith_nil_right, List.map_cons, List.map_nil, List.sum_cons, List.sum_nil,
      add_zero] at hd
    have hpl : p ≤ -499999999 := by rw [hp']; norm_num
    have h1 : 1 / 10 ^ 9 + t * p ≤ -900 := by
      have h2 : t * p ≤ (1 / 2 ^ 19) * p := mul_le_mul_of_nonpos_right ht (by linarith)
      have h3 : (1 : ℚ) / 2 ^ 19 * p ≤ 1 / 2 ^ 19 * (-499999999) := mul_le_mul_of_nonneg_left hpl (by positivity)
      have h4 : (1 : ℚ) / 2 ^ 19 * (-499999999) ≤ -950 := by norm_num
      have h5 : (1 : ℚ) / 10 ^ 9 ≤ 1 := by norm_num
      linarith
    generalize 1 / 10 ^ 9 + t * p = w at hd h1
    have hw : 810000 ≤ w ^ 2 := by nlinarith
    have hb : ((1 / 10 ^ 9 : ℚ) ^ 2 + 1) ^ 2 ≤ 4 := by norm_num
    nlinarith [sq_nonneg (w ^ 2)]
  have hout := C80_solve (A := Nat) (P := oneP 1 true) hspec (oneP_ok 1 le_rfl true) (by decide) (by decide) (oneS (1 / 10 ^ 9)) rfl
  have hn1 : ¬ Converged (oneP 1 true) (fun x : List ℚ => x.map fun x => x ^ 2 + 1) (oneS (1 / 10 ^ 9)).x := by
    intro h
    have := h ((1 / 10 ^ 9) ^ 2 + 1) (by simp [oneS])
    simp only [oneP] at this
    rw [abs_of_pos (by positivity)] at this
    norm_num at this
  have hpath : ∀ m y, m < 1 → NwPath (oneP 1 true) (fun x : List ℚ => x.map fun x => x ^ 2 + 1) (fun x _ _ => 2 * x.getD 0 0)
      (oneS (1 / 10 ^ 9)).x m y → y = [1 / 10 ^ 9] := by
    intro m y hm hp
    cases hp with
    | start => rfl
    | step => omega
  cases hres : nwSolve (oneP 1 true) (oneF fun x => x ^ 2 + 1) (oneJ fun x => 2 * x) divLin (oneS (1 / 10 ^ 9)) with
  | ok s' =>
    rw [hres] at hout
    obtain ⟨m, hm, hp, hc, -⟩ := hout
    rw [hpath m _ hm hp] at hc
    exact absurd hc hn1
  | err s' msg =>
    rw [hres] at hout
    rcases hout with ⟨rfl, hp⟩ | ⟨-, m, hm, hlt, -⟩ | ⟨hc, -⟩
    · refine ⟨s', rfl, ?_⟩
      generalize s'.x = y at hp
      cases hp with
      | @step _ w _ hq hnc' hnd hs =>
        obtain rfl := hpath _ _ (by decide) hq
        obtain ⟨p, hp, ⟨hf, -⟩ | ⟨-, k, hk, e, -, hgood⟩⟩ := hs
        · cases hf
        · obtain ⟨hp1, hp2⟩ := hp
          obtain ⟨p, rfl⟩ := List.length_eq_one_iff.1 hp1
          have hp3 : 2 * (1 / 10 ^ 9) * p = -((1 / 10 ^ 9) ^ 2 + 1) := by
            have := hp2 0 (by decide)
            simpa [oneP] using this
          have hk19 : k = 19 := by
            rcases hgood with hg | hg
            · exact absurd hg (hno p k hk hp3)
            · exact hg
          subst hk19
          refine ⟨1 / 10 ^ 9 + 1 / 2 ^ 19 * p, by rw [e]; rfl, ?_⟩
          have hp' : p = -((1 / 10 ^ 9) ^ 2 + 1) / (2 * (1 / 10 ^ 9)) := by
            rw [eq_div_iff (by norm_num)]; linarith
          rw [hp']
          norm_num
    · change m < 1 at hlt; omega
    · refine absurd hc (one_no_error _ _ _ ?_ ?_ _)
      · rintro x ⟨m, hm, hp⟩
        have := hpath m _ hm hp
        simp only [List.cons.injEq, and_true] at this
        rw [this]; norm_num
      · rintro y ⟨m, hm, hp⟩
        rw [hpath m _ hm hp]; rfl
  | panic => rw [hres] at hout; exact hout.elim

end cases

end Russell.Lab
