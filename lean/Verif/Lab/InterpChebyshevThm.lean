import Verif.Lab.InterpChebyshevProp

/-!
# Properties of the Chebyshev interpolation (C87)
-/

namespace Russell.Lab.Cheb

open Russell Russell.Res Polynomial Polynomial.Chebyshev

open Russell.Lab.InterpChebyshev Russell.Lab.Quad

noncomputable section

/-! ### Linear interpolation of given data -/

/-- `v` is the value at `x` of a segment between consecutive points, or the value of the first point -/
def OnPolyline (l : List (ℝ × ℝ)) (x v : ℝ) : Prop :=
  (∃ p, l[0]? = some p ∧ x ≤ p.1 ∧ v = p.2) ∨
  ∃ (j : Nat) (p q : ℝ × ℝ), l[j]? = some p ∧ l[j + 1]? = some q ∧ p.1 < x ∧ x ≤ q.1 ∧ v = p.2 + (q.2 - p.2) * (x - p.1) / (q.1 - p.1)

theorem genSearch_spec (x : ℝ) : ∀ (t : List (ℝ × ℝ)) (prev : ℝ × ℝ), prev.1 < x → (∃ q ∈ t, x ≤ q.1) →
    ∃ v, genSearch x prev t = some v ∧ OnPolyline (prev :: t) x v
  | [], _, _, h => by simp at h
  | p :: t, prev, hp, h => by
    unfold genSearch
    by_cases hx : x ≤ p.1
    · rw [if_pos hx]
      exact ⟨_, rfl, Or.inr ⟨0, prev, p, rfl, rfl, hp, hx, rfl⟩⟩
    · rw [if_neg hx]
      push Not at hx
      obtain ⟨v, e, h'⟩ := genSearch_spec x t p hx (by
        obtain ⟨q, hq, hq'⟩ := h
        rcases List.mem_cons.1 hq with rfl | hq
        · linarith
        · exact ⟨q, hq, hq'⟩)
      refine ⟨v, e, ?_⟩
      rcases h' with ⟨q, h1, h2, _⟩ | ⟨j, q, r, h1, h2, h3, h4, h5⟩
      · simp only [List.getElem?_cons_zero, Option.some.injEq] at h1
        subst h1; linarith
      · exact Or.inr ⟨j + 1, q, r, by simpa using h1, by simpa using h2, h3, h4, h5⟩

theorem genValue_spec (x : ℝ) (l : List (ℝ × ℝ)) (h : ∃ q ∈ l, x ≤ q.1) : ∃ v, genValue x l = some v ∧ OnPolyline l x v := by
  cases l with
  | nil => simp at h
  | cons p t =>
    show ∃ v, (if x ≤ p.1 then some p.2 else genSearch x p t) = some v ∧ _
    by_cases hx : x ≤ p.1
    · rw [if_pos hx]
      exact ⟨_, rfl, Or.inl ⟨p, rfl, hx, rfl⟩⟩
    · rw [if_neg hx]
      push Not at hx
      exact genSearch_spec x t p hx (by
        obtain ⟨q, hq, hq'⟩ := h
        rcases List.mem_cons.1 hq with rfl | hq
        · linarith
        · exact ⟨q, hq, hq'⟩)

theorem genLoop_spec {s : InterpChebyshev} (h : Range s) (hN : 1 ≤ s.nn) {l : List (ℝ × ℝ)} (hl : ∃ q ∈ l, s.xb ≤ q.1) :
    ∃ uu, (chebyshevLobattoPoints s.nn >>= fun zz => genLoop s zz l) = ok uu ∧
      ∀ i ≤ s.nn, OnPolyline l (node s.xa s.xb s.nn i) (uu (s.nn - i)) := by
  obtain ⟨zz, hz, hlen, hp, _⟩ := C52_lobatto_points hN
  have hab : s.xa ≤ s.xb := by have := h.lt; norm_num at this; linarith
  rw [hz]
  simp only [ok_bind]
  unfold genLoop
  obtain ⟨r, e, I⟩ := forRange_spec (lo := 0) (hi := zz.length) (s := s.uu_rev)
    (f := fun i uu => do
      let z ← vget zz i
      match genValue ((s.xb + s.xa + s.dx * z) / 2) l with
      | none => panic
      | some u => do
        let k ← subUsize s.nn i
        ok (Function.update uu k u))
    (fun t (uu : Nat → ℝ) => ∀ i < t, OnPolyline l (node s.xa s.xb s.nn i) (uu (s.nn - i))) (by omega) (by omega) (by
      intro i uu _ hi I
      have hi' : i ≤ s.nn := by omega
      have e1 : vget zz i = ok (-Real.cos (i * Real.pi / s.nn)) := by unfold vget; rw [hp i hi']
      simp only [e1, ok_bind]
      have hx : (s.xb + s.xa + s.dx * -Real.cos (i * Real.pi / s.nn)) / 2 = node s.xa s.xb s.nn i := by
        unfold node; rw [if_neg (by omega), h.dx]; ring
      rw [hx]
      obtain ⟨v, ev, hv⟩ := genValue_spec (node s.xa s.xb s.nn i) l (by
        obtain ⟨q, hq, hq'⟩ := hl
        exact ⟨q, hq, (node_mem hab s.nn i).2.trans hq'⟩)
      rw [ev]
      simp only
      unfold subUsize
      rw [if_pos hi']
      refine ⟨_, rfl, fun j hj => ?_⟩
      by_cases hij : j = i
      · subst hij; rw [Function.update_self]; exact hv
      · rw [Function.update_of_ne (by omega)]; exact I j (by omega))
  exact ⟨r, e, fun i hi => I i (by omega)⟩

/-! ### Adaptive degree -/

/-- the function succeeds between the bounds, with the values of `g` -/
def Total {A : Type} (f : Callback ℝ A) (g : ℝ → ℝ) (a b : ℝ) : Prop := ∀ t ∈ Set.uIcc a b, ∀ s, ∃ s', f t s = ok (g t, s')

theorem Total.calls {A : Type} {f : Callback ℝ A} {g : ℝ → ℝ} {a b : ℝ} (h : Total f g a b) : CallsOn f g a b :=
  fun t ht s => Or.inl (h t ht s)

theorem Total.not_from {A : Type} {f : Callback ℝ A} {g : ℝ → ℝ} {a b : ℝ} (h : Total f g a b) (m : String) : ¬ FromF f a b m := by
  rintro ⟨t, ht, s, e⟩
  obtain ⟨s', e'⟩ := h t ht s
  rw [e] at e'; cases e'

/-- `c` is the trailing coefficient of the Chebyshev series of degree `n` that interpolates `g`: `c 2^(n-1)` is the leading
coefficient of the interpolating polynomial in the coordinate between -1 and 1 -/
def Trailing (g : ℝ → ℝ) (xa xb : ℝ) (n : Nat) (c : ℝ) : Prop :=
  ∃ P : ℝ[X], P.natDegree ≤ n ∧ (∀ k ≤ n, P.eval (Real.cos (Real.pi * k / n)) = g (revNode xa xb n k)) ∧ P.coeff n = c * 2 ^ (n - 1)

/-- the trailing coefficient -/
def last (g : ℝ → ℝ) (xa xb : ℝ) (n : Nat) : ℝ := coef (fun k => g (revNode xa xb n k)) n n

theorem last_trailing (g : ℝ → ℝ) (xa xb : ℝ) {n : Nat} (hn : 1 ≤ n) : Trailing g xa xb n (last g xa xb n) :=
  ⟨series (coef (fun k => g (revNode xa xb n k)) n) n, series_degree _ _, fun k hk => series_node _ hn hk, series_lead _ hn⟩

theorem Trailing.eq {g : ℝ → ℝ} {xa xb : ℝ} {n : Nat} (hn : 1 ≤ n) {c : ℝ} (h : Trailing g xa xb n c) : c = last g xa xb n := by
  obtain ⟨P, hP, hk, hc⟩ := h
  have e := series_unique hn hP hk
  have l := series_lead (coef (fun k => g (revNode xa xb n k)) n) hn
  rw [e, hc] at l
  exact mul_right_cancel₀ (by positivity) l

theorem last_poly {p : ℝ[X]} {g : ℝ → ℝ} {xa xb : ℝ} (hab : xa ≤ xb) (hg : ∀ x ∈ Set.Icc xa xb, g x = p.eval x) {n : Nat}
    (hn : p.natDegree < n) : last g xa xb n = 0 := by
  unfold last
  refine coef_last_zero (by omega) (p := p.comp (C ((xb - xa) / 2) * X + C ((xb + xa) / 2))) ?_ ?_
  · refine lt_of_le_of_lt (natDegree_comp_le.trans ?_) hn
    have := natDegree_lin ((xb - xa) / 2) ((xb + xa) / 2)
    nlinarith
  · intro m _
    have := revNode_mem hab n m
    rw [Set.uIcc_of_le hab] at this
    rw [hg _ this, eval_comp]
    simp only [eval_add, eval_mul, eval_C, eval_X]
    congr 1
    unfold revNode; ring

/-- both trailing coefficients vanish -/
def Small (g : ℝ → ℝ) (xa xb tol : ℝ) (N : Nat) : Prop := |last g xa xb (N + 1)| < tol ∧ |last g xa xb (N + 2)| < tol

theorem adaptLoop_spec {A : Type} {f : Callback ℝ A} {g : ℝ → ℝ} {tol xa xb : ℝ} (hf : Total f g xa xb) :
    ∀ (n nn : Nat) (prev : ℝ) (s : InterpChebyshev) (args : A), Range s → s.xa = xa → s.xb = xb → 1 ≤ nn → nn + n = s.nn_max + 1 →
      (2 ≤ nn → prev = last g xa xb (nn - 1)) → (∀ M, M + 2 < nn → ¬ Small g xa xb tol M) →
      (∃ s' args' N, adaptLoop tol f n nn prev (s, args) = MRes.ok (s', args') ∧ SameRange s s' ∧ N + 2 ≤ s.nn_max ∧
        Rep s' N (fun k => g (node xa xb N (N - k))) ∧ Small g xa xb tol N ∧ ∀ M < N, ¬ Small g xa xb tol M) ∨
      (∃ s' args', adaptLoop tol f n nn prev (s, args) = MRes.err (s', args') "adaptive interpolation did not converge" ∧
        SameRange s s' ∧ ∀ M, M + 2 ≤ s.nn_max → ¬ Small g xa xb tol M)
  | 0, nn, prev, s, args, _, _, _, _, hn, _, hM => Or.inr ⟨s, args, rfl, ⟨rfl, rfl, rfl, rfl⟩, fun M hM' => hM M (by omega)⟩
  | n + 1, nn, prev, s, args, hr, rfl, rfl, h1, hn, hp, hM => by
    have hab : s.xa < s.xb := by have := hr.lt; norm_num at this; linarith
    unfold adaptLoop dataVector
    rw [if_pos ⟨by omega, hab, by omega⟩]
    rcases dataLoop_spec hab.le hf.calls nn (nn + 1) 0 s.uu_rev args with ⟨u, a, e, hu⟩ | ⟨u, a, m, e, hm⟩
    · rw [e]
      simp only
      rw [coefficients_ok h1 (by omega)]
      simp only
      rw [if_pos (show nn < nn + 1 by omega)]
      have hc : coef u nn nn = last g s.xa s.xb nn := by
        unfold last coef
        refine Finset.sum_congr rfl fun k hk => ?_
        have hk := Finset.mem_range.1 hk
        rw [hu k, if_pos (by omega)]
      rw [hc]
      by_cases hcond : nn > 1 ∧ |prev| < tol ∧ |last g s.xa s.xb nn| < tol
      · rw [if_pos hcond]
        obtain ⟨N, rfl⟩ : ∃ N, nn = N + 2 := ⟨nn - 2, by omega⟩
        rw [show N + 2 - 2 = N by omega]
        have hs : Small g s.xa s.xb tol N := ⟨by have := hp (by omega); rw [show N + 2 - 1 = N + 1 by omega] at this; rw [← this]; exact hcond.2.1, hcond.2.2⟩
        set s1 : InterpChebyshev := { s with uu_rev := u, a := fun j => if j < N + 2 + 1 then coef u (N + 2) j else s.a j } with hs1
        have hr1 : Range s1 := ⟨hr.lt, hr.dx⟩
        have hN : N ≤ s1.nn_max := by show N ≤ s.nn_max; omega
        rcases setFunction_spec hr1 (f := f) (g := g) hf.calls hN a with ⟨s', a', e', hs', R⟩ | ⟨s', a', m, _, _, hm⟩
        · rw [e']
          exact Or.inl ⟨s', a', N, rfl, hs', by omega, R, hs, fun M hMN => hM M (by omega)⟩
        · exact absurd hm (hf.not_from m)
      · rw [if_neg hcond]
        have := adaptLoop_spec hf n (nn + 1) (last g s.xa s.xb nn)
          { s with uu_rev := u, a := fun j => if j < nn + 1 then coef u nn j else s.a j } a ⟨hr.lt, hr.dx⟩ rfl rfl (by omega)
          (by show nn + 1 + n = s.nn_max + 1; omega) (fun _ => rfl) (by
            intro M hM2
            by_cases hMn : M + 2 < nn
            · exact hM M hMn
            · obtain rfl : nn = M + 2 := by omega
              intro hs
              exact hcond ⟨by omega, by rw [hp (by omega)]; exact hs.1, hs.2⟩)
        exact this
    · exact absurd hm (hf.not_from m)

/-- the coefficients of a constant -/
theorem coef_const (c : ℝ) {N j : Nat} (hN : 1 ≤ N) (hj : j ≤ N) : coef (fun _ => c) N j = if j = 0 then c else 0 := by
  have hN' : (N : ℝ) ≠ 0 := by positivity
  have := cosSum hN (j : ℤ)
  unfold coef
  have e : ∀ k ∈ Finset.range (N + 1), c * 2 * Real.cos (Real.pi * j * k / N) / (qFactor N j * qFactor N k * N) =
      c * 2 / (qFactor N j * N) * (Real.cos ((k : ℝ) * (Real.pi * ((j : ℤ) : ℝ) / N)) / qFactor N k) := by
    intro k _
    have := qFactor_ne N j; have := qFactor_ne N k
    rw [show (k : ℝ) * (Real.pi * ((j : ℤ) : ℝ) / N) = Real.pi * j * k / N by push_cast; ring]
    field_simp
  rw [Finset.sum_congr rfl e, ← Finset.mul_sum, this]
  by_cases h0 : j = 0
  · subst h0
    rw [if_pos (by simp), if_pos rfl, qFactor, if_pos (Or.inl rfl)]
    field_simp
  · rw [if_neg h0, if_neg, mul_zero]
    intro hd
    have := Int.le_of_dvd (by omega) hd
    omega

/-- with tolerance zero the adaptive interpolation of a constant never converges -/
theorem adaptLoop_never : ∀ (n nn : Nat) (prev : ℝ) (s : InterpChebyshev), Range s → 1 ≤ nn → nn + n = s.nn_max + 1 →
    ∃ s', adaptLoop 0 (fun _ (_ : Unit) => ok (5, ())) n nn prev (s, ()) = MRes.err (s', ()) "adaptive interpolation did not converge" ∧
      s'.nn = s.nn ∧ s'.ready = s.ready ∧ SameRange s s' ∧
      (1 ≤ n → ∀ j ≤ s.nn_max, s'.a j = coef (fun _ => 5) s.nn_max j) ∧ (n = 0 → s' = s)
  | 0, nn, prev, s, _, _, _ => ⟨s, rfl, rfl, rfl, ⟨rfl, rfl, rfl, rfl⟩, by omega, fun _ => rfl⟩
  | n + 1, nn, prev, s, hr, h1, hn => by
    have hab : s.xa < s.xb := by have := hr.lt; norm_num at this; linarith
    have hf : CallsOn (fun _ (_ : Unit) => ok ((5 : ℝ), ())) (fun _ => 5) s.xa s.xb := fun _ _ _ => Or.inl ⟨(), rfl⟩
    unfold adaptLoop dataVector
    rw [if_pos ⟨by omega, hab, by omega⟩]
    rcases dataLoop_spec hab.le hf nn (nn + 1) 0 s.uu_rev () with ⟨u, a, e, hu⟩ | ⟨u, a, m, e, hm⟩
    · rw [e]
      simp only
      rw [coefficients_ok h1 (by omega)]
      simp only
      rw [if_neg (fun hc => by have := abs_nonneg prev; linarith [hc.2.1])]
      obtain ⟨s', e', i1, i2, i3, i4, i5⟩ := adaptLoop_never n (nn + 1) (if nn < nn + 1 then coef u nn nn else s.a nn)
        { s with uu_rev := u, a := fun j => if j < nn + 1 then coef u nn j else s.a j } ⟨hr.lt, hr.dx⟩ (by omega)
        (by show nn + 1 + n = s.nn_max + 1; omega)
      refine ⟨s', e', i1, i2, i3, fun _ j hj => ?_, by omega⟩
      by_cases h0 : n = 0
      · rw [i5 h0]
        obtain rfl : nn = s.nn_max := by omega
        show (if j < s.nn_max + 1 then _ else _) = _
        rw [if_pos (by omega)]
        unfold coef
        refine Finset.sum_congr rfl fun k hk => ?_
        have hk := Finset.mem_range.1 hk
        rw [hu k, if_pos (by omega)]
      · exact i4 (by omega) j hj
    · obtain ⟨t, _, st, e⟩ := hm
      cases e

end

end Russell.Lab.Cheb

namespace Russell.Lab

open Russell Russell.Res Russell.Lab.Cheb Russell.Lab.Quad Polynomial

/-- **C87 (new).** An interval that is too short is an error. Otherwise the object has the interval and admits degrees up to
`nn_max + 2`; before any data are set the evaluations are errors. -/
theorem C87_new (nn_max : Nat) (xa xb : ℝ) :
    (xb ≤ xa + 1e-5 → InterpChebyshev.new nn_max xa xb = err "xb must be greater than xa + ϵ") ∧
    (xa + 1e-5 < xb → ∃ s, InterpChebyshev.new nn_max xa xb = ok s ∧ Range s ∧ s.xa = xa ∧ s.xb = xb ∧ s.nn_max = nn_max + 2 ∧
      s.ready = false ∧ (∀ x, s.eval x = err "the data or function must be set first") ∧
      (∀ x, s.evalUsingTrig x = err "the data or function must be set first") ∧
      s.getXyData = err "the data or function must be set first") := by
  unfold InterpChebyshev.new tolRange
  constructor
  · intro h; rw [if_pos h]
  · intro h
    rw [if_neg (by push Not; exact h)]
    exact ⟨_, rfl, ⟨h, rfl⟩, rfl, rfl, rfl, rfl, fun _ => rfl, fun _ => rfl, rfl⟩

/-- **C87 (set_function).** The degree is at most `nn_max`, otherwise an error leaves the object unchanged. The function is only
called in the interval. If all calls succeed the object interpolates the function at the Chebyshev–Gauss–Lobatto points of the
interval (the middle, for degree zero); otherwise the error of the function is returned. -/
theorem C87_set_function {A : Type} {s : InterpChebyshev} (h : Range s) {f : Callback ℝ A} {g : ℝ → ℝ}
    (hf : CallsOn f g s.xa s.xb) (nn : Nat) (args : A) :
    (s.nn_max < nn → s.setFunction nn args f = MRes.err (s, args) "nn must be ≤ nn_max") ∧
    (nn ≤ s.nn_max →
      (∃ s' args', s.setFunction nn args f = MRes.ok (s', args') ∧ SameRange s s' ∧
        Interp s' nn (fun i => g (node s.xa s.xb nn i))) ∨
      ∃ s' args' m, s.setFunction nn args f = MRes.err (s', args') m ∧ SameRange s s' ∧ FromF f s.xa s.xb m) := by
  constructor
  · intro hn; unfold InterpChebyshev.setFunction; rw [if_pos hn]
  · intro hn
    rcases setFunction_spec h hf hn args with ⟨s', a', e, hs, R⟩ | h'
    · refine Or.inl ⟨s', a', e, hs, ?_⟩
      have I := R.interp (hs.range h)
      refine ⟨I.ready, I.degree, I.trig, ?_, ?_⟩
      · obtain ⟨P, h1, h2, h3⟩ := I.poly
        exact ⟨P, h1, h2, fun i hi => by rw [h3 i hi, Nat.sub_sub_self hi]⟩
      · intro hN
        obtain ⟨xx, uu, h1, h2, h3, h4⟩ := I.data hN
        exact ⟨xx, uu, h1, h2, h3, fun i hi => by rw [(h4 i hi).1, (h4 i hi).2, Nat.sub_sub_self hi]; exact ⟨rfl, rfl⟩⟩
    · exact Or.inr h'

/-- an interval and a function that satisfy the hypotheses -/
example : (∃ s, InterpChebyshev.new 3 0 1 = ok s ∧ Range s ∧ 4 ≤ s.nn_max ∧
    CallsOn (fun x (_ : Unit) => ok (x ^ 2, ())) (fun x => x ^ 2) s.xa s.xb ∧
    Total (fun x (_ : Unit) => ok (x ^ 2, ())) (fun x => (X ^ 2 : ℝ[X]).eval x) s.xa s.xb) := by
  obtain ⟨s, e, hr, _, _, hm, _⟩ := (C87_new 3 0 1).2 (by norm_num)
  exact ⟨s, e, hr, by omega, fun _ _ _ => Or.inl ⟨(), rfl⟩, fun _ _ _ => ⟨(), by simp⟩⟩

/-- **C87 (set_data).** The object interpolates the given values at the Chebyshev–Gauss–Lobatto points; no values, or more than
`nn_max + 1`, are errors that leave the object unchanged. -/
theorem C87_set_data {s : InterpChebyshev} (h : Range s) (uu : List ℝ) :
    (uu = [] → s.setData uu = MRes.err (s, ()) "the number of points (uu.len()) must be ≥ 1") ∧
    (s.nn_max + 1 < uu.length → s.setData uu = MRes.err (s, ()) "nn (=uu.len()-1) must be ≤ nn_max") ∧
    (uu ≠ [] → uu.length ≤ s.nn_max + 1 → ∃ s', s.setData uu = MRes.ok (s', ()) ∧ SameRange s s' ∧
      ∀ v : Nat → ℝ, (∀ i < uu.length, uu[i]? = some (v i)) → Interp s' (uu.length - 1) v) := by
  refine ⟨?_, ?_, ?_⟩
  · rintro rfl; rfl
  · intro hl; unfold InterpChebyshev.setData; simp only; rw [if_neg (by omega), if_pos (by omega)]
  · intro h0 hl
    have h1 : 1 ≤ uu.length := List.length_pos_iff.2 h0
    obtain ⟨s', e, hs, R⟩ := setData_spec h1 hl
    refine ⟨s', e, hs, fun v hv => ?_⟩
    have I := R.interp (hs.range h)
    have hv' : ∀ i ≤ uu.length - 1, uu.getD (uu.length - 1 - (uu.length - 1 - i)) 0 = v i := by
      intro i hi
      rw [Nat.sub_sub_self hi, List.getD_eq_getElem?_getD, hv i (by omega)]; rfl
    refine ⟨I.ready, I.degree, I.trig, ?_, ?_⟩
    · obtain ⟨P, h1, h2, h3⟩ := I.poly
      exact ⟨P, h1, h2, fun i hi => by rw [h3 i hi]; exact hv' i hi⟩
    · intro hN
      obtain ⟨xx, u, h1, h2, h3, h4⟩ := I.data hN
      exact ⟨xx, u, h1, h2, h3, fun i hi => by rw [(h4 i hi).1, (h4 i hi).2]; exact ⟨rfl, congrArg some (hv' i hi)⟩⟩

/-- **C87 (polynomials).** If the data are those of a polynomial of degree at most `N`, then the interpolation is this polynomial
at all points of the interval, and its value at the nearest bound elsewhere. -/
theorem C87_polynomial {s : InterpChebyshev} (h : Range s) {N : Nat} {v : Nat → ℝ} (I : Interp s N v) {p : ℝ[X]}
    (hp : p.natDegree ≤ N) (hv : ∀ i ≤ N, v i = p.eval (node s.xa s.xb N i)) :
    (∀ x ∈ Set.Icc s.xa s.xb, s.eval x = ok (p.eval x)) ∧ (∀ x ≤ s.xa, s.eval x = ok (p.eval s.xa)) ∧
      ∀ x, s.xb ≤ x → s.eval x = ok (p.eval s.xb) := by
  have hab : s.xa < s.xb := by have := h.lt; norm_num at this; linarith
  refine ⟨?_, ?_, ?_⟩
  · intro x hx; rw [I.eq_poly h hp hv, min_eq_right hx.2, max_eq_right hx.1]
  · intro x hx; rw [I.eq_poly h hp hv, min_eq_right (by linarith), max_eq_left hx]
  · intro x hx; rw [I.eq_poly h hp hv, min_eq_left hx, max_eq_right hab.le]

/-- three values of a parabola determine it -/
example : ∃ s s', InterpChebyshev.new 3 (-1) 1 = ok s ∧ s.setData [1, 0, 1] = MRes.ok (s', ()) ∧
    ∀ x ∈ Set.Icc (-1 : ℝ) 1, s'.eval x = ok (x ^ 2) := by
  obtain ⟨s, e, hr, ha, hb, hm, _⟩ := (C87_new 3 (-1) 1).2 (by norm_num)
  obtain ⟨s', e', hs, hI⟩ := (C87_set_data hr [1, 0, 1]).2.2 (by simp) (by simp [hm])
  refine ⟨s, s', e, e', fun x hx => ?_⟩
  have I := hI (fun i => if i = 1 then 0 else 1) (fun i hi => by
    have hi : i < 3 := hi
    obtain rfl | rfl | rfl : i = 0 ∨ i = 1 ∨ i = 2 := by omega
    all_goals rfl)
  have := (C87_polynomial (hs.range hr) I (p := X ^ 2) (by simp) (fun i hi => by
    have hi : i ≤ 2 := hi
    rw [hs.1, hs.2.1, ha, hb]
    obtain rfl | rfl | rfl : i = 0 ∨ i = 1 ∨ i = 2 := by omega
    · simp [node]
    · simp [node]
    · norm_num [node])).1 x (by rw [hs.1, hs.2.1, ha, hb]; exact hx)
  simpa using this

/-- **C87 (set_gen_data).** General data, as many points as values, from `xa` to `xb`: the object interpolates, at the
Chebyshev–Gauss–Lobatto points, the values of the line through the data (the segment of the first point that is not to the left);
the search always ends with such a point, also for unsorted data. A single point is always an error. -/
theorem C87_set_gen_data {s : InterpChebyshev} (h : Range s) {xx yy : List ℝ} (h2 : xx.length ≤ s.nn_max + 1)
    (hl : yy.length = xx.length) :
    (xx.length = 1 → ∃ m, s.setGenData xx yy = MRes.err (s, ()) m) ∧
    (xx[0]? = some s.xa → xx[xx.length - 1]? = some s.xb → ∃ s' v, s.setGenData xx yy = MRes.ok (s', ()) ∧ SameRange s s' ∧
      Interp s' (xx.length - 1) v ∧
      ∀ i ≤ xx.length - 1, OnPolyline (xx.zip yy) (node s.xa s.xb (xx.length - 1) i) (v i)) := by
  have hab : s.xa < s.xb := by have := h.lt; norm_num at this; linarith
  constructor
  · intro h1
    unfold InterpChebyshev.setGenData
    simp only
    rw [if_neg (by omega), if_neg (by omega), if_neg (by omega)]
    by_cases h3 : xx.getD 0 0 = s.xa
    · rw [if_neg (not_not.2 h3), if_pos (by rw [h1, Nat.sub_self, h3]; exact hab.ne)]
      exact ⟨_, rfl⟩
    · rw [if_pos h3]; exact ⟨_, rfl⟩
  · intro hx0 hx1
    have h1 : 1 ≤ xx.length := by
      rcases xx with _ | ⟨x, t⟩
      · simp at hx0
      · simp
    have hN : 1 ≤ xx.length - 1 := by
      by_contra hc
      rw [show xx.length - 1 = 0 by omega, hx0] at hx1
      simp only [Option.some.injEq] at hx1
      linarith
    unfold InterpChebyshev.setGenData
    simp only
    rw [if_neg (by omega), if_neg (by omega), if_neg (by omega), if_neg (by
      rw [List.getD_eq_getElem?_getD, hx0]; simp), if_neg (by rw [List.getD_eq_getElem?_getD, hx1]; simp), if_neg (by omega)]
    set s1 : InterpChebyshev := { s with nn := xx.length - 1 } with hs1
    have hr1 : Range s1 := ⟨h.lt, h.dx⟩
    obtain ⟨uu, e, hu⟩ := genLoop_spec hr1 hN (l := xx.zip yy) (by
      have hlt : xx.length - 1 < yy.length := by omega
      refine ⟨(s.xb, yy[xx.length - 1]), ?_, le_refl _⟩
      refine List.mem_of_getElem? (i := xx.length - 1) ?_
      rw [List.getElem?_zip_eq_some]
      exact ⟨hx1, List.getElem?_eq_getElem hlt⟩)
    have e' : (chebyshevLobattoPoints (xx.length - 1) >>= fun zz => s1.genLoop zz (xx.zip yy)) = ok uu := e
    rw [e']
    simp only
    have hN2 : xx.length - 1 ≤ s.nn_max := by omega
    obtain ⟨s', e2, hs, R⟩ := finish_ok (s := { s1 with uu_rev := uu }) () hN hN2
    exact ⟨s', _, e2, hs, R.interp (hs.range ⟨h.lt, h.dx⟩), fun i hi => hu i hi⟩

/-- **C87 (adapt_function).** Upon success the degree is the first one such that the trailing coefficients of the two next degrees
are below the tolerance, and the object interpolates the function with it; otherwise there is no such degree up to `nn_max − 2`. -/
theorem C87_adapt_function {A : Type} {s : InterpChebyshev} (h : Range s) {f : Callback ℝ A} {g : ℝ → ℝ}
    (hf : Total f g s.xa s.xb) (tol : ℝ) (args : A) :
    (∃ s' args' N, s.adaptFunction tol args f = MRes.ok (s', args') ∧ SameRange s s' ∧ N + 2 ≤ s.nn_max ∧
      Interp s' N (fun i => g (node s.xa s.xb N i)) ∧
      (∃ c d, Trailing g s.xa s.xb (N + 1) c ∧ Trailing g s.xa s.xb (N + 2) d ∧ |c| < tol ∧ |d| < tol) ∧
      ∀ M < N, ∀ c d, Trailing g s.xa s.xb (M + 1) c → Trailing g s.xa s.xb (M + 2) d → tol ≤ |c| ∨ tol ≤ |d|) ∨
    ∃ s' args', s.adaptFunction tol args f = MRes.err (s', args') "adaptive interpolation did not converge" ∧ SameRange s s' ∧
      ∀ M, M + 2 ≤ s.nn_max → ∀ c d, Trailing g s.xa s.xb (M + 1) c → Trailing g s.xa s.xb (M + 2) d → tol ≤ |c| ∨ tol ≤ |d| := by
  have small : ∀ M, ¬ Small g s.xa s.xb tol M → ∀ c d, Trailing g s.xa s.xb (M + 1) c → Trailing g s.xa s.xb (M + 2) d →
      tol ≤ |c| ∨ tol ≤ |d| := by
    intro M hM c d hc hd
    rw [hc.eq (by omega), hd.eq (by omega)]
    by_contra hcon
    push Not at hcon
    exact hM hcon
  unfold InterpChebyshev.adaptFunction
  rcases adaptLoop_spec (tol := tol) hf s.nn_max 1 0 s args h rfl rfl le_rfl (by omega) (by omega) (by omega) with
    ⟨s', a', N, e, hs, hN, R, hsm, hmin⟩ | ⟨s', a', e, hs, hno⟩
  · refine Or.inl ⟨s', a', N, e, hs, hN, ?_, ⟨_, _, last_trailing g s.xa s.xb (by omega), last_trailing g s.xa s.xb (by omega),
      hsm.1, hsm.2⟩, fun M hM => small M (hmin M hM)⟩
    have I := R.interp (hs.range h)
    refine ⟨I.ready, I.degree, I.trig, ?_, ?_⟩
    · obtain ⟨P, h1, h2, h3⟩ := I.poly
      exact ⟨P, h1, h2, fun i hi => by rw [hs.1, hs.2.1] at h3; rw [hs.1, hs.2.1, h3 i hi, Nat.sub_sub_self hi]⟩
    · intro hN
      obtain ⟨xx, uu, h1, h2, h3, h4⟩ := I.data hN
      exact ⟨xx, uu, h1, h2, h3, fun i hi => by rw [(h4 i hi).1, (h4 i hi).2, Nat.sub_sub_self hi]; exact ⟨rfl, rfl⟩⟩
  · exact Or.inr ⟨s', a', e, hs, fun M hM => small M (hno M hM)⟩

/-- **C87 (adapt_function, polynomials).** For a polynomial of degree at most `nn_max − 2` and a positive tolerance the adaptive
interpolation succeeds, with a degree not larger than that of the polynomial. -/
theorem C87_adapt_polynomial {A : Type} {s : InterpChebyshev} (h : Range s) {f : Callback ℝ A} {p : ℝ[X]}
    (hf : Total f (fun x => p.eval x) s.xa s.xb) {tol : ℝ} (htol : 0 < tol) (hp : p.natDegree + 2 ≤ s.nn_max) (args : A) :
    ∃ s' args' N, s.adaptFunction tol args f = MRes.ok (s', args') ∧ SameRange s s' ∧ N ≤ p.natDegree ∧
      Interp s' N (fun i => p.eval (node s.xa s.xb N i)) := by
  have hab : s.xa < s.xb := by have := h.lt; norm_num at this; linarith
  have hz : ∀ n, p.natDegree < n → Trailing (fun x => p.eval x) s.xa s.xb n 0 := fun n hn => by
    rw [← last_poly (p := p) (g := fun x => p.eval x) hab.le (fun _ _ => rfl) hn]
    exact last_trailing _ _ _ (by omega)
  rcases C87_adapt_function h hf tol args with ⟨s', a', N, e, hs, hN, I, _, hmin⟩ | ⟨s', a', e, hs, hno⟩
  · refine ⟨s', a', N, e, hs, ?_, I⟩
    by_contra hc
    push Not at hc
    rcases hmin _ hc 0 0 (hz _ (by omega)) (hz _ (by omega)) with h' | h' <;> rw [abs_zero] at h' <;> linarith
  · exfalso
    rcases hno _ hp 0 0 (hz _ (by omega)) (hz _ (by omega)) with h' | h' <;> rw [abs_zero] at h' <;> linarith

/-- **C87 (adapt_data).** Data whose degree is at most `nn_max − 2` are fitted by a polynomial through the data, and the adaptive
interpolation of this polynomial succeeds if the tolerance is positive. -/
theorem C87_adapt_data {s : InterpChebyshev} (h : Range s) {uu : List ℝ} (h0 : uu ≠ []) (hl : uu.length + 1 ≤ s.nn_max) {tol : ℝ}
    (htol : 0 < tol) :
    ∃ (p : ℝ[X]) (s' : InterpChebyshev) (N : Nat), p.natDegree ≤ uu.length - 1 ∧
      (∀ (i : Nat) (u : ℝ), uu[i]? = some u → p.eval (node s.xa s.xb (uu.length - 1) i) = u) ∧
      s.adaptData tol uu = MRes.ok (s', ()) ∧ SameRange s s' ∧ N ≤ p.natDegree ∧
      Interp s' N (fun i => p.eval (node s.xa s.xb N i)) := by
  have h1 : 1 ≤ uu.length := List.length_pos_iff.2 h0
  have hab : s.xa < s.xb := by have := h.lt; norm_num at this; linarith
  obtain ⟨fit, hfit, hr, ha, hb, hm, _⟩ := (C87_new (uu.length - 1) s.xa s.xb).2 h.lt
  obtain ⟨fit', hfit', hs, hI⟩ := (C87_set_data hr uu).2.2 h0 (by omega)
  have I := hI (fun i => uu.getD i 0) (fun i hi => by
    rw [List.getD_eq_getElem?_getD, List.getElem?_eq_getElem hi]; rfl)
  obtain ⟨p, hp, he, hn⟩ := I.poly
  rw [hs.1, hs.2.1, ha, hb] at he hn
  have hf : Total (fun x (_ : Unit) => fit'.eval x >>= fun y => ok (y, ())) (fun x => p.eval x) s.xa s.xb := by
    intro t ht _
    rw [Set.uIcc_of_le hab.le] at ht
    refine ⟨(), ?_⟩
    simp only [he t, ok_bind]
    rw [min_eq_right ht.2, max_eq_right ht.1]
  obtain ⟨s', a', N, e, hs', hN, I'⟩ := C87_adapt_polynomial h hf htol (by omega) ()
  refine ⟨p, s', N, hp, fun i u hu => ?_, ?_, hs', hN, I'⟩
  · have : i < uu.length := (List.getElem?_eq_some_iff.1 hu).1
    rw [hn i (by omega), List.getD_eq_getElem?_getD, hu]; rfl
  · unfold InterpChebyshev.adaptData
    simp only
    rw [if_neg (by omega), if_neg (by omega), hfit]
    simp only
    rw [hfit']
    exact e

/-- **C87 (estimate_max_error).** The estimate is the largest difference between the function and the interpolation at equally
spaced stations of the interval. -/
theorem C87_max_error {A : Type} {s : InterpChebyshev} (h : Range s) {N : Nat} {v : Nat → ℝ} (I : Interp s N v) {f : Callback ℝ A}
    {g : ℝ → ℝ} (hf : Total f g s.xa s.xb) {n : Nat} (hn : 2 ≤ n) (args : A) :
    ∃ e args', s.estimateMaxError n args f = ok (e, args') ∧
      (∀ i < n, ∃ y, s.eval (s.xa + i * ((s.xb - s.xa) / (n - 1))) = ok y ∧ |y - g (s.xa + i * ((s.xb - s.xa) / (n - 1)))| ≤ e) ∧
      ∃ i < n, ∃ y, s.eval (s.xa + i * ((s.xb - s.xa) / (n - 1))) = ok y ∧ e = |y - g (s.xa + i * ((s.xb - s.xa) / (n - 1)))| := by
  have hab : s.xa < s.xb := by have := h.lt; norm_num at this; linarith
  obtain ⟨l, hl, hlen, hp, _⟩ := C24_linspace s.xa s.xb id hn
  obtain ⟨P, _, he, _⟩ := I.poly
  have hn1 : ((n - 1 : Nat) : ℝ) = n - 1 := by push_cast [Nat.cast_sub (show 1 ≤ n by omega)]; ring
  have hpos : (0 : ℝ) < n - 1 := by rw [← hn1]; exact_mod_cast (by omega : 0 < n - 1)
  rw [hn1] at hp
  have hmem : ∀ i < n, s.xa + i * ((s.xb - s.xa) / (n - 1)) ∈ Set.Icc s.xa s.xb := by
    intro i hi
    have hi' : (i : ℝ) ≤ n - 1 := by rw [← hn1]; exact_mod_cast (by omega : i ≤ n - 1)
    have h1 : 0 ≤ (s.xb - s.xa) / (n - 1) := div_nonneg (by linarith) hpos.le
    constructor
    · have : 0 ≤ (i : ℝ) * ((s.xb - s.xa) / (n - 1)) := by positivity
      linarith
    · have : (i : ℝ) * ((s.xb - s.xa) / (n - 1)) ≤ (n - 1) * ((s.xb - s.xa) / (n - 1)) := mul_le_mul_of_nonneg_right hi' h1
      rw [mul_div_cancel₀ _ hpos.ne'] at this
      linarith
  unfold InterpChebyshev.estimateMaxError
  rw [hl]
  simp only
  obtain ⟨r, e, hI⟩ := forRange_spec (lo := 0) (hi := n) (s := ((0 : ℝ), args))
    (f := fun p (err_f, args) => do
      let x ← vget l p
      let fi ← s.eval x
      let (y, args) ← f x args
      ok (max err_f |fi - y|, args))
    (fun t r => (∀ i < t, ∃ y, s.eval (s.xa + i * ((s.xb - s.xa) / (n - 1))) = ok y ∧
        |y - g (s.xa + i * ((s.xb - s.xa) / (n - 1)))| ≤ r.1) ∧ (t = 0 → r.1 = 0) ∧
      (0 < t → ∃ i < t, ∃ y, s.eval (s.xa + i * ((s.xb - s.xa) / (n - 1))) = ok y ∧
        r.1 = |y - g (s.xa + i * ((s.xb - s.xa) / (n - 1)))|)) (by omega) ⟨by simp, by simp, by simp⟩ (by
      rintro i ⟨e, a⟩ _ hi ⟨h1, h2, h3⟩
      have e1 : vget l i = ok (s.xa + i * ((s.xb - s.xa) / (n - 1))) := by unfold vget; rw [hp i hi]
      obtain ⟨a', e2⟩ := hf _ (by rw [Set.uIcc_of_le hab.le]; exact hmem i hi) a
      simp only [e1, ok_bind, he, e2]
      refine ⟨_, rfl, fun j hj => ?_, by omega, fun _ => ?_⟩
      · by_cases hij : j = i
        · subst hij; exact ⟨_, rfl, le_max_right _ _⟩
        · obtain ⟨y, hy, hy'⟩ := h1 j (by omega)
          rw [he] at hy
          exact ⟨y, hy, hy'.trans (le_max_left _ _)⟩
      · rcases le_total e |P.eval (max s.xa (min s.xb (s.xa + i * ((s.xb - s.xa) / (n - 1))))) - g (s.xa + i * ((s.xb - s.xa) / (n - 1)))| with hc | hc
        · exact ⟨i, by omega, _, rfl, max_eq_right hc⟩
        · by_cases h0 : i = 0
          · subst h0
            have : e = 0 := h2 rfl
            rw [this] at hc ⊢
            exact ⟨0, by omega, _, rfl, max_eq_right (abs_nonneg _)⟩
          · obtain ⟨j, hj, y, hy, hy'⟩ := h3 (by omega)
            rw [he] at hy
            exact ⟨j, by omega, y, hy, (max_eq_left hc).trans hy'⟩)
  exact ⟨r.1, r.2, e, hI.1, hI.2.2 (by omega)⟩

/-- **C87 (violated for degree zero).** `get_xy_data` returns the point `xb` and whatever the array contained, instead of the
constant: zero for a new object. -/
theorem C87_constant_data_counterexample (nn_max : Nat) {xa xb : ℝ} (h : xa + 1e-5 < xb) (c : ℝ) :
    ∃ s s', InterpChebyshev.new nn_max xa xb = ok s ∧ s.setData [c] = MRes.ok (s', ()) ∧ (∀ x, s'.eval x = ok c) ∧
      s'.getXyData = ok ([xb], [0]) := by
  unfold InterpChebyshev.new tolRange
  rw [if_neg (by push Not; exact h)]
  refine ⟨_, _, rfl, rfl, fun x => rfl, ?_⟩
  simp [InterpChebyshev.getXyData, chebyshevLobattoPoints, forRange, forN, vset, vget, subUsize]

/-- **C87 (adaptive degree).** Two small trailing coefficients do not mean that the function is approximated: `x⁴ − x²` vanishes
at the points of the degrees 1 and 2, and the result is the constant zero, for every tolerance. -/
theorem C87_adapt_counterexample (nn_max : Nat) {tol : ℝ} (htol : 0 < tol) :
    ∃ s s' : InterpChebyshev, InterpChebyshev.new nn_max (-1) 1 = ok s ∧
      s.adaptFunction tol () (fun x _ => ok (x ^ 4 - x ^ 2, ())) = MRes.ok (s', ()) ∧ (∀ x, s'.eval x = ok 0) ∧
      ((1 / 2 : ℝ) ^ 4 - (1 / 2) ^ 2 = -3 / 16) := by
  obtain ⟨s, e, hr, ha, hb, hm, _⟩ := (C87_new nn_max (-1) 1).2 (by norm_num)
  have hf : Total (fun x (_ : Unit) => ok (x ^ 4 - x ^ 2, ())) (fun x => x ^ 4 - x ^ 2) s.xa s.xb := fun t _ _ => ⟨(), rfl⟩
  have t1 : Trailing (fun x => x ^ 4 - x ^ 2) s.xa s.xb (0 + 1) 0 := by
    refine ⟨0, by simp, fun k hk => ?_, by simp⟩
    rw [ha, hb]
    obtain rfl | rfl : k = 0 ∨ k = 1 := by omega
    · norm_num [revNode]
    · norm_num [revNode]
  have t2 : Trailing (fun x => x ^ 4 - x ^ 2) s.xa s.xb (0 + 2) 0 := by
    refine ⟨0, by simp, fun k hk => ?_, by simp⟩
    rw [ha, hb]
    obtain rfl | rfl | rfl : k = 0 ∨ k = 1 ∨ k = 2 := by omega
    · norm_num [revNode]
    · norm_num [revNode]
    · norm_num [revNode, mul_div_assoc]
  rcases C87_adapt_function hr hf tol () with ⟨s', a', N, e', hs, hN, I, _, hmin⟩ | ⟨s', a', e', hs, hno⟩
  · have hN0 : N = 0 := by
      by_contra hc
      rcases hmin 0 (by omega) 0 0 t1 t2 with h' | h' <;> rw [abs_zero] at h' <;> linarith
    subst hN0
    refine ⟨s, s', e, e', fun x => ?_, by norm_num⟩
    rw [I.eq_poly (hs.range hr) (p := 0) (by simp) (fun i _ => by simp [node, ha, hb])]
    simp
  · exfalso
    rcases hno 0 (by omega) 0 0 t1 t2 with h' | h' <;> rw [abs_zero] at h' <;> linarith

/-- **C87 (after an error).** A failed `set_function` leaves an object that is ready, with the new degree and the old coefficients:
the constant `c` evaluates to zero afterwards. -/
theorem C87_failed_function_counterexample (nn_max : Nat) {xa xb : ℝ} (h : xa + 1e-5 < xb) (c : ℝ) :
    ∃ s s' s'', InterpChebyshev.new nn_max xa xb = ok s ∧ s.setData [c] = MRes.ok (s', ()) ∧ (∀ x, s'.eval x = ok c) ∧
      s'.setFunction 1 () (fun _ _ => err "stop") = MRes.err (s'', ()) "stop" ∧ s''.ready = true ∧ ∀ x, s''.eval x = ok 0 := by
  have hab : xa < xb := by norm_num at h; linarith
  unfold InterpChebyshev.new tolRange
  rw [if_neg (by push Not; exact h)]
  refine ⟨_, _, ⟨nn_max + 2, 1, xa, xb, xb - xa, fun _ => 0, fun _ => 0, c, true⟩, rfl, rfl, fun x => rfl, ?_, rfl, ?_⟩
  · simp [InterpChebyshev.setFunction, InterpChebyshev.dataVector, InterpChebyshev.dataLoop, hab]
  · intro x; simp [InterpChebyshev.eval, InterpChebyshev.clenshaw]

/-- **C87 (after an error).** A failed `adapt_function` leaves an object with the old degree and the coefficients of the last
attempt: here the line through 0 and 2 evaluates to 5 afterwards. -/
theorem C87_failed_adapt_counterexample (nn_max : Nat) {xa xb : ℝ} (h : xa + 1e-5 < xb) :
    ∃ s s' s'', InterpChebyshev.new nn_max xa xb = ok s ∧ s.setData [0, 2] = MRes.ok (s', ()) ∧ s'.eval xa = ok 0 ∧
      s'.eval xb = ok 2 ∧ s'.adaptFunction 0 () (fun _ _ => ok (5, ())) = MRes.err (s'', ()) "adaptive interpolation did not converge" ∧
      ∀ x, s''.eval x = ok 5 := by
  obtain ⟨s, e, hr, ha, hb, hm, _⟩ := (C87_new nn_max xa xb).2 h
  have hab : xa < xb := by norm_num at h; linarith
  obtain ⟨s', e', hs, hI⟩ := (C87_set_data hr [0, 2]).2.2 (by simp) (by simp [hm])
  have I := hI (fun i => if i = 0 then 0 else 2) (fun i hi => by
    have hi : i < 2 := hi
    obtain rfl | rfl : i = 0 ∨ i = 1 := by omega
    · rfl
    · rfl)
  have hr' := hs.range hr
  have hnn : s'.nn = 1 := I.degree
  obtain ⟨P, _, hP, hv⟩ := I.poly
  have n0 : node s'.xa s'.xb 1 0 = xa := by rw [hs.1, hs.2.1, ha, hb]; simp [node]
  have n1 : node s'.xa s'.xb 1 1 = xb := by rw [hs.1, hs.2.1, ha, hb]; simp [node]; ring
  have v0 := hv 0 (by simp)
  have v1 := hv 1 (by simp)
  rw [show [(0 : ℝ), 2].length - 1 = 1 from rfl] at v0 v1
  rw [n0] at v0
  rw [n1] at v1
  rw [hs.1, hs.2.1, ha, hb] at hP
  obtain ⟨s'', e'', h1, h2, h3, h4, _⟩ := adaptLoop_never s'.nn_max 1 0 s' hr' le_rfl (by omega)
  refine ⟨s, s', s'', e, e', ?_, ?_, e'', fun x => ?_⟩
  · rw [hP, min_eq_right hab.le, max_self, v0]; rfl
  · rw [hP, min_self, max_eq_right hab.le, v1]; rfl
  · have hr'' := h3.range hr'
    have hnm : s'.nn_max = nn_max + 2 := by rw [hs.2.2.2, hm]
    have c := h4 (by omega)
    rw [eval_series hr'' (by rw [h2]; exact I.ready) (by rw [h1, hnn]; norm_num), inX_eval, h1, hnn, series_eval,
      Finset.sum_range_succ, Finset.sum_range_one, c 0 (by omega), c 1 (by omega), coef_const 5 (by omega) (by omega),
      coef_const 5 (by omega) (by omega)]
    simp

/-- **C87 (adaptive degree, panic).** An error of the function during the last call of `set_function` is unwrapped: a function that
fails at its sixth call makes `adapt_function` panic instead of returning the error. -/
theorem C87_adapt_panic_counterexample (nn_max : Nat) {xa xb : ℝ} (h : xa + 1e-5 < xb) {tol : ℝ} (htol : 0 < tol) :
    ∃ s, InterpChebyshev.new nn_max xa xb = ok s ∧
      s.adaptFunction tol 0 (fun _ (n : Nat) => if n < 5 then ok (0, n + 1) else err "stop") = MRes.panic := by
  have hab : xa < xb := by norm_num at h; linarith
  unfold InterpChebyshev.new tolRange
  rw [if_neg (by push Not; exact h)]
  refine ⟨_, rfl, ?_⟩
  simp [InterpChebyshev.adaptFunction, InterpChebyshev.adaptLoop, InterpChebyshev.dataVector, InterpChebyshev.dataLoop, hab,
    InterpChebyshev.coefficients, List.range_succ, htol, InterpChebyshev.setFunction]

end Russell.Lab
