import Verif.Ode.OrderProps
import Mathlib.Algebra.CharZero.Infinite
import Mathlib.Algebra.Polynomial.Roots

/-!
# The dense output of the explicit methods joins the steps (C62)
-/

namespace Russell.Ode

open Russell Russell.Res Russell.Lab

set_option linter.unusedSectionVars false

variable {K σ : Type} [Field K] [LinearOrder K] [IsStrictOrderedRing K] [FloorSemiring K] {n : Nat}

theorem calc8_spec {d : List (List K)} (hd : Rows d 8 n) {θ u : K} {aux r : List K}
    (he : forRange 0 n aux (calc8Body d θ u) = ok r) : ∀ m, m < n → comp r m =
      comp (d.getD 0 []) m + θ * (comp (d.getD 1 []) m + u * (comp (d.getD 2 []) m +
        θ * (comp (d.getD 3 []) m + u * (comp (d.getD 4 []) m + θ * (comp (d.getD 5 []) m +
          u * (comp (d.getD 6 []) m + θ * comp (d.getD 7 []) m)))))) := by
  refine forRange_ok (fun m (r : List K) => ∀ q, q < m → comp r q =
      comp (d.getD 0 []) q + θ * (comp (d.getD 1 []) q + u * (comp (d.getD 2 []) q +
        θ * (comp (d.getD 3 []) q + u * (comp (d.getD 4 []) q + θ * (comp (d.getD 5 []) q +
          u * (comp (d.getD 6 []) q + θ * comp (d.getD 7 []) q)))))))
    (Nat.zero_le n) (fun q hq => absurd hq (Nat.not_lt_zero q)) ?_ he
  rintro m r r' - hm hI hb
  unfold calc8Body at hb
  rw [hd.get2 (by omega) hm, ok_bind, hd.get2 (by omega) hm, ok_bind, hd.get2 (by omega) hm, ok_bind,
    hd.get2 (by omega) hm, ok_bind] at hb
  dsimp only at hb
  rw [hd.get2 (by omega) hm, ok_bind, hd.get2 (by omega) hm, ok_bind, hd.get2 (by omega) hm, ok_bind,
    hd.get2 (by omega) hm, ok_bind] at hb
  by_cases hlt : m < r.length
  · obtain ⟨g1, g2, g3⟩ := vset_comp (n := r.length) rfl hlt (comp (d.getD 0 []) m + θ * (comp (d.getD 1 []) m +
      u * (comp (d.getD 2 []) m + θ * (comp (d.getD 3 []) m + u * (comp (d.getD 4 []) m + θ * (comp (d.getD 5 []) m +
          u * (comp (d.getD 6 []) m + θ * comp (d.getD 7 []) m)))))))
    rw [g1] at hb
    cases hb
    intro q hq
    rw [g3]
    rcases Nat.lt_succ_iff_lt_or_eq.1 hq with h' | h'
    · rw [if_neg (by omega)]; exact hI q h'
    · rw [if_pos h', h']
  · rw [vset_ge _ (by omega : r.length ≤ m)] at hb; cases hb

open Polynomial in
/-- The polynomial of the interpolation, in `θ`. -/
noncomputable def densePoly (d : List (List K)) (five : Bool) (m : Nat) : K[X] :=
  let c := fun r => C (comp (d.getD r []) m)
  c 0 + X * (c 1 + (1 - X) * (c 2 + X * (c 3 + (1 - X) * (c 4 + if five then 0 else X * (c 5 + (1 - X) * (c 6 + X * c 7))))))

variable {fns : MathFns K} {F : K → List K → List K} {p : ErkParams K} {t : Tableau}

theorem dense_value {x : K} {y : List K} {h err : K} {e' : Erk K} {y' aux r : List K} {o : ErkDense K} {θ : K} (hh : h ≠ 0)
    (hR : ErkRelation fns n F p t x y h err e' y') (hm : p.method = .DoPri5 ∨ p.method = .DoPri8) (ho : e'.dense_out = some o)
    (he : e'.denseOutput aux (x + θ * h) (x + h) y' h = ok r) :
    ∀ i, i < n → comp r i = (densePoly o.d (p.method = .DoPri5) i).eval θ := by
  obtain ⟨k, k1, k2, -, k3⟩ := hR
  obtain ⟨hH, -⟩ := k3 o ho
  intro i hi
  unfold Erk.denseOutput at he
  rw [ho] at he
  dsimp only at he
  unfold ErkDense.calculate at he
  dsimp only at he
  rw [hH.ndim, lit_one, show (x + θ * h - (x + h - h)) / h = θ by field_simp; ring, hH.method] at he
  rcases hm with hm | hm
  · rw [if_pos hm] at he
    rw [calc5_spec (hH.five hm) he i hi]
    simp [densePoly, hm]
  · rw [if_neg (by rw [hm]; decide), if_pos hm] at he
    rw [calc8_spec (hH.eight hm).1 he i hi]
    rw [show decide (p.method = .DoPri5) = false by rw [hm]; rfl]
    unfold densePoly
    simp only [Polynomial.eval_add, Polynomial.eval_mul, Polynomial.eval_C, Polynomial.eval_X, Polynomial.eval_sub,
      Polynomial.eval_one, Bool.false_eq_true, if_false]

/-- The dense output is computed, and does not panic, for every station. -/
theorem dense_ok {x : K} {y : List K} {h err : K} {e' : Erk K} {y' aux : List K} {o : ErkDense K} (xo : K)
    (hR : ErkRelation fns n F p t x y h err e' y') (ho : e'.dense_out = some o) (ha : aux.length = n) :
    ∃ r, e'.denseOutput aux xo (x + h) y' h = ok r ∧ r.length = n := by
  obtain ⟨k, k1, k2, -, k3⟩ := hR
  obtain ⟨hH, -⟩ := k3 o ho
  unfold Erk.denseOutput
  rw [ho]
  dsimp only
  unfold ErkDense.calculate
  dsimp only
  rw [hH.ndim, hH.method]
  split
  · rename_i hm
    have hd := hH.five hm
    obtain ⟨r, hr, hr2⟩ := forRange_spec (fun _ (r : List K) => r.length = n) (s := aux)
      (f := calc5Body o.d ((xo - (x + h - h)) / h) (lit 1 - (xo - (x + h - h)) / h)) (Nat.zero_le n) ha (by
        intro m r _ hm hr
        unfold calc5Body
        rw [hd.get2 (by omega) hm, ok_bind, hd.get2 (by omega) hm, ok_bind, hd.get2 (by omega) hm, ok_bind,
          hd.get2 (by omega) hm, ok_bind, hd.get2 (by omega) hm, ok_bind]
        obtain ⟨g1, g2, -⟩ := vset_comp hr hm (comp (o.d.getD 0 []) m + (xo - (x + h - h)) / h * (comp (o.d.getD 1 []) m +
          (lit 1 - (xo - (x + h - h)) / h) * (comp (o.d.getD 2 []) m + (xo - (x + h - h)) / h * (comp (o.d.getD 3 []) m +
            (lit 1 - (xo - (x + h - h)) / h) * comp (o.d.getD 4 []) m))))
        exact ⟨_, g1, g2⟩)
    exact ⟨r, hr, hr2⟩
  · split
    · rename_i hm
      have hd := (hH.eight hm).1
      obtain ⟨r, hr, hr2⟩ := forRange_spec (fun _ (r : List K) => r.length = n) (s := aux)
        (f := calc8Body o.d ((xo - (x + h - h)) / h) (lit 1 - (xo - (x + h - h)) / h)) (Nat.zero_le n) ha (by
          intro m r _ hm hr
          unfold calc8Body
          rw [hd.get2 (by omega) hm, ok_bind, hd.get2 (by omega) hm, ok_bind, hd.get2 (by omega) hm, ok_bind,
            hd.get2 (by omega) hm, ok_bind]
          dsimp only
          rw [hd.get2 (by omega) hm, ok_bind, hd.get2 (by omega) hm, ok_bind, hd.get2 (by omega) hm, ok_bind,
            hd.get2 (by omega) hm, ok_bind]
          exact ⟨_, (vset_comp hr hm _).1, (vset_comp hr hm _).2.1⟩)
      exact ⟨r, hr, hr2⟩
    · exact ⟨aux, rfl, ha⟩

theorem dense_coefs {x : K} {y : List K} {h err : K} {e' : Erk K} {y' : List K} {o : ErkDense K} {m : Method}
    (hR : ErkRelation fns n F p t x y h err e' y') (hm : p.method = m) (h58 : m = .DoPri5 ∨ m = .DoPri8)
    (ho : e'.dense_out = some o) :
    ∃ k, RkStages n t.bb.length t.coefs.a t.coefs.c F x y h k ∧ y' = lin n y h t.bb.length t.coefs.b k ∧ ∀ i, i < n →
      comp (o.d.getD 0 []) i = comp y i ∧ comp (o.d.getD 1 []) i = comp y' i - comp y i ∧
      comp (o.d.getD 2 []) i = h * comp (k 0) i - (comp y' i - comp y i) ∧
      comp (o.d.getD 3 []) i = comp y' i - comp y i - h * comp (k (if m = .DoPri5 then 6 else 11)) i -
        (h * comp (k 0) i - (comp y' i - comp y i)) := by
  obtain ⟨k, k1, k2, -, k3⟩ := hR
  obtain ⟨hH, hD⟩ := k3 o ho
  refine ⟨k, k1, k2, ?_⟩
  intro i hi
  rcases h58 with h5 | h8
  · have hom : o.method = .DoPri5 := hH.method.trans (hm.trans h5)
    rw [hD.1 hom 0 i (by omega) hi, hD.1 hom 1 i (by omega) hi, hD.1 hom 2 i (by omega) hi, hD.1 hom 3 i (by omega) hi, if_pos h5]
    exact ⟨rfl, rfl, rfl, rfl⟩
  · have hom : o.method = .DoPri8 := hH.method.trans (hm.trans h8)
    obtain ⟨kk, e1, -, e2⟩ := hD.2 hom
    rw [e2 0 i (by omega) hi, e2 1 i (by omega) hi, e2 2 i (by omega) hi, e2 3 i (by omega) hi, if_neg (by rw [h8]; decide),
      ← e1 0 (by omega), ← e1 11 (by omega)]
    exact ⟨rfl, rfl, rfl, rfl⟩

/-- **C62**: at the two ends of an accepted step the dense output gives the solution before and after the step. -/
theorem C62_ends {x : K} {y : List K} {h err : K} {e' : Erk K} {y' aux r : List K} {o : ErkDense K} {xo : K} (hh : h ≠ 0)
    (hR : ErkRelation fns n F p t x y h err e' y') (hm : p.method = .DoPri5 ∨ p.method = .DoPri8) (ho : e'.dense_out = some o)
    (he : e'.denseOutput aux xo (x + h) y' h = ok r) :
    (xo = x → ∀ i, i < n → comp r i = comp y i) ∧ (xo = x + h → ∀ i, i < n → comp r i = comp y' i) := by
  obtain ⟨k, -, -, hc⟩ := dense_coefs hR rfl hm ho
  constructor
  · rintro rfl i hi
    rw [dense_value (θ := 0) hh hR hm ho (by rw [zero_mul, add_zero]; exact he) i hi]
    simp only [densePoly, Polynomial.eval_add, Polynomial.eval_mul, Polynomial.eval_C, Polynomial.eval_X]
    rw [(hc i hi).1]; ring
  · rintro rfl i hi
    rw [dense_value (θ := 1) hh hR hm ho (by rw [one_mul]; exact he) i hi]
    simp only [densePoly, Polynomial.eval_add, Polynomial.eval_mul, Polynomial.eval_C, Polynomial.eval_X, Polynomial.eval_sub,
      Polynomial.eval_one]
    rw [(hc i hi).1, (hc i hi).2.1]; ring

open Polynomial in
theorem densePoly_derivative (d : List (List K)) (five : Bool) (i : Nat) :
    (derivative (densePoly d five i)).eval 0 = comp (d.getD 1 []) i + comp (d.getD 2 []) i ∧
    (derivative (densePoly d five i)).eval 1 = comp (d.getD 1 []) i - comp (d.getD 2 []) i - comp (d.getD 3 []) i := by
  unfold densePoly
  dsimp only
  generalize (if five = true then (0 : K[X]) else _) = Q
  constructor <;>
  · simp only [derivative_add, derivative_mul, derivative_sub, derivative_C, derivative_X, derivative_one, eval_add, eval_mul,
      eval_sub, eval_C, eval_X, eval_one, eval_zero]
    ring

/-- In the methods whose last stage is the first one of the next step, the last stage is `F` at the end of the step. -/
theorem last_stage {m : Method} (ht : m.tableau = some t) (hs : m.information.first_step_same_as_last = true) {x : K} {y : List K}
    {h : K} {k : Nat → List K} (hk : RkStages n t.bb.length t.coefs.a t.coefs.c F x y h k) :
    k (t.bb.length - 1) = F (x + h) (lin n y h t.bb.length t.coefs.b k) := by
  obtain ⟨w0, -, -, -, -, -, w, -⟩ := tableau_wellFormed ht
  obtain ⟨w1, w2, w3⟩ := w hs
  rw [hk _ (by omega)]
  congr 1
  · change x + h * ((t.cc.getD (t.bb.length - 1) 0 : ℚ) : K) = x + h
    rw [w1, Rat.cast_one, mul_one]
  · apply ext_comp (lin_length ..) (lin_length ..)
    intro i hi
    rw [comp_lin _ _ _ _ _ hi, comp_lin _ _ _ _ _ hi]
    obtain ⟨s, hs⟩ : ∃ s, t.bb.length = s + 1 := ⟨t.bb.length - 1, by omega⟩
    rw [hs] at w2 w3 ⊢
    rw [Finset.sum_range_succ, Nat.add_sub_cancel]
    have e : (t.coefs (K := K)).b s = 0 := by
      change ((t.bb.getD s 0 : ℚ) : K) = 0
      rw [show t.bb.getD s 0 = 0 from w3, Rat.cast_zero]
    rw [e, zero_mul, add_zero]
    congr 2
    apply Finset.sum_congr rfl
    intro j hj
    congr 1
    change (((t.aa.getD s []).getD j 0 : ℚ) : K) = ((t.bb.getD j 0 : ℚ) : K)
    rw [show (t.aa.getD s []).getD j 0 = t.bb.getD j 0 from w2 j (Finset.mem_range.1 hj)]

/-- The first stage is `F` at the beginning of the step. -/
theorem first_stage {m : Method} (ht : m.tableau = some t) {x : K} {y : List K} (hy : y.length = n)
    {h : K} {k : Nat → List K} (hk : RkStages n t.bb.length t.coefs.a t.coefs.c F x y h k) : k 0 = F x y := by
  obtain ⟨w0, -, -, -, w1, -⟩ := tableau_wellFormed ht
  rw [hk _ w0, lin_zero hy]
  congr 1
  change x + h * ((t.cc.getD 0 0 : ℚ) : K) = x
  rw [w1, Rat.cast_zero, mul_zero, add_zero]

/-- **C62**: the dense output of DoPri5 within a step is a polynomial in `θ = (xo - x) / h`, and its derivatives at the two ends are
the right-hand sides there: successive steps join with a continuous derivative. -/
theorem C62_smooth_partial {x : K} {y : List K} {h err : K} {e' : Erk K} {y' : List K} {o : ErkDense K} (hh : h ≠ 0)
    (hy : y.length = n) (hR : ErkRelation fns n F p doPri5 x y h err e' y') (hm : p.method = .DoPri5) (ho : e'.dense_out = some o) :
    ∃ W : Nat → Polynomial K,
      (∀ θ aux r, e'.denseOutput aux (x + θ * h) (x + h) y' h = ok r → ∀ i, i < n → comp r i = (W i).eval θ) ∧
      ∀ i, i < n → (W i).derivative.eval 0 = h * comp (F x y) i ∧ (W i).derivative.eval 1 = h * comp (F (x + h) y') i := by
  obtain ⟨k, k1, k2, hc⟩ := dense_coefs hR hm (Or.inl rfl) ho
  refine ⟨densePoly o.d (p.method = .DoPri5), ?_, ?_⟩
  · intro θ aux r he
    exact dense_value hh hR (Or.inl hm) ho he
  · intro i hi
    obtain ⟨d1, d2⟩ := densePoly_derivative o.d (p.method = .DoPri5) i
    obtain ⟨-, c1, c2, c3⟩ := hc i hi
    have e0 := first_stage (m := .DoPri5) rfl hy k1
    have e6 := last_stage (m := .DoPri5) rfl rfl k1
    rw [← k2] at e6
    rw [if_pos rfl] at c3
    change k 6 = _ at e6
    rw [d1, d2, c1, c2, c3, e0, e6]
    constructor <;> ring

/-- **C62**: the dense output of DoPri8: the derivative at the beginning is right, the one at the end is the last stage. -/
theorem smooth8 {x : K} {y : List K} {h err : K} {e' : Erk K} {y' : List K} {o : ErkDense K} (hh : h ≠ 0)
    (hy : y.length = n) (hR : ErkRelation fns n F p doPri8 x y h err e' y') (hm : p.method = .DoPri8) (ho : e'.dense_out = some o) :
    ∃ (W : Nat → Polynomial K) (k : Nat → List K),
      RkStages n 12 doPri8.coefs.a doPri8.coefs.c F x y h k ∧ y' = lin n y h 12 doPri8.coefs.b k ∧
      (∀ θ aux r, e'.denseOutput aux (x + θ * h) (x + h) y' h = ok r → ∀ i, i < n → comp r i = (W i).eval θ) ∧
      ∀ i, i < n → (W i).derivative.eval 0 = h * comp (F x y) i ∧ (W i).derivative.eval 1 = h * comp (k 11) i := by
  obtain ⟨k, k1, k2, hc⟩ := dense_coefs hR hm (Or.inr rfl) ho
  refine ⟨densePoly o.d (p.method = .DoPri5), k, k1, k2, ?_, ?_⟩
  · intro θ aux r he
    exact dense_value hh hR (Or.inr hm) ho he
  · intro i hi
    obtain ⟨d1, d2⟩ := densePoly_derivative o.d (p.method = .DoPri5) i
    obtain ⟨-, c1, c2, c3⟩ := hc i hi
    have e0 := first_stage (m := .DoPri8) rfl hy k1
    rw [if_neg (by decide)] at c3
    rw [d1, d2, c1, c2, c3, e0]
    constructor <;> ring

/-- The stages of DoPri8 for `y' = y` with `h = 1`. -/
def growthStages : Nat → List ℚ
  | 0 => []
  | i + 1 => let v := growthStages i; v ++ [1 + dot ((doPri8.aa.getD i []).take i) v]

/-- **C62**, violated: for DoPri8 the derivative of the dense output at the end of a step is not the right-hand side there
(erk_dense_out.rs:148 uses the last stage `k[11]` in its place). A case is `y' = y` with `x = 0`, `y = 1` and `h = 1`. -/
theorem C62_smooth8_counterexample {fns : MathFns ℚ} {p : ErkParams ℚ} {err : ℚ} {e' : Erk ℚ} {y' : List ℚ} {o : ErkDense ℚ}
    (hR : ErkRelation fns 1 (fun _ y => y) p doPri8 0 [1] 1 err e' y') (hm : p.method = .DoPri8) (ho : e'.dense_out = some o)
    (W : Polynomial ℚ) (hW : ∀ θ aux r, e'.denseOutput aux (0 + θ * 1) (0 + 1) y' 1 = ok r → comp r 0 = W.eval θ) :
    W.derivative.eval 1 ≠ 1 * comp y' 0 := by
  obtain ⟨V, k, k1, k2, k3, k4⟩ := smooth8 (y := [1]) (n := 1) one_ne_zero rfl hR hm ho
  have e : W = V 0 := by
    apply Polynomial.funext
    intro θ
    obtain ⟨r, hr, -⟩ := dense_ok (aux := [0]) (0 + θ * 1) hR ho rfl
    rw [← hW θ [0] r hr, k3 θ [0] r hr 0 (by omega)]
  rw [e, (k4 0 (by omega)).2]
  have hc : RkStages 1 12 doPri8.coefs.a doPri8.coefs.c (fun _ y => y) (0 : ℚ) [1] 1 fun i => [(growthStages 12).getD i 0] := by
    intro i hi
    interval_cases i <;> decide +kernel
  have hu := k1.unique hc
  rw [hu 11 (by omega), k2, lin_congr (c' := doPri8.coefs.b) (fun _ _ => rfl) hu]
  decide +kernel

end Russell.Ode
