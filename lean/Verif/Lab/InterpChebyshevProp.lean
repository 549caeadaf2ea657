import Verif.Lab.ChebyshevSeries
import Verif.Lab.QuadratureProp

/-!
# The Chebyshev interpolation reproduces its data (C87)
-/

namespace Russell.Lab.Cheb

open Russell Russell.Res Polynomial Polynomial.Chebyshev

open Russell.Lab.InterpChebyshev Russell.Lab.Quad

noncomputable section

/-- what holds for all objects: the range is not empty -/
structure Range (s : InterpChebyshev) : Prop where
  lt : s.xa + 1e-5 < s.xb
  dx : s.dx = s.xb - s.xa

/-- the point `i` of the grid of degree `N`; the middle of the interval for degree zero -/
def node (xa xb : ℝ) (N i : Nat) : ℝ :=
  if N = 0 then (xa + xb) / 2 else (xb + xa - (xb - xa) * Real.cos (i * Real.pi / N)) / 2

/-- the object interpolates the values `v` with the degree `N`: both evaluations are those of a polynomial that takes the values
`v` at the nodes, the value at the nearest bound is used outside of the range, and the data are returned by `get_xy_data` -/
structure Interp (s : InterpChebyshev) (N : Nat) (v : Nat → ℝ) : Prop where
  ready : s.ready = true
  degree : s.nn = N
  trig : ∀ x, s.evalUsingTrig x = s.eval x
  poly : ∃ P : ℝ[X], P.natDegree ≤ N ∧ (∀ x, s.eval x = ok (P.eval (max s.xa (min s.xb x)))) ∧
    ∀ i ≤ N, P.eval (node s.xa s.xb N i) = v i
  data : 1 ≤ N → ∃ xx uu, s.getXyData = ok (xx, uu) ∧ xx.length = N + 1 ∧ uu.length = N + 1 ∧
    ∀ i ≤ N, xx[i]? = some (node s.xa s.xb N i) ∧ uu[i]? = some (v i)

/-- the contents of the object -/
structure Rep (s : InterpChebyshev) (N : Nat) (uu : Nat → ℝ) : Prop where
  ready : s.ready = true
  nn : s.nn = N
  const : N = 0 → s.constant_fx = uu 0
  a : 1 ≤ N → ∀ j ≤ N, s.a j = coef uu N j
  uu : 1 ≤ N → ∀ k ≤ N, s.uu_rev k = uu k

theorem clamp_z {s : InterpChebyshev} (h : Range s) (x : ℝ) : s.zOf x = (2 * max s.xa (min s.xb x) - s.xb - s.xa) / s.dx := by
  have hd : 0 < s.dx := by rw [h.dx]; have := h.lt; norm_num at this ⊢; linarith
  have hab : s.xa ≤ s.xb := by have := h.dx; linarith
  have h1 : (2 * s.xb - s.xb - s.xa) / s.dx = 1 := by rw [div_eq_one_iff_eq hd.ne', h.dx]; ring
  have h2 : (2 * s.xa - s.xb - s.xa) / s.dx = -1 := by rw [div_eq_iff hd.ne', h.dx]; ring
  unfold zOf
  rcases le_total s.xb x with hx | hx
  · rw [min_eq_left hx, max_eq_right hab, h1, min_eq_left, max_eq_right (by norm_num)]
    rw [← h1]; gcongr
  · rw [min_eq_right hx, min_eq_right (by rw [← h1]; gcongr)]
    rcases le_total s.xa x with hx' | hx'
    · rw [max_eq_right hx', max_eq_right]
      rw [← h2]; gcongr
    · rw [max_eq_left hx', h2, max_eq_left]
      rw [← h2]; gcongr

/-- the polynomial in `x` -/
def inX (s : InterpChebyshev) (p : ℝ[X]) : ℝ[X] := p.comp (C (2 / s.dx) * X + C (-(s.xb + s.xa) / s.dx))

theorem inX_eval (s : InterpChebyshev) (p : ℝ[X]) (x : ℝ) : (inX s p).eval x = p.eval ((2 * x - s.xb - s.xa) / s.dx) := by
  unfold inX
  rw [eval_comp]
  simp only [eval_add, eval_mul, eval_C, eval_X]
  congr 1; ring

theorem natDegree_lin (α β : ℝ) : (C α * X + C β : ℝ[X]).natDegree ≤ 1 := natDegree_linear_le

theorem inX_degree (s : InterpChebyshev) (p : ℝ[X]) : (inX s p).natDegree ≤ p.natDegree := by
  refine natDegree_comp_le.trans ?_
  have := natDegree_lin (2 / s.dx) (-(s.xb + s.xa) / s.dx)
  nlinarith

theorem node_z {s : InterpChebyshev} (h : Range s) {N i : Nat} (hN : 1 ≤ N) (hi : i ≤ N) :
    (2 * node s.xa s.xb N i - s.xb - s.xa) / s.dx = Real.cos (Real.pi * (N - i : Nat) / N) := by
  have hd : s.dx ≠ 0 := by have := h.dx; have := h.lt; intro h0; norm_num at *; linarith
  have hN' : (N : ℝ) ≠ 0 := by positivity
  unfold node
  rw [if_neg (by omega), div_eq_iff hd, h.dx, Nat.cast_sub hi,
    show Real.pi * ((N : ℝ) - i) / N = Real.pi - i * Real.pi / N by field_simp, Real.cos_pi_sub]
  ring

theorem node_mem {xa xb : ℝ} (h : xa ≤ xb) (N i : Nat) : node xa xb N i ∈ Set.Icc xa xb := by
  unfold node
  split_ifs
  · constructor <;> linarith
  · have h1 := Real.cos_le_one (i * Real.pi / N)
    have h2 := Real.neg_one_le_cos (i * Real.pi / N)
    constructor <;> nlinarith

theorem eval_series {s : InterpChebyshev} (h : Range s) (hr : s.ready = true) (hN : s.nn ≠ 0) (x : ℝ) :
    s.eval x = ok ((inX s (series s.a s.nn)).eval (max s.xa (min s.xb x))) := by
  unfold InterpChebyshev.eval
  rw [if_pos hr, if_neg hN]
  simp only
  rw [clenshaw_spec, inX_eval, ← clamp_z h]
  simp

theorem foldl_sum (F : Nat → ℝ) : ∀ (n : Nat) (s : ℝ), (List.range n).foldl (fun s k => s + F k) s = s + ∑ k ∈ Finset.range n, F k
  | 0, s => by simp
  | n + 1, s => by rw [List.range_succ, List.foldl_append, foldl_sum F n, Finset.sum_range_succ]; simp; ring

theorem trig_series {s : InterpChebyshev} (h : Range s) (hr : s.ready = true) (hN : s.nn ≠ 0) (x : ℝ) :
    s.evalUsingTrig x = ok ((inX s (series s.a s.nn)).eval (max s.xa (min s.xb x))) := by
  unfold InterpChebyshev.evalUsingTrig
  rw [if_pos hr, if_neg hN, foldl_sum (fun k => s.a k * chebyshevTn k (s.zOf x)), inX_eval, ← clamp_z h, series_eval, zero_add]
  congr 1
  refine Finset.sum_congr rfl fun j _ => ?_
  rw [C32_tn]

theorem getXy_spec {s : InterpChebyshev} (h : Range s) (hr : s.ready = true) (hN : 1 ≤ s.nn) :
    ∃ xx uu, s.getXyData = ok (xx, uu) ∧ xx.length = s.nn + 1 ∧ uu.length = s.nn + 1 ∧
      ∀ i ≤ s.nn, xx[i]? = some (node s.xa s.xb s.nn i) ∧ uu[i]? = some (s.uu_rev (s.nn - i)) := by
  obtain ⟨zz, hz, hl, hp, _⟩ := C52_lobatto_points hN
  unfold getXyData
  rw [if_pos hr, hz]
  simp only [ok_bind]
  obtain ⟨r, e, I⟩ := forRange_spec (lo := 0) (hi := s.nn + 1)
    (s := (List.replicate (s.nn + 1) (0 : ℝ), List.replicate (s.nn + 1) (0 : ℝ)))
    (f := fun i (xx, uu) => do
      let z ← vget zz i
      let xx ← vset xx i ((s.xb + s.xa + s.dx * z) / 2)
      let k ← subUsize s.nn i
      let uu ← vset uu i (s.uu_rev k)
      ok (xx, uu))
    (fun t r => r.1.length = s.nn + 1 ∧ r.2.length = s.nn + 1 ∧ ∀ i < t, r.1[i]? = some (node s.xa s.xb s.nn i) ∧
      r.2[i]? = some (s.uu_rev (s.nn - i))) (by omega) (by simp) (by
      rintro i ⟨xx, uu⟩ _ hi ⟨h1, h2, h3⟩
      have hi' : i ≤ s.nn := by omega
      have e1 : vget zz i = ok (-Real.cos (i * Real.pi / s.nn)) := by unfold vget; rw [hp i hi']
      simp only [e1, ok_bind]
      simp only at h1 h2 h3
      unfold vset subUsize
      rw [if_pos (by omega)]
      simp only [ok_bind]
      rw [if_pos hi']
      simp only [ok_bind]
      rw [if_pos (by omega)]
      refine ⟨_, rfl, by simpa using h1, by simpa using h2, fun j hj => ?_⟩
      by_cases hij : i = j
      · subst hij
        simp only
        rw [List.getElem?_set_self (by omega), List.getElem?_set_self (by omega)]
        refine ⟨?_, rfl⟩
        unfold node
        rw [if_neg (by omega), h.dx]
        congr 1; ring
      · simp only
        rw [List.getElem?_set_ne hij, List.getElem?_set_ne hij]
        exact h3 j (by omega))
  exact ⟨r.1, r.2, e, I.1, I.2.1, fun i hi => I.2.2 i (by omega)⟩

theorem Rep.interp {s : InterpChebyshev} (h : Range s) {N : Nat} {uu : Nat → ℝ} (R : Rep s N uu) :
    Interp s N (fun i => uu (N - i)) := by
  obtain ⟨hr, rfl, hc, ha, hu⟩ := R
  by_cases h0 : s.nn = 0
  · refine ⟨hr, rfl, ?_, ⟨C (uu 0), by simp, ?_, ?_⟩, by omega⟩
    · intro x
      unfold InterpChebyshev.eval InterpChebyshev.evalUsingTrig
      rw [if_pos hr, if_pos hr, if_pos h0, if_pos h0]
    · intro x
      unfold InterpChebyshev.eval
      rw [if_pos hr, if_pos h0, hc h0, eval_C]
    · intro i hi
      rw [eval_C]
      simp [h0]
  · have hN : 1 ≤ s.nn := by omega
    refine ⟨hr, rfl, fun x => (trig_series h hr h0 x).trans (eval_series h hr h0 x).symm,
      ⟨inX s (series s.a s.nn), (inX_degree _ _).trans (series_degree _ _), eval_series h hr h0, ?_⟩, fun _ => ?_⟩
    · intro i hi
      rw [inX_eval, node_z h hN hi, series_congr (ha hN), series_node uu hN (by omega)]
    · obtain ⟨xx, u, e, h1, h2, h3⟩ := getXy_spec h hr hN
      exact ⟨xx, u, e, h1, h2, fun i hi => ⟨(h3 i hi).1, by rw [(h3 i hi).2, hu hN _ (by omega)]⟩⟩

theorem coefficients_ok {a uu : Nat → ℝ} {len nn : Nat} (h : 1 ≤ nn) (hl : nn + 1 ≤ len) :
    coefficients a uu len nn = ok fun j => if j < nn + 1 then coef uu nn j else a j := by
  unfold coefficients
  rw [if_pos ⟨by omega, hl⟩]
  congr 1
  funext j
  rw [foldl_sum (fun k => uu k * 2 * Real.cos (Real.pi * (j : ℝ) * (k : ℝ) / (nn : ℝ)) / (qFactor nn j * qFactor nn k * (nn : ℝ)))]
  rw [zero_add]; rfl

/-- the parts of the object that are never changed -/
def SameRange (s s' : InterpChebyshev) : Prop := s'.xa = s.xa ∧ s'.xb = s.xb ∧ s'.dx = s.dx ∧ s'.nn_max = s.nn_max

theorem SameRange.range {s s' : InterpChebyshev} (h : SameRange s s') (r : Range s) : Range s' := by
  obtain ⟨h1, h2, h3, _⟩ := h
  exact ⟨by rw [h1, h2]; exact r.lt, by rw [h1, h2, h3]; exact r.dx⟩

theorem finish_ok {A : Type} {s : InterpChebyshev} (args : A) (h1 : 1 ≤ s.nn) (h2 : s.nn ≤ s.nn_max) :
    ∃ s', finish s args = MRes.ok (s', args) ∧ SameRange s s' ∧ Rep s' s.nn s.uu_rev := by
  unfold finish
  rw [coefficients_ok h1 (by omega)]
  refine ⟨_, rfl, ⟨rfl, rfl, rfl, rfl⟩, rfl, rfl, by omega, fun _ j hj => ?_, fun _ k _ => rfl⟩
  show (if j < s.nn + 1 then _ else _) = _
  rw [if_pos (by omega)]

/-- the points where the function is evaluated, from the upper to the lower bound -/
def revNode (xa xb : ℝ) (N k : Nat) : ℝ := (xb + xa + (xb - xa) * Real.cos (Real.pi * k / N)) / 2

theorem revNode_eq {xa xb : ℝ} {N k : Nat} (hN : 1 ≤ N) (hk : k ≤ N) : revNode xa xb N k = node xa xb N (N - k) := by
  unfold revNode node
  have hN' : (N : ℝ) ≠ 0 := by positivity
  rw [if_neg (by omega), Nat.cast_sub hk, show ((N : ℝ) - k) * Real.pi / N = Real.pi - Real.pi * k / N by field_simp,
    Real.cos_pi_sub]
  ring

theorem revNode_mem {xa xb : ℝ} (h : xa ≤ xb) (N k : Nat) : revNode xa xb N k ∈ Set.uIcc xa xb := by
  rw [Set.uIcc_of_le h]
  unfold revNode
  have h1 := Real.cos_le_one (Real.pi * k / N)
  have h2 := Real.neg_one_le_cos (Real.pi * k / N)
  constructor <;> nlinarith

theorem dataLoop_spec {A : Type} {f : Callback ℝ A} {g : ℝ → ℝ} {xa xb : ℝ} (hab : xa ≤ xb) (hf : CallsOn f g xa xb) (nn : Nat) :
    ∀ (n k : Nat) (uu : Nat → ℝ) (args : A),
      (∃ uu' args', dataLoop f nn xa xb n k (uu, args) = MRes.ok (uu', args') ∧
        ∀ j, uu' j = if k ≤ j ∧ j < k + n then g (revNode xa xb nn j) else uu j) ∨
      (∃ uu' args' m, dataLoop f nn xa xb n k (uu, args) = MRes.err (uu', args') m ∧ FromF f xa xb m)
  | 0, k, uu, args => Or.inl ⟨uu, args, rfl, fun j => by rw [if_neg (by omega)]⟩
  | n + 1, k, uu, args => by
    have hm := revNode_mem hab nn k
    unfold dataLoop
    rcases hf _ hm args with ⟨args', e⟩ | ⟨m, e⟩
    · unfold revNode at e
      rw [e]
      rcases dataLoop_spec hab hf nn n (k + 1) (Function.update uu k (g (revNode xa xb nn k))) args' with ⟨u, a, e', h⟩ | h
      · refine Or.inl ⟨u, a, e', fun j => ?_⟩
        rw [h j]
        by_cases hjk : j = k
        · subst hjk
          rw [if_neg (by omega), if_pos (by omega), Function.update_self]
        · rw [Function.update_of_ne hjk]
          by_cases hc : k ≤ j ∧ j < k + (n + 1)
          · rw [if_pos hc, if_pos (by omega)]
          · rw [if_neg hc, if_neg (by omega)]
      · exact Or.inr h
    · refine Or.inr ⟨uu, args, m, ?_, _, hm, args, e⟩
      unfold revNode at e
      rw [e]

theorem setFunction_spec {A : Type} {s : InterpChebyshev} (h : Range s) {f : Callback ℝ A} {g : ℝ → ℝ}
    (hf : CallsOn f g s.xa s.xb) {nn : Nat} (hn : nn ≤ s.nn_max) (args : A) :
    (∃ s' args', s.setFunction nn args f = MRes.ok (s', args') ∧ SameRange s s' ∧
      Rep s' nn (fun k => g (node s.xa s.xb nn (nn - k)))) ∨
    ∃ s' args' m, s.setFunction nn args f = MRes.err (s', args') m ∧ SameRange s s' ∧ FromF f s.xa s.xb m := by
  have hab : s.xa < s.xb := by have := h.lt; norm_num at this; linarith
  unfold setFunction
  rw [if_neg (by omega)]
  simp only
  by_cases h0 : nn = 0
  · subst h0
    rw [if_pos rfl]
    have hm : (s.xa + s.xb) / 2 ∈ Set.uIcc s.xa s.xb := by
      rw [Set.uIcc_of_le hab.le]; constructor <;> linarith
    rcases hf _ hm args with ⟨args', e⟩ | ⟨m, e⟩
    · rw [e]
      refine Or.inl ⟨_, _, rfl, ⟨rfl, rfl, rfl, rfl⟩, rfl, rfl, fun _ => ?_, by omega, by omega⟩
      simp [node]
    · rw [e]
      exact Or.inr ⟨_, _, m, rfl, ⟨rfl, rfl, rfl, rfl⟩, _, hm, args, e⟩
  · have hN : 1 ≤ nn := by omega
    rw [if_neg h0]
    unfold dataVector
    rw [if_pos ⟨by omega, hab, by omega⟩]
    rcases dataLoop_spec hab.le hf nn (nn + 1) 0 s.uu_rev args with ⟨u, a, e, hu⟩ | ⟨u, a, m, e, hm⟩
    · rw [e]
      simp only
      obtain ⟨s', e', hs, R⟩ := finish_ok (s := { s with nn := nn, uu_rev := u }) a hN hn
      refine Or.inl ⟨s', a, e', hs, R.ready, R.nn, by omega, fun _ j hj => ?_, fun _ k hk => ?_⟩
      · rw [R.a hN j hj]
        unfold coef
        refine Finset.sum_congr rfl fun k hk => ?_
        have hk := Finset.mem_range.1 hk
        have hk : k < nn + 1 := hk
        show u k * 2 * _ / _ = _
        rw [hu k, if_pos (by omega), revNode_eq hN (by omega)]
      · refine (R.uu hN k hk).trans ?_
        show u k = _
        rw [hu k, if_pos (by omega), revNode_eq hN hk]
    · rw [e]
      exact Or.inr ⟨_, _, m, rfl, ⟨rfl, rfl, rfl, rfl⟩, hm⟩

theorem setData_spec {s : InterpChebyshev} {uu : List ℝ} (h1 : 1 ≤ uu.length) (h2 : uu.length ≤ s.nn_max + 1) :
    ∃ s', s.setData uu = MRes.ok (s', ()) ∧ SameRange s s' ∧
      Rep s' (uu.length - 1) (fun k => uu.getD (uu.length - 1 - k) 0) := by
  unfold setData
  simp only
  rw [if_neg (by omega), if_neg (by omega)]
  by_cases h0 : uu.length - 1 = 0
  · rw [if_pos h0]
    refine ⟨_, rfl, ⟨rfl, rfl, rfl, rfl⟩, rfl, rfl, fun _ => ?_, by omega, by omega⟩
    simp [h0]
  · rw [if_neg h0]
    have hN : 1 ≤ uu.length - 1 := by omega
    set u : Nat → ℝ := fun k => if k < uu.length then uu.getD (uu.length - 1 - k) 0 else s.uu_rev k
    have hN2 : uu.length - 1 ≤ s.nn_max := by omega
    obtain ⟨s', e', hs, R⟩ := finish_ok (s := { s with nn := uu.length - 1, uu_rev := u }) () hN hN2
    refine ⟨s', e', hs, R.ready, R.nn, by omega, fun _ j hj => ?_, fun _ k hk => ?_⟩
    · rw [R.a hN j hj]
      unfold coef
      refine Finset.sum_congr rfl fun k hk => ?_
      have hk := Finset.mem_range.1 hk
      show (if k < uu.length then _ else _) * _ * _ / _ = _
      rw [if_pos (by have hk : k < uu.length - 1 + 1 := hk; omega)]
    · rw [R.uu hN k hk]
      show (if k < uu.length then _ else _) = _
      rw [if_pos (by omega)]

/-- a polynomial of degree `≤ N` is reproduced -/
theorem Interp.eq_poly {s : InterpChebyshev} (h : Range s) {N : Nat} {v : Nat → ℝ} (I : Interp s N v) {p : ℝ[X]} (hp : p.natDegree ≤ N)
    (hv : ∀ i ≤ N, v i = p.eval (node s.xa s.xb N i)) (x : ℝ) : s.eval x = ok (p.eval (max s.xa (min s.xb x))) := by
  obtain ⟨P, hP, e, hn⟩ := I.poly
  have hab : s.xa < s.xb := by have := h.lt; norm_num at this; linarith
  have : P = p := by
    refine Polynomial.eq_of_degrees_lt_of_eval_index_eq (Finset.range (N + 1)) (v := fun i => node s.xa s.xb N i) ?_ ?_ ?_ ?_
    · by_cases hN : N = 0
      · subst hN
        intro i hi j hj _
        have := Finset.mem_range.1 hi; have := Finset.mem_range.1 hj; omega
      · intro i hi j hj hij
        have hi' := Finset.mem_range.1 hi
        have hj' := Finset.mem_range.1 hj
        have hd : s.dx ≠ 0 := by rw [h.dx]; linarith
        have e1 := node_z h (show 1 ≤ N by omega) (show i ≤ N by omega)
        have e2 := node_z h (show 1 ≤ N by omega) (show j ≤ N by omega)
        simp only at hij
        rw [hij, e2] at e1
        have := node_inj (show 1 ≤ N by omega) (Finset.mem_coe.2 (Finset.mem_range.2 (show N - j < N + 1 by omega)))
          (Finset.mem_coe.2 (Finset.mem_range.2 (show N - i < N + 1 by omega))) e1
        omega
    · rw [Finset.card_range]
      exact lt_of_le_of_lt degree_le_natDegree (by exact_mod_cast Nat.lt_succ_of_le hP)
    · rw [Finset.card_range]
      exact lt_of_le_of_lt degree_le_natDegree (by exact_mod_cast Nat.lt_succ_of_le hp)
    · intro i hi
      have := Finset.mem_range.1 hi
      rw [hn i (by omega), hv i (by omega)]
  rw [e x, this]

end

end Russell.Lab.Cheb
