import Verif.Lab.RootFinderProp
import Verif.Lab.InterpChebyshevThm
import Mathlib.Analysis.Calculus.MeanValue

/-!
# Theorems about the root finder (C88)
-/

namespace Russell.Lab.Cheb

open Russell Russell.Res Polynomial Polynomial.Chebyshev

open Russell.Lab.RootFinder

noncomputable section

theorem Range.pos {s : InterpChebyshev} (h : Range s) : 0 < s.dx := by
  rw [h.dx]; have := h.lt; norm_num at this; linarith

/-- the polynomial of the object is determined by the evaluations -/
theorem eval_poly {s : InterpChebyshev} (h : Range s) (hr : s.ready = true) (hN : 1 ≤ s.nn) {P : ℝ[X]}
    (hP : ∀ x ∈ Set.Icc s.xa s.xb, s.eval x = ok (P.eval x)) : P = inX s (series s.a s.nn) := by
  have hd := h.pos
  have hab : s.xa < s.xb := by rw [h.dx] at hd; linarith
  refine Polynomial.eq_of_infinite_eval_eq _ _ (Set.Infinite.mono ?_ (Set.Icc_infinite hab))
  intro x hx
  have e := eval_series h hr (by omega) x
  rw [hP x hx, min_eq_right hx.2, max_eq_right hx.1] at e
  exact Res.ok.inj e

theorem inX_coeff {s : InterpChebyshev} (h : Range s) {N : Nat} (hN : 1 ≤ N) (a : Nat → ℝ) :
    (inX s (series a N)).coeff N = a N * 2 ^ (N - 1) * (2 / s.dx) ^ N := by
  have hd := h.pos
  have h2 : (2 / s.dx : ℝ) ≠ 0 := by positivity
  by_cases ha : a N = 0
  · rw [ha, zero_mul, zero_mul]
    have e : series a N = series a (N - 1) := by
      obtain ⟨M, rfl⟩ : ∃ M, N = M + 1 := ⟨N - 1, by omega⟩
      unfold series
      rw [Finset.sum_range_succ, ha]; simp
    refine coeff_eq_zero_of_natDegree_lt (lt_of_le_of_lt (inX_degree s _) ?_)
    rw [e]
    exact lt_of_le_of_lt (series_degree a (N - 1)) (by omega)
  · have l1 : (Polynomial.C (2 / s.dx) * X + Polynomial.C (-(s.xb + s.xa) / s.dx) : ℝ[X]).natDegree = 1 := natDegree_linear h2
    have l2 : (Polynomial.C (2 / s.dx) * X + Polynomial.C (-(s.xb + s.xa) / s.dx) : ℝ[X]).leadingCoeff = 2 / s.dx := leadingCoeff_linear h2
    have e := coeff_comp_degree_mul_degree (p := series a N) (q := Polynomial.C (2 / s.dx) * X + Polynomial.C (-(s.xb + s.xa) / s.dx)) (by omega)
    rw [l1, l2, mul_one, series_natDegree hN ha] at e
    unfold inX
    rw [e, leadingCoeff, series_natDegree hN ha, series_lead a hN]

theorem inX_aeval (s : InterpChebyshev) (a : Nat → ℝ) (N : Nat) (w : ℂ) :
    aeval w (inX s (series a N)) = (cseries a N).eval ((2 * w - s.xb - s.xa) / s.dx) := by
  unfold inX cseries
  rw [aeval_comp, eval_map, aeval_def]
  congr 1
  simp only [map_add, map_mul, aeval_X, Polynomial.aeval_C]
  simp
  ring

/-- multiplicities do not depend on the variable -/
theorem mult_le {s : InterpChebyshev} (h : Range s) {p : ℝ[X]} (hp : p ≠ 0) (x : ℝ) :
    (inX s p).rootMultiplicity x ≤ p.rootMultiplicity ((2 * x - s.xb - s.xa) / s.dx) := by
  have hd := h.pos
  have inv : p = (inX s p).comp (Polynomial.C (s.dx / 2) * X + Polynomial.C ((s.xb + s.xa) / 2)) := by
    unfold inX
    rw [comp_assoc]
    have : (Polynomial.C (2 / s.dx) * X + Polynomial.C (-(s.xb + s.xa) / s.dx) : ℝ[X]).comp (Polynomial.C (s.dx / 2) * X + Polynomial.C ((s.xb + s.xa) / 2)) = X := by
      refine Polynomial.funext fun t => ?_
      simp only [eval_comp, eval_add, eval_mul, eval_C, eval_X]
      field_simp; ring
    rw [this, comp_X]
  rw [le_rootMultiplicity_iff hp]
  have hdvd := pow_rootMultiplicity_dvd (inX s p) x
  obtain ⟨q, hq⟩ := hdvd
  rw [inv]
  have e : ((inX s p).comp (Polynomial.C (s.dx / 2) * X + Polynomial.C ((s.xb + s.xa) / 2))) =
      (X - Polynomial.C ((2 * x - s.xb - s.xa) / s.dx)) ^ (rootMultiplicity x (inX s p)) *
        (Polynomial.C (s.dx / 2) ^ (rootMultiplicity x (inX s p)) * q.comp (Polynomial.C (s.dx / 2) * X + Polynomial.C ((s.xb + s.xa) / 2))) := by
    conv_lhs => rw [hq]
    rw [mul_comp, pow_comp, ← mul_assoc, ← mul_pow]
    congr 2
    refine Polynomial.funext fun t => ?_
    simp only [eval_comp, eval_add, eval_mul, eval_C, eval_X, eval_sub]
    field_simp; ring
  rw [← inv] at e ⊢
  exact ⟨_, e⟩

/-- what is promised for a list of roots of the polynomial `P`: sorted, with all the roots in the interval, each at least as often as
its multiplicity, and the other ones are (real parts of) complex roots within the tolerances, moved to the interval -/
structure Found (rf : RootFinder) (xa xb : ℝ) (P : ℝ[X]) (move : ℝ → ℝ) (roots : List ℝ) : Prop where
  sorted : roots.Pairwise (· ≤ ·)
  length : roots.length ≤ P.natDegree
  complete : ∀ x ∈ Set.Icc xa xb, P.eval x = 0 → x ∈ roots ∧ P.rootMultiplicity x ≤ roots.count x
  sound : ∀ r ∈ roots, ∃ w : ℂ, aeval w P = 0 ∧ |w.im| < rf.tol_abs_imaginary * ((xb - xa) / 2) ∧
    xa - rf.tol_abs_boundary * ((xb - xa) / 2) ≤ w.re ∧ w.re ≤ xb + rf.tol_abs_boundary * ((xb - xa) / 2) ∧ r = move w.re

end

end Russell.Lab.Cheb

namespace Russell.Lab

open Russell Russell.Res Russell.Lab.Cheb Polynomial

open Russell.Lab.RootFinder

noncomputable section

/-- **C88 (no polynomial).** An object without data is an error; a constant has no isolated roots. -/
theorem C88_constant (rf : RootFinder) (eig : Eig) (s : InterpChebyshev) :
    (s.ready = false → rf.chebyshev eig s = err "the interpolant must initialized first") ∧
    (s.ready = true → s.nn = 0 → rf.chebyshev eig s = ok []) := by
  unfold chebyshev
  constructor
  · intro h; simp [h]
  · intro h h0; simp [h, h0]

/-- **C88 (chebyshev).** A vanishing trailing coefficient is an error. Otherwise all the roots of the interpolating polynomial
in the interval are returned in ascending order, with their multiplicities; further ones are complex roots close to the interval,
moved to the interval if the degree is at least two. -/
theorem C88_chebyshev {s : InterpChebyshev} (h : Range s) (hr : s.ready = true) (hN : 1 ≤ s.nn) {P : ℝ[X]}
    (hP : ∀ x ∈ Set.Icc s.xa s.xb, s.eval x = ok (P.eval x)) {eig : Eig} (he : EigContract eig)
    (ht : ∀ n aa, ∃ l, eig n aa = ok l) {rf : RootFinder} (h0 : 0 < rf.tol_zero_an) (h1 : 0 < rf.tol_abs_imaginary)
    (h2 : 0 ≤ rf.tol_abs_boundary) :
    (|P.coeff s.nn| * ((s.xb - s.xa) / 2) ^ s.nn < rf.tol_zero_an * 2 ^ (s.nn - 1) →
      rf.chebyshev eig s = err "the trailing Chebyshev coefficient vanishes; try a smaller degree N") ∧
    (rf.tol_zero_an * 2 ^ (s.nn - 1) ≤ |P.coeff s.nn| * ((s.xb - s.xa) / 2) ^ s.nn →
      ∃ roots, rf.chebyshev eig s = ok roots ∧
        Found rf s.xa s.xb P (fun x => if s.nn = 1 then x else max s.xa (min s.xb x)) roots) := by
  have hd := h.pos
  have hab : s.xa < s.xb := by rw [h.dx] at hd; linarith
  have hPe := eval_poly h hr hN hP
  have hlead : |P.coeff s.nn| * ((s.xb - s.xa) / 2) ^ s.nn = |s.a s.nn| * 2 ^ (s.nn - 1) := by
    rw [hPe, inX_coeff h hN, abs_mul, abs_mul, abs_of_pos (by positivity : (0 : ℝ) < (2 / s.dx) ^ s.nn),
      abs_of_pos (by positivity : (0 : ℝ) < 2 ^ (s.nn - 1)), mul_assoc, ← mul_pow, ← h.dx,
      show 2 / s.dx * (s.dx / 2) = 1 by field_simp, one_pow, mul_one]
  rw [hlead]
  have h2p : (0 : ℝ) < 2 ^ (s.nn - 1) := by positivity
  unfold chebyshev
  rw [if_pos hr]
  simp only
  rw [if_neg (by omega)]
  constructor
  · intro hlt
    rw [if_pos (lt_of_mul_lt_mul_right hlt h2p.le)]
  · intro hle
    have hle := le_of_mul_le_mul_right hle h2p
    rw [if_neg (not_lt.2 hle)]
    have ha : s.a s.nn ≠ 0 := by intro hz; rw [hz, abs_zero] at hle; linarith
    have hPd : P.natDegree = s.nn := by
      refine le_antisymm ?_ (le_natDegree_of_ne_zero ?_)
      · rw [hPe]; exact (inX_degree s _).trans (series_degree _ _)
      · rw [hPe, inX_coeff h hN]; positivity
    have hP0 : P ≠ 0 := by intro hz; rw [hz, natDegree_zero] at hPd; omega
    have back : ∀ z : ℂ, (cseries s.a s.nn).eval z = 0 → aeval (((s.xb : ℂ) + s.xa + s.dx * z) / 2) P = 0 := by
      intro z hz
      rw [hPe, inX_aeval]
      convert hz using 2
      have : (s.dx : ℂ) ≠ 0 := by exact_mod_cast hd.ne'
      field_simp
      ring
    have bounds : ∀ z : ℝ, |z| ≤ 1 + rf.tol_abs_boundary →
        s.xa - rf.tol_abs_boundary * ((s.xb - s.xa) / 2) ≤ (s.xb + s.xa + s.dx * z) / 2 ∧
        (s.xb + s.xa + s.dx * z) / 2 ≤ s.xb + rf.tol_abs_boundary * ((s.xb - s.xa) / 2) := by
      intro z hz
      have hz' := abs_le.1 hz
      rw [h.dx]
      have hp : 0 < s.xb - s.xa := by linarith
      constructor <;> nlinarith
    have inside : ∀ x ∈ Set.Icc s.xa s.xb, |(2 * x - s.xb - s.xa) / s.dx| ≤ 1 + rf.tol_abs_boundary := by
      intro x hx
      refine le_trans ?_ (le_add_of_nonneg_right h2)
      rw [abs_div, abs_of_pos hd, div_le_one hd, abs_le, h.dx]
      constructor <;> linarith [hx.1, hx.2]
    by_cases hn1 : s.nn = 1
    · rw [if_pos hn1]
      have ha1 : s.a 1 ≠ 0 := by rw [hn1] at ha; exact ha
      have hev : ∀ z : ℝ, (series s.a s.nn).eval z = s.a 0 + s.a 1 * z := by
        intro z
        rw [hn1, series_eval, Finset.sum_range_succ, Finset.sum_range_one]; simp
      have root : ∀ x, P.eval x = 0 → (2 * x - s.xb - s.xa) / s.dx = -s.a 0 / s.a 1 := by
        intro x hx
        rw [hPe, inX_eval, hev] at hx
        rw [eq_div_iff ha1]; linarith
      have xback : ∀ x z : ℝ, (2 * x - s.xb - s.xa) / s.dx = z → x = (s.xb + s.xa + s.dx * z) / 2 := by
        rintro x z rfl; field_simp; ring
      by_cases hz : |-s.a 0 / s.a 1| ≤ 1 + rf.tol_abs_boundary
      · rw [if_pos hz]
        refine ⟨_, rfl, List.pairwise_singleton _ _, by simp [hPd, hn1], fun x hx hx0 => ?_, fun r hr => ?_⟩
        · have e := xback x _ (root x hx0)
          refine ⟨by rw [← e]; exact List.mem_singleton_self x, ?_⟩
          rw [← e]
          have : P.rootMultiplicity x ≤ 1 := by
            rw [← count_roots]
            exact (Multiset.count_le_card _ _).trans ((card_roots' P).trans (by omega))
          simpa using this
        · rw [List.mem_singleton] at hr
          refine ⟨(((s.xb + s.xa + s.dx * (-s.a 0 / s.a 1)) / 2 : ℝ) : ℂ), ?_, ?_, (bounds _ hz).1, (bounds _ hz).2, ?_⟩
          · have := back ((-s.a 0 / s.a 1 : ℝ) : ℂ) (by
              unfold cseries
              rw [eval_map, show ((-s.a 0 / s.a 1 : ℝ) : ℂ) = Complex.ofRealHom (-s.a 0 / s.a 1) from rfl, eval₂_at_apply, hev]
              have : s.a 0 + s.a 1 * (-s.a 0 / s.a 1) = 0 := by field_simp; ring
              rw [this]; simp)
            push_cast at this ⊢
            exact this
          · rw [Complex.ofReal_im, abs_zero]
            have : 0 < s.xb - s.xa := by linarith
            positivity
          · rw [hr, if_pos hn1]; rfl
      · rw [if_neg hz]
        refine ⟨_, rfl, List.Pairwise.nil, by simp, fun x hx hx0 => ?_, fun r hr => by simp at hr⟩
        exact absurd (by rw [← root x hx0]; exact inside x hx) hz
    · rw [if_neg hn1]
      obtain ⟨l, hl⟩ := ht s.nn (companion s.a s.nn)
      rw [hl]
      simp only
      have hc := he _ _ _ hl
      rw [charpoly_roots s.a (by omega) ha] at hc
      have hcs : cseries s.a s.nn ≠ 0 := by
        unfold cseries
        rw [Polynomial.map_ne_zero_iff Complex.ofRealHom.injective]
        intro hz
        have := series_natDegree hN ha
        rw [hz, natDegree_zero] at this; omega
      have hlen : l.length ≤ s.nn := by
        have := congrArg Multiset.card hc
        rw [Multiset.coe_card, List.length_map] at this
        rw [this]
        refine (card_roots' _).trans ?_
        unfold cseries
        rw [natDegree_map]; exact series_degree _ _
      refine ⟨_, rfl, List.pairwise_insertionSort _ _, ?_, fun x hx hx0 => ?_, fun r hr => ?_⟩
      · rw [List.length_insertionSort, hPd]
        exact (List.length_filterMap_le _ _).trans hlen
      · have hcount : P.rootMultiplicity x ≤ List.count x (List.insertionSort (· ≤ ·) (List.filterMap (fun p : ℝ × ℝ =>
            if |p.2| < rf.tol_abs_imaginary then
              if |p.1| ≤ 1 + rf.tol_abs_boundary then
                some (max s.xa (min s.xb ((s.xb + s.xa + s.dx * p.1) / 2)))
              else none
            else none) l)) := by
          rw [(List.perm_insertionSort _ _).count_eq, List.count_filterMap]
          have e1 : P.rootMultiplicity x ≤ (cseries s.a s.nn).roots.count (((2 * x - s.xb - s.xa) / s.dx : ℝ) : ℂ) := by
            rw [count_roots, hPe]
            refine (mult_le h (fun hz => hcs (by unfold cseries; rw [hz, Polynomial.map_zero])) x).trans (le_of_eq ?_)
            exact eq_rootMultiplicity_map Complex.ofRealHom.injective _
          refine e1.trans ?_
          rw [← hc, Multiset.coe_count, List.count, List.countP_map]
          refine List.countP_mono_left fun p _ hp => ?_
          simp only [Function.comp, beq_iff_eq] at hp
          have hre := congrArg Complex.re hp
          have him := congrArg Complex.im hp
          simp only [Complex.ofReal_re, Complex.ofReal_im] at hre him
          rw [hre, him, abs_zero, if_pos h1, if_pos (inside x hx)]
          have : (s.xb + s.xa + s.dx * ((2 * x - s.xb - s.xa) / s.dx)) / 2 = x := by field_simp; ring
          rw [this, min_eq_right hx.2, max_eq_right hx.1]
          simp
        refine ⟨List.count_pos_iff.1 (lt_of_lt_of_le ?_ hcount), hcount⟩
        exact (rootMultiplicity_pos hP0).2 hx0
      · rw [List.mem_insertionSort, List.mem_filterMap] at hr
        obtain ⟨p, hp, e⟩ := hr
        split_ifs at e with c1 c2
        have hz : (⟨p.1, p.2⟩ : ℂ) ∈ (cseries s.a s.nn).roots := by
          rw [← hc, Multiset.mem_coe, List.mem_map]; exact ⟨p, hp, rfl⟩
        have hw := back _ ((mem_roots hcs).1 hz)
        have wre : ((((s.xb : ℂ) + s.xa + s.dx * ⟨p.1, p.2⟩) / 2)).re = (s.xb + s.xa + s.dx * p.1) / 2 := by simp
        have wim : ((((s.xb : ℂ) + s.xa + s.dx * ⟨p.1, p.2⟩) / 2)).im = s.dx * p.2 / 2 := by simp
        refine ⟨_, hw, ?_, ?_, ?_, ?_⟩
        · rw [wim, ← h.dx, show s.dx * p.2 / 2 = p.2 * (s.dx / 2) by ring, abs_mul, abs_of_pos (by positivity : 0 < s.dx / 2)]
          exact mul_lt_mul_of_pos_right c1 (by positivity)
        · rw [wre]; exact (bounds _ c2).1
        · rw [wre]; exact (bounds _ c2).2
        · rw [wre, if_neg hn1]; exact (Option.some.inj e).symm

/-- **C88 (all and only the roots).** If the polynomial has no complex roots within the tolerances other than those in the interval,
the returned numbers are exactly the roots in the interval. -/
theorem C88_all_roots {rf : RootFinder} {xa xb : ℝ} {P : ℝ[X]} {N : Nat} {roots : List ℝ}
    (F : Found rf xa xb P (fun x => if N = 1 then x else max xa (min xb x)) roots)
    (hno : ∀ w : ℂ, aeval w P = 0 → |w.im| < rf.tol_abs_imaginary * ((xb - xa) / 2) →
      xa - rf.tol_abs_boundary * ((xb - xa) / 2) ≤ w.re → w.re ≤ xb + rf.tol_abs_boundary * ((xb - xa) / 2) →
      w.im = 0 ∧ w.re ∈ Set.Icc xa xb) (x : ℝ) :
    x ∈ roots ↔ x ∈ Set.Icc xa xb ∧ P.eval x = 0 := by
  refine ⟨fun hx => ?_, fun ⟨hx, h0⟩ => (F.complete x hx h0).1⟩
  obtain ⟨w, hw, h1, h2, h3, e⟩ := F.sound x hx
  obtain ⟨him, hre⟩ := hno w hw h1 h2 h3
  have ew : w = (w.re : ℂ) := Complex.ext rfl (by simpa using him)
  have e' : x = w.re := by
    rw [e]
    split_ifs
    · rfl
    · rw [min_eq_right hre.2, max_eq_right hre.1]
  rw [e']
  refine ⟨hre, ?_⟩
  rw [ew, show ((w.re : ℝ) : ℂ) = algebraMap ℝ ℂ w.re from rfl, aeval_algebraMap_apply] at hw
  simpa using hw

/-- there are routines that satisfy the contract, and the roots of `x² − 1/4` are found -/
example : ∃ (eig : Eig) (s s' : InterpChebyshev) (roots : List ℝ), EigContract eig ∧ InterpChebyshev.new 2 (-1) 1 = ok s ∧
    s.setData [3 / 4, -1 / 4, 3 / 4] = MRes.ok (s', ()) ∧ RootFinder.new.chebyshev eig s' = ok roots ∧
    ∀ x, x ∈ roots ↔ x = 1 / 2 ∨ x = -1 / 2 := by
  obtain ⟨s, e, hr, ha, hb, hm, _⟩ := (C87_new 2 (-1) 1).2 (by norm_num)
  obtain ⟨s', e', hs, hI⟩ := (C87_set_data hr [3 / 4, -1 / 4, 3 / 4]).2.2 (by simp) (by simp [hm])
  have I := hI (fun i => if i = 1 then -1 / 4 else 3 / 4) (fun i hi => by
    have hi : i < 3 := hi
    obtain rfl | rfl | rfl : i = 0 ∨ i = 1 ∨ i = 2 := by omega
    all_goals rfl)
  have hr' := hs.range hr
  have hnn : s'.nn = 2 := I.degree
  have xa : s'.xa = -1 := by rw [hs.1, ha]
  have xb : s'.xb = 1 := by rw [hs.2.1, hb]
  have hdeg : (X ^ 2 - C (1 / 4) : ℝ[X]).natDegree = 2 := natDegree_X_pow_sub_C
  have hP := (C87_polynomial hr' I (p := X ^ 2 - C (1 / 4)) (by rw [hdeg]; rfl) (fun i hi => by
    have hi : i ≤ 2 := hi
    rw [xa, xb]
    obtain rfl | rfl | rfl : i = 0 ∨ i = 1 ∨ i = 2 := by omega
    · norm_num [node]
    · norm_num [node]
    · norm_num [node])).1
  have hc : (X ^ 2 - C (1 / 4) : ℝ[X]).coeff 2 = 1 := by
    rw [coeff_sub, coeff_X_pow, coeff_C]; norm_num
  obtain ⟨roots, er, F⟩ := (C88_chebyshev hr' I.ready (by omega) hP (eig := fun n aa => ok ((toMat n aa).charpoly.roots.toList.map
    fun z => (z.re, z.im))) (fun n aa l hl => by
      cases hl
      rw [List.map_map]
      simp [Function.comp_def]) (fun n aa => ⟨_, rfl⟩) (rf := RootFinder.new)
      (by norm_num [RootFinder.new]) (by norm_num [RootFinder.new]) (by norm_num [RootFinder.new, tolRange])).2 (by
        rw [hnn, hc, xa, xb]; norm_num [RootFinder.new])
  rw [xa, xb] at F
  refine ⟨_, s, s', roots, fun n aa l hl => ?_, e, e', er, fun x => ?_⟩
  · cases hl
    rw [List.map_map]
    simp [Function.comp_def]
  · rw [C88_all_roots F (fun w hw _ _ _ => ?_)]
    · constructor
      · rintro ⟨_, h0⟩
        simp only [eval_sub, eval_pow, eval_X, eval_C] at h0
        have : (x - 1 / 2) * (x + 1 / 2) = 0 := by linarith
        rcases mul_eq_zero.1 this with h | h
        · left; linarith
        · right; linarith
      · rintro (rfl | rfl)
        · norm_num
        · norm_num
    · simp only [map_sub, map_pow, aeval_X, aeval_C] at hw
      have : (w - 1 / 2) * (w + 1 / 2) = 0 := by
        have h4 : algebraMap ℝ ℂ (1 / 4) = 1 / 4 := by simp
        rw [h4] at hw
        linear_combination hw
      rcases mul_eq_zero.1 this with h | h
      · have : w = ((1 / 2 : ℝ) : ℂ) := by push_cast; linear_combination h
        rw [this, Complex.ofReal_re, Complex.ofReal_im]; norm_num
      · have : w = ((-1 / 2 : ℝ) : ℂ) := by push_cast; linear_combination h
        rw [this, Complex.ofReal_re, Complex.ofReal_im]; norm_num

/-- the function returns `g` wherever it does not fail -/
def Gives {A : Type} (f : Callback ℝ A) (g : ℝ → ℝ) : Prop := ∀ t a, (∃ a', f t a = ok (g t, a')) ∨ ∃ m, f t a = err m

/-- the difference quotient used as derivative: one-sided within `h_cen` of the bounds and central otherwise -/
def quotient (rf : RootFinder) (xa xb : ℝ) (g : ℝ → ℝ) (x : ℝ) : ℝ :=
  open Classical in
  if x - rf.h_cen ≤ xa then (g (x + rf.h_osd) - g x) / rf.h_osd
  else if xb ≤ x + rf.h_cen then (g x - g (x - rf.h_osd)) / rf.h_osd
  else (g (x + rf.h_cen) - g (x - rf.h_cen)) / (2 * rf.h_cen)

/-- the iterate `k` of Newton's method -/
def iterate (rf : RootFinder) (xa xb : ℝ) (g : ℝ → ℝ) (x : ℝ) (k : Nat) : ℝ :=
  (fun x => x - g x / quotient rf xa xb g x)^[k] x

/-- the reasons to stop -/
def Stops (rf : RootFinder) (xa xb : ℝ) (g : ℝ → ℝ) (x : ℝ) : Prop :=
  |g x| < rf.newton_tol_zero_fx ∨ |quotient rf xa xb g x| < rf.newton_tol_zero_fx ∨
    |g x / quotient rf xa xb g x| < rf.newton_tol_zero_dx

/-- `y` is the first iterate that stops -/
def Refined (rf : RootFinder) (xa xb : ℝ) (g : ℝ → ℝ) (x y : ℝ) : Prop :=
  ∃ k < rf.newton_max_iterations, y = iterate rf xa xb g x k ∧ Stops rf xa xb g y ∧
    ∀ j < k, ¬ Stops rf xa xb g (iterate rf xa xb g x j)

theorem slope_spec {A : Type} (rf : RootFinder) (xa xb : ℝ) {f : Callback ℝ A} {g : ℝ → ℝ} (hf : Gives f g) (x : ℝ) (a : A) :
    (∃ a', rf.slope xa xb f x a = ok (quotient rf xa xb g x, a')) ∨ ∃ m t a', rf.slope xa xb f x a = err m ∧ f t a' = err m := by
  have two : ∀ (u v d : ℝ), (∃ a', (do
      let (f1, args) ← f u a
      let (f0, args) ← f v args
      ok ((f1 - f0) / d, args)) = ok ((g u - g v) / d, a')) ∨ ∃ m t a', (do
      let (f1, args) ← f u a
      let (f0, args) ← f v args
      ok ((f1 - f0) / d, args)) = (err m : Res (ℝ × A)) ∧ f t a' = err m := by
    intro u v d
    rcases hf u a with ⟨a1, e1⟩ | ⟨m, e1⟩
    · rcases hf v a1 with ⟨a2, e2⟩ | ⟨m, e2⟩
      · exact Or.inl ⟨a2, by rw [e1]; simp only [ok_bind]; rw [e2]; rfl⟩
      · exact Or.inr ⟨m, v, a1, by rw [e1]; simp only [ok_bind]; rw [e2]; rfl, e2⟩
    · exact Or.inr ⟨m, u, a, by rw [e1]; rfl, e1⟩
  unfold RootFinder.slope quotient
  by_cases h1 : x - rf.h_cen ≤ xa
  · rw [if_pos h1, if_pos h1]; exact two _ _ _
  · rw [if_neg h1, if_neg h1]
    by_cases h2 : x + rf.h_cen ≥ xb
    · rw [if_pos h2, if_pos h2]; exact two _ _ _
    · rw [if_neg h2, if_neg h2, mul_comm 2]; exact two _ _ _

theorem newtonLoop_spec {A : Type} (rf : RootFinder) (xa xb : ℝ) {f : Callback ℝ A} {g : ℝ → ℝ} (hf : Gives f g) :
    ∀ (n : Nat) (x : ℝ) (a : A),
    (∃ y a' k, rf.newtonLoop xa xb f n x a = ok (some y, a') ∧ k < n ∧ y = iterate rf xa xb g x k ∧ Stops rf xa xb g y ∧
      ∀ j < k, ¬ Stops rf xa xb g (iterate rf xa xb g x j)) ∨
    (∃ a', rf.newtonLoop xa xb f n x a = ok (none, a') ∧ ∀ j < n, ¬ Stops rf xa xb g (iterate rf xa xb g x j)) ∨
    ∃ m t a', rf.newtonLoop xa xb f n x a = err m ∧ f t a' = err m
  | 0, x, a => Or.inr (Or.inl ⟨a, rfl, by omega⟩)
  | n + 1, x, a => by
    unfold newtonLoop
    rcases hf x a with ⟨a1, e1⟩ | ⟨m, e1⟩
    · rw [e1]
      simp only [ok_bind]
      by_cases c1 : |g x| < rf.newton_tol_zero_fx
      · rw [if_pos c1]
        exact Or.inl ⟨x, a1, 0, rfl, by omega, rfl, Or.inl c1, by omega⟩
      · rw [if_neg c1]
        rcases slope_spec rf xa xb hf x a1 with ⟨a2, e2⟩ | ⟨m, t, a', e2, e2'⟩
        · rw [e2]
          simp only [ok_bind]
          by_cases c2 : |quotient rf xa xb g x| < rf.newton_tol_zero_fx
          · rw [if_pos c2]
            exact Or.inl ⟨x, a2, 0, rfl, by omega, rfl, Or.inr (Or.inl c2), by omega⟩
          · rw [if_neg c2]
            rcases hf x a2 with ⟨a3, e3⟩ | ⟨m, e3⟩
            · rw [e3]
              simp only [ok_bind]
              by_cases c3 : |-g x / quotient rf xa xb g x| < rf.newton_tol_zero_dx
              · rw [if_pos c3]
                exact Or.inl ⟨x, a3, 0, rfl, by omega, rfl, Or.inr (Or.inr (by rwa [neg_div, abs_neg] at c3)), by omega⟩
              · rw [if_neg c3]
                have hns : ¬ Stops rf xa xb g x := by
                  rintro (c | c | c)
                  · exact c1 c
                  · exact c2 c
                  · exact c3 (by rwa [neg_div, abs_neg])
                have hx : x + -g x / quotient rf xa xb g x = x - g x / quotient rf xa xb g x := by ring
                have hit : ∀ k, iterate rf xa xb g (x - g x / quotient rf xa xb g x) k = iterate rf xa xb g x (k + 1) := fun k => by
                  unfold iterate; rw [Function.iterate_succ, Function.comp]
                rw [hx]
                rcases newtonLoop_spec rf xa xb hf n (x - g x / quotient rf xa xb g x) a3 with ⟨y, a', k, e, hk, hy, hs, hj⟩ | ⟨a', e, hj⟩ | ⟨m, t, a', e, e'⟩
                · refine Or.inl ⟨y, a', k + 1, e, by omega, by rw [hy, hit], hs, fun j hj' => ?_⟩
                  cases j with
                  | zero => exact hns
                  | succ j => rw [← hit]; exact hj j (by omega)
                · refine Or.inr (Or.inl ⟨a', e, fun j hj' => ?_⟩)
                  cases j with
                  | zero => exact hns
                  | succ j => rw [← hit]; exact hj j (by omega)
                · exact Or.inr (Or.inr ⟨m, t, a', e, e'⟩)
            · exact Or.inr (Or.inr ⟨m, x, a2, by rw [e3]; rfl, e3⟩)
        · exact Or.inr (Or.inr ⟨m, t, a', by rw [e2]; rfl, e2'⟩)
    · exact Or.inr (Or.inr ⟨m, x, a, by rw [e1]; rfl, e1⟩)

/-- **C88 (refine).** Upon success every root is replaced by the first Newton iterate that meets a stopping criterion. Upon an
error the roots before some position have been replaced and the other ones are unchanged; the error is that of the function or
none of the iterates of the root at this position stops. There is no panic. -/
theorem C88_refine {A : Type} (rf : RootFinder) (xa xb : ℝ) {f : Callback ℝ A} {g : ℝ → ℝ} (hf : Gives f g) (roots : List ℝ) (args : A) :
    (roots = [] → rf.refine roots xa xb args f = MRes.err (roots, args) "at least one root is required") ∧
    (roots ≠ [] →
      (∃ l args', rf.refine roots xa xb args f = MRes.ok (l, args') ∧ List.Forall₂ (Refined rf xa xb g) roots l) ∨
      ∃ l args' m done x rest, rf.refine roots xa xb args f = MRes.err (l ++ x :: rest, args') m ∧ roots = done ++ x :: rest ∧
        List.Forall₂ (Refined rf xa xb g) done l ∧
        ((m = "Newton's method did not converge" ∧ ∀ j < rf.newton_max_iterations, ¬ Stops rf xa xb g (iterate rf xa xb g x j)) ∨
          ∃ t a, f t a = err m)) := by
  constructor
  · rintro rfl; rfl
  · intro hne
    unfold RootFinder.refine
    rw [if_neg (by have := List.length_pos_iff.2 hne; omega)]
    clear hne
    induction roots generalizing args with
    | nil => exact Or.inl ⟨[], args, rfl, List.Forall₂.nil⟩
    | cons x t ih =>
      unfold refineLoop
      rcases newtonLoop_spec rf xa xb hf rf.newton_max_iterations x args with ⟨y, a', k, e, hk, hy, hs, hj⟩ | ⟨a', e, hj⟩ | ⟨m, u, a', e, e'⟩
      · rw [e]
        simp only
        rcases ih a' with ⟨l, a2, e2, hl⟩ | ⟨l, a2, m, d, x', r, e2, hr, hl, hm⟩
        · rw [e2]
          exact Or.inl ⟨y :: l, a2, rfl, List.Forall₂.cons ⟨k, hk, hy, hs, hj⟩ hl⟩
        · rw [e2]
          exact Or.inr ⟨y :: l, a2, m, x :: d, x', r, rfl, by rw [hr]; rfl, List.Forall₂.cons ⟨k, hk, hy, hs, hj⟩ hl, hm⟩
      · rw [e]
        exact Or.inr ⟨[], a', _, [], x, t, rfl, rfl, List.Forall₂.nil, Or.inl ⟨rfl, hj⟩⟩
      · rw [e]
        exact Or.inr ⟨[], args, m, [], x, t, rfl, rfl, List.Forall₂.nil, Or.inr ⟨u, a', e'⟩⟩

/-- **C88 (derivative).** The difference quotient is the derivative at a point not farther than the stepsizes. -/
theorem C88_quotient {rf : RootFinder} (h1 : 0 < rf.h_osd) (h2 : 0 < rf.h_cen) (xa xb : ℝ) {g : ℝ → ℝ} (hg : Differentiable ℝ g) (x : ℝ) :
    ∃ ξ, |ξ - x| ≤ max rf.h_osd rf.h_cen ∧ quotient rf xa xb g x = deriv g ξ := by
  have mv : ∀ u v : ℝ, u < v → ∃ ξ, u < ξ ∧ ξ < v ∧ (g v - g u) / (v - u) = deriv g ξ := by
    intro u v huv
    obtain ⟨ξ, hξ, e⟩ := exists_deriv_eq_slope g huv hg.continuous.continuousOn hg.differentiableOn
    exact ⟨ξ, hξ.1, hξ.2, e.symm⟩
  have m1 := le_max_left rf.h_osd rf.h_cen
  have m2 := le_max_right rf.h_osd rf.h_cen
  unfold quotient
  by_cases c1 : x - rf.h_cen ≤ xa
  · rw [if_pos c1]
    obtain ⟨ξ, a, b, e⟩ := mv x (x + rf.h_osd) (by linarith)
    exact ⟨ξ, abs_le.2 ⟨by linarith, by linarith⟩, by rw [← e]; congr 1; ring⟩
  · rw [if_neg c1]
    by_cases c2 : xb ≤ x + rf.h_cen
    · rw [if_pos c2]
      obtain ⟨ξ, a, b, e⟩ := mv (x - rf.h_osd) x (by linarith)
      exact ⟨ξ, abs_le.2 ⟨by linarith, by linarith⟩, by rw [← e]; congr 1; ring⟩
    · rw [if_neg c2]
      obtain ⟨ξ, a, b, e⟩ := mv (x - rf.h_cen) (x + rf.h_cen) (by linarith)
      exact ⟨ξ, abs_le.2 ⟨by linarith, by linarith⟩, by rw [← e]; congr 1; ring⟩

theorem new_steps : 0 < RootFinder.new.h_osd ∧ 0 < RootFinder.new.h_cen := by
  constructor
  · show (0 : ℝ) < (1 / 2 ^ 52 : ℝ) ^ (1 / 2 : ℝ); positivity
  · show (0 : ℝ) < (1 / 2 ^ 52 : ℝ) ^ (1 / 3 : ℝ); positivity

theorem quotient_affine {rf : RootFinder} (h1 : 0 < rf.h_osd) (h2 : 0 < rf.h_cen) (xa xb a b x : ℝ) :
    quotient rf xa xb (fun x => a * x + b) x = a := by
  unfold quotient
  split_ifs
  · field_simp; ring
  · field_simp; ring
  · field_simp; ring

/-- **C88 (affine functions).** Two iterations suffice: every starting point that is not accepted as it is becomes the root. -/
theorem C88_refine_affine {A : Type} {rf : RootFinder} (h1 : 0 < rf.h_osd) (h2 : 0 < rf.h_cen) (xa xb : ℝ) {f : Callback ℝ A} {a b : ℝ}
    (hf : ∀ t s, ∃ s', f t s = ok (a * t + b, s')) (h3 : 0 < rf.newton_tol_zero_fx) (ha : rf.newton_tol_zero_fx ≤ |a|)
    (hn : 2 ≤ rf.newton_max_iterations) {roots : List ℝ} (hr : roots ≠ []) (args : A) :
    ∃ l args', rf.refine roots xa xb args f = MRes.ok (l, args') ∧ List.Forall₂ (fun x y => y = -b / a ∨
      (y = x ∧ (|a * x + b| < rf.newton_tol_zero_fx ∨ |x + b / a| < rf.newton_tol_zero_dx))) roots l := by
  have ha0 : a ≠ 0 := by rintro rfl; rw [abs_zero] at ha; linarith
  have q := quotient_affine h1 h2 xa xb a b
  have i1 : ∀ x, iterate rf xa xb (fun x => a * x + b) x 1 = -b / a := fun x => by
    unfold iterate
    rw [Function.iterate_one]
    simp only [q]
    field_simp; ring
  have s1 : ∀ x, Stops rf xa xb (fun x => a * x + b) (iterate rf xa xb (fun x => a * x + b) x 1) := fun x => by
    rw [i1]
    left
    show |a * (-b / a) + b| < _
    rw [show a * (-b / a) + b = 0 by field_simp; ring, abs_zero]
    exact h3
  rcases (C88_refine rf xa xb (fun t s => Or.inl (hf t s)) roots args).2 hr with ⟨l, a', e, hl⟩ | ⟨l, a', m, d, x, r, e, hr', hl, hm⟩
  · refine ⟨l, a', e, hl.imp ?_⟩
    rintro x y ⟨k, hk, hy, hs, hj⟩
    obtain rfl | rfl | hk2 : k = 0 ∨ k = 1 ∨ 1 < k := by omega
    · right
      have hyx : y = x := hy
      subst hyx
      refine ⟨rfl, ?_⟩
      rcases hs with c | c | c
      · exact Or.inl c
      · rw [q] at c; exact absurd c (not_lt.2 ha)
      · rw [q] at c
        right
        rwa [show (a * y + b) / a = y + b / a by field_simp] at c
    · left; rw [hy, i1]
    · exact absurd (s1 x) (hj 1 hk2)
  · exfalso
    rcases hm with ⟨_, hj⟩ | ⟨t, s, c⟩
    · exact hj 1 (by omega) (s1 x)
    · obtain ⟨s', c'⟩ := hf t s
      rw [c'] at c; cases c

/-- **C88 (violated: degree one).** The root of a line is not moved to the interval. -/
theorem C88_linear_counterexample (eig : Eig) :
    ∃ s s' : InterpChebyshev, InterpChebyshev.new 1 (-1) 1 = ok s ∧
      s.setData [-2 - 5e-7, -5e-7] = MRes.ok (s', ()) ∧
      RootFinder.new.chebyshev eig s' = ok [1 + 5e-7] ∧ (1 : ℝ) + 5e-7 ∉ Set.Icc (-1 : ℝ) 1 := by
  obtain ⟨s, e, hr, ha, hb, hm, _⟩ := (C87_new 1 (-1) 1).2 (by norm_num)
  obtain ⟨s', e', hs, hI⟩ := (C87_set_data hr [-2 - 5e-7, -5e-7]).2.2 (by simp) (by simp [hm])
  have I := hI (fun i => if i = 0 then -2 - 5e-7 else -5e-7) (fun i hi => by
    have hi : i < 2 := hi
    obtain rfl | rfl : i = 0 ∨ i = 1 := by omega
    · rfl
    · rfl)
  have hr' := hs.range hr
  have hnn : s'.nn = 1 := I.degree
  have xa : s'.xa = -1 := by rw [hs.1, ha]
  have xb : s'.xb = 1 := by rw [hs.2.1, hb]
  have dx : s'.dx = 2 := by rw [hr'.dx, xa, xb]; norm_num
  obtain ⟨P, _, hP, hv⟩ := I.poly
  have hPe := eval_poly hr' I.ready (by omega) (P := P) (fun x hx => by rw [hP, min_eq_right hx.2, max_eq_right hx.1])
  have hev : ∀ z : ℝ, P.eval z = s'.a 0 + s'.a 1 * z := by
    intro z
    rw [hPe, inX_eval, hnn, series_eval, Finset.sum_range_succ, Finset.sum_range_one, xa, xb, dx]
    simp
  have v0 := hv 0 (by simp)
  have v1 := hv 1 (by simp)
  rw [show [(-2 - 5e-7 : ℝ), -5e-7].length - 1 = 1 from rfl, hev] at v0 v1
  have n0 : node s'.xa s'.xb 1 0 = -1 := by rw [xa, xb]; norm_num [node]
  have n1 : node s'.xa s'.xb 1 1 = 1 := by rw [xa, xb]; norm_num [node]
  rw [n0, if_pos rfl] at v0
  rw [n1, if_neg (by norm_num)] at v1
  have a1 : s'.a 1 = 1 := by linarith
  have a0 : s'.a 0 = -1 - 5e-7 := by linarith
  refine ⟨s, s', e, e', ?_, by norm_num⟩
  unfold chebyshev
  simp only [I.ready, if_true, hnn, a1, a0, xa, xb, dx]
  rw [if_neg (by norm_num), if_neg (by norm_num [RootFinder.new]), if_pos]
  · norm_num
  · rw [abs_le]; constructor <;> norm_num [RootFinder.new, tolRange]

/-- **C88 (violated: zero derivative).** A point with a vanishing derivative is accepted as a root. -/
theorem C88_zero_derivative_counterexample :
    RootFinder.new.refine [0] (-1) 1 () (fun x _ => ok (1 + x ^ 2, ())) = MRes.ok ([0], ()) := by
  have hc : RootFinder.new.h_cen < 1 := Real.rpow_lt_one (by norm_num) (by norm_num) (by norm_num)
  have st : Stops RootFinder.new (-1) 1 (fun x => 1 + x ^ 2) 0 := by
    right; left
    unfold quotient
    rw [if_neg (by linarith), if_neg (by linarith)]
    norm_num [RootFinder.new]
  rcases (C88_refine RootFinder.new (-1) 1 (f := fun x (_ : Unit) => ok (1 + x ^ 2, ())) (g := fun x => 1 + x ^ 2)
    (fun t _ => Or.inl ⟨(), rfl⟩) [0] ()).2 (by simp) with ⟨l, a', e, hl⟩ | ⟨l, a', m, d, x, r, e, hr', hl, hm⟩
  · rw [e]
    cases hl with
    | cons h1 h2 =>
      cases h2
      obtain ⟨k, _, hy, _, hj⟩ := h1
      cases k with
      | zero => rw [hy]; rfl
      | succ k => exact absurd st (hj 0 (by omega))
  · exfalso
    rcases hm with ⟨_, hj⟩ | ⟨t, s, c⟩
    · have hx : x = 0 := by
        have : x ∈ [(0 : ℝ)] := by rw [hr']; simp
        simpa using this
      exact hj 0 (by norm_num [RootFinder.new]) (by rw [hx]; exact st)
    · cases c

/-- **C88 (refined root outside of the interval).** The bounds are used for the differences only. -/
theorem C88_outside_counterexample :
    RootFinder.new.refine [0] (-1) 1 () (fun x _ => ok (x - 10, ())) = MRes.ok ([10], ()) := by
  obtain ⟨l, a', e, hl⟩ := C88_refine_affine (rf := RootFinder.new) new_steps.1 new_steps.2 (-1) 1
    (f := fun x (_ : Unit) => ok (x - 10, ())) (a := 1) (b := -10) (fun t s => ⟨(), by congr 2; ring⟩) (by norm_num [RootFinder.new])
    (by norm_num [RootFinder.new]) (by norm_num [RootFinder.new]) (roots := [0]) (by simp) ()
  rw [e]
  cases hl with
  | cons h1 h2 =>
    cases h2
    rcases h1 with h1 | ⟨_, h1 | h1⟩
    · rw [h1]; norm_num
    · norm_num [RootFinder.new] at h1
    · norm_num [RootFinder.new] at h1

end

end Russell.Lab
