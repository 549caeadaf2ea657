import Verif.Lab.BrentRoot

/-!
# Brent's minimiser (property C37)

Model of `MinSolver::brent` (/repo/russell_lab/src/algo/min_solver.rs) over an ordered field.
-/

namespace Russell.Lab

open Russell Res

variable {α : Type} [Field α] [LinearOrder α] {A : Type}

/-- golden section ratio (/repo/russell_lab/src/algo/min_solver.rs:6) -/
def GSR : α := 0.38196601125010515179541316563436188227969082019424

/-- `SQRT_EPSILON` (/repo/russell_lab/src/math/constants.rs:64) -/
def SQRT_EPSILON : α := 1.49011611938476562500000e-8

/-- local variables of `brent` -/
structure MinState (α : Type) where
  a : α
  b : α
  x : α
  v : α
  w : α
  fx : α
  fv : α
  fw : α

/-- tolerance (/repo/russell_lab/src/algo/min_solver.rs:194) -/
def minTol (tolerance x : α) : α := SQRT_EPSILON * |x| + tolerance / 3

/-- `// gold section step` (/repo/russell_lab/src/algo/min_solver.rs:202-207) -/
def goldStep (s : MinState α) : α :=
  GSR * (if s.x < (s.a + s.b) / 2 then s.b - s.x else s.a - s.x)

/-- `(p, q)` of the interpolation (/repo/russell_lab/src/algo/min_solver.rs:211-219) -/
def minPQ (s : MinState α) : α × α :=
  let t := (s.x - s.w) * (s.fx - s.fv)
  let q := (s.x - s.v) * (s.fx - s.fw)
  let p := (s.x - s.v) * q - (s.x - s.w) * t
  let q := 2 * (q - t)
  if q > 0 then (-p, q) else (p, -q)

/-- the step before the adjustment (/repo/russell_lab/src/algo/min_solver.rs:202-223) -/
def minStep (s : MinState α) (tol : α) : α :=
  if |s.x - s.w| ≥ tol then
    let pq := minPQ s
    if |pq.1| < |goldStep s * pq.2| ∧ pq.1 > pq.2 * (s.a - s.x + 2 * tol) ∧ pq.1 < pq.2 * (s.b - s.x - 2 * tol) then pq.1 / pq.2
    else goldStep s
  else goldStep s

/-- update after the evaluation at `t` (/repo/russell_lab/src/algo/min_solver.rs:239-269) -/
def minUpdate (s : MinState α) (t ft : α) : MinState α :=
  if ft ≤ s.fx then
    let s' := if t < s.x then { s with b := s.x } else { s with a := s.x }
    { s' with v := s.w, w := s.x, x := t, fv := s.fw, fw := s.fx, fx := ft }
  else
    let s' := if t < s.x then { s with a := t } else { s with b := t }
    if ft ≤ s.fw ∨ s.w = s.x then { s' with v := s.w, w := t, fv := s.fw, fw := ft }
    else if ft ≤ s.fv ∨ s.v = s.x ∨ s.v = s.w then { s' with v := t, fv := ft }
    else s'

/-- the iterations (/repo/russell_lab/src/algo/min_solver.rs:187-279); `n` is the number of iterations left.  `brentLimit` models the
adjustment in lines 226-232, which is the same as in the root finder. -/
def minLoop (tolerance : α) (f : Callback α A) : (n : Nat) → MinState α → A → Res (α × A)
  | 0, _, _ => err "brent solver failed to converge"
  | n + 1, s, args =>
    let tol := minTol tolerance s.x
    if |s.x - (s.a + s.b) / 2| + (s.b - s.a) / 2 ≤ 2 * tol then ok (s.x, args)
    else do
      let t := s.x + brentLimit (minStep s tol) tol
      let (ft, args) ← f t args
      minLoop tolerance f n (minUpdate s t ft) args

/-- `MinSolver::brent` (/repo/russell_lab/src/algo/min_solver.rs:127-280) with `validate_params`
(/repo/russell_lab/src/algo/min_solver.rs:38-46) -/
def brentMin (maxIterations : Nat) (tolerance xa xb : α) (args : A) (f : Callback α A) : Res (α × A) :=
  if |xa - xb| < 10 * f64Eps then err "xa must be different from xb"
  else if maxIterations < 2 then err "n_iteration_max must be ≥ 2"
  else if tolerance < 10 * f64Eps then err "the tolerance must be ≥ 10.0 * f64::EPSILON"
  else do
    let a := if xa < xb then xa else xb
    let b := if xa < xb then xb else xa
    let v := a + GSR * (b - a)
    let (fv, args) ← f v args
    minLoop tolerance f maxIterations { a, b, x := v, v, w := v, fx := fv, fv, fw := fv } args

variable [IsStrictOrderedRing α]

theorem GSR_pos : (0 : α) < GSR := by unfold GSR; norm_num
theorem GSR_lt : (GSR : α) < 1 := by unfold GSR; norm_num

/-- invariant: the best point lies in the current interval and is not worse than any point visited -/
structure MinInv (g : α → α) (lo hi : α) (s : MinState α) (l : List α) : Prop where
  lo_le : lo ≤ s.a
  le_hi : s.b ≤ hi
  ax : s.a ≤ s.x
  xb : s.x ≤ s.b
  fx : s.fx = g s.x
  mem : s.x ∈ l
  best : ∀ y ∈ l, g s.x ≤ g y
  inside : ∀ y ∈ l, lo ≤ y ∧ y ≤ hi

/-- `g` decreases strictly up to `z` and increases strictly from there on, inside `[lo, hi]` -/
structure Unimodal (g : α → α) (lo hi z : α) : Prop where
  mem : lo ≤ z ∧ z ≤ hi
  dec : ∀ x y, lo ≤ x → x < y → y ≤ z → g y < g x
  inc : ∀ x y, z ≤ x → x < y → y ≤ hi → g x < g y

theorem max_side {a b x : α} : |x - (a + b) / 2| + (b - a) / 2 = max (b - x) (x - a) := by
  rcases le_total x ((a + b) / 2) with h | h
  · rw [abs_of_nonpos (by linarith), max_eq_left (by linarith)]; ring
  · rw [abs_of_nonneg (by linarith), max_eq_right (by linarith)]; ring

/-- the new point lies in the current interval and differs from the best point -/
theorem minStep_inside {g : α → α} {lo hi tol : α} {s : MinState α} {l : List α} (h : MinInv g lo hi s l) (ht : 0 < tol)
    (hc : ¬ |s.x - (s.a + s.b) / 2| + (s.b - s.a) / 2 ≤ 2 * tol) :
    s.a ≤ s.x + brentLimit (minStep s tol) tol ∧ s.x + brentLimit (minStep s tol) tol ≤ s.b ∧
      brentLimit (minStep s tol) tol ≠ 0 := by
  have hax := h.ax
  have hxb := h.xb
  -- the admissible steps
  have key : (s.a ≤ s.x + minStep s tol ∧ s.x + minStep s tol ≤ s.b) ∧ (0 < minStep s tol → s.x + tol ≤ s.b) ∧
      (minStep s tol ≤ 0 → s.a ≤ s.x - tol) := by
    have hgold : (s.a ≤ s.x + goldStep s ∧ s.x + goldStep s ≤ s.b) ∧ (0 < goldStep s → s.x + tol ≤ s.b) ∧
        (goldStep s ≤ 0 → s.a ≤ s.x - tol) := by
      have hG := GSR_pos (α := α)
      have hG' := GSR_lt (α := α)
      unfold goldStep
      by_cases hm : s.x < (s.a + s.b) / 2
      · rw [if_pos hm]
        rw [abs_of_nonpos (by linarith)] at hc
        push Not at hc
        have hpos : 0 < s.b - s.x := by linarith
        have h1 : 0 < GSR * (s.b - s.x) := mul_pos hG hpos
        have h2 : GSR * (s.b - s.x) < 1 * (s.b - s.x) := mul_lt_mul_of_pos_right hG' hpos
        exact ⟨⟨by linarith, by linarith⟩, fun _ => by linarith, fun h => absurd h1 (not_lt.2 h)⟩
      · rw [if_neg hm]
        rw [abs_of_nonneg (by linarith)] at hc
        push Not at hc
        have hpos : 0 < s.x - s.a := by linarith
        have h1 : 0 < GSR * (s.x - s.a) := mul_pos hG hpos
        have h2 : GSR * (s.x - s.a) < 1 * (s.x - s.a) := mul_lt_mul_of_pos_right hG' hpos
        have h3 : GSR * (s.a - s.x) = -(GSR * (s.x - s.a)) := by ring
        rw [h3]
        exact ⟨⟨by linarith, by linarith⟩, fun h => by linarith, fun _ => by linarith⟩
    unfold minStep
    split
    · dsimp only
      split
      · rename_i hq
        obtain ⟨h1, h2, h3⟩ := hq
        have hq0 : 0 ≤ (minPQ s).2 := by
          unfold minPQ
          dsimp only
          split
          · rename_i h; exact le_of_lt h
          · rename_i h; exact neg_nonneg.2 (not_lt.1 h)
        have hq1 : 0 < (minPQ s).2 := by
          refine lt_of_le_of_ne hq0 (fun h0 => ?_)
          rw [← h0, mul_zero, abs_zero] at h1
          exact absurd h1 (not_lt.2 (abs_nonneg _))
        generalize minPQ s = pq at *
        have h4 : s.a - s.x + 2 * tol < pq.1 / pq.2 := by rw [lt_div_iff₀ hq1]; linarith
        have h5 : pq.1 / pq.2 < s.b - s.x - 2 * tol := by rw [div_lt_iff₀ hq1]; linarith
        exact ⟨⟨by linarith, by linarith⟩, fun h => by linarith, fun h => by linarith⟩
      · exact hgold
    · exact hgold
  obtain ⟨⟨h1, h2⟩, h3, h4⟩ := key
  unfold brentLimit
  split
  · split
    · rename_i h5
      have := h3 h5
      exact ⟨by linarith, this, ht.ne'⟩
    · rename_i h5
      have := h4 (not_lt.1 h5)
      exact ⟨by linarith, by linarith, by linarith [ht] |> fun (h : -tol < 0) => h.ne⟩
  · rename_i h5
    refine ⟨h1, h2, fun h0 => h5 ?_⟩
    rw [h0, abs_zero]; exact ht

theorem minUpdate_fields (s : MinState α) (t ft : α) :
    (minUpdate s t ft).x = (if ft ≤ s.fx then t else s.x) ∧ (minUpdate s t ft).fx = (if ft ≤ s.fx then ft else s.fx) ∧
    (minUpdate s t ft).a = (if ft ≤ s.fx then (if t < s.x then s.a else s.x) else (if t < s.x then t else s.a)) ∧
    (minUpdate s t ft).b = (if ft ≤ s.fx then (if t < s.x then s.x else s.b) else (if t < s.x then s.b else t)) := by
  unfold minUpdate
  split
  · split <;> simp
  · split <;> split <;> (try split) <;> simp

theorem minUpdate_inv {g : α → α} {lo hi t : α} {s : MinState α} {l : List α} (h : MinInv g lo hi s l) (h1 : s.a ≤ t) (h2 : t ≤ s.b) :
    MinInv g lo hi (minUpdate s t (g t)) (l ++ [t]) := by
  obtain ⟨e1, e2, e3, e4⟩ := minUpdate_fields s t (g t)
  have hlo := h.lo_le; have hhi := h.le_hi; have hax := h.ax; have hxb := h.xb
  have hins : ∀ y ∈ l ++ [t], lo ≤ y ∧ y ≤ hi := by
    intro y hy
    rcases List.mem_append.1 hy with hy | hy
    · exact h.inside y hy
    · rw [List.mem_singleton.1 hy]; exact ⟨by linarith, by linarith⟩
  by_cases hle : g t ≤ s.fx
  · rw [if_pos hle] at e1 e2 e3 e4
    refine ⟨?_, ?_, ?_, ?_, ?_, ?_, ?_, hins⟩
    · rw [e3]; split <;> linarith
    · rw [e4]; split <;> linarith
    · rw [e3, e1]; split <;> linarith
    · rw [e4, e1]; split <;> linarith
    · rw [e2, e1]
    · rw [e1]; simp
    · rw [e1]
      intro y hy
      rcases List.mem_append.1 hy with hy | hy
      · exact (hle.trans (le_of_eq h.fx)).trans (h.best y hy)
      · rw [List.mem_singleton.1 hy]
  · rw [if_neg hle] at e1 e2 e3 e4
    have hlt := not_le.1 hle
    refine ⟨?_, ?_, ?_, ?_, ?_, ?_, ?_, hins⟩
    · rw [e3]; split <;> linarith
    · rw [e4]; split <;> linarith
    · rw [e3, e1]; split <;> linarith
    · rw [e4, e1]; split <;> linarith
    · rw [e2, e1]; exact h.fx
    · rw [e1]; exact List.mem_append_left _ h.mem
    · rw [e1]
      intro y hy
      rcases List.mem_append.1 hy with hy | hy
      · exact h.best y hy
      · rw [List.mem_singleton.1 hy, ← h.fx]; exact hlt.le

/-- the minimiser of a unimodal function is never lost -/
theorem minUpdate_unimodal {g : α → α} {lo hi z t : α} {s : MinState α} {l : List α} (h : MinInv g lo hi s l) (h1 : s.a ≤ t) (h2 : t ≤ s.b)
    (ht : t ≠ s.x) (hu : Unimodal g lo hi z) (hz : s.a ≤ z ∧ z ≤ s.b) :
    (minUpdate s t (g t)).a ≤ z ∧ z ≤ (minUpdate s t (g t)).b := by
  obtain ⟨_, _, e3, e4⟩ := minUpdate_fields s t (g t)
  have hlo := h.lo_le; have hhi := h.le_hi; have hax := h.ax; have hxb := h.xb
  rw [e3, e4, h.fx]
  by_cases hle : g t ≤ g s.x
  · rw [if_pos hle, if_pos hle]
    by_cases hlt : t < s.x
    · rw [if_pos hlt, if_pos hlt]
      refine ⟨hz.1, ?_⟩
      by_contra hc
      have := hu.dec t s.x (by linarith) hlt (not_le.1 hc).le
      exact absurd this (not_lt.2 hle)
    · rw [if_neg hlt, if_neg hlt]
      have hgt : s.x < t := lt_of_le_of_ne (not_lt.1 hlt) (Ne.symm ht)
      refine ⟨?_, hz.2⟩
      by_contra hc
      have := hu.inc s.x t (not_le.1 hc).le hgt (by linarith)
      exact absurd this (not_lt.2 hle)
  · rw [if_neg hle, if_neg hle]
    have hlt' := not_le.1 hle
    by_cases hlt : t < s.x
    · rw [if_pos hlt, if_pos hlt]
      refine ⟨?_, hz.2⟩
      by_contra hc
      have := hu.inc t s.x (not_le.1 hc).le hlt (by linarith)
      exact absurd this (not_lt.2 hlt'.le)
    · rw [if_neg hlt, if_neg hlt]
      have hgt : s.x < t := lt_of_le_of_ne (not_lt.1 hlt) (Ne.symm ht)
      refine ⟨hz.1, ?_⟩
      by_contra hc
      have := hu.dec s.x t (by linarith) hgt (not_le.1 hc).le
      exact absurd this (not_lt.2 hlt'.le)

/-- What is claimed about the result of the minimiser on `[lo, hi]` when the points `l` have been visited. -/
structure IsMin (g : α → α) (lo hi tolerance x : α) (l : List α) : Prop where
  inside : lo ≤ x ∧ x ≤ hi
  visited : x ∈ l
  best : ∀ y ∈ l, g x ≤ g y
  evals : ∀ y ∈ l, lo ≤ y ∧ y ≤ hi
  near : ∀ z, Unimodal g lo hi z → |x - z| ≤ 2 * (SQRT_EPSILON * |x| + tolerance / 3)

theorem minTol_pos {tolerance x : α} (ht : 0 < tolerance) : 0 < minTol tolerance x := by
  unfold minTol SQRT_EPSILON
  have := abs_nonneg x
  positivity

theorem minLoop_spec {tolerance lo hi : α} (ht : 0 < tolerance) {f : Callback α (List α)} {g : α → α}
    (he : Evaluates f g fun x => lo ≤ x ∧ x ≤ hi) :
    ∀ (n : Nat) (s : MinState α) (l : List α), MinInv g lo hi s l → (∀ z, Unimodal g lo hi z → s.a ≤ z ∧ z ≤ s.b) →
      minLoop tolerance f n s l = err "brent solver failed to converge" ∨
        ∃ x l', minLoop tolerance f n s l = ok (x, l') ∧ IsMin g lo hi tolerance x l'
  | 0, _, _, _, _ => Or.inl rfl
  | n + 1, s, l, h, hz => by
    rw [minLoop]
    dsimp only
    have htol := minTol_pos (x := s.x) ht
    by_cases hc : |s.x - (s.a + s.b) / 2| + (s.b - s.a) / 2 ≤ 2 * minTol tolerance s.x
    · right
      rw [if_pos hc]
      have hlo := h.lo_le; have hhi := h.le_hi; have hax := h.ax; have hxb := h.xb
      refine ⟨s.x, l, rfl, ⟨⟨by linarith, by linarith⟩, h.mem, h.best, h.inside, ?_⟩⟩
      intro z hu
      obtain ⟨h1, h2⟩ := hz z hu
      rw [max_side] at hc
      have h3 := (le_max_left _ _).trans hc
      have h4 := (le_max_right _ _).trans hc
      unfold minTol at h3 h4
      rw [abs_le]
      constructor <;> linarith
    · rw [if_neg hc]
      obtain ⟨h1, h2, h3⟩ := minStep_inside h htol hc
      have hlo := h.lo_le; have hhi := h.le_hi
      rw [he _ ⟨by linarith, by linarith⟩, ok_bind]
      dsimp only
      refine minLoop_spec ht he n _ _ (minUpdate_inv h h1 h2) ?_
      intro z hu
      exact minUpdate_unimodal h h1 h2 (by intro h0; exact h3 (by linarith)) hu (hz z hu)

/-- C37: the callback needs to be defined between the bounds only.  The minimiser rejects equal bounds or invalid parameters, fails to
converge, or returns a visited point between the bounds whose value is not above any value seen; for a unimodal function the result lies
within twice the tolerance of the minimiser.  All evaluations lie between the bounds; there are no panics. -/
theorem C37_brent {tolerance xa xb : α} {f : Callback α (List α)} {g : α → α}
    (he : Evaluates f g fun x => min xa xb ≤ x ∧ x ≤ max xa xb) (n : Nat) :
    (|xa - xb| < 10 * f64Eps ∧ brentMin n tolerance xa xb [] f = err "xa must be different from xb") ∨
    (n < 2 ∧ brentMin n tolerance xa xb [] f = err "n_iteration_max must be ≥ 2") ∨
    (tolerance < 10 * f64Eps ∧ brentMin n tolerance xa xb [] f = err "the tolerance must be ≥ 10.0 * f64::EPSILON") ∨
    brentMin n tolerance xa xb [] f = err "brent solver failed to converge" ∨
    ∃ x l, brentMin n tolerance xa xb [] f = ok (x, l) ∧ IsMin g (min xa xb) (max xa xb) tolerance x l := by
  unfold brentMin
  by_cases h1 : |xa - xb| < 10 * f64Eps
  · left; exact ⟨h1, if_pos h1⟩
  right
  rw [if_neg h1]
  by_cases h2 : n < 2
  · left; exact ⟨h2, if_pos h2⟩
  right
  rw [if_neg h2]
  by_cases h3 : tolerance < 10 * f64Eps
  · left; exact ⟨h3, if_pos h3⟩
  right
  rw [if_neg h3]
  have ht : 0 < tolerance := by
    have : (0 : α) < f64Eps := by unfold f64Eps; positivity
    push Not at h3; linarith
  have ea : (if xa < xb then xa else xb) = min xa xb := by
    split
    · rename_i h; exact (min_eq_left h.le).symm
    · rename_i h; exact (min_eq_right (not_lt.1 h)).symm
  have eb : (if xa < xb then xb else xa) = max xa xb := by
    split
    · rename_i h; exact (max_eq_right h.le).symm
    · rename_i h; exact (max_eq_left (not_lt.1 h)).symm
  dsimp only
  rw [ea, eb]
  have hle : min xa xb ≤ max xa xb := (min_le_left _ _).trans (le_max_left _ _)
  generalize min xa xb = lo at *
  generalize max xa xb = hi at *
  have hG := GSR_pos (α := α)
  have hG' := GSR_lt (α := α)
  have hd : 0 ≤ hi - lo := by linarith
  have h4 : 0 ≤ GSR * (hi - lo) := mul_nonneg hG.le hd
  have h5 : GSR * (hi - lo) ≤ 1 * (hi - lo) := mul_le_mul_of_nonneg_right hG'.le hd
  have hin : lo ≤ lo + GSR * (hi - lo) ∧ lo + GSR * (hi - lo) ≤ hi := ⟨by linarith, by linarith⟩
  rw [he _ hin, ok_bind]
  dsimp only
  refine minLoop_spec ht he n _ _ ⟨le_refl _, le_refl _, hin.1, hin.2, rfl, by simp, by simp, by simpa using hin⟩ ?_
  intro z hu
  exact hu.mem

/-- a parabola is unimodal -/
theorem unimodal_parabola : Unimodal (fun x : ℚ => (x - 1) ^ 2) (-4) 4 1 :=
  ⟨by norm_num, fun x y _ h2 h3 => by nlinarith, fun x y h1 h2 _ => by nlinarith⟩

/-- the hypotheses are met: a parabola on `[-4, 4]` converges (in exact arithmetic) with a coarse tolerance -/
example : (brentMin 100 (1 / 100 : ℚ) (-4) 4 [] (recorder fun x => (x - 1) ^ 2)).isOk = true := by decide +kernel

/-- the parabola through three points (Newton's form) has its stationary point here -/
def parabolaVertex (s : MinState α) : α :=
  let d1 := (s.fw - s.fx) / (s.w - s.x)
  let d2 := ((s.fv - s.fx) / (s.v - s.x) - d1) / (s.v - s.w)
  (s.x + s.w) / 2 - d1 / (2 * d2)

/-- C37: the trial step is the one to the stationary point of the parabola through the three best points whenever this point is well within
the interval and the step is shorter than the golden-section step. -/
theorem C37_parabola {s : MinState α} {tol : α} (hxw : |s.x - s.w| ≥ tol) (h1 : s.x ≠ s.w) (h2 : s.x ≠ s.v) (h3 : s.v ≠ s.w)
    (hcurv : ((s.fv - s.fx) / (s.v - s.x) - (s.fw - s.fx) / (s.w - s.x)) / (s.v - s.w) ≠ 0)
    (hg : |parabolaVertex s - s.x| < |goldStep s|) (ha : s.a + 2 * tol < parabolaVertex s) (hb : parabolaVertex s < s.b - 2 * tol) :
    minStep s tol = parabolaVertex s - s.x := by
  have d1 : s.w - s.x ≠ 0 := sub_ne_zero.2 h1.symm
  have d2 : s.v - s.x ≠ 0 := sub_ne_zero.2 h2.symm
  have d3 : s.v - s.w ≠ 0 := sub_ne_zero.2 h3
  set st := parabolaVertex s - s.x with hst
  have fix : ∃ p q, minPQ s = (p, q) ∧ 0 < q ∧ p = st * q := by
    set qq := 2 * ((s.x - s.v) * (s.fx - s.fw) - (s.x - s.w) * (s.fx - s.fv)) with hqq
    set pp := (s.x - s.v) * ((s.x - s.v) * (s.fx - s.fw)) - (s.x - s.w) * ((s.x - s.w) * (s.fx - s.fv)) with hpp
    have hc : ((s.fv - s.fx) / (s.v - s.x) - (s.fw - s.fx) / (s.w - s.x)) / (s.v - s.w) =
        -(qq / (2 * ((s.v - s.x) * (s.w - s.x) * (s.v - s.w)))) := by
      rw [hqq]
      field_simp
      ring
    have hq0 : qq ≠ 0 := by
      intro h0
      rw [h0, zero_div, neg_zero] at hc
      exact hcurv hc
    have hratio : -pp = st * qq := by
      rw [hst]
      unfold parabolaVertex
      dsimp only
      rw [hc]
      field_simp
      rw [hpp, hqq]
      field_simp
      ring
    unfold minPQ
    dsimp only
    by_cases hq : qq > 0
    · exact ⟨_, _, if_pos hq, hq, hratio⟩
    · refine ⟨_, _, if_neg hq, by have := lt_of_le_of_ne (not_lt.1 hq) hq0; linarith, ?_⟩
      rw [mul_neg, ← hratio, neg_neg]
  obtain ⟨p, q, ef, hq, hpq⟩ := fix
  unfold minStep
  rw [if_pos hxw]
  dsimp only
  rw [ef]
  dsimp only
  rw [if_pos]
  · rw [hpq]; field_simp
  · refine ⟨?_, ?_, ?_⟩
    · rw [hpq, abs_mul, abs_mul]
      exact mul_lt_mul_of_pos_right hg (abs_pos.2 hq.ne')
    · rw [hpq, mul_comm q]
      exact mul_lt_mul_of_pos_right (by rw [hst]; linarith) hq
    · rw [hpq, mul_comm q]
      exact mul_lt_mul_of_pos_right (by rw [hst]; linarith) hq

/-- the hypotheses are met by points of the parabola `(x-1)^2`, whose stationary point is found exactly -/
example : let s : MinState ℚ := { a := -3, b := 4, x := 3 / 4, v := 4, w := 2, fx := 1 / 16, fv := 9, fw := 1 }
    parabolaVertex s = 1 ∧ minStep s (1 / 1000) = 1 / 4 := by decide +kernel

end Russell.Lab
