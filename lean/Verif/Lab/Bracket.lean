import Verif.Prelude
import Mathlib.Algebra.Order.Field.Basic
import Mathlib.Data.Rat.Cast.Order
import Mathlib.Tactic.Linarith
import Mathlib.Tactic.Ring
import Mathlib.Topology.Order.Compact
import Mathlib.Topology.Instances.Real.Lemmas

/-!
# Bracketing of a minimum (property C36)

Model of `MinBracketing` (/repo/russell_lab/src/algo/min_bracketing.rs) over an ordered field.  The callback `f(x, args)` is a function
from the point and the state of `args` to a value and the new state, or an error, or a panic.  The statistics counters are not modelled.
-/

namespace Russell.Lab

open Russell Res

/-- a callback `FnMut(f64, &mut A) -> Result<f64, StrError>` -/
abbrev Callback (α A : Type) := α → A → Res (α × A)

/-- The callback evaluates the function `g` at the points of a set `D` and records the points visited; outside of `D` it may do anything
(return an error, panic, ...). -/
def Evaluates {α : Type} (f : Callback α (List α)) (g : α → α) (D : α → Prop) : Prop :=
  ∀ x, D x → ∀ l, f x l = ok (g x, l ++ [x])

/-- `Bracket` (/repo/russell_lab/src/algo/bracket.rs:13-31) -/
structure Bracket (α : Type) where
  a : α
  b : α
  fa : α
  fb : α
  xo : α
  fxo : α
  deriving DecidableEq

/-- `MinBracketing` without the statistics (/repo/russell_lab/src/algo/min_bracketing.rs:6-28) -/
structure MinBracketing (α : Type) where
  nIterationMax : Nat
  initialStep : α
  expansionFactor : α

variable {α : Type} [Field α] [LinearOrder α] {A : Type}

/-- final swap (/repo/russell_lab/src/algo/min_bracketing.rs:178-183) -/
def orderBracket (a b fa fb xo fxo : α) : Bracket α :=
  if a > b then { a := b, b := a, fa := fb, fb := fa, xo, fxo } else { a, b, fa, fb, xo, fxo }

/-- the iterations (/repo/russell_lab/src/algo/min_bracketing.rs:153-183); `n` is the number of iterations left -/
def bracketLoop (factor : α) (f : Callback α A) : (n : Nat) → (a fa xo fxo step : α) → A → Res (Bracket α × A)
  | 0, _, _, _, _, _, _ => err "try_bracket_min failed to converge"
  | n + 1, a, fa, xo, fxo, step, args => do
    let b := xo + step
    let (fb, args) ← f b args
    if fb > fxo then ok (orderBracket a b fa fb xo fxo, args)
    else bracketLoop factor f n xo fxo b fb (step * factor) args

/-- `MinBracketing::basic` (/repo/russell_lab/src/algo/min_bracketing.rs:129-184) with `validate_params`
(/repo/russell_lab/src/algo/min_bracketing.rs:42-47) -/
def MinBracketing.basic (s : MinBracketing α) (xGuess : α) (args : A) (f : Callback α A) : Res (Bracket α × A) :=
  if s.nIterationMax < 2 then err "n_iteration_max must be ≥ 2"
  else do
    let step := s.initialStep
    let a := xGuess
    let xo := xGuess + step
    let (fa, args) ← f a args
    let (fxo, args) ← f xo args
    if fxo > fa then bracketLoop s.expansionFactor f s.nIterationMax xo fxo a fa (-step) args
    else bracketLoop s.expansionFactor f s.nIterationMax a fa xo fxo step args

variable [IsStrictOrderedRing α]

/-- What is claimed about a bracket of `g`. -/
structure IsBracket (g : α → α) (r : Bracket α) : Prop where
  lt_left : r.a < r.xo
  lt_right : r.xo < r.b
  fa : r.fa = g r.a
  fb : r.fb = g r.b
  fxo : r.fxo = g r.xo
  le_left : r.fxo ≤ r.fa
  le_right : r.fxo ≤ r.fb
  strict : r.fxo < r.fa ∨ r.fxo < r.fb

theorem bracketLoop_spec {factor : α} (hf : 0 < factor) {f : Callback α (List α)} {g : α → α} (he : Evaluates f g fun _ => True) :
    ∀ (n : Nat) (a fa xo fxo step : α) (l : List α), fa = g a → fxo = g xo → fxo ≤ fa → step ≠ 0 → 0 < (xo - a) * step →
      bracketLoop factor f n a fa xo fxo step l = err "try_bracket_min failed to converge" ∨
        ∃ r l', bracketLoop factor f n a fa xo fxo step l = ok (r, l') ∧ IsBracket g r
  | 0, _, _, _, _, _, _, _, _, _, _, _ => Or.inl rfl
  | n + 1, a, fa, xo, fxo, step, l, ha, hx, hle, hs, hd => by
    rw [bracketLoop]
    dsimp only
    rw [he _ trivial, ok_bind]
    dsimp only
    by_cases hc : g (xo + step) > fxo
    · right
      rw [if_pos hc]
      refine ⟨_, _, rfl, ?_⟩
      unfold orderBracket
      rcases lt_or_gt_of_ne hs with h0 | h0
      · have h1 : xo < a := by nlinarith
        rw [if_pos (by linarith)]
        exact ⟨by dsimp only; linarith, h1, rfl, ha, hx, hc.le, hle, Or.inl hc⟩
      · have h1 : a < xo := by nlinarith
        rw [if_neg (by linarith)]
        exact ⟨h1, by dsimp only; linarith, ha, rfl, hx, hle, hc.le, Or.inr hc⟩
    · rw [if_neg hc]
      refine bracketLoop_spec hf he n xo fxo (xo + step) (g (xo + step)) (step * factor) _ hx rfl (not_lt.1 hc)
        (mul_ne_zero hs hf.ne') ?_
      have : 0 < step * step := by
        rcases lt_or_gt_of_ne hs with h | h
        · exact mul_pos_of_neg_of_neg h h
        · exact mul_pos h h
      have h2 := mul_pos this hf
      calc (0 : α) < step * step * factor := h2
        _ = (xo + step - xo) * (step * factor) := by ring

/-- C36: with a non-zero step and a positive expansion factor, `basic` either reports failure or returns `a < xo < b` with the
function values at these points, `f(xo)` not above the value at either end and strictly below one of them.  It never panics. -/
theorem C36_bracket {s : MinBracketing α} (hstep : s.initialStep ≠ 0) (hfac : 0 < s.expansionFactor) {f : Callback α (List α)}
    {g : α → α} (he : Evaluates f g fun _ => True) (x : α) (l : List α) :
    s.basic x l f = err "n_iteration_max must be ≥ 2" ∨ s.basic x l f = err "try_bracket_min failed to converge" ∨
      ∃ r l', s.basic x l f = ok (r, l') ∧ IsBracket g r := by
  unfold MinBracketing.basic
  by_cases hn : s.nIterationMax < 2
  · left; rw [if_pos hn]
  right
  rw [if_neg hn]
  dsimp only
  rw [he _ trivial, ok_bind]
  dsimp only
  rw [he _ trivial, ok_bind]
  dsimp only
  have hpos : 0 < s.initialStep * s.initialStep := by
    rcases lt_or_gt_of_ne hstep with h | h
    · exact mul_pos_of_neg_of_neg h h
    · exact mul_pos h h
  by_cases hc : g (x + s.initialStep) > g x
  · rw [if_pos hc]
    exact bracketLoop_spec hfac he _ _ _ _ _ _ _ rfl rfl hc.le (neg_ne_zero.2 hstep) (by
      calc (0 : α) < _ := hpos
        _ = _ := by ring)
  · rw [if_neg hc]
    exact bracketLoop_spec hfac he _ _ _ _ _ _ _ rfl rfl (not_lt.1 hc) hstep (by
      calc (0 : α) < _ := hpos
        _ = _ := by ring)

/-- C36: between the ends of a bracket of a continuous function lies a local minimum (the minimum over `[a, b]` is attained strictly
inside). -/
theorem C36_minimum_inside {s : MinBracketing ℝ} (hstep : s.initialStep ≠ 0) (hfac : 0 < s.expansionFactor)
    {f : Callback ℝ (List ℝ)} {g : ℝ → ℝ} (he : Evaluates f g fun _ => True) (hg : Continuous g) {x : ℝ} {l l' : List ℝ} {r : Bracket ℝ}
    (h : s.basic x l f = ok (r, l')) : ∃ z, r.a < z ∧ z < r.b ∧ ∀ y, r.a ≤ y → y ≤ r.b → g z ≤ g y := by
  rcases C36_bracket hstep hfac he x l with h1 | h1 | ⟨r', l'', h1, hb⟩
  · rw [h] at h1; cases h1
  · rw [h] at h1; cases h1
  · rw [h] at h1
    injection h1 with h1
    injection h1 with h1 h2
    subst h1
    have hle : r.a ≤ r.b := (hb.lt_left.trans hb.lt_right).le
    obtain ⟨z, hz, hmin⟩ := isCompact_Icc.exists_isMinOn (Set.nonempty_Icc.2 hle) hg.continuousOn
    have hmin' : ∀ y, r.a ≤ y → y ≤ r.b → g z ≤ g y := fun y h1 h2 => hmin ⟨h1, h2⟩
    have h3 := hb.le_left; have h4 := hb.le_right
    rw [hb.fxo, hb.fa] at h3
    rw [hb.fxo, hb.fb] at h4
    by_cases hza : z = r.a
    · refine ⟨r.xo, hb.lt_left, hb.lt_right, fun y h1 h2 => h3.trans ?_⟩
      rw [← hza]; exact hmin' y h1 h2
    by_cases hzb : z = r.b
    · refine ⟨r.xo, hb.lt_left, hb.lt_right, fun y h1 h2 => h4.trans ?_⟩
      rw [← hzb]; exact hmin' y h1 h2
    exact ⟨z, lt_of_le_of_ne hz.1 (Ne.symm hza), lt_of_le_of_ne hz.2 hzb, hmin'⟩

/-- C36: a rise found by the first probe is returned at once, after three evaluations. -/
theorem C36_first_probe {s : MinBracketing α} (hn : 2 ≤ s.nIterationMax) {f : Callback α (List α)} {g : α → α}
    (he : Evaluates f g fun _ => True) (x : α) (l : List α) (h1 : g (x + s.initialStep) ≤ g x)
    (h2 : g (x + s.initialStep) < g (x + s.initialStep + s.initialStep)) (hpos : 0 < s.initialStep) :
    s.basic x l f = ok (⟨x, x + s.initialStep + s.initialStep, g x, g (x + s.initialStep + s.initialStep), x + s.initialStep,
      g (x + s.initialStep)⟩, l ++ [x, x + s.initialStep, x + s.initialStep + s.initialStep]) := by
  unfold MinBracketing.basic
  rw [if_neg (by omega)]
  dsimp only
  rw [he _ trivial, ok_bind]
  dsimp only
  rw [he _ trivial, ok_bind]
  dsimp only
  rw [if_neg (not_lt.2 h1)]
  obtain ⟨n, hn'⟩ : ∃ n, s.nIterationMax = n + 1 := ⟨s.nIterationMax - 1, by omega⟩
  rw [hn', bracketLoop]
  dsimp only
  rw [he _ trivial, ok_bind]
  dsimp only
  rw [if_pos h2, orderBracket, if_neg (by linarith)]
  simp

/-- a callback recording the points -/
def recorder (g : α → α) : Callback α (List α) := fun x l => ok (g x, l ++ [x])

omit [Field α] [LinearOrder α] [IsStrictOrderedRing α] in
theorem recorder_evaluates (g : α → α) (D : α → Prop) : Evaluates (recorder g) g D := fun _ _ _ => rfl

/-- C36: the documentation promises `f(xo) < f(a)` and `f(xo) < f(b)`; equal values at the first two probes violate it:
`f(x) = |x - 1|` from 0 with step 2 returns the bracket (0, 2, 4) with `f(0) = f(2) = 1`. -/
theorem C36_strict_counterexample :
    ({ nIterationMax := 100, initialStep := 2, expansionFactor := 2 } : MinBracketing ℚ).basic 0 [] (recorder fun x => |x - 1|) =
      ok ({ a := 0, b := 4, fa := 1, fb := 3, xo := 2, fxo := 1 }, [0, 2, 4]) := by
  decide +kernel

/-- the hypotheses are met by a parabola, walking to the left -/
example : ({ nIterationMax := 100, initialStep := 1, expansionFactor := 2 } : MinBracketing ℚ).basic 0 [] (recorder fun x => (x + 3) ^ 2) =
    ok ({ a := -7, b := -1, fa := 16, fb := 4, xo := -3, fxo := 0 }, [0, 1, -1, -3, -7]) := by
  decide +kernel

end Russell.Lab
