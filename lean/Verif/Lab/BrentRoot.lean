import Verif.Lab.Bracket
import Mathlib.Algebra.Order.Field.Basic
import Mathlib.Algebra.Order.AbsoluteValue.Basic
import Mathlib.Tactic.FieldSimp
import Mathlib.Tactic.Positivity
import Mathlib.Topology.Order.IntermediateValue

/-!
# Brent's root finder (property C35)

Model of `RootFinder::brent` (/repo/russell_lab/src/algo/root_finder_brent.rs) over an ordered field.
-/

namespace Russell.Lab

open Russell Res

variable {α : Type} [Field α] [LinearOrder α] {A : Type}

/-- `f64::EPSILON` -/
def f64Eps : α := 1 / 2 ^ 52

/-- local variables of `brent` -/
structure BrentState (α : Type) where
  a : α
  b : α
  c : α
  fa : α
  fb : α
  fc : α

/-- `// swap data` (/repo/russell_lab/src/algo/root_finder_brent.rs:101-108) -/
def BrentState.swap (s : BrentState α) : BrentState α :=
  if |s.fc| < |s.fb| then { a := s.b, b := s.c, c := s.b, fa := s.fb, fb := s.fc, fc := s.fb } else s

/-- numerator and denominator of the interpolation (/repo/russell_lab/src/algo/root_finder_brent.rs:125-141) -/
def brentPQ (s : BrentState α) : α × α :=
  let del := s.c - s.b
  if s.a = s.c then
    let t0 := s.fb / s.fa
    (del * t0, 1 - t0)
  else
    let t0 := s.fa / s.fc
    let t1 := s.fb / s.fc
    let t2 := s.fb / s.fa
    (t2 * (del * t0 * (t0 - t1) - (s.b - s.a) * (t1 - 1)), (t0 - 1) * (t1 - 1) * (t2 - 1))

/-- `// fix the sign of p and q` (/repo/russell_lab/src/algo/root_finder_brent.rs:144-148) -/
def brentFix (pq : α × α) : α × α := if pq.1 > 0 then (pq.1, -pq.2) else (-pq.1, pq.2)

/-- the step: bisection or interpolation (/repo/russell_lab/src/algo/root_finder_brent.rs:114, 122-154) -/
def brentInterp (s : BrentState α) (stepOld tol : α) : α :=
  if |stepOld| ≥ tol ∧ |s.fa| > |s.fb| then
    let pq := brentFix (brentPQ s)
    if pq.1 < 3 / 4 * (s.c - s.b) * pq.2 - |tol * pq.2| / 2 ∧ pq.1 < |stepOld * pq.2 / 2| then pq.1 / pq.2
    else (s.c - s.b) / 2
  else (s.c - s.b) / 2

/-- `// limit the step` (/repo/russell_lab/src/algo/root_finder_brent.rs:157-163) -/
def brentLimit (step tol : α) : α := if |step| < tol then (if step > 0 then tol else -tol) else step

/-- `// update c` (/repo/russell_lab/src/algo/root_finder_brent.rs:165-178): the state after the evaluation of `f` at the new `b` -/
def brentUpdate (s : BrentState α) (b fb : α) : BrentState α :=
  if (fb > 0 ∧ s.fc > 0) ∨ (fb < 0 ∧ s.fc < 0) then { a := s.b, fa := s.fb, b, fb, c := s.b, fc := s.fb }
  else { a := s.b, fa := s.fb, b, fb, c := s.c, fc := s.fc }

/-- the tolerance (/repo/russell_lab/src/algo/root_finder_brent.rs:111) -/
def brentTol (tolerance b : α) : α := 2 * f64Eps * |b| + tolerance / 2

/-- the iterations (/repo/russell_lab/src/algo/root_finder_brent.rs:93-188); `n` is the number of iterations left -/
def brentLoop (tolerance : α) (f : Callback α A) : (n : Nat) → BrentState α → A → Res (α × A)
  | 0, _, _ => err "brent solver failed to converge"
  | n + 1, s, args =>
    let stepOld := s.b - s.a
    let s := s.swap
    let tol := brentTol tolerance s.b
    if |(s.c - s.b) / 2| ≤ tol ∨ s.fb = 0 then ok (s.b, args)
    else do
      let step := brentLimit (brentInterp s stepOld tol) tol
      let (fb, args) ← f (s.b + step) args
      brentLoop tolerance f n (brentUpdate s (s.b + step) fb) args

/-- `RootFinder::brent` (/repo/russell_lab/src/algo/root_finder_brent.rs:43-189) -/
def brentRoot (maxIterations : Nat) (tolerance xa xb : α) (args : A) (f : Callback α A) : Res (α × A) :=
  if |xa - xb| < 10 * f64Eps then err "xa must be different from xb"
  else do
    let (fa, args) ← f xa args
    let (fb, args) ← f xb args
    if fa * fb ≥ -f64Eps then err "xa and xb must bracket the root and f(xa) × f(xb) < 0"
    else brentLoop tolerance f maxIterations { a := xa, b := xb, c := xa, fa, fb, fc := fa } args

variable [IsStrictOrderedRing α]

/-- strictly between (in either direction) -/
def Between (a b c : α) : Prop := 0 < (c - b) * (b - a)

/-- the invariant of the iterations -/
structure BrentInv (g : α → α) (lo hi : α) (s : BrentState α) : Prop where
  ha : lo ≤ s.a ∧ s.a ≤ hi
  hb : lo ≤ s.b ∧ s.b ≤ hi
  hc : lo ≤ s.c ∧ s.c ≤ hi
  fa : s.fa = g s.a
  fb : s.fb = g s.b
  fc : s.fc = g s.c
  sign : s.fb = 0 ∨ s.fb * s.fc < 0
  prev : s.a = s.c ∨ (Between s.a s.b s.c ∧ (s.fb = 0 ∨ 0 < s.fa * s.fb))

theorem BrentInv.swapped {g : α → α} {lo hi : α} {s : BrentState α} (h : BrentInv g lo hi s) : BrentInv g lo hi s.swap := by
  unfold BrentState.swap
  by_cases hc : |s.fc| < |s.fb|
  · rw [if_pos hc]
    have hb : s.fb ≠ 0 := by
      intro h0; rw [h0, abs_zero] at hc; exact absurd hc (not_lt.2 (abs_nonneg _))
    refine ⟨h.hb, h.hc, h.hb, h.fb, h.fc, h.fb, ?_, Or.inl rfl⟩
    rcases h.sign with h1 | h1
    · exact absurd h1 hb
    · right; dsimp only; rwa [mul_comm]
  · rw [if_neg hc]; exact h

/-- The step goes from `b` towards `c` and stops before `c`. -/
def Inside (step del : α) : Prop := (0 < step ∧ step < del) ∨ (del < step ∧ step < 0)

theorem inside_half {del : α} (h : del ≠ 0) : Inside (del / 2) del := by
  rcases lt_or_gt_of_ne h with h | h
  · right; constructor <;> linarith
  · left; constructor <;> linarith

/-- the numerator of the interpolation does not vanish -/
theorem brentPQ_ne {g : α → α} {lo hi : α} {s : BrentState α} (h : BrentInv g lo hi s) (hfb : s.fb ≠ 0) (hlt : |s.fa| > |s.fb|) :
    (brentPQ s).1 ≠ 0 := by
  have hs : s.fb * s.fc < 0 := h.sign.resolve_left hfb
  have hfc : s.fc ≠ 0 := by rintro h0; rw [h0, mul_zero] at hs; exact lt_irrefl _ hs
  have hfa : s.fa ≠ 0 := by rintro h0; rw [h0, abs_zero] at hlt; exact absurd hlt (not_lt.2 (abs_nonneg _))
  have hbc : s.b ≠ s.c := by
    intro he
    rw [h.fb, h.fc, he] at hs
    exact absurd hs (not_lt.2 (mul_self_nonneg _))
  have hdel : s.c - s.b ≠ 0 := sub_ne_zero.2 (Ne.symm hbc)
  unfold brentPQ
  dsimp only
  by_cases hac : s.a = s.c
  · rw [if_pos hac]; exact mul_ne_zero hdel (div_ne_zero hfb hfa)
  · rw [if_neg hac]
    obtain ⟨hbt, hsg⟩ := h.prev.resolve_left hac
    have hab : 0 < s.fa * s.fb := hsg.resolve_left hfb
    dsimp only
    refine mul_ne_zero (div_ne_zero hfb hfa) ?_
    have hfc2 : 0 < s.fc * s.fc := mul_self_pos.2 hfc
    -- multiplied by (b - a) both terms are positive
    have h1 : 0 < s.fa / s.fc * (s.fa / s.fc - s.fb / s.fc) := by
      have h2 : s.fa / s.fc * (s.fa / s.fc - s.fb / s.fc) = (s.fa * s.fa - s.fa * s.fb) / (s.fc * s.fc) := by field_simp
      rw [h2]
      apply div_pos _ hfc2
      have h3 : |s.fb| * |s.fb| < |s.fa| * |s.fa| := mul_lt_mul'' hlt hlt (abs_nonneg _) (abs_nonneg _)
      have h4 : s.fa * s.fb < s.fa * s.fa := by
        have h5 : |s.fa * s.fb| < |s.fa| * |s.fa| := by
          rw [abs_mul]; exact mul_lt_mul_of_pos_left hlt (abs_pos.2 hfa)
        rw [abs_mul_abs_self] at h5
        exact lt_of_le_of_lt (le_abs_self _) h5
      linarith
    have h2 : s.fb / s.fc - 1 < 0 := by
      have : s.fb / s.fc = s.fb * s.fc / (s.fc * s.fc) := by field_simp
      rw [this]
      have := div_neg_of_neg_of_pos hs hfc2
      linarith
    intro h0
    have h3 : ((s.c - s.b) * (s.fa / s.fc) * (s.fa / s.fc - s.fb / s.fc) - (s.b - s.a) * (s.fb / s.fc - 1)) * (s.b - s.a) = 0 := by
      rw [h0, zero_mul]
    have h4 : ((s.c - s.b) * (s.fa / s.fc) * (s.fa / s.fc - s.fb / s.fc) - (s.b - s.a) * (s.fb / s.fc - 1)) * (s.b - s.a) =
        (s.c - s.b) * (s.b - s.a) * (s.fa / s.fc * (s.fa / s.fc - s.fb / s.fc)) + (s.b - s.a) * (s.b - s.a) * (-(s.fb / s.fc - 1)) := by ring
    rw [h4] at h3
    have h5 : 0 < (s.c - s.b) * (s.b - s.a) * (s.fa / s.fc * (s.fa / s.fc - s.fb / s.fc)) := mul_pos hbt h1
    have h6 : 0 ≤ (s.b - s.a) * (s.b - s.a) * (-(s.fb / s.fc - 1)) := mul_nonneg (mul_self_nonneg _) (by linarith)
    linarith

theorem brentInterp_inside {g : α → α} {lo hi : α} {s : BrentState α} (h : BrentInv g lo hi s) (hfb : s.fb ≠ 0) (stepOld tol : α) :
    Inside (brentInterp s stepOld tol) (s.c - s.b) := by
  have hs : s.fb * s.fc < 0 := h.sign.resolve_left hfb
  have hbc : s.b ≠ s.c := by
    intro he
    rw [h.fb, h.fc, he] at hs
    exact absurd hs (not_lt.2 (mul_self_nonneg _))
  have hdel : s.c - s.b ≠ 0 := sub_ne_zero.2 (Ne.symm hbc)
  unfold brentInterp
  split
  · rename_i hc
    dsimp only
    have hp := brentPQ_ne h hfb hc.2
    have hp' : 0 < (brentFix (brentPQ s)).1 := by
      unfold brentFix
      split
      · assumption
      · rename_i h0; exact neg_pos.2 (lt_of_le_of_ne (not_lt.1 h0) hp)
    generalize brentFix (brentPQ s) = pq at *
    split
    · rename_i hq
      generalize s.c - s.b = del at *
      have h1 : 0 ≤ |tol * pq.2| := abs_nonneg _
      have h2 : pq.1 < 3 / 4 * (del * pq.2) := by linarith [hq.1]
      have h3 : 0 < del * pq.2 := by linarith
      rcases lt_or_gt_of_ne hdel with hd | hd
      · have hq2 : pq.2 < 0 := by
          rcases lt_trichotomy pq.2 0 with h | h | h
          · exact h
          · rw [h, mul_zero] at h3; exact absurd h3 (lt_irrefl _)
          · exact absurd h3 (not_lt.2 (mul_nonpos_of_nonpos_of_nonneg hd.le h.le))
        right
        refine ⟨?_, div_neg_of_pos_of_neg hp' hq2⟩
        rw [lt_div_iff_of_neg hq2]; linarith
      · have hq2 : 0 < pq.2 := (pos_iff_pos_of_mul_pos h3).1 hd
        left
        refine ⟨div_pos hp' hq2, ?_⟩
        rw [div_lt_iff₀ hq2]; linarith
    · exact inside_half hdel
  · exact inside_half hdel

theorem brentLimit_inside {step del tol : α} (h : Inside step del) (ht : tol < |del / 2|) : Inside (brentLimit step tol) del := by
  unfold brentLimit
  split
  · rename_i hlt
    have ht0 : 0 < tol := lt_of_le_of_lt (abs_nonneg _) hlt
    rcases h with ⟨h1, h2⟩ | ⟨h1, h2⟩
    · rw [if_pos h1]
      left
      rw [abs_of_pos (by linarith)] at ht
      exact ⟨ht0, by linarith⟩
    · rw [if_neg (not_lt.2 h2.le)]
      right
      rw [abs_of_neg (by linarith)] at ht
      exact ⟨by linarith, by linarith⟩
  · exact h

/-- What is claimed about the result of the root finder on `[lo, hi]`. -/
structure IsRoot (g : α → α) (lo hi tolerance r : α) : Prop where
  inside : lo ≤ r ∧ r ≤ hi
  root : g r = 0 ∨ ∃ c, lo ≤ c ∧ c ≤ hi ∧ g r * g c < 0 ∧ |c - r| ≤ 2 * (2 * f64Eps * |r| + tolerance / 2)

theorem brentUpdate_inv {g : α → α} {lo hi : α} {s : BrentState α} (h : BrentInv g lo hi s) (hfb : s.fb ≠ 0) {step : α}
    (hi' : Inside step (s.c - s.b)) : (lo ≤ s.b + step ∧ s.b + step ≤ hi) ∧ BrentInv g lo hi (brentUpdate s (s.b + step) (g (s.b + step))) := by
  have hs : s.fb * s.fc < 0 := h.sign.resolve_left hfb
  have hb' : lo ≤ s.b + step ∧ s.b + step ≤ hi := by
    obtain ⟨h1, h2⟩ := h.hb
    obtain ⟨h3, h4⟩ := h.hc
    rcases hi' with ⟨h5, h6⟩ | ⟨h5, h6⟩ <;> constructor <;> linarith
  refine ⟨hb', ?_⟩
  have hfc : s.fc ≠ 0 := by rintro h0; rw [h0, mul_zero] at hs; exact lt_irrefl _ hs
  unfold brentUpdate
  split
  · rename_i hc
    refine ⟨h.hb, hb', h.hb, h.fb, rfl, h.fb, ?_, Or.inl rfl⟩
    right
    dsimp only
    rcases hc with ⟨h1, h2⟩ | ⟨h1, h2⟩
    · have : s.fb < 0 := by
        by_contra h0; exact absurd hs (not_lt.2 (mul_nonneg (not_lt.1 h0) h2.le))
      exact mul_neg_of_pos_of_neg h1 this
    · have : 0 < s.fb := by
        by_contra h0; exact absurd hs (not_lt.2 (mul_nonneg_of_nonpos_of_nonpos (not_lt.1 h0) h2.le))
      exact mul_neg_of_neg_of_pos h1 this
  · rename_i hc
    have hsg : g (s.b + step) = 0 ∨ g (s.b + step) * s.fc < 0 := by
      rcases lt_trichotomy (g (s.b + step)) 0 with h0 | h0 | h0
      · right
        have : 0 < s.fc := by
          rcases lt_or_gt_of_ne hfc with h1 | h1
          · exact absurd (Or.inr ⟨h0, h1⟩) hc
          · exact h1
        exact mul_neg_of_neg_of_pos h0 this
      · exact Or.inl h0
      · right
        have : s.fc < 0 := by
          rcases lt_or_gt_of_ne hfc with h1 | h1
          · exact h1
          · exact absurd (Or.inl ⟨h0, h1⟩) hc
        exact mul_neg_of_pos_of_neg h0 this
    refine ⟨h.hb, hb', h.hc, h.fb, rfl, h.fc, hsg, Or.inr ⟨?_, ?_⟩⟩
    · unfold Between
      dsimp only
      rcases hi' with ⟨h5, h6⟩ | ⟨h5, h6⟩
      · exact mul_pos (by linarith) (by linarith)
      · exact mul_pos_of_neg_of_neg (by linarith) (by linarith)
    · dsimp only
      rcases hsg with h0 | h0
      · exact Or.inl h0
      · right
        by_contra hn
        have h1 : 0 < (s.fb * s.fc) * (g (s.b + step) * s.fc) := mul_pos_of_neg_of_neg hs h0
        have h2 : (s.fb * s.fc) * (g (s.b + step) * s.fc) = (s.fb * g (s.b + step)) * (s.fc * s.fc) := by ring
        rw [h2] at h1
        exact absurd h1 (not_lt.2 (mul_nonpos_of_nonpos_of_nonneg (not_lt.1 hn) (mul_self_nonneg _)))

theorem brentLoop_spec {tolerance lo hi : α} {f : Callback α (List α)} {g : α → α}
    (he : Evaluates f g fun x => lo ≤ x ∧ x ≤ hi) :
    ∀ (n : Nat) (s : BrentState α) (l : List α), BrentInv g lo hi s → (∀ x ∈ l, lo ≤ x ∧ x ≤ hi) →
      brentLoop tolerance f n s l = err "brent solver failed to converge" ∨
        ∃ r l', brentLoop tolerance f n s l = ok (r, l') ∧ IsRoot g lo hi tolerance r ∧ (∀ x ∈ l', lo ≤ x ∧ x ≤ hi)
  | 0, _, _, _, _ => Or.inl rfl
  | n + 1, s, l, h, hl => by
    rw [brentLoop]
    dsimp only
    have h' := h.swapped
    generalize s.swap = t at *
    by_cases hc : |(t.c - t.b) / 2| ≤ brentTol tolerance t.b ∨ t.fb = 0
    · right
      rw [if_pos hc]
      refine ⟨t.b, l, rfl, ⟨h'.hb, ?_⟩, hl⟩
      by_cases h0 : t.fb = 0
      · left; rw [← h'.fb]; exact h0
      · right
        refine ⟨t.c, h'.hc.1, h'.hc.2, ?_, ?_⟩
        · rw [← h'.fb, ← h'.fc]; exact h'.sign.resolve_left h0
        · have h1 := hc.resolve_right h0
          rw [abs_div, abs_of_pos (by norm_num : (0 : α) < 2), div_le_iff₀ (by norm_num)] at h1
          unfold brentTol at h1
          linarith
    · rw [if_neg hc]
      push Not at hc
      have hins := brentLimit_inside (brentInterp_inside h' hc.2 (s.b - s.a) (brentTol tolerance t.b)) hc.1
      obtain ⟨hin, hinv⟩ := brentUpdate_inv h' hc.2 hins
      rw [he _ hin, ok_bind]
      dsimp only
      refine brentLoop_spec he n _ _ hinv ?_
      intro x hx
      rcases List.mem_append.1 hx with hx | hx
      · exact hl x hx
      · rw [List.mem_singleton.1 hx]; exact hin

/-- C35: the callback needs to be defined on the bracket only.  The root finder rejects equal bounds, rejects bounds without a change of
sign, fails to converge, or returns a point of the bracket where the function vanishes or next to which (within twice the tolerance) it
changes sign; all evaluations lie in the bracket; there are no panics. -/
theorem C35_brent {lo hi tolerance xa xb : α} {f : Callback α (List α)} {g : α → α} (he : Evaluates f g fun x => lo ≤ x ∧ x ≤ hi)
    (ha : lo ≤ xa ∧ xa ≤ hi) (hb : lo ≤ xb ∧ xb ≤ hi) (n : Nat) :
    (|xa - xb| < 10 * f64Eps ∧ brentRoot n tolerance xa xb [] f = err "xa must be different from xb") ∨
    (g xa * g xb ≥ -f64Eps ∧ brentRoot n tolerance xa xb [] f = err "xa and xb must bracket the root and f(xa) × f(xb) < 0") ∨
    brentRoot n tolerance xa xb [] f = err "brent solver failed to converge" ∨
    (g xa * g xb < 0 ∧ ∃ r l, brentRoot n tolerance xa xb [] f = ok (r, l) ∧ IsRoot g lo hi tolerance r ∧ ∀ x ∈ l, lo ≤ x ∧ x ≤ hi) := by
  unfold brentRoot
  by_cases h1 : |xa - xb| < 10 * f64Eps
  · left; exact ⟨h1, if_pos h1⟩
  right
  rw [if_neg h1, he _ ha, ok_bind]
  dsimp only
  rw [he _ hb, ok_bind]
  dsimp only
  by_cases h2 : g xa * g xb ≥ -f64Eps
  · left; exact ⟨h2, if_pos h2⟩
  right
  rw [if_neg h2]
  have h3 : g xa * g xb < 0 := by
    have : (0 : α) < f64Eps := by unfold f64Eps; positivity
    push Not at h2; linarith
  have hinv : BrentInv g lo hi { a := xa, b := xb, c := xa, fa := g xa, fb := g xb, fc := g xa } :=
    ⟨ha, hb, ha, rfl, rfl, rfl, Or.inr (by dsimp only; rwa [mul_comm]), Or.inl rfl⟩
  rcases brentLoop_spec (tolerance := tolerance) he n _ ([] ++ [xa] ++ [xb]) hinv (by simp [ha, hb]) with h4 | ⟨r, l, h4, h5, h6⟩
  · left; exact h4
  · right; exact ⟨h3, r, l, h4, h5, h6⟩

/-- C35: the bracket may be given in either order; success implies a change of sign between the bounds. -/
theorem C35_success {tolerance xa xb : α} {f : Callback α (List α)} {g : α → α}
    (he : Evaluates f g fun x => min xa xb ≤ x ∧ x ≤ max xa xb) {n : Nat} {r : α} {l : List α}
    (h : brentRoot n tolerance xa xb [] f = ok (r, l)) :
    IsRoot g (min xa xb) (max xa xb) tolerance r ∧ g xa * g xb < 0 ∧ ∀ x ∈ l, min xa xb ≤ x ∧ x ≤ max xa xb := by
  rcases C35_brent (tolerance := tolerance) he ⟨min_le_left _ _, le_max_left _ _⟩ ⟨min_le_right _ _, le_max_right _ _⟩ n with
    ⟨_, h1⟩ | ⟨_, h1⟩ | h1 | ⟨h0, r', l', h1, h2, h3⟩
  · rw [h] at h1; cases h1
  · rw [h] at h1; cases h1
  · rw [h] at h1; cases h1
  · rw [h] at h1
    injection h1 with h1
    injection h1 with h1 h1'
    subst h1 h1'
    exact ⟨h2, h0, h3⟩

/-- C35: for a continuous function a root lies within `4 ε |r| + tolerance` of the result. -/
theorem C35_near_root {tolerance xa xb : ℝ} (ht : 0 ≤ tolerance) {f : Callback ℝ (List ℝ)} {g : ℝ → ℝ}
    (he : Evaluates f g fun x => min xa xb ≤ x ∧ x ≤ max xa xb) (hg : ContinuousOn g (Set.Icc (min xa xb) (max xa xb)))
    {n : Nat} {r : ℝ} {l : List ℝ} (h : brentRoot n tolerance xa xb [] f = ok (r, l)) :
    ∃ z, g z = 0 ∧ min xa xb ≤ z ∧ z ≤ max xa xb ∧ |z - r| ≤ 4 * f64Eps * |r| + tolerance := by
  obtain ⟨⟨hin, hr⟩, _, _⟩ := C35_success he h
  have he0 : (0 : ℝ) ≤ f64Eps := by unfold f64Eps; positivity
  rcases hr with h0 | ⟨c, hc1, hc2, hs, hd⟩
  · refine ⟨r, h0, hin.1, hin.2, ?_⟩
    rw [sub_self, abs_zero]; positivity
  · have hsub : Set.uIcc r c ⊆ Set.Icc (min xa xb) (max xa xb) := by
      intro z hz
      rw [Set.mem_uIcc] at hz
      rcases hz with ⟨h1, h2⟩ | ⟨h1, h2⟩
      · exact ⟨hin.1.trans h1, h2.trans hc2⟩
      · exact ⟨hc1.trans h1, h2.trans hin.2⟩
    have hiv := intermediate_value_uIcc (hg.mono hsub)
    have h0 : (0 : ℝ) ∈ Set.uIcc (g r) (g c) := by
      rw [Set.mem_uIcc]
      rcases le_total (g r) 0 with h1 | h1
      · left
        refine ⟨h1, ?_⟩
        by_contra h2
        exact absurd hs (not_lt.2 (mul_nonneg_of_nonpos_of_nonpos h1 (not_le.1 h2).le))
      · right
        refine ⟨?_, h1⟩
        by_contra h2
        exact absurd hs (not_lt.2 (mul_nonneg h1 (not_le.1 h2).le))
    obtain ⟨z, hz, hz0⟩ := hiv h0
    have hz' := hsub hz
    refine ⟨z, hz0, hz'.1, hz'.2, ?_⟩
    have h3 : |z - r| ≤ |c - r| := by
      rw [Set.mem_uIcc] at hz
      rcases hz with ⟨h1, h2⟩ | ⟨h1, h2⟩
      · rw [abs_of_nonneg (by linarith), abs_of_nonneg (by linarith)]; linarith
      · rw [abs_of_nonpos (by linarith), abs_of_nonpos (by linarith)]; linarith
    calc |z - r| ≤ |c - r| := h3
      _ ≤ _ := hd
      _ = _ := by ring

/-- the hypotheses are met: `4 - x²` on `[-4, 0]` with a coarse tolerance converges (in exact arithmetic) -/
example : (brentRoot 100 (1 / 1000 : ℚ) (-4) 0 [] (recorder fun x => 4 - x ^ 2)).isOk = true := by decide +kernel

/-- no sign change -/
example : brentRoot 100 (1 / 1000 : ℚ) (-1) 1 [] (recorder fun x => 4 - x ^ 2) = err "xa and xb must bracket the root and f(xa) × f(xb) < 0" := by
  decide +kernel

/-- the root of the interpolation of the inverse function: of the line through the last two points, or of the parabola in `y` through all
three points (Lagrange's formula at `y = 0`) -/
def inverseInterp (s : BrentState α) : α :=
  if s.a = s.c then s.b - s.fb * (s.c - s.b) / (s.fc - s.fb)
  else s.a * (s.fb * s.fc) / ((s.fa - s.fb) * (s.fa - s.fc)) + s.b * (s.fa * s.fc) / ((s.fb - s.fa) * (s.fb - s.fc)) +
    s.c * (s.fa * s.fb) / ((s.fc - s.fa) * (s.fc - s.fb))

theorem brentPQ_div {s : BrentState α} (h1 : s.fa ≠ 0) (h3 : s.fc ≠ 0) (h12 : s.fa ≠ s.fb) (h23 : s.fb ≠ s.fc)
    (hac : s.a = s.c → s.fa = s.fc) (h13 : s.a ≠ s.c → s.fa ≠ s.fc) :
    (brentPQ s).2 ≠ 0 ∧ -((brentPQ s).1 / (brentPQ s).2) = inverseInterp s - s.b := by
  unfold brentPQ inverseInterp
  dsimp only
  by_cases h : s.a = s.c
  · rw [if_pos h, if_pos h]
    dsimp only
    have e := hac h
    have hq : 1 - s.fb / s.fa ≠ 0 := by
      rw [sub_ne_zero, ne_comm, Ne, div_eq_one_iff_eq h1]
      exact fun h => h12 h.symm
    refine ⟨hq, ?_⟩
    have hd : s.fc - s.fb ≠ 0 := sub_ne_zero.2 h23.symm
    have hd' : s.fa - s.fb ≠ 0 := sub_ne_zero.2 h12
    rw [e] at hq hd' h1 ⊢
    field_simp
    ring
  · rw [if_neg h, if_neg h]
    dsimp only
    have e := h13 h
    have d1 : s.fa - s.fb ≠ 0 := sub_ne_zero.2 h12
    have d1' : s.fb - s.fa ≠ 0 := sub_ne_zero.2 h12.symm
    have d2 : s.fb - s.fc ≠ 0 := sub_ne_zero.2 h23
    have d2' : s.fc - s.fb ≠ 0 := sub_ne_zero.2 h23.symm
    have d3 : s.fa - s.fc ≠ 0 := sub_ne_zero.2 e
    have d3' : s.fc - s.fa ≠ 0 := sub_ne_zero.2 (Ne.symm e)
    have q1 : s.fa / s.fc - 1 ≠ 0 := by rw [sub_ne_zero, Ne, div_eq_one_iff_eq h3]; exact e
    have q2 : s.fb / s.fc - 1 ≠ 0 := by rw [sub_ne_zero, Ne, div_eq_one_iff_eq h3]; exact h23
    have q3 : s.fb / s.fa - 1 ≠ 0 := by rw [sub_ne_zero, Ne, div_eq_one_iff_eq h1]; exact fun h => h12 h.symm
    refine ⟨mul_ne_zero (mul_ne_zero q1 q2) q3, ?_⟩
    have r1 : s.fa / s.fc - 1 = (s.fa - s.fc) / s.fc := by field_simp
    have r2 : s.fb / s.fc - 1 = (s.fb - s.fc) / s.fc := by field_simp
    have r3 : s.fb / s.fa - 1 = -((s.fa - s.fb) / s.fa) := by field_simp; ring
    have w1 : s.fb - s.fa = -(s.fa - s.fb) := by ring
    have w2 : s.fc - s.fb = -(s.fb - s.fc) := by ring
    have w3 : s.fc - s.fa = -(s.fa - s.fc) := by ring
    rw [r1, r2, r3, w1, w2, w3]
    field_simp
    ring

/-- C35: the step is the one of the interpolation of the inverse function whenever that step leads from `b` towards `c`, stays well within
that interval and is less than half of the previous step. -/
theorem C35_interpolation {s : BrentState α} {stepOld tol : α} (h1 : s.fa ≠ 0) (h3 : s.fc ≠ 0) (h12 : |s.fa| > |s.fb|) (h23 : s.fb ≠ s.fc)
    (hac : s.a = s.c → s.fa = s.fc) (h13 : s.a ≠ s.c → s.fa ≠ s.fc) (ht : 0 < tol) (hold : |stepOld| ≥ tol)
    (hdir : 0 < (inverseInterp s - s.b) * (s.c - s.b)) (hin : |inverseInterp s - s.b| < 3 / 4 * |s.c - s.b| - tol / 2)
    (hhalf : |inverseInterp s - s.b| < |stepOld| / 2) : brentInterp s stepOld tol = inverseInterp s - s.b := by
  have hne : s.fa ≠ s.fb := by intro h; rw [h] at h12; exact lt_irrefl _ h12
  obtain ⟨hq, e⟩ := brentPQ_div h1 h3 hne h23 hac h13
  unfold brentInterp
  rw [if_pos ⟨hold, h12⟩]
  dsimp only
  set st := inverseInterp s - s.b
  set del := s.c - s.b
  have hst : st ≠ 0 := by intro h; rw [h, zero_mul] at hdir; exact lt_irrefl _ hdir
  -- the fixed pair
  have fix : ∃ p q, brentFix (brentPQ s) = (p, q) ∧ 0 ≤ p ∧ q ≠ 0 ∧ p = st * q := by
    unfold brentFix
    by_cases hp : (brentPQ s).1 > 0
    · refine ⟨_, _, if_pos hp, hp.le, neg_ne_zero.2 hq, ?_⟩
      rw [← e]; field_simp
    · refine ⟨_, _, if_neg hp, by linarith, hq, ?_⟩
      rw [← e]; field_simp
  obtain ⟨p, q, ef, hp, hq', hpq⟩ := fix
  rw [ef]
  dsimp only
  have hpe : p = |st| * |q| := by rw [← abs_mul, ← hpq, abs_of_nonneg hp]
  have hqpos : 0 < |q| := abs_pos.2 hq'
  have hsame : del * q = |del| * |q| := by
    rw [← abs_mul, abs_of_nonneg]
    have h0 : 0 < st * q := by rw [← hpq]; exact lt_of_le_of_ne hp (by rw [hpq]; exact (mul_ne_zero hst hq').symm)
    rcases lt_or_gt_of_ne hst with h | h
    · have hd : del < 0 := by by_contra hc; push Not at hc; exact absurd hdir (not_lt.2 (mul_nonpos_of_nonpos_of_nonneg h.le hc))
      have hqn : q < 0 := by by_contra hc; push Not at hc; exact absurd h0 (not_lt.2 (mul_nonpos_of_nonpos_of_nonneg h.le hc))
      exact (mul_pos_of_neg_of_neg hd hqn).le
    · have hd : 0 < del := by by_contra hc; push Not at hc; exact absurd hdir (not_lt.2 (mul_nonpos_of_nonneg_of_nonpos h.le hc))
      have hqn : 0 < q := by by_contra hc; push Not at hc; exact absurd h0 (not_lt.2 (mul_nonpos_of_nonneg_of_nonpos h.le hc))
      exact (mul_pos hd hqn).le
  rw [if_pos]
  · rw [hpq]; field_simp
  · constructor
    · rw [mul_assoc, hsame, abs_mul, abs_of_pos ht, hpe]
      have := mul_lt_mul_of_pos_right hin hqpos
      linarith
    · rw [hpe, abs_div, abs_mul, abs_two]
      have := mul_lt_mul_of_pos_right hhalf hqpos
      linarith

/-- the hypotheses are met, for a secant step and for a step of the inverse parabola -/
example : let s : BrentState ℚ := { a := 0, b := 2, c := 0, fa := -8, fb := 4, fc := -8 }
    inverseInterp s = 4 / 3 ∧ brentInterp s 2 (1 / 1000) = -2 / 3 := by decide +kernel
example : let s : BrentState ℚ := { a := 4, b := 2, c := 0, fa := 20, fb := 2, fc := -4 }
    inverseInterp s = 38 / 27 ∧ brentInterp s 2 (1 / 1000) = -16 / 27 := by decide +kernel

end Russell.Lab
