import Mathlib.Data.Real.Basic
import Mathlib.Tactic.Ring
import Mathlib.Tactic.Positivity
import Mathlib.Tactic.Linarith
import Mathlib.Tactic.FieldSimp
import Mathlib.Analysis.Calculus.Deriv.Basic
import Mathlib.Analysis.Calculus.Deriv.Mul
import Mathlib.Analysis.Calculus.Deriv.Add
import Mathlib.Analysis.Calculus.Deriv.Pow

/-!
# Polynomial bounds by Bernstein coefficients

Background of the properties C111 and C112: polynomials with integer coefficients as lists; a polynomial whose Bernstein coefficients on an interval
are nonnegative is nonnegative there. The coefficients are evaluated by the kernel.
-/

namespace Russell.Lab

/-- evaluation, lowest coefficient first -/
noncomputable def polyEval : List ℤ → ℝ → ℝ
  | [], _ => 0
  | c :: l, x => c + x * polyEval l x

/-- sum of two coefficient lists -/
def addL : List ℤ → List ℤ → List ℤ
  | [], m => m
  | l, [] => l
  | a :: l, b :: m => (a + b) :: addL l m

def smulL (c : ℤ) (l : List ℤ) : List ℤ := l.map (c * ·)

def mulL : List ℤ → List ℤ → List ℤ
  | [], _ => []
  | a :: l, m => addL (smulL a m) (0 :: mulL l m)

def powL (l : List ℤ) : ℕ → List ℤ
  | 0 => [1]
  | n + 1 => mulL l (powL l n)

/-- derivative; `k` is the exponent of the first coefficient -/
def derivAux : ℕ → List ℤ → List ℤ
  | _, [] => []
  | k, c :: l => (k * c) :: derivAux (k + 1) l

def derivL (l : List ℤ) : List ℤ := derivAux 1 l.tail

theorem polyEval_add (l m : List ℤ) (x : ℝ) : polyEval (addL l m) x = polyEval l x + polyEval m x := by
  induction l generalizing m with
  | nil => simp [addL, polyEval]
  | cons a l ih =>
    cases m with
    | nil => simp [addL, polyEval]
    | cons b m => simp only [addL, polyEval, ih]; push_cast; ring

theorem polyEval_smul (c : ℤ) (l : List ℤ) (x : ℝ) : polyEval (smulL c l) x = c * polyEval l x := by
  unfold smulL
  induction l with
  | nil => simp [polyEval]
  | cons a l ih => simp only [List.map, polyEval, ih]; push_cast; ring

theorem polyEval_mul (l m : List ℤ) (x : ℝ) : polyEval (mulL l m) x = polyEval l x * polyEval m x := by
  induction l with
  | nil => simp [mulL, polyEval]
  | cons a l ih => simp only [mulL, polyEval_add, polyEval_smul, polyEval, ih]; push_cast; ring

theorem polyEval_pow (l : List ℤ) (n : ℕ) (x : ℝ) : polyEval (powL l n) x = polyEval l x ^ n := by
  induction n with
  | zero => simp [powL, polyEval]
  | succ n ih => rw [powL, polyEval_mul, ih, pow_succ']

theorem derivAux_spec (k : ℕ) (l : List ℤ) (x : ℝ) :
    HasDerivAt (fun x => x ^ (k + 1) * polyEval l x) (x ^ k * polyEval (derivAux (k + 1) l) x) x := by
  induction l generalizing k with
  | nil =>
    simp only [polyEval, derivAux, mul_zero]
    exact hasDerivAt_const x 0
  | cons c l ih =>
    have h1 := ((hasDerivAt_pow (k + 1) x).mul_const (c : ℝ)).add (ih (k + 1))
    have h2 : HasDerivAt (fun x => x ^ (k + 1) * polyEval (c :: l) x) _ x := h1.congr_of_eventuallyEq (Filter.Eventually.of_forall fun y => by
      simp only [polyEval, Pi.add_apply]; ring)
    refine h2.congr_deriv ?_
    simp only [derivAux, polyEval, Nat.add_sub_cancel]
    push_cast
    ring

theorem polyEval_deriv (l : List ℤ) (x : ℝ) : HasDerivAt (polyEval l) (polyEval (derivL l) x) x := by
  cases l with
  | nil =>
    simp only [derivL, List.tail, derivAux]
    exact hasDerivAt_const x 0
  | cons c l =>
    have h := (derivAux_spec 0 l x).const_add (c : ℝ)
    refine (h.congr_of_eventuallyEq (Filter.Eventually.of_forall fun y => ?_)).congr_deriv ?_
    · simp [polyEval]
    · simp [derivL]

/-- evaluation of a homogeneous polynomial -/
noncomputable def homEval : List ℤ → ℝ → ℝ → ℝ
  | [], _, _ => 0
  | b :: l, s, t => b * s ^ l.length + t * homEval l s t

def zipL (l m : List ℤ) : List ℤ := List.zipWith (· + ·) l m

/-- binomial coefficients -/
def binRow : ℕ → List ℤ
  | 0 => [1]
  | n + 1 => zipL (binRow n ++ [0]) (0 :: binRow n)

/-- Bernstein coefficients multiplied by binomial coefficients -/
def bern : List ℤ → List ℤ
  | [] => []
  | c :: l => zipL (smulL c (binRow l.length)) (0 :: bern l)

theorem homEval_zip (l m : List ℤ) (h : l.length = m.length) (s t : ℝ) : homEval (zipL l m) s t = homEval l s t + homEval m s t := by
  induction l generalizing m with
  | nil => cases m with
    | nil => simp [zipL, homEval]
    | cons => simp at h
  | cons a l ih => cases m with
    | nil => simp at h
    | cons b m =>
      have h' : l.length = m.length := by simpa using h
      have := ih m h'
      simp only [zipL, List.zipWith, homEval] at *
      rw [this]
      simp only [List.length_zipWith, h', min_self]
      push_cast
      ring

theorem homEval_smul (c : ℤ) (l : List ℤ) (s t : ℝ) : homEval (smulL c l) s t = c * homEval l s t := by
  unfold smulL
  induction l with
  | nil => simp [homEval]
  | cons a l ih => simp only [List.map, homEval, ih, List.length_map]; push_cast; ring

theorem homEval_append (l : List ℤ) (s t : ℝ) : homEval (l ++ [0]) s t = s * homEval l s t := by
  induction l with
  | nil => simp [homEval]
  | cons a l ih => simp only [List.cons_append, homEval, ih, List.length_append, List.length_singleton]; ring

theorem binRow_length (n : ℕ) : (binRow n).length = n + 1 := by
  induction n with
  | zero => rfl
  | succ n ih => simp [binRow, zipL, ih]

theorem binRow_eval (n : ℕ) (s t : ℝ) : homEval (binRow n) s t = (s + t) ^ n := by
  induction n with
  | zero => simp [binRow, homEval]
  | succ n ih =>
    rw [binRow, homEval_zip _ _ (by simp), homEval_append, homEval, ih]
    push_cast
    ring

theorem bern_length (l : List ℤ) : (bern l).length = l.length := by
  induction l with
  | nil => rfl
  | cons a l ih => simp [bern, zipL, smulL, ih, binRow_length]

theorem bern_eval (l : List ℤ) {s t : ℝ} (h : s + t = 1) : homEval (bern l) s t = polyEval l t := by
  induction l with
  | nil => rfl
  | cons a l ih =>
    rw [bern, homEval_zip _ _ (by simp [smulL, binRow_length, bern_length]), homEval_smul, binRow_eval, h, homEval, ih, polyEval]
    push_cast
    ring

theorem homEval_nonneg (l : List ℤ) (h : l.all (fun b => decide (0 ≤ b)) = true) {s t : ℝ} (hs : 0 ≤ s) (ht : 0 ≤ t) : 0 ≤ homEval l s t := by
  induction l with
  | nil => exact le_rfl
  | cons a l ih =>
    rw [List.all_cons, Bool.and_eq_true, decide_eq_true_eq] at h
    have h1 := ih h.2
    have h2 : (0 : ℝ) ≤ a := by exact_mod_cast h.1
    rw [homEval]
    positivity

/-- the coefficients of `dⁿ f((p + r t) / d)` in `t` -/
def affL (p r d : ℤ) : List ℤ → List ℤ
  | [] => []
  | c :: l =>
    let m := affL p r d l
    addL [c * d ^ l.length] (addL (smulL p m) (0 :: smulL r m))

theorem affL_eval (p r : ℤ) {d : ℤ} (hd : 0 < d) (l : List ℤ) (t : ℝ) :
    (d : ℝ) * polyEval (affL p r d l) t = (d : ℝ) ^ l.length * polyEval l ((p + r * t) / d) := by
  have hd' : (d : ℝ) ≠ 0 := by exact_mod_cast hd.ne'
  induction l with
  | nil => simp [affL, polyEval]
  | cons c l ih =>
    simp only [affL, polyEval_add, polyEval_smul, polyEval, List.length_cons]
    have e : (d : ℝ) * ((((c * d ^ l.length : ℤ) : ℝ) + t * 0) + (p * polyEval (affL p r d l) t + (((0 : ℤ) : ℝ) + t * (r * polyEval (affL p r d l) t))))
        = c * d ^ (l.length + 1) + (p + r * t) * (d * polyEval (affL p r d l) t) := by push_cast; ring
    rw [e, ih]
    field_simp
    ring

/-- the test on the interval from `p/d` to `q/d` -/
def chkPiece (l : List ℤ) (d p q : ℤ) : Bool := decide (p ≤ q) && (bern (affL p (q - p) d l)).all fun b => decide (0 ≤ b)

theorem chkPiece_sound {l : List ℤ} {d p q : ℤ} (hd : 0 < d) (h : chkPiece l d p q = true) {x : ℝ} (h1 : (p : ℝ) / d ≤ x) (h2 : x ≤ (q : ℝ) / d) :
    0 ≤ polyEval l x := by
  unfold chkPiece at h
  rw [Bool.and_eq_true, decide_eq_true_eq] at h
  have hd' : (0 : ℝ) < d := by exact_mod_cast hd
  rw [div_le_iff₀ hd'] at h1
  rw [le_div_iff₀ hd'] at h2
  obtain ⟨t, ht0, ht1, hx⟩ : ∃ t : ℝ, 0 ≤ t ∧ t ≤ 1 ∧ x = (p + ((q - p : ℤ) : ℝ) * t) / d := by
    rcases h.1.eq_or_lt with h0 | h0
    · subst h0
      refine ⟨0, le_rfl, zero_le_one, ?_⟩
      rw [mul_zero, add_zero, eq_div_iff hd'.ne']
      linarith
    · have hr : (0 : ℝ) < ((q - p : ℤ) : ℝ) := by exact_mod_cast sub_pos.2 h0
      refine ⟨(x * d - p) / ((q - p : ℤ) : ℝ), div_nonneg (by linarith) hr.le, (div_le_one hr).2 (by push_cast; linarith), ?_⟩
      field_simp
      ring
  have e := affL_eval p (q - p) hd l t
  rw [← hx] at e
  have hb := homEval_nonneg _ h.2 (sub_nonneg.2 ht1) ht0
  rw [bern_eval _ (by ring)] at hb
  have : 0 ≤ (d : ℝ) ^ l.length * polyEval l x := by rw [← e]; positivity
  exact nonneg_of_mul_nonneg_right this (by positivity)

/-- the test on a chain of intervals with the end points `p/d` -/
def chkChain (l : List ℤ) (d : ℤ) : ℤ → List ℤ → Bool
  | _, [] => true
  | p, q :: r => chkPiece l d p q && chkChain l d q r

theorem chkChain_sound {l : List ℤ} {d : ℤ} (hd : 0 < d) (p : ℤ) (r : List ℤ) (hr : r ≠ []) (h : chkChain l d p r = true) {x : ℝ} (h1 : (p : ℝ) / d ≤ x)
    (h2 : x ≤ ((r.getLast hr : ℤ) : ℝ) / d) : 0 ≤ polyEval l x := by
  induction r generalizing p with
  | nil => exact absurd rfl hr
  | cons q r ih =>
    rw [chkChain, Bool.and_eq_true] at h
    by_cases hq : x ≤ (q : ℝ) / d
    · exact chkPiece_sound hd h.1 h1 hq
    · cases r with
      | nil => exact absurd (by simpa using h2) hq
      | cons q' r' =>
        refine ih q (by simp) h.2 (not_le.1 hq).le ?_
        rwa [List.getLast_cons (by simp)] at h2

end Russell.Lab
