import Verif.Lab.BesselPos
import Mathlib.Analysis.SpecialFunctions.Trigonometric.Basic
import Mathlib.Analysis.SpecialFunctions.Log.Basic
import Mathlib.Data.EReal.Basic

/-!
# The Bessel functions `bessel_jn` and `bessel_yn` (property C110)

Model of russell_lab/src/math/bessel_n.rs in exact real arithmetic. The approximations of `J₀`, `J₁`, `Y₀`, `Y₁` are parameters.
-/

namespace Russell.Lab

open Real
open scoped Nat

/-- the forward recurrence `for i in 1..nn` (bessel_n.rs:136-142 and 333-341): `steps` steps beginning with the index `i` -/
noncomputable def fwdLoop (x : ℝ) : ℕ → ℕ → ℝ → ℝ → ℝ
  | 0, _, _, b => b
  | k + 1, i, a, b => fwdLoop x k (i + 1) b (b * (((i + i : ℕ) : ℝ) / x) - a)

/-- the power loop `for i in 2..(nn + 1)` for tiny arguments (bessel_n.rs:153-158), giving `(a, b)` -/
noncomputable def tinyLoop (temp : ℝ) : ℕ → ℕ → ℝ → ℝ → ℝ × ℝ
  | 0, _, a, b => (a, b)
  | k + 1, i, a, b => tinyLoop temp k (i + 1) (a * i) (b * temp)

/-- `while q1 < 1e9` (bessel_n.rs:195-202); `10⁹` steps always suffice, see `termLoop_spec` -/
noncomputable def termLoop (h : ℝ) : ℕ → ℝ → ℝ → ℝ → ℕ → ℕ
  | 0, _, _, _, k => k
  | f + 1, q0, z, q1, k => if q1 < 10 ^ 9 then termLoop h f q1 (z + h) ((z + h) * q1 - q0) (k + 1) else k

/-- number of terms of the continued fraction (bessel_n.rs:189-202) -/
noncomputable def jnTerms (nn : ℕ) (x : ℝ) : ℕ :=
  let w := ((nn + nn : ℕ) : ℝ) / x
  let h := 2 / x
  termLoop h (10 ^ 9) w (w + h) (w * (w + h) - 1) 1

/-- the continued fraction, `i = 2 (nn + s)` down to `2 nn` (bessel_n.rs:203-209) -/
noncomputable def cfLoop (x : ℝ) (nn : ℕ) : ℕ → ℝ → ℝ
  | 0, t => 1 / (((2 * nn : ℕ) : ℝ) / x - t)
  | s + 1, t => cfLoop x nn s (1 / (((2 * (nn + (s + 1)) : ℕ) : ℝ) / x - t))

/-- the backward recurrence `while i > 0` (bessel_n.rs:221-243), with or without scaling; the result is `(b, t)` -/
noncomputable def backLoop (x : ℝ) (scale : Bool) : ℕ → ℝ → ℝ → ℝ → ℝ × ℝ
  | 0, _, b, t => (b, t)
  | i + 1, a, b, t =>
    let b' := b * ((i + 1 + (i + 1) : ℕ) : ℝ) / x - a
    if scale ∧ b' > 10 ^ 100 then backLoop x scale i (b / b') 1 (t / b') else backLoop x scale i b b' t

/-- the branch `n > x ≥ 2⁻²⁹` (bessel_n.rs:189-245) -/
noncomputable def jnBackward (j0 : ℝ → ℝ) (nn : ℕ) (x : ℝ) : ℝ :=
  let t := cfLoop x nn (jnTerms nn x) 0
  let xCritical := (nn : ℝ) * Real.log |2 * nn / x|
  let (b, t') := backLoop x (decide (¬ xCritical < 7.09782712893383973096e+02)) (nn - 1) t 1 t
  t' * j0 x / b

/-- the branch for `x ≥ 2³⁰²` (bessel_n.rs:112-134) -/
noncomputable def jnAsymptotic (nn : ℕ) (x : ℝ) : ℝ :=
  let s := sin x
  let c := cos x
  let temp := match nn % 4 with
    | 0 => c + s
    | 1 => -c + s
    | 2 => -c - s
    | _ => c - s
  1 / √π * temp / √x

/-- the value for `nn ≥ 2` and `xx > 0` (bessel_n.rs:110-247) -/
noncomputable def jnPositive (j0 j1 : ℝ → ℝ) (nn : ℕ) (xx : ℝ) : ℝ :=
  if (nn : ℝ) ≤ xx then
    if xx ≥ 2 ^ 302 then jnAsymptotic nn xx
    else fwdLoop xx (nn - 1) 1 (j0 xx) (j1 xx)
  else if xx < 1 / 2 ^ 29 then
    if nn > 33 then 0
    else
      let temp := xx * 0.5
      let (a, b) := tinyLoop temp (nn - 1) 2 1 temp
      b / a
  else jnBackward j0 nn xx

/-- `bessel_jn` (bessel_n.rs:77-254) for finite `x`. Orders are mathematical integers, `-i32::MIN` and the like are not represented -/
noncomputable def besselJn (j0 j1 : ℝ → ℝ) (n : ℤ) (x : ℝ) : ℝ :=
  if n = 0 then j0 x
  else if x = 0 then 0
  else
    let nn := n.natAbs
    let xx := if n < 0 then -x else x
    if nn = 1 then j1 xx
    else
      let negative := xx < 0 ∧ nn % 2 = 1
      let xx' := if xx < 0 then -xx else xx
      let b := jnPositive j0 j1 nn xx'
      if negative then -b else b

/-! ## The pieces -/

/-- any solution of the recurrence is reproduced by the forward loop -/
theorem fwdLoop_spec {x : ℝ} {f : ℕ → ℝ} (hf : ∀ i, f (i + 2) = 2 * ((i : ℝ) + 1) / x * f (i + 1) - f i) (k i : ℕ) :
    fwdLoop x k (i + 1) (f i) (f (i + 1)) = f (i + 1 + k) := by
  induction k generalizing i with
  | zero => rfl
  | succ k ih =>
    rw [fwdLoop, show i + 1 + (k + 1) = i + 1 + 1 + k by ring, ← ih (i + 1)]
    congr 1
    rw [hf i]
    push_cast
    ring

theorem tinyLoop_spec (temp : ℝ) (k i : ℕ) (a b : ℝ) (ha : a = (i ! : ℝ)) (hb : b = temp ^ i) :
    tinyLoop temp k (i + 1) a b = (((i + k)! : ℝ), temp ^ (i + k)) := by
  induction k generalizing i a b with
  | zero => rw [tinyLoop, ha, hb]; simp
  | succ k ih =>
    rw [tinyLoop, ih (i + 1)]
    · rw [show i + 1 + k = i + (k + 1) by ring]
    · rw [ha, Nat.factorial_succ]; push_cast; ring
    · rw [hb]; ring

/-- the denominators: `cfQ 0 = 0`, `cfQ 1 = 1`, `cfQ (k + 2) = Q(k)` of the comment in the code -/
noncomputable def cfQ (x : ℝ) (n : ℕ) : ℕ → ℝ
  | 0 => 0
  | 1 => 1
  | k + 2 => 2 * ((n : ℝ) + k) / x * cfQ x n (k + 1) - cfQ x n k

theorem cfQ_mono {x : ℝ} (hx : 0 < x) {n : ℕ} (hn : x ≤ n) (k : ℕ) : 0 ≤ cfQ x n k ∧ 1 ≤ cfQ x n (k + 1) - cfQ x n k ∧
    cfQ x n (k + 1) - cfQ x n k ≤ cfQ x n (k + 2) - cfQ x n (k + 1) := by
  induction k with
  | zero =>
    refine ⟨le_rfl, by norm_num [cfQ], ?_⟩
    have : 2 ≤ 2 * ((n : ℝ) + (0 : ℕ)) / x := by rw [le_div_iff₀ hx]; push_cast; linarith
    simp only [cfQ]
    linarith
  | succ k ih =>
    obtain ⟨h1, h2, h3⟩ := ih
    refine ⟨by linarith, by linarith, ?_⟩
    have hz : 2 ≤ 2 * ((n : ℝ) + (k + 1 : ℕ)) / x := by
      rw [le_div_iff₀ hx]
      have : (0 : ℝ) ≤ ((k + 1 : ℕ) : ℝ) := by positivity
      linarith
    have e : cfQ x n (k + 3) = 2 * ((n : ℝ) + (k + 1 : ℕ)) / x * cfQ x n (k + 2) - cfQ x n (k + 1) := rfl
    rw [show k + 1 + 2 = k + 3 by ring, show k + 1 + 1 = k + 2 by ring, e]
    have : 0 ≤ cfQ x n (k + 2) := by linarith
    nlinarith

theorem cfQ_delta {x : ℝ} (hx : 0 < x) {n : ℕ} (hn : x ≤ n) (k : ℕ) : cfQ x n (k + 1) ≤ (k + 1) * (cfQ x n (k + 1) - cfQ x n k) := by
  induction k with
  | zero => simp [cfQ]
  | succ k ih =>
    have h := (cfQ_mono hx hn k).2.2
    have hk : (0 : ℝ) ≤ (k : ℝ) + 1 := by positivity
    push_cast
    rw [show k + 1 + 1 = k + 2 by ring]
    nlinarith

theorem termLoop_spec {x : ℝ} (hx : 0 < x) {n : ℕ} (hn : x ≤ n) (f : ℕ) {q0 z q1 : ℝ} {k : ℕ} (h0 : q0 = cfQ x n (k + 1)) (h1 : q1 = cfQ x n (k + 2))
    (hz : z = 2 * ((n : ℝ) + k) / x) (hf : 10 ^ 9 ≤ q1 + f) :
    10 ^ 9 ≤ cfQ x n (termLoop (2 / x) f q0 z q1 k + 2) ∧
      (termLoop (2 / x) f q0 z q1 k = k ∨ ∃ j, termLoop (2 / x) f q0 z q1 k = j + 1 ∧ k ≤ j ∧ cfQ x n (j + 2) < 10 ^ 9) := by
  induction f generalizing q0 z q1 k with
  | zero =>
    rw [termLoop, ← h1]
    exact ⟨by simpa using hf, Or.inl rfl⟩
  | succ f ih =>
    rw [termLoop]
    split_ifs with hc
    · have e : (z + 2 / x) * q1 - q0 = cfQ x n (k + 1 + 2) := by
        rw [show k + 1 + 2 = (k + 1) + 2 by ring, cfQ, h0, h1, hz]
        push_cast
        ring
      have hm := (cfQ_mono hx hn (k + 2)).2.1
      obtain ⟨r1, r2⟩ := ih (k := k + 1) (q0 := q1) (z := z + 2 / x) (q1 := (z + 2 / x) * q1 - q0) h1 e (by rw [hz]; push_cast; ring) (by
        rw [e]
        push_cast at hf
        rw [show k + 1 + 2 = k + 2 + 1 by ring]
        linarith)
      refine ⟨r1, Or.inr ?_⟩
      rcases r2 with r2 | ⟨j, r2, r3, r4⟩
      · exact ⟨k, r2, le_rfl, by rw [← h1]; exact hc⟩
      · exact ⟨j, r2, by omega, r4⟩
    · rw [← h1]
      exact ⟨not_lt.1 hc, Or.inl rfl⟩

theorem jnTerms_spec {x : ℝ} (hx : 0 < x) {n : ℕ} (hn : x ≤ n) :
    10 ^ 9 ≤ cfQ x n (jnTerms n x + 2) ∧ (jnTerms n x = 1 ∨ ∃ j, jnTerms n x = j + 1 ∧ 1 ≤ j ∧ cfQ x n (j + 2) < 10 ^ 9) := by
  unfold jnTerms
  have h2 : 2 ≤ ((n + n : ℕ) : ℝ) / x := by rw [le_div_iff₀ hx]; push_cast; linarith
  have h3 : 0 < 2 / x := by positivity
  refine termLoop_spec hx hn _ ?_ ?_ ?_ ?_
  · simp only [cfQ]; push_cast; ring
  · simp only [cfQ]; push_cast; ring
  · push_cast; ring
  · push_cast
    push_cast at h2
    nlinarith

/-- the dependence of the continued fraction on its tail -/
theorem cfLoop_diff {x : ℝ} (hx : 0 < x) {n : ℕ} (hn : x ≤ n) (s : ℕ) {a b : ℝ} (ha : 0 ≤ a) (ha1 : a < 1) (hb : 0 ≤ b) (hb1 : b < 1) :
    cfLoop x n s a - cfLoop x n s b = (a - b) / ((cfQ x n (s + 2) - cfQ x n (s + 1) * a) * (cfQ x n (s + 2) - cfQ x n (s + 1) * b)) := by
  induction s generalizing a b with
  | zero =>
    have hz : 2 ≤ ((2 * n : ℕ) : ℝ) / x := by rw [le_div_iff₀ hx]; push_cast; linarith
    have e : cfQ x n (0 + 2) = ((2 * n : ℕ) : ℝ) / x := by simp only [cfQ]; push_cast; ring
    rw [e]
    simp only [cfLoop, cfQ]
    generalize ((2 * n : ℕ) : ℝ) / x = z at *
    have h1 : z - a ≠ 0 := by linarith
    have h2 : z - b ≠ 0 := by linarith
    rw [one_mul, one_mul]
    field_simp
    ring
  | succ s ih =>
    rw [cfLoop, cfLoop]
    have hz : 2 ≤ ((2 * (n + (s + 1)) : ℕ) : ℝ) / x := by
      rw [le_div_iff₀ hx]
      have : (0 : ℝ) ≤ s := by positivity
      push_cast; linarith
    have e : cfQ x n (s + 1 + 2) = ((2 * (n + (s + 1)) : ℕ) : ℝ) / x * cfQ x n (s + 2) - cfQ x n (s + 1) := by
      rw [cfQ]; push_cast; ring
    rw [e, show s + 1 + 1 = s + 2 by ring]
    generalize ((2 * (n + (s + 1)) : ℕ) : ℝ) / x = z at *
    have p1 : 1 < z - a := by linarith
    have p2 : 1 < z - b := by linarith
    have q1 : 1 / (z - a) < 1 := by rw [div_lt_one (by linarith)]; exact p1
    have q2 : 1 / (z - b) < 1 := by rw [div_lt_one (by linarith)]; exact p2
    have q3 : 0 ≤ 1 / (z - a) := div_nonneg zero_le_one (by linarith)
    have q4 : 0 ≤ 1 / (z - b) := div_nonneg zero_le_one (by linarith)
    rw [ih q3 q1 q4 q2]
    have n1 : z - a ≠ 0 := by linarith
    have n2 : z - b ≠ 0 := by linarith
    have e1 : cfQ x n (s + 2) - cfQ x n (s + 1) * (1 / (z - a)) = (z * cfQ x n (s + 2) - cfQ x n (s + 1) - cfQ x n (s + 2) * a) / (z - a) := by field_simp; ring
    have e2 : cfQ x n (s + 2) - cfQ x n (s + 1) * (1 / (z - b)) = (z * cfQ x n (s + 2) - cfQ x n (s + 1) - cfQ x n (s + 2) * b) / (z - b) := by field_simp; ring
    have e3 : 1 / (z - a) - 1 / (z - b) = (a - b) / ((z - a) * (z - b)) := by field_simp; ring
    rw [e1, e2, e3, div_mul_div_comm, div_div_div_cancel_right₀ (mul_ne_zero n1 n2)]

/-- with the exact tail the continued fraction is the ratio of two Bessel functions -/
theorem cfLoop_exact {x : ℝ} (hx : 0 < x) {n : ℕ} (hn : x ≤ n + 1) (s : ℕ) :
    cfLoop x (n + 1) s (besselJ (n + s + 2) x / besselJ (n + s + 1) x) = besselJ (n + 1) x / besselJ n x := by
  have key : ∀ j : ℕ, n ≤ j → 1 / (((2 * (j + 1) : ℕ) : ℝ) / x - besselJ (j + 2) x / besselJ (j + 1) x) = besselJ (j + 1) x / besselJ j x := by
    intro j hj
    have hj' : (n : ℝ) ≤ j := by exact_mod_cast hj
    have p0 := besselJ_pos (n := j) hx (by linarith)
    have p1 := besselJ_pos (n := j + 1) hx (by push_cast; linarith)
    have hr := besselJ_rec j hx.ne'
    have e : ((2 * (j + 1) : ℕ) : ℝ) / x - besselJ (j + 2) x / besselJ (j + 1) x = besselJ j x / besselJ (j + 1) x := by
      rw [hr]; push_cast; field_simp; ring
    rw [e, one_div_div]
  induction s with
  | zero => rw [cfLoop]; simpa using key n le_rfl
  | succ s ih =>
    rw [cfLoop, ← ih]
    congr 1
    have := key (n + s + 1) (by omega)
    rw [show n + (s + 1) + 2 = n + s + 1 + 2 by ring, show n + (s + 1) + 1 = n + s + 1 + 1 by ring, show n + 1 + (s + 1) = n + s + 1 + 1 by ring]
    exact this

/-- the ratios decrease with the order -/
theorem besselJ_ratio_anti {x : ℝ} (hx : 0 < x) {n : ℕ} (hn : x ≤ n + 1) : besselJ (n + 2) x / besselJ (n + 1) x ≤ besselJ (n + 1) x / besselJ n x := by
  obtain ⟨K, hK⟩ := exists_nat_ge (x ^ 2 + x)
  have pos : ∀ j, n ≤ j → 0 < besselJ j x := by
    intro j hj
    have hj' : (n : ℝ) ≤ j := by exact_mod_cast hj
    exact besselJ_pos hx (by linarith)
  have lt : ∀ j, n ≤ j → besselJ (j + 1) x < besselJ j x := by
    intro j hj
    have hj' : (n : ℝ) ≤ j := by exact_mod_cast hj
    exact besselJ_lt hx (by linarith)
  have inv : ∀ j, n ≤ j → besselJ (j + 1) x / besselJ j x = 1 / (2 * ((j : ℝ) + 1) / x - besselJ (j + 2) x / besselJ (j + 1) x) := by
    intro j hj
    have p0 := pos j hj
    have p1 := pos (j + 1) (by omega)
    have hr := besselJ_rec j hx.ne'
    have e : 2 * ((j : ℝ) + 1) / x - besselJ (j + 2) x / besselJ (j + 1) x = besselJ j x / besselJ (j + 1) x := by
      rw [hr]; field_simp; ring
    rw [e, one_div_div]
  -- the comparison, given a bound of the next ratio
  have step : ∀ j, n ≤ j → besselJ (j + 3) x / besselJ (j + 2) x ≤ besselJ (j + 2) x / besselJ (j + 1) x + 2 / x →
      besselJ (j + 2) x / besselJ (j + 1) x ≤ besselJ (j + 1) x / besselJ j x := by
    intro j hj h
    have e1 := inv j hj
    have e2 := inv (j + 1) (by omega)
    rw [show j + 1 + 1 = j + 2 by ring, show j + 1 + 2 = j + 3 by ring] at e2
    have p0 := pos j hj
    have p1 := pos (j + 1) (by omega)
    have r1 : 0 < besselJ (j + 1) x / besselJ j x := by positivity
    rw [e1] at r1
    rw [e1]
    conv_lhs => rw [e2]
    apply one_div_le_one_div_of_le
    · exact one_div_pos.1 r1
    · push_cast
      have : 2 * ((j : ℝ) + 1 + 1) / x = 2 * ((j : ℝ) + 1) / x + 2 / x := by ring
      linarith
  have key : ∀ k, ∀ j, n ≤ j → j + k = n + K → besselJ (j + 2) x / besselJ (j + 1) x ≤ besselJ (j + 1) x / besselJ j x := by
    intro k
    induction k with
    | zero =>
      intro j hj e
      apply step j hj
      have hjK : (K : ℝ) ≤ j := by exact_mod_cast (show K ≤ j by omega)
      have p1 := pos (j + 1) (by omega)
      have p2 := pos (j + 2) (by omega)
      have e2 := inv (j + 2) (by omega)
      rw [show j + 2 + 1 = j + 3 by ring, show j + 2 + 2 = j + 4 by ring] at e2
      have p3 := pos (j + 3) (by omega)
      have r4 : besselJ (j + 4) x / besselJ (j + 3) x ≤ 1 := by
        rw [div_le_one p3]; exact (lt (j + 3) (by omega)).le
      have : besselJ (j + 3) x / besselJ (j + 2) x ≤ 2 / x := by
        rw [e2]
        have h1 : x / 2 ≤ 2 * (((j + 2 : ℕ) : ℝ) + 1) / x - besselJ (j + 4) x / besselJ (j + 3) x := by
          have : x / 2 + 1 ≤ 2 * (((j + 2 : ℕ) : ℝ) + 1) / x := by
            rw [le_div_iff₀ hx]; push_cast; nlinarith
          linarith
        calc _ ≤ 1 / (x / 2) := one_div_le_one_div_of_le (by positivity) h1
          _ = 2 / x := by field_simp
      have h0 : 0 < besselJ (j + 2) x / besselJ (j + 1) x := by positivity
      linarith
    | succ k ih =>
      intro j hj e
      apply step j hj
      have h := ih (j + 1) (by omega) (by omega)
      rw [show j + 1 + 1 = j + 2 by ring, show j + 1 + 2 = j + 3 by ring] at h
      have : 0 < 2 / x := by positivity
      linarith
  exact key K n le_rfl rfl

/-- accuracy of the continued fraction -/
theorem cf_accurate {x : ℝ} (hx : 0 < x) {n : ℕ} (hn : x ≤ n + 1) :
    cfLoop x (n + 1) (jnTerms (n + 1) x) 0 ≤ besselJ (n + 1) x / besselJ n x ∧
    besselJ (n + 1) x / besselJ n x - cfLoop x (n + 1) (jnTerms (n + 1) x) 0 ≤ (jnTerms (n + 1) x + 2) / 10 ^ 18 * (besselJ (n + 1) x / besselJ n x) := by
  have hn' : x ≤ ((n + 1 : ℕ) : ℝ) := by push_cast; exact hn
  have hQ := (jnTerms_spec hx hn').1
  obtain ⟨k, hk⟩ : ∃ k, k = jnTerms (n + 1) x := ⟨_, rfl⟩
  rw [← hk] at hQ ⊢
  have hex := cfLoop_exact hx hn k
  have pos : ∀ j, n ≤ j → 0 < besselJ j x := by
    intro j hj
    have hj' : (n : ℝ) ≤ j := by exact_mod_cast hj
    exact besselJ_pos hx (by linarith)
  have pk1 := pos (n + k + 1) (by omega)
  have pk2 := pos (n + k + 2) (by omega)
  have r0 : 0 ≤ besselJ (n + k + 2) x / besselJ (n + k + 1) x := by positivity
  have r1 : besselJ (n + k + 2) x / besselJ (n + k + 1) x < 1 := by
    rw [div_lt_one pk1]
    have : (0 : ℝ) ≤ k := by positivity
    exact besselJ_lt (n := n + k + 1) hx (by push_cast; linarith)
  have hd := cfLoop_diff hx hn' k r0 r1 le_rfl zero_lt_one
  rw [hex, mul_zero, sub_zero, sub_zero] at hd
  have hanti : ∀ s, besselJ (n + s + 1) x / besselJ (n + s) x ≤ besselJ (n + 1) x / besselJ n x := by
    intro s
    induction s with
    | zero => simp
    | succ s ih =>
      have : (0 : ℝ) ≤ s := by positivity
      have h := besselJ_ratio_anti (n := n + s) hx (by push_cast; linarith)
      exact le_trans h ih
  have hra := hanti (k + 1)
  rw [show n + (k + 1) + 1 = n + k + 2 by ring, show n + (k + 1) = n + k + 1 by ring] at hra
  have hm := cfQ_mono hx hn' (k + 1)
  have hdel := cfQ_delta hx hn' (k + 1)
  rw [show k + 1 + 1 = k + 2 by ring] at hm hdel
  generalize besselJ (n + k + 2) x / besselJ (n + k + 1) x = ρ at *
  generalize besselJ (n + 1) x / besselJ n x = r at *
  generalize cfLoop x (n + 1) k 0 = t at *
  generalize cfQ x (n + 1) (k + 2) = Q at *
  generalize cfQ x (n + 1) (k + 1) = Q' at *
  have hQ0 : 0 < Q := by linarith
  have hQr : Q - Q' ≤ Q - Q' * ρ := by nlinarith [hm.1]
  have hQp : 0 < Q - Q' := by linarith [hm.2.1]
  have hden : 0 < (Q - Q' * ρ) * Q := mul_pos (by linarith) hQ0
  constructor
  · have : 0 ≤ ρ / ((Q - Q' * ρ) * Q) := by positivity
    linarith
  · rw [hd]
    have hk0 : (0 : ℝ) < (k : ℝ) + 2 := by positivity
    have h3 : 10 ^ 18 ≤ (k + 2) * ((Q - Q' * ρ) * Q) := by
      push_cast at hdel
      have : Q ≤ (k + 2) * (Q - Q' * ρ) := by nlinarith
      calc (10 : ℝ) ^ 18 = 10 ^ 9 * 10 ^ 9 := by norm_num
        _ ≤ Q * Q := by gcongr
        _ ≤ (k + 2) * (Q - Q' * ρ) * Q := by gcongr
        _ = _ := by ring
    have hr0 : 0 ≤ r := by linarith
    calc ρ / ((Q - Q' * ρ) * Q) ≤ r / ((Q - Q' * ρ) * Q) := by gcongr
      _ ≤ (k + 2) / 10 ^ 18 * r := by
          rw [div_le_iff₀ hden]
          calc r = 1 / 10 ^ 18 * 10 ^ 18 * r := by norm_num
            _ ≤ 1 / 10 ^ 18 * ((k + 2) * ((Q - Q' * ρ) * Q)) * r := by gcongr
            _ = _ := by ring

/-- the backward recurrence, for any solution and up to a common factor -/
theorem backLoop_spec {x : ℝ} {u : ℕ → ℝ} (scale : Bool) (i : ℕ) (hu : ∀ j, j < i → u (j + 2) = 2 * ((j : ℝ) + 1) / x * u (j + 1) - u j) {a b t t0 c : ℝ} (hc : 0 < c)
    (ha : a = c * u (i + 1)) (hb : b = c * u i) (ht : t = c * t0) :
    ∃ c', 0 < c' ∧ backLoop x scale i a b t = (c' * u 0, c' * t0) := by
  induction i generalizing a b t c with
  | zero => exact ⟨c, hc, by rw [backLoop, hb, ht]⟩
  | succ i ih =>
    rw [backLoop]
    have hr := hu i (by omega)
    have e : b * ((i + 1 + (i + 1) : ℕ) : ℝ) / x - a = c * u i := by
      rw [ha, hb, hr]; push_cast; ring
    rw [e]
    have hu' : ∀ j, j < i → u (j + 2) = 2 * ((j : ℝ) + 1) / x * u (j + 1) - u j := fun j hj => hu j (by omega)
    split_ifs with h
    · have hp : 0 < c * u i := lt_trans (by positivity) h.2
      have hui : u i ≠ 0 := by
        intro h0; rw [h0, mul_zero] at hp; exact lt_irrefl _ hp
      have hui' : 0 < u i := (pos_iff_pos_of_mul_pos hp).1 hc
      exact ih hu' (c := 1 / u i) (by positivity) (by rw [hb]; field_simp) (by field_simp) (by rw [ht]; field_simp)
    · exact ih hu' hc hb rfl ht

/-- solutions with prescribed values at two neighbouring orders -/
theorem exists_solution (x : ℝ) (n : ℕ) (α β : ℝ) : ∃ u : ℕ → ℝ, u n = α ∧ u (n + 1) = β ∧ ∀ j, j < n → u (j + 2) = 2 * ((j : ℝ) + 1) / x * u (j + 1) - u j := by
  induction n generalizing α β with
  | zero => exact ⟨fun i => if i = 0 then α else β, by simp, by simp, by simp⟩
  | succ n ih =>
    obtain ⟨u, h1, h2, h3⟩ := ih (2 * ((n : ℝ) + 1) / x * α - β) α
    refine ⟨fun i => if i = n + 2 then β else u i, ?_, ?_, ?_⟩
    · simp [h2]
    · simp
    · intro j hj
      dsimp only
      rcases Nat.lt_succ_iff_lt_or_eq.1 hj with h | h
      · rw [if_neg (by omega), if_neg (by omega), if_neg (by omega)]
        exact h3 j h
      · subst h
        rw [if_pos rfl, if_neg (by omega), if_neg (by omega), h1, h2]
        ring

theorem jnBackward_eq {x : ℝ} (j0 : ℝ → ℝ) (n : ℕ) {u : ℕ → ℝ} (hu : ∀ j, j < n → u (j + 2) = 2 * ((j : ℝ) + 1) / x * u (j + 1) - u j)
    (h1 : u n = 1) (h2 : u (n + 1) = cfLoop x (n + 1) (jnTerms (n + 1) x) 0) :
    jnBackward j0 (n + 1) x = cfLoop x (n + 1) (jnTerms (n + 1) x) 0 * j0 x / u 0 := by
  unfold jnBackward
  simp only [Nat.add_sub_cancel]
  generalize decide (¬ (((n + 1 : ℕ) : ℝ) * Real.log |2 * ((n + 1 : ℕ) : ℝ) / x| < 7.09782712893383973096e+02)) = sc
  obtain ⟨c, hc, he⟩ := backLoop_spec sc n hu (c := 1) (t0 := cfLoop x (n + 1) (jnTerms (n + 1) x) 0) one_pos (by rw [h2, one_mul]) (by rw [h1, one_mul]) (one_mul _).symm
  rw [he]
  simp only []
  rw [mul_assoc, mul_div_mul_left _ _ hc.ne']

/-! ## Small arguments -/

theorem ratio_small {x : ℝ} (hx : 0 < x) (hx2 : x ≤ 2) : 0 < besselJ 0 x ∧ besselJ 1 x ≤ 3 * besselJ 0 x ∧ ∀ n, 1 ≤ n → besselJ (n + 1) x ≤ 2 / 3 * besselJ n x := by
  have pos : ∀ j, 1 ≤ j → 0 < besselJ j x := by
    intro j hj
    have hj' : (1 : ℝ) ≤ j := by exact_mod_cast hj
    exact besselJ_pos hx (by linarith)
  have p1 := pos 1 le_rfl
  have p2 := pos 2 (by norm_num)
  have p3 := pos 3 (by norm_num)
  have z : ∀ j : ℕ, (j : ℝ) + 1 ≤ 2 * ((j : ℝ) + 1) / x := by
    intro j
    rw [le_div_iff₀ hx]
    have : (0 : ℝ) ≤ j := by positivity
    nlinarith
  have l34 := besselJ_lt (n := 3) hx (by norm_num; linarith)
  have r2 := besselJ_rec 2 hx.ne'
  have r1 := besselJ_rec 1 hx.ne'
  have r0 := besselJ_rec 0 hx.ne'
  have z2 := z 2
  have z1 := z 1
  have z0 := z 0
  norm_num only at l34 r2 r1 r0 z2 z1 z0
  have h3 : besselJ 3 x ≤ 1 / 2 * besselJ 2 x := by nlinarith
  have h2 : besselJ 2 x ≤ 2 / 3 * besselJ 1 x := by nlinarith
  have h1 : 1 / 3 * besselJ 1 x ≤ besselJ 0 x := by nlinarith
  refine ⟨by linarith, by linarith, ?_⟩
  intro n hn
  induction n, hn using Nat.le_induction with
  | base => exact h2
  | succ n hn ih =>
    have hn' : (1 : ℝ) ≤ n := by exact_mod_cast hn
    have h := besselJ_ratio_anti (n := n) hx (by linarith)
    have q0 := pos n hn
    have q1 := pos (n + 1) (by omega)
    rw [div_le_div_iff₀ q1 q0] at h
    rw [show n + 1 + 1 = n + 2 by ring]
    have : besselJ (n + 2) x * besselJ n x ≤ 2 / 3 * besselJ (n + 1) x * besselJ n x := by nlinarith
    exact le_of_mul_le_mul_right this q0

/-- the denominators grow like factorials for small arguments -/
theorem jnTerms_small {x : ℝ} (hx : 0 < x) (hx2 : x ≤ 2) {n : ℕ} (hn : 2 ≤ n) : jnTerms n x ≤ 11 := by
  have hn' : (2 : ℝ) ≤ n := by exact_mod_cast hn
  have hxn : x ≤ n := by linarith
  obtain ⟨-, h⟩ := jnTerms_spec hx hxn
  rcases h with h | ⟨j, h, h1, hlt⟩
  · omega
  · rw [h]
    by_contra hc
    have hj : 11 ≤ j := by omega
    have z : ∀ k : ℕ, (k : ℝ) + 2 ≤ 2 * ((n : ℝ) + k) / x := by
      intro k
      rw [le_div_iff₀ hx]
      have : (0 : ℝ) ≤ k := by positivity
      nlinarith
    have step : ∀ k : ℕ, ((k : ℝ) + 1) * cfQ x n (k + 1) ≤ cfQ x n (k + 2) := by
      intro k
      have hm := cfQ_mono hx hxn k
      have e : cfQ x n (k + 2) = 2 * ((n : ℝ) + k) / x * cfQ x n (k + 1) - cfQ x n k := rfl
      have := z k
      have : 0 ≤ cfQ x n (k + 1) := by linarith
      rw [e]
      nlinarith
    have q1 : cfQ x n 1 = 1 := rfl
    have q2 : (2 : ℝ) ≤ cfQ x n 2 := by
      have e : cfQ x n 2 = 2 * ((n : ℝ) + (0 : ℕ)) / x * cfQ x n 1 - cfQ x n 0 := rfl
      have q0 : cfQ x n 0 = 0 := rfl
      have := z 0
      rw [e, q1, q0]
      push_cast at *
      linarith
    have q3 : (5 : ℝ) ≤ cfQ x n 3 := by
      have e : cfQ x n 3 = 2 * ((n : ℝ) + (1 : ℕ)) / x * cfQ x n 2 - cfQ x n 1 := rfl
      have := z 1
      rw [e, q1]
      push_cast at *
      nlinarith
    have s2 := step 2
    have s3 := step 3
    have s4 := step 4
    have s5 := step 5
    have s6 := step 6
    have s7 := step 7
    have s8 := step 8
    have s9 := step 9
    have s10 := step 10
    have s11 := step 11
    norm_num only at s2 s3 s4 s5 s6 s7 s8 s9 s10 s11
    push_cast at *
    have hQ : (10 : ℝ) ^ 9 ≤ cfQ x n 13 := by norm_num; linarith
    have mono : ∀ d, cfQ x n 13 ≤ cfQ x n (13 + d) := by
      intro d
      induction d with
      | zero => exact le_rfl
      | succ d ih =>
        have := (cfQ_mono hx hxn (13 + d)).2.1
        rw [show 13 + (d + 1) = 13 + d + 1 by ring]
        linarith
    have := mono (j - 11)
    rw [show 13 + (j - 11) = j + 2 by omega] at this
    linarith

/-- accuracy of the backward branch for `x ≤ 2` -/
theorem jnBackward_small {x : ℝ} (hx : 0 < x) (hx2 : x ≤ 2) {n : ℕ} (hn : 1 ≤ n) :
    |jnBackward (besselJ 0) (n + 1) x - besselJ (n + 1) x| ≤ 1 / 2 ^ 54 * besselJ (n + 1) x := by
  obtain ⟨p0, r1, rr⟩ := ratio_small hx hx2
  have pos : ∀ j, 0 < besselJ j x := by
    intro j
    rcases Nat.eq_zero_or_pos j with h | h
    · rw [h]; exact p0
    · have hj' : (1 : ℝ) ≤ j := by exact_mod_cast h
      exact besselJ_pos hx (by linarith)
  have hn' : (1 : ℝ) ≤ n := by exact_mod_cast hn
  have hcf := cf_accurate hx (n := n) (by linarith)
  have hk := jnTerms_small hx hx2 (n := n + 1) (by omega)
  have hk' : (jnTerms (n + 1) x : ℝ) ≤ 11 := by exact_mod_cast hk
  obtain ⟨t, ht⟩ : ∃ t, t = cfLoop x (n + 1) (jnTerms (n + 1) x) 0 := ⟨_, rfl⟩
  obtain ⟨u, hun, hun1, hrec⟩ := exists_solution x n 1 t
  rw [jnBackward_eq _ n hrec hun (by rw [hun1, ht]), ← ht]
  rw [← ht] at hcf
  obtain ⟨r, hr⟩ : ∃ r, r = besselJ (n + 1) x / besselJ n x := ⟨_, rfl⟩
  rw [← hr] at hcf
  have pn := pos n
  have pn1 := pos (n + 1)
  have hr0 : 0 < r := by rw [hr]; positivity
  have hr1 : r ≤ 1 := by
    rw [hr, div_le_one pn]
    have := rr n hn
    linarith
  have hJ : besselJ (n + 1) x = r * besselJ n x := by rw [hr]; field_simp
  -- the Casorati determinant
  have hD : ∀ k, k ≤ n → u (n - k) * besselJ (n - k + 1) x - u (n - k + 1) * besselJ (n - k) x = besselJ n x * (r - t) := by
    intro k
    induction k with
    | zero =>
      intro _
      simp only [Nat.sub_zero]
      rw [hun, hun1, hJ]; ring
    | succ k ih =>
      intro hk
      rw [← ih (by omega)]
      have e : n - k = n - (k + 1) + 1 := by omega
      rw [e]
      rw [show n - (k + 1) + 1 + 1 = n - (k + 1) + 2 by ring, hrec (n - (k + 1)) (by omega), besselJ_rec (n - (k + 1)) hx.ne']
      ring
  have hq : ∀ j, j < n → u j / besselJ j x = u (j + 1) / besselJ (j + 1) x + besselJ n x * (r - t) / (besselJ j x * besselJ (j + 1) x) := by
    intro j hj
    have := hD (n - j) (by omega)
    rw [show n - (n - j) = j by omega] at this
    have a1 := pos j
    have a2 := pos (j + 1)
    rw [← this]
    field_simp
    ring
  -- the sum
  have hS : ∀ m, 1 ≤ m → ∃ S, 0 ≤ S ∧ S ≤ 3 ∧ (m ≤ n → u 0 / besselJ 0 x = u m / besselJ m x + besselJ n x * (r - t) * (S / besselJ m x ^ 2)) := by
    intro m hm
    induction m, hm using Nat.le_induction with
    | base =>
      have a1 := pos 1
      refine ⟨besselJ 1 x / besselJ 0 x, by positivity, by rw [div_le_iff₀ p0]; exact r1, fun h => ?_⟩
      rw [hq 0 (by omega), zero_add]
      field_simp
    | succ m hm ih =>
      obtain ⟨S, S0, S3, hs⟩ := ih
      have a1 := pos m
      have a2 := pos (m + 1)
      have h23 := rr m hm
      have hρ : besselJ (m + 1) x / besselJ m x ≤ 2 / 3 := by rw [div_le_iff₀ a1]; exact h23
      have hρ0 : 0 ≤ besselJ (m + 1) x / besselJ m x := by positivity
      refine ⟨(besselJ (m + 1) x / besselJ m x) ^ 2 * S + besselJ (m + 1) x / besselJ m x, by positivity, ?_, fun h => ?_⟩
      · nlinarith [mul_le_mul hρ hρ hρ0 (by norm_num)]
      · rw [hs (by omega), hq m (by omega)]
        field_simp
        ring
  obtain ⟨S, S0, S3, hs⟩ := hS n hn
  have hu0 := hs le_rfl
  rw [hun] at hu0
  have e0 : 0 ≤ r - t := by linarith [hcf.1]
  have hu0' : u 0 = besselJ 0 x / besselJ n x * (1 + (r - t) * S) := by
    have : u 0 = (u 0 / besselJ 0 x) * besselJ 0 x := by field_simp
    rw [this, hu0]; field_simp
  have hden : 0 < 1 + (r - t) * S := by positivity
  have hval : t * besselJ 0 x / u 0 = t * besselJ n x / (1 + (r - t) * S) := by
    rw [hu0']; field_simp
  rw [hval, hJ]
  have hδ : r - t ≤ 13 / 10 ^ 18 * r := by
    refine hcf.2.trans ?_
    have : ((jnTerms (n + 1) x : ℝ) + 2) / 10 ^ 18 ≤ 13 / 10 ^ 18 := by gcongr; linarith
    exact mul_le_mul_of_nonneg_right this hr0.le
  have e3 : t * besselJ n x / (1 + (r - t) * S) - r * besselJ n x = -(besselJ n x * ((r - t) * (1 + r * S)) / (1 + (r - t) * S)) := by
    field_simp
    ring
  have hrS : r * S ≤ 3 := by nlinarith
  have hrS0 : 0 ≤ r * S := by positivity
  have hnum : 0 ≤ besselJ n x * ((r - t) * (1 + r * S)) := by positivity
  rw [e3, abs_neg, abs_of_nonneg (by positivity)]
  calc besselJ n x * ((r - t) * (1 + r * S)) / (1 + (r - t) * S) ≤ besselJ n x * ((r - t) * (1 + r * S)) / 1 := by
        apply div_le_div_of_nonneg_left hnum one_pos
        have : 0 ≤ (r - t) * S := by positivity
        linarith
    _ ≤ besselJ n x * (13 / 10 ^ 18 * r * (1 + 3)) := by
        rw [div_one]
        exact mul_le_mul_of_nonneg_left (mul_le_mul hδ (by linarith) (by linarith) (by positivity)) pn.le
    _ = 52 / 10 ^ 18 * (r * besselJ n x) := by ring
    _ ≤ 1 / 2 ^ 54 * (r * besselJ n x) := mul_le_mul_of_nonneg_right (by norm_num) (by positivity)

/-! ## `bessel_yn` -/

/-- the branch for `x ≥ 2³⁰²` (bessel_n.rs:312-332) -/
noncomputable def ynAsymptotic (nn : ℕ) (x : ℝ) : ℝ :=
  let s := sin x
  let c := cos x
  let temp := match nn % 4 with
    | 0 => s - c
    | 1 => -s - c
    | 2 => -s + c
    | _ => s + c
  1 / √π * temp / √x

/-- `bessel_yn` (bessel_n.rs:281-351) for finite `x`; `none` is NaN, `⊤` and `⊥` are the infinities. `y0` and `y1` are the finite values of `bessel_y0`
and `bessel_y1` for positive arguments, `bessel_y0(0)` is `-Inf` (bessel_0.rs:213). The loop has no infinite values in exact arithmetic, hence its
`break` is left out -/
noncomputable def besselYn (y0 y1 : ℝ → ℝ) (n : ℤ) (x : ℝ) : Option EReal :=
  if x < 0 then none
  else if n = 0 then (if x = 0 then some ⊥ else some (y0 x : EReal))
  else if x = 0 then (if n < 0 ∧ n % 2 = 1 then some ⊤ else some ⊥)
  else
    let nn := n.natAbs
    let negative := n < 0 ∧ nn % 2 = 1
    if nn = 1 then (if negative then some ((-y1 x : ℝ) : EReal) else some (y1 x : EReal))
    else
      let b := if x ≥ 2 ^ 302 then ynAsymptotic nn x else fwdLoop x (nn - 1) 1 (y0 x) (y1 x)
      if negative then some ((-b : ℝ) : EReal) else some (b : EReal)

/-! ## Theorems -/

/-- the Bessel function of integer order, `J₋ₙ = (-1)ⁿ Jₙ` -/
noncomputable def besselJZ (n : ℤ) (x : ℝ) : ℝ := if n < 0 then (-1) ^ n.natAbs * besselJ n.natAbs x else besselJ n.natAbs x

/-- the sign by which order and argument are made positive -/
noncomputable def jnSign (n : ℤ) (x : ℝ) : ℝ := if (if n < 0 then -x else x) < 0 ∧ n.natAbs % 2 = 1 then -1 else 1

theorem abs_jnSign (n : ℤ) (x : ℝ) : |jnSign n x| = 1 := by unfold jnSign; split_ifs <;> simp

theorem besselJn_eq (j0 j1 : ℝ → ℝ) {n : ℤ} (hn : 2 ≤ n.natAbs) {x : ℝ} (hx : x ≠ 0) : besselJn j0 j1 n x = jnSign n x * jnPositive j0 j1 n.natAbs |x| := by
  unfold besselJn jnSign
  have h0 : n ≠ 0 := by rintro rfl; simp at hn
  rw [if_neg h0, if_neg hx]
  simp only []
  rw [if_neg (by omega)]
  have e : (if (if n < 0 then -x else x) < 0 then -(if n < 0 then -x else x) else (if n < 0 then -x else x)) = |x| := by
    split_ifs with h1 h2 h2
    · rw [abs_of_pos (by linarith)]; ring
    · rw [abs_of_nonpos (by linarith)]
    · rw [abs_of_neg h2]
    · rw [abs_of_nonneg (by linarith)]
  rw [e]
  split_ifs <;> ring

theorem besselJZ_eq {n : ℤ} {x : ℝ} (hx : x ≠ 0) : besselJZ n x = jnSign n x * besselJ n.natAbs |x| := by
  unfold besselJZ jnSign
  have hp : ∀ k : ℕ, k % 2 = 1 → (-1 : ℝ) ^ k = -1 := fun k h => Odd.neg_one_pow (Nat.odd_iff.2 h)
  have hq : ∀ k : ℕ, ¬ k % 2 = 1 → (-1 : ℝ) ^ k = 1 := fun k h => Even.neg_one_pow (Nat.even_iff.2 (by omega))
  rcases lt_or_gt_of_ne hx with h | h
  · rw [abs_of_neg h, besselJ_neg]
    by_cases hodd : n.natAbs % 2 = 1
    · rw [hp _ hodd]
      by_cases hn : n < 0
      · rw [if_pos hn, if_pos hn, if_neg (by rintro ⟨h1, -⟩; linarith)]; ring
      · rw [if_neg hn, if_neg hn, if_pos ⟨h, hodd⟩]; ring
    · rw [hq _ hodd]
      by_cases hn : n < 0
      · rw [if_pos hn, if_neg (by rintro ⟨-, h2⟩; exact hodd h2)]; ring
      · rw [if_neg hn, if_neg (by rintro ⟨-, h2⟩; exact hodd h2)]; ring
  · rw [abs_of_pos h]
    by_cases hodd : n.natAbs % 2 = 1
    · rw [hp _ hodd]
      by_cases hn : n < 0
      · rw [if_pos hn, if_pos hn, if_pos ⟨by linarith, hodd⟩]
      · rw [if_neg hn, if_neg hn, if_neg (by rintro ⟨h1, -⟩; linarith)]; ring
    · rw [hq _ hodd]
      by_cases hn : n < 0
      · rw [if_pos hn, if_neg (by rintro ⟨-, h2⟩; exact hodd h2)]
      · rw [if_neg hn, if_neg (by rintro ⟨-, h2⟩; exact hodd h2)]; ring

/-- C110: orders -1, 0, 1 -/
theorem C110_jn_low (j0 j1 : ℝ → ℝ) (h0 : ∀ x, j0 x = besselJ 0 x) (h1 : ∀ x, j1 x = besselJ 1 x) (n : ℤ) (hn : n.natAbs ≤ 1) (x : ℝ) :
    besselJn j0 j1 n x = besselJZ n x := by
  have hz : besselJ 1 0 = 0 := by
    have := besselJ_neg 1 0
    simp at this
    linarith
  have : n = 0 ∨ n = 1 ∨ n = -1 := by omega
  rcases this with rfl | rfl | rfl
  · simp [besselJn, besselJZ, h0]
  · by_cases hx : x = 0
    · simp [besselJn, besselJZ, hx, hz]
    · simp [besselJn, besselJZ, h1, hx]
  · by_cases hx : x = 0
    · simp [besselJn, besselJZ, hx, hz]
    · simp [besselJn, besselJZ, h1, hx, besselJ_neg]

/-- C110: for orders up to the argument the forward recurrence gives `Jₙ(x)`, provided that `bessel_j0` and `bessel_j1` do for `n = 0, 1` -/
theorem C110_jn_forward (j0 j1 : ℝ → ℝ) (n : ℤ) (hn : 2 ≤ n.natAbs) (x : ℝ) (h0 : j0 |x| = besselJ 0 |x|) (h1 : j1 |x| = besselJ 1 |x|)
    (hx : n.natAbs ≤ |x|) (hlt : |x| < 2 ^ 302) : besselJn j0 j1 n x = besselJZ n x := by
  have hx0 : x ≠ 0 := by
    rintro rfl
    have : (2 : ℝ) ≤ n.natAbs := by exact_mod_cast hn
    simp only [abs_zero] at hx
    linarith
  rw [besselJn_eq _ _ hn hx0, besselJZ_eq hx0]
  congr 1
  unfold jnPositive
  rw [if_pos hx, if_neg (not_le.2 hlt), h0, h1]
  have := fwdLoop_spec (f := fun i => besselJ i |x|) (x := |x|) (fun i => besselJ_rec i (abs_ne_zero.2 hx0)) (n.natAbs - 1) 0
  simp only [zero_add] at this
  rw [this]
  congr 1
  omega

example : 2 ≤ (-3 : ℤ).natAbs ∧ (((-3 : ℤ).natAbs : ℕ) : ℝ) ≤ |(-4 : ℝ)| ∧ |(-4 : ℝ)| < 2 ^ 302 := by
  rw [abs_neg, abs_of_pos (by norm_num)]
  refine ⟨by norm_num, by norm_num, ?_⟩
  calc (4 : ℝ) < 2 ^ 3 := by norm_num
    _ ≤ 2 ^ 302 := pow_le_pow_right₀ (by norm_num) (by norm_num)

/-- C110: for tiny arguments and orders up to 33 the leading term of the power series is accurate to `2⁻⁶⁰`; for larger orders, where 0 is returned, the
function is less than half of the smallest subnormal number -/
theorem C110_jn_tiny (j0 j1 : ℝ → ℝ) (n : ℤ) (hn : 2 ≤ n.natAbs) (x : ℝ) (hx0 : x ≠ 0) (hx : |x| < 1 / 2 ^ 29) :
    (n.natAbs ≤ 33 → |besselJn j0 j1 n x - besselJZ n x| ≤ 1 / 2 ^ 60 * |besselJn j0 j1 n x|) ∧
    (33 < n.natAbs → besselJn j0 j1 n x = 0 ∧ |besselJZ n x| < 1 / 2 ^ 1075) := by
  have ha : 0 < |x| := abs_pos.2 hx0
  have hn2 : (2 : ℝ) ≤ n.natAbs := by exact_mod_cast hn
  have h29 : (1 : ℝ) / 2 ^ 29 ≤ 1 := by norm_num
  rw [besselJn_eq _ _ hn hx0, besselJZ_eq hx0]
  generalize n.natAbs = N at *
  have hh : (|x| / 2) ^ 2 ≤ 1 / 2 ^ 60 := by
    calc (|x| / 2) ^ 2 ≤ (1 / 2 ^ 29 / 2) ^ 2 := by gcongr
      _ = 1 / 2 ^ 60 := by norm_num
  have hl := bes_lead (σ := -1) (by simp) N (x := |x|) (hh.trans (by norm_num))
  rw [abs_of_pos (by positivity : 0 < |x| / 2)] at hl
  have hlead : 0 ≤ (|x| / 2) ^ N / (N ! : ℝ) := by positivity
  have hc : 2 * (|x| / 2) ^ 2 / (N + 1) ≤ 1 / 2 ^ 60 := by
    rw [div_le_iff₀ (by positivity)]
    nlinarith
  have hl2 : |besselJ N |x| - (|x| / 2) ^ N / (N ! : ℝ)| ≤ 1 / 2 ^ 60 * ((|x| / 2) ^ N / (N ! : ℝ)) :=
    hl.trans (mul_le_mul_of_nonneg_right hc hlead)
  constructor
  · intro h33
    have hv : jnPositive j0 j1 N |x| = (|x| / 2) ^ N / (N ! : ℝ) := by
      unfold jnPositive
      rw [if_neg (by linarith), if_pos hx, if_neg (by omega)]
      simp only []
      have := tinyLoop_spec (|x| * 0.5) (N - 1) 1 1 (|x| * 0.5) (by simp) (by simp)
      simp only [Nat.reduceAdd] at this
      rw [this, show 1 + (N - 1) = N by omega]
      simp only []
      rw [show |x| * 0.5 = |x| / 2 by norm_num; ring]
    rw [hv, ← mul_sub, abs_mul, abs_jnSign, one_mul, abs_mul, abs_jnSign, one_mul, abs_of_nonneg hlead, abs_sub_comm]
    exact hl2
  · intro h33
    constructor
    · unfold jnPositive
      rw [if_neg (by linarith), if_pos hx, if_pos h33, mul_zero]
    · rw [abs_mul, abs_jnSign, one_mul]
      have h1 : abs (besselJ N |x|) ≤ 2 * ((|x| / 2) ^ N / (N ! : ℝ)) := by
        have := abs_sub_abs_le_abs_sub (besselJ N |x|) ((|x| / 2) ^ N / (N ! : ℝ))
        rw [abs_of_nonneg hlead] at this
        have : (1 : ℝ) / 2 ^ 60 * ((|x| / 2) ^ N / (N ! : ℝ)) ≤ 1 * ((|x| / 2) ^ N / (N ! : ℝ)) := mul_le_mul_of_nonneg_right (by norm_num) hlead
        linarith
      have h30 : |x| / 2 ≤ 1 / 2 ^ 30 := by
        have : (1 : ℝ) / 2 ^ 29 / 2 = 1 / 2 ^ 30 := by norm_num
        linarith
      have h2 : (|x| / 2) ^ N ≤ (1 / 2 ^ 30) ^ 34 := by
        calc (|x| / 2) ^ N ≤ (1 / 2 ^ 30) ^ N := by gcongr
          _ ≤ (1 / 2 ^ 30) ^ 34 := pow_le_pow_of_le_one (by positivity) (by norm_num) h33
      have hf : (2 : ℝ) ^ 100 ≤ (N ! : ℝ) := by
        have h34 : 34 ! ≤ N ! := Nat.factorial_le h33
        have : 2 ^ 100 ≤ 34 ! := by decide +kernel
        exact_mod_cast this.trans h34
      calc abs (besselJ N |x|) ≤ 2 * ((|x| / 2) ^ N / (N ! : ℝ)) := h1
        _ ≤ 2 * ((1 / 2 ^ 30) ^ 34 / 2 ^ 100) := by gcongr
        _ = 1 / 2 ^ 1119 := by
            have : ∀ y : ℝ, 2 * ((1 / y ^ 30) ^ 34 / y ^ 100) = 2 / y ^ 1120 := by
              intro y; rw [div_pow, one_pow, ← pow_mul, div_div, ← pow_add]; ring
            rw [this, show (2 : ℝ) ^ 1120 = 2 * 2 ^ 1119 from pow_succ' 2 1119, ← div_div, div_self (by norm_num)]
        _ < 1 / 2 ^ 1075 := by
            apply one_div_lt_one_div_of_lt (by positivity)
            exact pow_lt_pow_right₀ (by norm_num) (by norm_num)

/-- C110: for `2⁻²⁹ ≤ |x| ≤ 2` and orders above `|x|` the continued fraction and the backward recurrence give `Jₙ(x)` to a relative accuracy of `2⁻⁵⁴`,
provided that `bessel_j0` is exact -/
theorem C110_jn_small (j0 j1 : ℝ → ℝ) (h0 : ∀ x, j0 x = besselJ 0 x) (n : ℤ) (hn : 2 ≤ n.natAbs) (x : ℝ) (hx1 : 1 / 2 ^ 29 ≤ |x|) (hx2 : |x| ≤ 2)
    (hnx : |x| < n.natAbs) : |besselJn j0 j1 n x - besselJZ n x| ≤ 1 / 2 ^ 54 * |besselJZ n x| := by
  have ha : 0 < |x| := lt_of_lt_of_le (by positivity) hx1
  have hx0 : x ≠ 0 := abs_pos.1 ha
  have h0' : j0 = besselJ 0 := funext h0
  rw [besselJn_eq _ _ hn hx0, besselJZ_eq hx0]
  generalize n.natAbs = N at *
  rw [← mul_sub, abs_mul, abs_jnSign, one_mul, abs_mul, abs_jnSign, one_mul]
  have hv : jnPositive j0 j1 N |x| = jnBackward (besselJ 0) N |x| := by
    unfold jnPositive
    rw [if_neg (not_le.2 hnx), if_neg (not_lt.2 hx1), h0']
  rw [hv]
  obtain ⟨m, rfl⟩ : ∃ m, N = m + 1 := ⟨N - 1, by omega⟩
  have hN : (2 : ℝ) ≤ ((m + 1 : ℕ) : ℝ) := by exact_mod_cast hn
  rw [abs_of_pos (besselJ_pos (n := m + 1) ha (by push_cast at *; linarith))]
  exact jnBackward_small ha hx2 (by omega)

example : 2 ≤ (5 : ℤ).natAbs ∧ (1 : ℝ) / 2 ^ 29 ≤ |(-1 : ℝ)| ∧ |(-1 : ℝ)| ≤ 2 ∧ |(-1 : ℝ)| < (((5 : ℤ).natAbs : ℕ) : ℝ) := by
  rw [abs_neg, abs_one]; norm_num

/-- C110: for all orders above the argument the value is `t J₀(x) / u₀`, where `t` approximates `Jₙ(x)/Jₙ₋₁(x)` to a relative accuracy of `10⁻¹⁸` per
term of the continued fraction and `u` is the solution of the recurrence with `uₙ₋₁ = 1` and `uₙ = t`; scaling has no effect -/
theorem C110_jn_backward (j0 j1 : ℝ → ℝ) (m : ℕ) (hm : 1 ≤ m) (x : ℝ) (hx1 : 1 / 2 ^ 29 ≤ x) (hx : x < m + 1) :
    ∃ t, |t - besselJ (m + 1) x / besselJ m x| ≤ (jnTerms (m + 1) x + 2) / 10 ^ 18 * (besselJ (m + 1) x / besselJ m x) ∧
      ∀ u : ℕ → ℝ, (∀ j, j < m → u (j + 2) = 2 * ((j : ℝ) + 1) / x * u (j + 1) - u j) → u m = 1 → u (m + 1) = t →
        besselJn j0 j1 ((m + 1 : ℕ) : ℤ) x = t * j0 x / u 0 := by
  have ha : 0 < x := lt_of_lt_of_le (by positivity) hx1
  refine ⟨cfLoop x (m + 1) (jnTerms (m + 1) x) 0, ?_, ?_⟩
  · have h := cf_accurate ha (n := m) hx.le
    rw [abs_sub_comm, abs_of_nonneg (by linarith [h.1])]
    exact h.2
  · intro u hu h1 h2
    have e : (((m + 1 : ℕ) : ℤ)).natAbs = m + 1 := Int.natAbs_natCast _
    rw [besselJn_eq _ _ (by rw [e]; omega) ha.ne', e, abs_of_pos ha]
    have hs : jnSign ((m + 1 : ℕ) : ℤ) x = 1 := by
      unfold jnSign
      rw [if_neg]
      rintro ⟨h, -⟩
      rw [if_neg (by omega)] at h
      linarith
    rw [hs, one_mul]
    unfold jnPositive
    rw [if_neg (by push_cast; linarith), if_neg (not_lt.2 hx1)]
    exact jnBackward_eq j0 m hu h1 h2

example : (1 : ℝ) / 2 ^ 29 ≤ 50 ∧ (50 : ℝ) < ((59 : ℕ) : ℝ) + 1 := by norm_num

/-- at a zero of `J₀` the function vanishes for all orders above the argument, although `Jₙ(x) > 0` there: the backward recurrence is normalised by
`J₀(x)` alone. Near the zero the relative error of `bessel_j0` is passed on -/
theorem C110_jn_zero_counterexample : ∃ x : ℝ, 2 < x ∧ x < 3 ∧ ∀ n : ℕ, 3 ≤ n → besselJn (besselJ 0) (besselJ 1) n x = 0 ∧ 0 < besselJ n x := by
  obtain ⟨x, h2, h3, h0⟩ := besselJ_zero_exists
  refine ⟨x, h2, h3, fun n hn => ?_⟩
  obtain ⟨m, rfl⟩ : ∃ m, n = m + 1 := ⟨n - 1, by omega⟩
  have hm : (2 : ℝ) ≤ m := by exact_mod_cast (show 2 ≤ m by omega)
  have h29 : (1 : ℝ) / 2 ^ 29 ≤ 1 := by norm_num
  obtain ⟨t, -, ht⟩ := C110_jn_backward (besselJ 0) (besselJ 1) m (by omega) x (by linarith) (by linarith)
  obtain ⟨u, hu1, hu2, hu⟩ := exists_solution x m 1 t
  refine ⟨?_, besselJ_pos (by linarith) (by push_cast; linarith)⟩
  rw [ht u hu hu1 hu2, h0, mul_zero, zero_div]

theorem cos_table (N : ℕ) (y : ℝ) :
    √2 * cos (y - (2 * N + 1) * π / 4) = (match N % 4 with | 0 => cos y + sin y | 1 => -cos y + sin y | 2 => -cos y - sin y | _ => cos y - sin y) ∧
    √2 * sin (y - (2 * N + 1) * π / 4) = (match N % 4 with | 0 => sin y - cos y | 1 => -sin y - cos y | 2 => -sin y + cos y | _ => sin y + cos y) := by
  have hs : √2 * √2 = 2 := Real.mul_self_sqrt (by norm_num)
  have e : y - (2 * N + 1) * π / 4 = (y - π / 4 - ((N % 4 : ℕ) : ℝ) * (π / 2)) - ((N / 4 : ℕ) : ℝ) * (2 * π) := by
    have : (N : ℝ) = 4 * ((N / 4 : ℕ) : ℝ) + ((N % 4 : ℕ) : ℝ) := by exact_mod_cast (Nat.div_add_mod N 4).symm
    rw [this]; ring
  rw [e, cos_sub_nat_mul_two_pi, sin_sub_nat_mul_two_pi]
  have hlt : N % 4 < 4 := Nat.mod_lt _ (by norm_num)
  have c4 : √2 * cos (y - π / 4) = cos y + sin y := by
    rw [cos_sub, cos_pi_div_four, sin_pi_div_four]; linear_combination (cos y + sin y) / 2 * hs
  have s4 : √2 * sin (y - π / 4) = sin y - cos y := by
    rw [sin_sub, cos_pi_div_four, sin_pi_div_four]; linear_combination (sin y - cos y) / 2 * hs
  generalize y - π / 4 = θ at *
  generalize N % 4 = k at *
  interval_cases k
  · simp only [Nat.cast_zero, zero_mul, sub_zero]; exact ⟨c4, s4⟩
  · simp only [Nat.cast_one, one_mul, cos_sub_pi_div_two, sin_sub_pi_div_two]
    exact ⟨by linarith, by linarith⟩
  · rw [show θ - ((2 : ℕ) : ℝ) * (π / 2) = θ - π by push_cast; ring, cos_sub_pi, sin_sub_pi]
    exact ⟨by simp only []; linarith, by simp only []; linarith⟩
  · rw [show θ - ((3 : ℕ) : ℝ) * (π / 2) = θ - π - π / 2 by push_cast; ring, cos_sub_pi_div_two, sin_sub_pi_div_two, cos_sub_pi, sin_sub_pi]
    exact ⟨by simp only []; linarith, by simp only []; linarith⟩

theorem asym_scale {y v w : ℝ} (hy : 0 < y) (h : √2 * v = w) : 1 / √π * w / √y = √(2 / (π * y)) * v := by
  have hp : 0 < √π := Real.sqrt_pos.2 pi_pos
  have hq : 0 < √y := Real.sqrt_pos.2 hy
  rw [Real.sqrt_div (by norm_num), Real.sqrt_mul pi_pos.le, ← h]
  field_simp

/-- C110: for huge arguments the leading term of Hankel's expansion, `√(2/(πx)) cos(x - (2n+1)π/4)`, is returned -/
theorem C110_jn_asymptotic (j0 j1 : ℝ → ℝ) (n : ℤ) (hn : 2 ≤ n.natAbs) (x : ℝ) (hx : 2 ^ 302 ≤ x) (hnx : n.natAbs ≤ x) :
    besselJn j0 j1 n x = (if n < 0 then (-1) ^ n.natAbs else 1) * (√(2 / (π * x)) * cos (x - (2 * n.natAbs + 1) * π / 4)) := by
  have hx0 : 0 < x := lt_of_lt_of_le (by positivity) hx
  rw [besselJn_eq _ _ hn hx0.ne', abs_of_pos hx0]
  have hs : jnSign n x = if n < 0 then (-1) ^ n.natAbs else 1 := by
    unfold jnSign
    by_cases h : n < 0
    · rw [if_pos h, if_pos h]
      by_cases ho : n.natAbs % 2 = 1
      · rw [if_pos ⟨neg_neg_iff_pos.2 hx0, ho⟩, Odd.neg_one_pow (Nat.odd_iff.2 ho)]
      · rw [if_neg (by rintro ⟨-, h2⟩; exact ho h2), Even.neg_one_pow (Nat.even_iff.2 (by omega))]
    · rw [if_neg h, if_neg h, if_neg (by rintro ⟨h1, -⟩; exact lt_asymm h1 hx0)]
  rw [hs]
  congr 1
  unfold jnPositive
  rw [if_pos hnx, if_pos hx]
  unfold jnAsymptotic
  exact asym_scale hx0 (cos_table n.natAbs x).1

example : (2 : ℝ) ^ 302 ≤ 2 ^ 302 ∧ (((7 : ℤ).natAbs : ℕ) : ℝ) ≤ 2 ^ 302 := by
  refine ⟨le_rfl, ?_⟩
  calc (((7 : ℤ).natAbs : ℕ) : ℝ) ≤ 2 ^ 3 := by norm_num
    _ ≤ 2 ^ 302 := pow_le_pow_right₀ (by norm_num) (by norm_num)

/-- C110: the symmetries in order and argument, if `bessel_j0` is even and `bessel_j1` is odd -/
theorem C110_jn_parity (j0 j1 : ℝ → ℝ) (h0 : ∀ x, j0 (-x) = j0 x) (h1 : ∀ x, j1 (-x) = -j1 x) (n : ℤ) (x : ℝ) :
    besselJn j0 j1 (-n) x = besselJn j0 j1 n (-x) ∧ besselJn j0 j1 n (-x) = (-1) ^ n.natAbs * besselJn j0 j1 n x := by
  by_cases hx : x = 0
  · subst hx
    by_cases hn : n = 0
    · simp [hn, besselJn]
    · simp [hn, besselJn]
  by_cases hn : n.natAbs ≤ 1
  · have : n = 0 ∨ n = 1 ∨ n = -1 := by omega
    rcases this with rfl | rfl | rfl
    · simp [besselJn, h0]
    · simp [besselJn, h1, hx]
    · simp [besselJn, h1, hx]
  · have hn2 : 2 ≤ n.natAbs := by omega
    have hn0 : n ≠ 0 := by rintro rfl; simp at hn2
    rw [besselJn_eq _ _ (by rwa [Int.natAbs_neg]) hx, besselJn_eq _ _ hn2 (neg_ne_zero.2 hx), besselJn_eq _ _ hn2 hx, Int.natAbs_neg, abs_neg]
    constructor
    · congr 1
      unfold jnSign
      rw [Int.natAbs_neg]
      by_cases h : n < 0
      · rw [if_neg (show ¬ -n < 0 by omega), if_pos h, neg_neg]
      · rw [if_pos (show -n < 0 by omega), if_neg h]
    · rw [← mul_assoc]
      congr 1
      unfold jnSign
      by_cases ho : n.natAbs % 2 = 1
      · rw [Odd.neg_one_pow (Nat.odd_iff.2 ho)]
        by_cases h : n < 0
        · rw [if_pos h, if_pos h, neg_neg]
          rcases lt_or_gt_of_ne hx with h' | h'
          · rw [if_pos ⟨h', ho⟩, if_neg (by rintro ⟨h1, -⟩; linarith)]; ring
          · rw [if_neg (by rintro ⟨h1, -⟩; linarith), if_pos ⟨by linarith, ho⟩]; ring
        · rw [if_neg h, if_neg h]
          rcases lt_or_gt_of_ne hx with h' | h'
          · rw [if_neg (by rintro ⟨h1, -⟩; linarith), if_pos ⟨h', ho⟩]; ring
          · rw [if_pos ⟨by linarith, ho⟩, if_neg (by rintro ⟨h1, -⟩; linarith)]; ring
      · rw [Even.neg_one_pow (Nat.even_iff.2 (by omega)), if_neg (by rintro ⟨-, h2⟩; exact ho h2), if_neg (by rintro ⟨-, h2⟩; exact ho h2)]; ring

/-- C110: `bessel_yn` continues `bessel_y0`, `bessel_y1` by the recurrence `f(i+2) = 2(i+1)/x f(i+1) - f(i)` of the Bessel functions, and
`Y₋ₙ = (-1)ⁿ Yₙ` -/
theorem C110_yn_forward (y0 y1 : ℝ → ℝ) (x : ℝ) (hx : 0 < x) (hlt : x < 2 ^ 302) (f : ℕ → ℝ) (h0 : f 0 = y0 x) (h1 : f 1 = y1 x)
    (hf : ∀ i, f (i + 2) = 2 * ((i : ℝ) + 1) / x * f (i + 1) - f i) (n : ℤ) :
    besselYn y0 y1 n x = some (((if n < 0 then (-1) ^ n.natAbs else 1) * f n.natAbs : ℝ) : EReal) := by
  have hs : ∀ b : ℝ, (if n < 0 ∧ n.natAbs % 2 = 1 then some ((-b : ℝ) : EReal) else some (b : EReal)) = some (((if n < 0 then (-1) ^ n.natAbs else 1) * b : ℝ) : EReal) := by
    intro b
    by_cases h : n < 0
    · by_cases ho : n.natAbs % 2 = 1
      · rw [if_pos ⟨h, ho⟩, if_pos h, Odd.neg_one_pow (Nat.odd_iff.2 ho)]; norm_num
      · rw [if_neg (by rintro ⟨-, h2⟩; exact ho h2), if_pos h, Even.neg_one_pow (Nat.even_iff.2 (by omega))]; norm_num
    · rw [if_neg (by rintro ⟨h2, -⟩; exact h h2), if_neg h, one_mul]
  unfold besselYn
  rw [if_neg (by linarith)]
  by_cases hn : n = 0
  · subst hn
    simp [hx.ne', h0]
  · rw [if_neg hn, if_neg hx.ne']
    simp only []
    by_cases hn1 : n.natAbs = 1
    · rw [if_pos hn1, hs, hn1, h1]
    · rw [if_neg hn1, hs, if_neg (not_le.2 hlt)]
      have := fwdLoop_spec hf (n.natAbs - 1) 0
      simp only [zero_add] at this
      rw [← h0, ← h1, this, show 1 + (n.natAbs - 1) = n.natAbs by omega]

/-- the recurrence has such a solution, for instance the Bessel functions of the first kind -/
example (x : ℝ) (hx : 0 < x) (i : ℕ) : besselJ (i + 2) x = 2 * ((i : ℝ) + 1) / x * besselJ (i + 1) x - besselJ i x := besselJ_rec i hx.ne'

/-- C110: for huge arguments `bessel_yn` returns `√(2/(πx)) sin(x - (2n+1)π/4)` for `n ≥ 2` -/
theorem C110_yn_asymptotic (y0 y1 : ℝ → ℝ) (n : ℕ) (hn : 2 ≤ n) (x : ℝ) (hx : 2 ^ 302 ≤ x) :
    besselYn y0 y1 n x = some ((√(2 / (π * x)) * sin (x - (2 * n + 1) * π / 4) : ℝ) : EReal) := by
  have hx0 : 0 < x := lt_of_lt_of_le (by positivity) hx
  unfold besselYn
  rw [if_neg (not_lt.2 hx0.le), if_neg (by omega), if_neg hx0.ne']
  simp only [Int.natAbs_natCast]
  rw [if_neg (by omega), if_neg (by omega), if_pos hx]
  unfold ynAsymptotic
  rw [asym_scale hx0 (cos_table n x).2]

/-- C110: the documented special cases of `bessel_yn` -/
theorem C110_yn_special (y0 y1 : ℝ → ℝ) (n : ℤ) :
    (∀ x < 0, besselYn y0 y1 n x = none) ∧ (0 ≤ n → besselYn y0 y1 n 0 = some ⊥) ∧
    (n < 0 → Odd n → besselYn y0 y1 n 0 = some ⊤) ∧ (n < 0 → Even n → besselYn y0 y1 n 0 = some ⊥) := by
  refine ⟨fun x hx => by simp [besselYn, hx], fun h => ?_, fun h ho => ?_, fun h ho => ?_⟩
  · unfold besselYn
    by_cases hn : n = 0
    · simp [hn]
    · simp [hn, not_lt.2 h]
  · unfold besselYn
    have hn : n ≠ 0 := by omega
    simp [hn, h, Int.odd_iff.1 ho]
  · unfold besselYn
    have hn : n ≠ 0 := by omega
    simp [hn, Int.even_iff.1 ho]

end Russell.Lab
