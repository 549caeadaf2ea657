import Verif.Prelude
import Verif.Lab.Bessel
import Verif.Lab.CarlsonLoop

/-!
# The modified Bessel function `bessel_in` (property C109)

Model of russell_lab/src/math/bessel_mod.rs:119-170 in exact real arithmetic. The approximation of `I₀` by rational functions is a parameter `i0`.
-/

namespace Russell.Lab

open Real
open scoped Nat

/-- the variables of Miller's downward recurrence -/
structure MillerState where
  bip : ℝ
  bi : ℝ
  ans : ℝ

/-- the body of the loop (bessel_mod.rs:140-157) for the loop variable `j`. `float_decompose(bi)` yields `bi = f 2^k` with `f ∈ [1/2, 1)`,
hence `k > 512` means `bi ≥ 2^512`; `float_compose(v, -512)` is `v / 2^512` -/
noncomputable def millerStep (tox : ℝ) (n j : ℕ) (s : MillerState) : MillerState :=
  let bim := s.bip + j * tox * s.bi
  let bip := s.bi
  let bi := bim
  let s1 : MillerState := if 2 ^ 512 ≤ bi then ⟨bip / 2 ^ 512, bi / 2 ^ 512, s.ans / 2 ^ 512⟩ else ⟨bip, bi, s.ans⟩
  if j = n then { s1 with ans := s1.bip } else s1

/-- the loop `while j > 0` (bessel_mod.rs:140-158) -/
noncomputable def millerLoop (tox : ℝ) (n : ℕ) : ℕ → MillerState → MillerState
  | 0, s => s
  | j + 1, s => millerLoop tox n j (millerStep tox n (j + 1) s)

/-- the order above which the recurrence starts, `max(n, min(|x|, 1400) as usize)` (bessel_mod.rs:136) -/
noncomputable def millerM (n : ℕ) (x : ℝ) : ℕ := max n ⌊min |x| 1400⌋₊

/-- the first order (bessel_mod.rs:137) -/
noncomputable def millerN (m : ℕ) : ℕ := 2 * (m + ⌊√(200 * (m : ℝ))⌋₊)

/-- `bessel_in` (bessel_mod.rs:119-170) for finite `x`; `i0` and `i1` are `bessel_i0` and `bessel_i1`. In exact arithmetic `I₀` is finite, hence the
branch of lines 162-165, which computes the same product in another order, is left out -/
noncomputable def besselIn (i0 i1 : ℝ → ℝ) (n : ℕ) (x : ℝ) : ℝ :=
  if n = 0 then i0 x
  else if n = 1 then i1 x
  else if x * x ≤ 8 * f64MinPos then 0
  else
    let tox := 2 / |x|
    let s := millerLoop tox n (millerN (millerM n x)) ⟨0, 1, 0⟩
    let ans := s.ans * (i0 x / s.bi)
    if x < 0 ∧ n % 2 ≠ 0 then -ans else ans

/-! ## The recurrence without renormalisation -/

/-- `(u_{N-k+1}, u_{N-k})` for the solution of the recurrence with `u_{N+1} = 0` and `u_N = 1` -/
noncomputable def millerU (tox : ℝ) (N : ℕ) : ℕ → ℝ × ℝ
  | 0 => (0, 1)
  | k + 1 => ((millerU tox N k).2, (millerU tox N k).1 + ((N - k : ℕ) : ℝ) * tox * (millerU tox N k).2)

theorem millerU_nonneg {tox : ℝ} (ht : 0 < tox) (N : ℕ) {k : ℕ} (hk : k ≤ N) : 0 ≤ (millerU tox N k).1 ∧ 0 < (millerU tox N k).2 := by
  induction k with
  | zero => simp [millerU]
  | succ k ih =>
    have ih := ih (by omega)
    rw [millerU]
    have : 0 < N - k := by omega
    have h2 : (0 : ℝ) < ((N - k : ℕ) : ℝ) := by exact_mod_cast this
    have := ih.2
    have := ih.1
    exact ⟨ih.2.le, by simp only []; positivity⟩

/-- the loop computes the solution up to a common factor -/
theorem millerLoop_spec {tox : ℝ} {n N : ℕ} (hn : 1 ≤ n) (j : ℕ) (hj : j ≤ N) (s : MillerState) (c : ℝ) (hc : 0 < c)
    (h1 : s.bip = c * (millerU tox N (N - j)).1) (h2 : s.bi = c * (millerU tox N (N - j)).2) (h3 : j < n → s.ans = c * (millerU tox N (N - n)).2) :
    ∃ c', 0 < c' ∧ (millerLoop tox n j s).bi = c' * (millerU tox N N).2 ∧ (millerLoop tox n j s).ans = c' * (millerU tox N (N - n)).2 := by
  induction j generalizing s c with
  | zero =>
    rw [millerLoop]
    exact ⟨c, hc, by simpa using h2, h3 (by omega)⟩
  | succ j ih =>
    rw [millerLoop]
    have hp : (0 : ℝ) < 2 ^ 512 := by positivity
    have e : N - j = (N - (j + 1)) + 1 := by omega
    have e2 : N - (N - (j + 1)) = j + 1 := by omega
    have u1 : (millerU tox N (N - j)).1 = (millerU tox N (N - (j + 1))).2 := by rw [e]; rfl
    have u2 : (millerU tox N (N - j)).2 = (millerU tox N (N - (j + 1))).1 + ((j + 1 : ℕ) : ℝ) * tox * (millerU tox N (N - (j + 1))).2 := by
      rw [e, millerU, e2]
    have b : s.bip + ((j + 1 : ℕ) : ℝ) * tox * s.bi = c * (millerU tox N (N - j)).2 := by rw [h1, h2, u2]; ring
    by_cases hr : 2 ^ 512 ≤ s.bip + ((j + 1 : ℕ) : ℝ) * tox * s.bi
    · refine ih (by omega) _ (c / 2 ^ 512) (by positivity) ?_ ?_ ?_
      · simp only [millerStep, if_pos hr]
        split_ifs <;> simp only [] <;> rw [u1, h2] <;> ring
      · simp only [millerStep, if_pos hr]
        split_ifs <;> simp only [] <;> rw [b] <;> ring
      · intro hjn
        simp only [millerStep, if_pos hr]
        split_ifs with h
        · simp only []
          rw [h2, ← h]; ring
        · simp only []
          rw [h3 (by omega)]; ring
    · refine ih (by omega) _ c hc ?_ ?_ ?_
      · simp only [millerStep, if_neg hr]
        split_ifs <;> simp only [] <;> rw [u1, h2]
      · simp only [millerStep, if_neg hr]
        split_ifs <;> simp only [] <;> rw [b]
      · intro hjn
        simp only [millerStep, if_neg hr]
        split_ifs with h
        · simp only []
          rw [h2, ← h]
        · simp only []
          rw [h3 (by omega)]

/-! ## Accuracy -/

/-- the Casorati determinant of the solution and the Bessel functions -/
theorem miller_casorati {x : ℝ} (hx : 0 < x) {N k : ℕ} (hk : k ≤ N) :
    |(millerU (2 / x) N k).2 * besselI (N - k + 1) x - (millerU (2 / x) N k).1 * besselI (N - k) x| = besselI (N + 1) x := by
  induction k with
  | zero => simp [millerU, abs_of_pos (besselI_pos (N + 1) hx)]
  | succ k ih =>
    have ih := ih (by omega)
    have e : N - k = N - (k + 1) + 1 := by omega
    rw [← ih, millerU]
    have hr := besselI_rec (N - (k + 1)) hx
    have c : ((N - k : ℕ) : ℝ) = ((N - (k + 1) : ℕ) : ℝ) + 1 := by rw [e]; push_cast; ring
    rw [e] at c ⊢
    rw [c]
    simp only []
    generalize ((N - (k + 1) : ℕ) : ℝ) = jj at *
    rw [show N - (k + 1) + 1 + 1 = N - (k + 1) + 2 by ring, hr, ← abs_neg]
    congr 1
    ring

theorem miller_rel {x : ℝ} (hx : 0 < x) {N n : ℕ} (hn : n ≤ N) (hN : 1 ≤ N) (hxN : x ≤ 2 * N) :
    |(millerU (2 / x) N (N - n)).2 / (millerU (2 / x) N N).2 * besselI 0 x - besselI n x| ≤
      2 * n * (besselI N x / besselI n x) ^ 2 * besselI n x := by
  have hI := fun j => besselI_pos j hx
  have ht : 0 < 2 / x := by positivity
  set u : ℕ → ℝ := fun j => (millerU (2 / x) N (N - j)).2 with hu
  have hup : ∀ j, 0 < u j := fun j => (millerU_nonneg ht N (Nat.sub_le N j)).2
  -- neighbouring quotients
  have hq : ∀ j, j < N → |u j / besselI j x - u (j + 1) / besselI (j + 1) x| = besselI (N + 1) x / (besselI j x * besselI (j + 1) x) := by
    intro j hj
    have h := miller_casorati hx (Nat.sub_le N j)
    have e : N - (N - j) = j := by omega
    have e1 : (millerU (2 / x) N (N - j)).1 = u (j + 1) := by
      simp only [hu]
      rw [show N - j = N - (j + 1) + 1 by omega]; rfl
    rw [e, e1] at h
    have h0 := hI j
    have h1 := hI (j + 1)
    rw [← h, div_sub_div _ _ h0.ne' h1.ne', abs_div, abs_of_pos (mul_pos h0 h1)]
    congr 2
    simp only [hu]; ring
  -- the difference of the quotients at `n` and at 0
  have hdiff : ∀ j, j ≤ n → |u 0 / besselI 0 x - u j / besselI j x| ≤ j * (besselI (N + 1) x / besselI n x ^ 2) := by
    intro j
    induction j with
    | zero => intro _; simp
    | succ j ih =>
      intro hj
      have := ih (by omega)
      have h1 := hq j (by omega)
      have a1 := besselI_anti (show j ≤ n by omega) hx
      have a2 := besselI_anti (show j + 1 ≤ n by omega) hx
      have hle : besselI (N + 1) x / (besselI j x * besselI (j + 1) x) ≤ besselI (N + 1) x / besselI n x ^ 2 := by
        have b1 := hI n
        have b2 := hI (N + 1)
        have b3 := hI j
        rw [pow_two]
        gcongr
      have tri := abs_sub_le (u 0 / besselI 0 x) (u j / besselI j x) (u (j + 1) / besselI (j + 1) x)
      push_cast
      linarith
  -- a lower bound of the quotient at 0
  have hlow : ∀ k, 1 ≤ k → k ≤ N → 1 / (2 * besselI N x) ≤ u (N - k) / besselI (N - k) x ∧ 1 / (2 * besselI N x) ≤ u (N - k + 1) / besselI (N - k + 1) x := by
    intro k hk hkN
    have hIN := hI N
    induction k, hk using Nat.le_induction with
    | base =>
      have eN : N - 1 + 1 = N := by omega
      rw [eN]
      have uN : u N = 1 := by simp [hu, millerU]
      have hr := besselI_rec (N - 1) hx
      have c : ((N - 1 : ℕ) : ℝ) + 1 = N := by exact_mod_cast eN
      rw [eN, show N - 1 + 2 = N + 1 by omega, c] at hr
      have uN1 : u (N - 1) = N * (2 / x) := by
        simp only [hu]
        rw [show N - (N - 1) = 0 + 1 by omega, millerU]
        simp [millerU]
      have hw : 1 ≤ N * (2 / x) := by
        rw [mul_div_assoc', le_div_iff₀ hx]; linarith
      have hdec := besselI_succ_le N hx
      refine ⟨?_, ?_⟩
      · rw [uN1, hr, div_le_div_iff₀ (by positivity) (by have := hI (N + 1); positivity)]
        generalize (N : ℝ) * (2 / x) = w at *
        nlinarith
      · rw [uN]
        apply one_div_le_one_div_of_le hIN
        linarith
    | succ k hk ih =>
      obtain ⟨i1, i2⟩ := ih (by omega)
      have e : N - (k + 1) + 1 = N - k := by omega
      rw [e]
      refine ⟨?_, i1⟩
      have hr := besselI_rec (N - (k + 1)) hx
      have eu : u (N - (k + 1)) = u (N - k + 1) + ((N - k : ℕ) : ℝ) * (2 / x) * u (N - k) := by
        simp only [hu]
        rw [show N - (N - (k + 1)) = k + 1 by omega, millerU, show N - (N - k) = k by omega]
        congr 1
        rw [show k = N - (N - k + 1) + 1 by omega]
        rw [millerU]
        rw [show N - (N - (N - (N - k + 1) + 1) + 1) = N - (N - k + 1) by omega]
      have c : ((N - (k + 1) : ℕ) : ℝ) + 1 = ((N - k : ℕ) : ℝ) := by exact_mod_cast e
      rw [show N - (k + 1) + 2 = N - k + 1 by omega, e, c] at hr
      have p1 := hI (N - k)
      have p2 := hI (N - k + 1)
      rw [le_div_iff₀ p1] at i1
      rw [le_div_iff₀ p2] at i2
      rw [eu, hr, le_div_iff₀ (by positivity), mul_add]
      have h3 : (0 : ℝ) ≤ ((N - k : ℕ) : ℝ) * (2 / x) := by positivity
      nlinarith [mul_le_mul_of_nonneg_left i1 h3]
  have h0 := (hlow N hN le_rfl).1
  rw [Nat.sub_self] at h0
  have hd := hdiff n le_rfl
  have hIn := hI n
  have hIN := hI N
  have hI0 := hI 0
  have hu0 := hup 0
  have eU : (millerU (2 / x) N N).2 = u 0 := by simp [hu]
  rw [eU]
  change |u n / u 0 * besselI 0 x - besselI n x| ≤ _
  have e3 : u n / u 0 * besselI 0 x - besselI n x = -(besselI n x * (u 0 / besselI 0 x - u n / besselI n x)) / (u 0 / besselI 0 x) := by
    field_simp
    ring
  rw [e3, abs_div, abs_neg, abs_mul, abs_of_pos hIn, abs_of_pos (show 0 < u 0 / besselI 0 x by positivity), div_le_iff₀ (by positivity)]
  have hdec := besselI_succ_le N hx
  calc besselI n x * |u 0 / besselI 0 x - u n / besselI n x| ≤ besselI n x * (n * (besselI (N + 1) x / besselI n x ^ 2)) := by gcongr
    _ ≤ besselI n x * (n * (besselI N x / besselI n x ^ 2)) := by gcongr
    _ = 2 * n * (besselI N x / besselI n x) ^ 2 * besselI n x * (1 / (2 * besselI N x)) := by field_simp
    _ ≤ _ := by gcongr

theorem besselI_neg (n : ℕ) (x : ℝ) : besselI n (-x) = (-1) ^ n * besselI n x := bes_neg 1 n x

/-- C109: `bessel_in` returns `Iₙ(x)`, the sum of the power series `∑ (x/2)^(2m+n)/(m! (m+n)!)`, multiplied by the error factor of `bessel_i0`, to a
relative accuracy of `2⁻⁸¹`. This covers all orders and arguments with `|x| ≤ 1400` or `|x| ≤ n + 1`; for the others the function exceeds
`f64::MAX` (`C109_in_overflow`) -/
theorem C109_in_accurate (i0 i1 : ℝ → ℝ) (n : ℕ) (hn : 2 ≤ n) (x : ℝ) (hsmall : 8 * f64MinPos < x * x) (hx : |x| ≤ 1400 ∨ |x| ≤ n + 1) :
    |besselIn i0 i1 n x - i0 x / (∑' m : ℕ, (x / 2) ^ (2 * m + 0) / ((m ! : ℝ) * ((m + 0)! : ℝ))) * ∑' m : ℕ, (x / 2) ^ (2 * m + n) / ((m ! : ℝ) * ((m + n)! : ℝ))| ≤
      1 / 2 ^ 81 * |i0 x / (∑' m : ℕ, (x / 2) ^ (2 * m + 0) / ((m ! : ℝ) * ((m + 0)! : ℝ))) * ∑' m : ℕ, (x / 2) ^ (2 * m + n) / ((m ! : ℝ) * ((m + n)! : ℝ))| := by
  have eI : ∀ k, (∑' m : ℕ, (x / 2) ^ (2 * m + k) / ((m ! : ℝ) * ((m + k)! : ℝ))) = besselI k x := by
    intro k; unfold besselI bes besTerm; simp
  rw [eI, eI]
  have hmin := f64MinPos_pos
  have hx0 : x ≠ 0 := by rintro rfl; simp at hsmall; linarith
  have ha : 0 < |x| := abs_pos.2 hx0
  have ht : 0 < 2 / |x| := by positivity
  -- orders
  obtain ⟨m, hm⟩ : ∃ m, m = millerM n x := ⟨_, rfl⟩
  have hnm : n ≤ m := by rw [hm]; exact le_max_left _ _
  have hxm : |x| ≤ m + 1 := by
    rcases hx with hx | hx
    · have h1 : ⌊min |x| 1400⌋₊ ≤ m := by rw [hm]; exact le_max_right _ _
      rw [min_eq_left hx] at h1
      have h2 := Nat.lt_floor_add_one |x|
      have h3 : ((⌊|x|⌋₊ : ℕ) : ℝ) ≤ m := by exact_mod_cast h1
      linarith
    · have h3 : (n : ℝ) ≤ m := by exact_mod_cast hnm
      linarith
  have hfl : 20 ≤ ⌊√(200 * (m : ℝ))⌋₊ := by
    apply Nat.le_floor
    apply Real.le_sqrt_of_sq_le
    have : (2 : ℝ) ≤ m := by exact_mod_cast hn.trans hnm
    push_cast
    linarith
  obtain ⟨N, hN⟩ : ∃ N, N = millerN m := ⟨_, rfl⟩
  have hNm : m + n + 40 ≤ N := by rw [hN]; unfold millerN; omega
  obtain ⟨c, hc, hb, hans⟩ := millerLoop_spec (tox := 2 / |x|) (n := n) (N := N) (by omega) N le_rfl ⟨0, 1, 0⟩ 1 one_pos (by simp [millerU]) (by simp [millerU]) (by omega)
  have hmn : (m : ℝ) + n + 40 ≤ N := by exact_mod_cast hNm
  have hn0 : (0 : ℝ) ≤ n := by positivity
  have hm0 : (0 : ℝ) ≤ m := by positivity
  have hrel := miller_rel ha (N := N) (n := n) (by omega) (by omega) (by linarith)
  -- decay
  have hIn := besselI_pos n ha
  have hI0 := besselI_pos 0 ha
  have hIN := besselI_pos N ha
  have hdec : besselI N |x| ≤ (1 / 2) ^ (n + 40) * besselI n |x| := by
    have h1 := besselI_decay ha hxm (N - m)
    rw [show m + (N - m) = N by omega] at h1
    calc besselI N |x| ≤ (1 / 2) ^ (N - m) * besselI m |x| := h1
      _ ≤ (1 / 2) ^ (n + 40) * besselI n |x| := by
          have := besselI_pos m ha
          have hp : (1 / 2 : ℝ) ^ (N - m) ≤ (1 / 2) ^ (n + 40) := pow_le_pow_of_le_one (by norm_num) (by norm_num) (by omega)
          have := besselI_anti hnm ha
          gcongr
  have hfac : 2 * n * (besselI N |x| / besselI n |x|) ^ 2 ≤ 1 / 2 ^ 81 := by
    have h1 : besselI N |x| / besselI n |x| ≤ (1 / 2) ^ (n + 40) := (div_le_iff₀ hIn).2 hdec
    have h2 : (n : ℝ) ≤ 2 ^ n := by exact_mod_cast Nat.lt_two_pow_self.le
    have h4 : (1 / 2 : ℝ) ^ n ≤ 1 / 4 := by
      calc (1 / 2 : ℝ) ^ n ≤ (1 / 2) ^ 2 := pow_le_pow_of_le_one (by norm_num) (by norm_num) hn
        _ = 1 / 4 := by norm_num
    calc 2 * n * (besselI N |x| / besselI n |x|) ^ 2 ≤ 2 * 2 ^ n * ((1 / 2) ^ (n + 40)) ^ 2 := by gcongr
      _ = 2 * (2 ^ n * (1 / 2) ^ n) * (1 / 2) ^ n * (1 / 2) ^ 80 := by ring
      _ = 2 * (1 / 2) ^ n * (1 / 2) ^ 80 := by rw [← mul_pow]; norm_num
      _ ≤ 2 * (1 / 4) * (1 / 2) ^ 80 := by gcongr
      _ = 1 / 2 ^ 81 := by norm_num
  -- the absolute value
  have hab : besselI n x = (if x < 0 ∧ n % 2 ≠ 0 then -1 else 1) * besselI n |x| := by
    split_ifs with h
    · rw [abs_of_neg h.1, besselI_neg, ← mul_assoc, Odd.neg_one_pow (Nat.odd_iff.2 (by omega))]; norm_num
    · rcases le_or_gt 0 x with h' | h'
      · rw [abs_of_nonneg h', one_mul]
      · have : n % 2 = 0 := by by_contra hne; exact h ⟨h', hne⟩
        rw [abs_of_neg h', besselI_neg, Even.neg_one_pow (Nat.even_iff.2 this)]; norm_num
  have hab0 : besselI 0 x = besselI 0 |x| := by
    rcases le_or_gt 0 x with h' | h'
    · rw [abs_of_nonneg h']
    · rw [abs_of_neg h', besselI_neg]; norm_num
  have hval : besselIn i0 i1 n x = (if x < 0 ∧ n % 2 ≠ 0 then -1 else 1) * (i0 x / besselI 0 x * ((millerU (2 / |x|) N (N - n)).2 / (millerU (2 / |x|) N N).2 * besselI 0 |x|)) := by
    unfold besselIn
    rw [if_neg (by omega), if_neg (by omega), if_neg (by linarith)]
    simp only []
    rw [← hm, ← hN, hb, hans, hab0]
    have hU := (millerU_nonneg ht N (le_refl N)).2
    have : c * (millerU (2 / |x|) N (N - n)).2 * (i0 x / (c * (millerU (2 / |x|) N N).2)) = i0 x / besselI 0 |x| * ((millerU (2 / |x|) N (N - n)).2 / (millerU (2 / |x|) N N).2 * besselI 0 |x|) := by
      field_simp
    rw [this]
    split_ifs <;> ring
  rw [hval, hab]
  have hs : |(if x < 0 ∧ n % 2 ≠ 0 then (-1 : ℝ) else 1)| = 1 := by split_ifs <;> simp
  generalize (if x < 0 ∧ n % 2 ≠ 0 then (-1 : ℝ) else 1) = sg at *
  generalize i0 x / besselI 0 x = r at *
  rw [show sg * (r * ((millerU (2 / |x|) N (N - n)).2 / (millerU (2 / |x|) N N).2 * besselI 0 |x|)) - r * (sg * besselI n |x|) =
    sg * r * ((millerU (2 / |x|) N (N - n)).2 / (millerU (2 / |x|) N N).2 * besselI 0 |x| - besselI n |x|) by ring, abs_mul, abs_mul, hs, abs_mul, abs_mul, hs,
    abs_of_pos hIn]
  calc 1 * |r| * _ ≤ 1 * |r| * (2 * n * (besselI N |x| / besselI n |x|) ^ 2 * besselI n |x|) := by gcongr
    _ ≤ 1 * |r| * (1 / 2 ^ 81 * besselI n |x|) := by gcongr
    _ = _ := by ring

/-- the hypotheses hold for `I₂(-1400)` and for `I₂₀₀₀(2000)` -/
example : 8 * f64MinPos < (-1400 : ℝ) * (-1400) ∧ (|(-1400 : ℝ)| ≤ 1400) ∧ (8 * f64MinPos < (2000 : ℝ) * 2000) ∧ |(2000 : ℝ)| ≤ ((2000 : ℕ) : ℝ) + 1 := by
  have h : f64MinPos ≤ 1 := by
    have := f64MinPos_pos
    unfold f64MinPos
    rw [div_le_one (by positivity)]
    exact one_le_pow₀ (by norm_num)
  refine ⟨?_, ?_, ?_, ?_⟩
  · linarith
  · rw [abs_neg, abs_of_pos] <;> norm_num
  · linarith
  · rw [abs_of_pos] <;> norm_num

/-- C109: where `bessel_in` returns 0 for orders above 1, the function is smaller than twice the smallest normal number -/
theorem C109_in_tiny (i0 i1 : ℝ → ℝ) (n : ℕ) (hn : 2 ≤ n) (x : ℝ) (hsmall : x * x ≤ 8 * f64MinPos) :
    besselIn i0 i1 n x = 0 ∧ |∑' m : ℕ, (x / 2) ^ (2 * m + n) / ((m ! : ℝ) * ((m + n)! : ℝ))| ≤ 2 * f64MinPos := by
  constructor
  · unfold besselIn
    rw [if_neg (by omega), if_neg (by omega), if_pos hsmall]
  · have eI : (∑' m : ℕ, (x / 2) ^ (2 * m + n) / ((m ! : ℝ) * ((m + n)! : ℝ))) = bes 1 n x := by
      unfold bes besTerm; simp
    have hmin := f64MinPos_pos
    have hmin2 : f64MinPos ≤ 1 / 8 := by
      unfold f64MinPos
      apply one_div_le_one_div_of_le (by norm_num)
      calc (8 : ℝ) = 2 ^ 3 := by norm_num
        _ ≤ 2 ^ 1022 := pow_le_pow_right₀ (by norm_num) (by norm_num)
    have h2 : (x / 2) ^ 2 ≤ 2 * f64MinPos := by nlinarith
    have hl := bes_lead (σ := 1) (by simp) n (x := x) (by linarith)
    have hn2 : (2 : ℝ) ≤ n := by exact_mod_cast hn
    have hf : (2 : ℝ) ≤ (n ! : ℝ) := by
      have : 2 ! ≤ n ! := Nat.factorial_le hn
      exact_mod_cast this
    have hp : |x / 2| ^ n ≤ (x / 2) ^ 2 := by
      rw [← sq_abs]
      have h1 : |x / 2| ≤ 1 := by
        rw [← sq_le_one_iff₀ (abs_nonneg _), sq_abs]; linarith
      exact pow_le_pow_of_le_one (abs_nonneg _) h1 hn
    have hlead : |x / 2| ^ n / (n ! : ℝ) ≤ f64MinPos := by
      rw [div_le_iff₀ (by positivity)]
      nlinarith
    have hlead0 : 0 ≤ |x / 2| ^ n / (n ! : ℝ) := by positivity
    rw [eI]
    have h3 : 2 * (x / 2) ^ 2 / (n + 1) ≤ 1 := by
      rw [div_le_one (by positivity)]; linarith
    have h4 : |(x / 2) ^ n / (n ! : ℝ)| = |x / 2| ^ n / (n ! : ℝ) := by
      rw [abs_div, abs_pow, abs_of_pos (show (0 : ℝ) < (n ! : ℝ) by positivity)]
    have h5 := abs_sub_abs_le_abs_sub (bes 1 n x) ((x / 2) ^ n / (n ! : ℝ))
    nlinarith

/-- C109: `bessel_in` has the parity of its order if `bessel_i0` is even and `bessel_i1` is odd -/
theorem C109_in_parity (i0 i1 : ℝ → ℝ) (h0 : ∀ x, i0 (-x) = i0 x) (h1 : ∀ x, i1 (-x) = -i1 x) (n : ℕ) (x : ℝ) :
    besselIn i0 i1 n (-x) = (-1) ^ n * besselIn i0 i1 n x := by
  unfold besselIn
  by_cases c0 : n = 0
  · simp [c0, h0]
  by_cases c1 : n = 1
  · simp [c1, h1]
  rw [if_neg c0, if_neg c0, if_neg c1, if_neg c1]
  have e : -x * -x = x * x := by ring
  rw [e]
  by_cases c2 : x * x ≤ 8 * f64MinPos
  · simp [c2]
  have hx0 : x ≠ 0 := by
    rintro rfl
    apply c2
    have := f64MinPos_pos
    simp; linarith
  rw [if_neg c2, if_neg c2]
  have em : millerM n (-x) = millerM n x := by unfold millerM; rw [abs_neg]
  simp only []
  rw [abs_neg, em, h0]
  rcases Nat.mod_two_eq_zero_or_one n with hp | hp
  · rw [Even.neg_one_pow (Nat.even_iff.2 hp)]
    simp [hp]
  · rw [Odd.neg_one_pow (Nat.odd_iff.2 hp)]
    rcases lt_or_gt_of_ne hx0 with h | h
    · simp [hp, h, not_lt.2 h.le]
    · simp [hp, h, not_lt.2 h.le]

/-! ## The bound `X_ALL_OVERFLOW` -/

theorem besselI_ge_term (n m : ℕ) {x : ℝ} (hx : 0 < x) : (x / 2) ^ (2 * m + n) / ((m ! : ℝ) * ((m + n)! : ℝ)) ≤ besselI n x := by
  unfold besselI bes
  have h := (besTerm_summable 1 n (x / 2)).le_tsum m (fun k _ => by unfold besTerm; positivity)
  refine le_trans (le_of_eq ?_) h
  unfold besTerm; simp

/-- a term of the series of `Iₙ(n)` increases with `n` -/
theorem diag_term_mono (m : ℕ) {a b : ℕ} (ha : 1 ≤ a) (hab : a ≤ b) :
    ((a : ℝ) / 2) ^ (2 * m + a) / ((m ! : ℝ) * ((m + a)! : ℝ)) ≤ ((b : ℝ) / 2) ^ (2 * m + b) / ((m ! : ℝ) * ((m + b)! : ℝ)) := by
  induction b, hab using Nat.le_induction with
  | base => exact le_rfl
  | succ n hn ih =>
    refine ih.trans ?_
    have hn0 : (0 : ℝ) < n := by exact_mod_cast (show 0 < n by omega)
    rw [show m + (n + 1) = (m + n) + 1 by ring, Nat.factorial_succ, show 2 * m + (n + 1) = 2 * m + n + 1 by ring]
    have hm : (0 : ℝ) < (m ! : ℝ) := by positivity
    have hmn : (0 : ℝ) < ((m + n)! : ℝ) := by positivity
    have hm0 : (0 : ℝ) ≤ m := by positivity
    push_cast
    rw [div_le_div_iff₀ (by positivity) (by positivity)]
    have hi : (0 : ℝ) ≤ 1 / n := by positivity
    have hb : 1 + ((2 * m + n : ℕ) : ℝ) * (1 / n) ≤ (1 + 1 / (n : ℝ)) ^ (2 * m + n) := one_add_mul_le_pow (by linarith) _
    have e : (((n : ℝ) + 1) / 2) ^ (2 * m + n) = ((n : ℝ) / 2) ^ (2 * m + n) * (1 + 1 / (n : ℝ)) ^ (2 * m + n) := by
      rw [← mul_pow]; congr 1; field_simp
    have hkey : (m : ℝ) + n + 1 ≤ (1 + 1 / (n : ℝ)) ^ (2 * m + n) * ((n + 1) / 2) := by
      refine le_trans ?_ (mul_le_mul_of_nonneg_right hb (by positivity))
      push_cast
      have e2 : (1 + (2 * (m : ℝ) + n) * (1 / n)) * ((n + 1) / 2) - (m + n + 1) = m / n := by field_simp; ring
      have : 0 ≤ (m : ℝ) / n := by positivity
      linarith
    rw [pow_succ, e]
    have hP : (0 : ℝ) < ((n : ℝ) / 2) ^ (2 * m + n) := by positivity
    generalize ((n : ℝ) / 2) ^ (2 * m + n) = P at *
    generalize (1 + 1 / (n : ℝ)) ^ (2 * m + n) = Q at *
    calc P * ((m ! : ℝ) * ((m + n + 1) * ((m + n)! : ℝ))) = P * ((m ! : ℝ) * ((m + n)! : ℝ)) * (m + n + 1) := by ring
      _ ≤ P * ((m ! : ℝ) * ((m + n)! : ℝ)) * (Q * ((n + 1) / 2)) := by gcongr
      _ = _ := by ring

theorem diag_term_1400 : 2 ^ 1024 * (290 ! * (290 + 1400)!) ≤ 700 ^ (2 * 290 + 1400) := by decide +kernel

theorem pow_cast_le {a b c k e : ℕ} (h : 2 ^ e * (a * b) ≤ c ^ k) : (2 : ℝ) ^ e * ((a : ℝ) * (b : ℝ)) ≤ (c : ℝ) ^ k := by exact_mod_cast h

/-- C109: the bound 1400 is right: for `|x| > 1400` and every order up to `|x|` the modified Bessel function exceeds `f64::MAX` -/
theorem C109_in_overflow (n : ℕ) (x : ℝ) (hx : 1400 < |x|) (hn : n ≤ |x|) :
    f64Max < |∑' m : ℕ, (x / 2) ^ (2 * m + n) / ((m ! : ℝ) * ((m + n)! : ℝ))| := by
  have eI : (∑' m : ℕ, (x / 2) ^ (2 * m + n) / ((m ! : ℝ) * ((m + n)! : ℝ))) = besselI n x := by
    unfold besselI bes besTerm; simp
  rw [eI]
  have ha : 0 < |x| := by linarith
  have hab : |besselI n x| = besselI n |x| := by
    rcases le_or_gt 0 x with h' | h'
    · rw [abs_of_nonneg h', abs_of_pos (besselI_pos n (by rwa [abs_of_nonneg h'] at ha))]
    · have e : x = -|x| := by rw [abs_of_neg h']; ring
      conv_lhs => rw [e, besselI_neg, abs_mul, abs_pow, abs_neg, abs_one, one_pow, one_mul, abs_of_pos (besselI_pos n ha)]
  rw [hab]
  obtain ⟨b, hb⟩ : ∃ b, b = ⌊|x|⌋₊ := ⟨_, rfl⟩
  have hb1 : 1400 ≤ b := by rw [hb]; exact Nat.le_floor (by push_cast; linarith)
  have hb2 : (b : ℝ) ≤ |x| := by rw [hb]; exact Nat.floor_le ha.le
  have hb3 : n ≤ b := by rw [hb]; exact Nat.le_floor hn
  have h1 := besselI_anti hb3 ha
  have h2 := besselI_ge_term b 290 ha
  have h3 : ((b : ℝ) / 2) ^ (2 * 290 + b) / ((290 ! : ℝ) * ((290 + b)! : ℝ)) ≤ (|x| / 2) ^ (2 * 290 + b) / ((290 ! : ℝ) * ((290 + b)! : ℝ)) := by gcongr
  have h4 := diag_term_mono 290 (show 1 ≤ 1400 by norm_num) hb1
  have h5 : (2 : ℝ) ^ 1024 ≤ (((1400 : ℕ) : ℝ) / 2) ^ (2 * 290 + 1400) / ((290 ! : ℝ) * ((290 + 1400)! : ℝ)) := by
    rw [le_div_iff₀ (by positivity), show (((1400 : ℕ) : ℝ) / 2) = ((700 : ℕ) : ℝ) by norm_num]
    exact pow_cast_le diag_term_1400
  have h6 : f64Max < 2 ^ 1024 := by
    unfold f64Max
    have e : (2 : ℝ) ^ 1024 = 2 * 2 ^ 1023 := by rw [← pow_succ']
    have hp : (0 : ℝ) < 2 ^ 1023 := by positivity
    rw [e]
    have : (2 : ℝ) - 1 / 2 ^ 52 < 2 := by norm_num
    exact mul_lt_mul_of_pos_right this hp
  exact lt_of_lt_of_le h6 (h5.trans (h4.trans (h3.trans (h2.trans h1))))

example : (1400 : ℝ) < |(-1500)| ∧ ((3 : ℕ) : ℝ) ≤ |(-1500 : ℝ)| := by rw [abs_neg, abs_of_pos] <;> norm_num

end Russell.Lab
