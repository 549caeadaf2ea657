import Verif.Prelude
import Mathlib.Data.Nat.Log
import Mathlib.Tactic.Ring
import Mathlib.Tactic.Linarith
import Mathlib.Tactic.NormNum
import Mathlib.Algebra.Order.Ring.Abs

/-!
# IEEE 754 double precision, bit by bit (property C103)

A number of type `f64` is its bit pattern, a natural number below `2^64`. Finite numbers are integer multiples of `2^-1074`; `mag` is the
absolute value and `val` the value in this unit. The operations round the exact result to nearest, ties to even.
-/

namespace Russell.Ieee

open Russell Russell.Res

/-- sign bit -/
def sgn (x : Nat) : Nat := x / 2 ^ 63

/-- bits without the sign -/
def ub (x : Nat) : Nat := x % 2 ^ 63

/-- biased exponent -/
def expo (x : Nat) : Nat := x / 2 ^ 52 % 2 ^ 11

/-- stored part of the significand -/
def mant (x : Nat) : Nat := x % 2 ^ 52

/-- bits of infinity -/
def infBits : Nat := 2047 * 2 ^ 52

def isNan (x : Nat) : Prop := infBits < ub x
def isInf (x : Nat) : Prop := ub x = infBits
def isFin (x : Nat) : Prop := ub x < infBits

instance (x : Nat) : Decidable (isNan x) := inferInstanceAs (Decidable (_ < _))
instance (x : Nat) : Decidable (isInf x) := inferInstanceAs (Decidable (_ = _))
instance (x : Nat) : Decidable (isFin x) := inferInstanceAs (Decidable (_ < _))

/-- absolute value of the finite number with these bits, in units of `2^-1074` -/
def mag (b : Nat) : Nat := if b < 2 ^ 52 then b else (2 ^ 52 + b % 2 ^ 52) * 2 ^ (b / 2 ^ 52 - 1)

/-- value in units of `2^-1074` -/
def val (x : Nat) : Int := if sgn x = 0 then (mag (ub x) : Int) else -(mag (ub x) : Int)

/-- the number one, in units of `2^-1074` -/
@[irreducible] def uone : Nat := 2 ^ 1074

/-- `2^1024`, the first power of two above all finite numbers, in units of `2^-1074` -/
@[irreducible] def umax : Nat := 2 ^ 2098

/-- exponents are kept as variables so that the powers are not evaluated -/
theorem uone_pow {e : Nat} (h : e = 1074) : uone = 2 ^ e := by subst h; unfold uone; rfl

theorem umax_pow {e : Nat} (h : e = 2098) : umax = 2 ^ e := by subst h; unfold umax; rfl

theorem uone_eq (a b : Nat) (h : a + b = 1074) : 2 ^ a * 2 ^ b = uone := by rw [← Nat.pow_add, uone_pow h]

theorem uone_pos : 0 < uone := by
  rw [uone_pow rfl]; exact Nat.two_pow_pos _

theorem umax_le (a : Nat) (h : a ≤ 2098) : 2 ^ a ≤ umax := by
  obtain ⟨e, he⟩ : ∃ e, e = 2098 := ⟨_, rfl⟩
  rw [umax_pow he]; exact Nat.pow_le_pow_right (by norm_num) (by omega)

theorem le_umax {a : Nat} (h : 2098 ≤ a) : umax ≤ 2 ^ a := by
  obtain ⟨e, he⟩ : ∃ e, e = 2098 := ⟨_, rfl⟩
  rw [umax_pow he]; exact Nat.pow_le_pow_right (by norm_num) (by omega)

theorem uone_le_umax : uone ≤ umax := by
  obtain ⟨e, he⟩ : ∃ e, e = 1074 := ⟨_, rfl⟩
  rw [uone_pow he]; exact umax_le _ (by omega)

theorem lt_umax {a : Nat} (h : 2 ^ a < umax) : a < 2098 := by
  by_contra hc
  exact absurd (le_umax (Nat.le_of_not_lt hc)) (Nat.not_le.2 h)

/-- `n / 2^k` to the nearest integer, ties to even -/
def rhe (n k : Nat) : Nat :=
  if 2 * (n % 2 ^ k) < 2 ^ k then n / 2 ^ k
  else if 2 ^ k < 2 * (n % 2 ^ k) then n / 2 ^ k + 1
  else n / 2 ^ k + n / 2 ^ k % 2

/-- bits (without sign) of the number nearest to `n / 2^k` units; infinity if it is too large -/
def rmag (n k : Nat) : Nat :=
  let s := Nat.log 2 (n / 2 ^ k) - 52
  min (s * 2 ^ 52 + rhe n (k + s)) infBits

/-- subtraction of finite numbers -/
def fsub (x y : Nat) : Nat :=
  let d := val x - val y
  if d = 0 then (if sgn x = 1 ∧ sgn y = 0 ∧ val x = 0 then 2 ^ 63 else 0)
  else (if d < 0 then 2 ^ 63 else 0) + rmag d.natAbs 0

/-- product of finite numbers -/
def fmul (x y : Nat) : Nat := (if sgn x = sgn y then 0 else 2 ^ 63) + rmag (mag (ub x) * mag (ub y)) 1074

/-- comparison: the order of the bits without the sign is the order of the absolute values -/
def key (x : Nat) : Int := if sgn x = 0 then (ub x : Int) else -(ub x : Int)

def flt (x y : Nat) : Prop := ¬ isNan x ∧ ¬ isNan y ∧ key x < key y
def fge (x y : Nat) : Prop := ¬ isNan x ∧ ¬ isNan y ∧ key y ≤ key x

instance (x y : Nat) : Decidable (flt x y) := inferInstanceAs (Decidable (_ ∧ _ ∧ _))
instance (x y : Nat) : Decidable (fge x y) := inferInstanceAs (Decidable (_ ∧ _ ∧ _))

/-- `x == 0.0` -/
def isZero (x : Nat) : Prop := ub x = 0
instance (x : Nat) : Decidable (isZero x) := inferInstanceAs (Decidable (_ = _))

/-- change of sign -/
def fneg (x : Nat) : Nat := if sgn x = 0 then x + 2 ^ 63 else x - 2 ^ 63

/-! ## Rounding -/

theorem mag_lt {b : Nat} (h : b < 2 ^ 52) : mag b = b := by rw [mag, if_pos h]

theorem mag_enc {s m : Nat} (h1 : 2 ^ 52 ≤ m) (h2 : m < 2 ^ 53) : mag (s * 2 ^ 52 + m) = m * 2 ^ s := by
  have e1 : (s * 2 ^ 52 + m) / 2 ^ 52 = s + 1 := by omega
  have e2 : (s * 2 ^ 52 + m) % 2 ^ 52 = m - 2 ^ 52 := by omega
  rw [mag, if_neg (by omega), e1, e2, Nat.add_sub_cancel, Nat.add_sub_cancel' h1]

/-- every pattern is an encoding -/
theorem dec (b : Nat) : b < 2 ^ 52 ∨ ∃ s m, b = s * 2 ^ 52 + m ∧ 2 ^ 52 ≤ m ∧ m < 2 ^ 53 ∧ mag b = m * 2 ^ s := by
  by_cases h : b < 2 ^ 52
  · exact Or.inl h
  · refine Or.inr ⟨b / 2 ^ 52 - 1, b % 2 ^ 52 + 2 ^ 52, by omega, by omega, by omega, ?_⟩
    rw [mag, if_neg h, add_comm]

/-- a finite number is `m 2^s` with `m < 2^53` -/
theorem mag_form (b : Nat) (h : b < infBits) : ∃ m s, mag b = m * 2 ^ s ∧ m < 2 ^ 53 ∧ s ≤ 2045 := by
  unfold infBits at h
  rcases dec b with h1 | ⟨s, m, e, h1, h2, h3⟩
  · exact ⟨b, 0, by rw [mag_lt h1, pow_zero, mul_one], by omega, by omega⟩
  · exact ⟨m, s, h3, h2, by omega⟩

theorem mag_succ_lt {b : Nat} : mag b < mag (b + 1) := by
  rcases dec b with h1 | ⟨s, m, e, h1, h2, h3⟩
  · rw [mag_lt h1]
    by_cases h : b + 1 < 2 ^ 52
    · rw [mag_lt h]; omega
    · have : b + 1 = 0 * 2 ^ 52 + 2 ^ 52 := by omega
      rw [this, mag_enc (le_refl _) (by norm_num), pow_zero]; omega
  · rw [h3]
    have hp : 0 < 2 ^ s := Nat.two_pow_pos s
    by_cases h : m + 1 < 2 ^ 53
    · have : b + 1 = s * 2 ^ 52 + (m + 1) := by omega
      rw [this, mag_enc (by omega) h]
      exact Nat.mul_lt_mul_of_pos_right (by omega) hp
    · have : b + 1 = (s + 1) * 2 ^ 52 + 2 ^ 52 := by omega
      rw [this, mag_enc (le_refl _) (by norm_num), pow_succ]
      have : m + 1 = 2 ^ 53 := by omega
      calc m * 2 ^ s < (m + 1) * 2 ^ s := Nat.mul_lt_mul_of_pos_right (by omega) hp
        _ = 2 ^ 52 * (2 ^ s * 2) := by rw [this]; ring

theorem mag_strictMono : StrictMono mag := strictMono_nat_of_lt_succ fun _ => mag_succ_lt

theorem mag_eq_zero {b : Nat} : mag b = 0 ↔ b = 0 := by
  have h0 : mag 0 = 0 := by rw [mag_lt (by norm_num)]
  constructor
  · intro h
    exact mag_strictMono.injective (h.trans h0.symm)
  · rintro rfl; exact h0

theorem rhe_exact (n k : Nat) : rhe (n * 2 ^ k) k = n := by
  have hp : 0 < 2 ^ k := Nat.two_pow_pos k
  rw [rhe, Nat.mul_mod_left, if_pos (by omega), Nat.mul_div_cancel _ hp]

/-- numbers with at most 53 significant bits are not changed by rounding -/
theorem rmag_exact {N k m s : Nat} (hN : N = m * 2 ^ s) (hm : m < 2 ^ 53) (hmax : N < umax) :
    mag (rmag (N * 2 ^ k) k) = N ∧ rmag (N * 2 ^ k) k < infBits := by
  have hp : 0 < 2 ^ k := Nat.two_pow_pos k
  have e0 : N * 2 ^ k / 2 ^ k = N := Nat.mul_div_cancel _ hp
  unfold rmag
  rw [e0]
  dsimp only
  by_cases h53 : N < 2 ^ 53
  · have hs : Nat.log 2 N - 52 = 0 := by
      by_cases h0 : N = 0
      · subst h0; simp
      · have := Nat.log_lt_of_lt_pow h0 h53
        omega
    rw [hs, Nat.zero_mul, Nat.zero_add, Nat.add_zero, rhe_exact, min_eq_left (by unfold infBits; omega)]
    refine ⟨?_, by unfold infBits; omega⟩
    by_cases h52 : N < 2 ^ 52
    · exact mag_lt h52
    · have := mag_enc (s := 0) (m := N) (by omega) h53
      simpa using this
  · have hN0 : N ≠ 0 := by omega
    set L := Nat.log 2 N with hL
    have l1 : 2 ^ L ≤ N := Nat.pow_log_le_self 2 hN0
    have l2 : N < 2 ^ (L + 1) := Nat.lt_pow_succ_log_self (by norm_num) N
    have hL53 : 53 ≤ L := by
      by_contra h
      have : 2 ^ (L + 1) ≤ 2 ^ 53 := Nat.pow_le_pow_right (by norm_num) (by omega)
      omega
    have hLmax : L < 2098 := lt_umax (lt_of_le_of_lt l1 hmax)
    obtain ⟨c, hc⟩ : ∃ c, L = c + 52 := ⟨L - 52, by omega⟩
    have hsc : c ≤ s := by
      by_contra h
      have h1 : 2 ^ 53 * 2 ^ s ≤ 2 ^ L := by
        rw [← Nat.pow_add]; exact Nat.pow_le_pow_right (by norm_num) (by omega)
      have h2 : m * 2 ^ s < 2 ^ 53 * 2 ^ s := Nat.mul_lt_mul_of_pos_right hm (Nat.two_pow_pos s)
      omega
    obtain ⟨M, hM⟩ : ∃ M, N = M * 2 ^ c := ⟨m * 2 ^ (s - c), by
      rw [hN, Nat.mul_assoc, ← Nat.pow_add]; congr 2; omega⟩
    have hpc : 0 < 2 ^ c := Nat.two_pow_pos c
    have hM1 : 2 ^ 52 ≤ M := by
      have : 2 ^ 52 * 2 ^ c ≤ M * 2 ^ c := by rw [← Nat.pow_add, ← hM, Nat.add_comm, ← hc]; exact l1
      exact Nat.le_of_mul_le_mul_right this hpc
    have hM2 : M < 2 ^ 53 := by
      have : M * 2 ^ c < 2 ^ 53 * 2 ^ c := by
        rw [← Nat.pow_add, ← hM, show 53 + c = L + 1 by omega]; exact l2
      exact Nat.lt_of_mul_lt_mul_right this
    have e1 : L - 52 = c := by omega
    have e2 : rhe (N * 2 ^ k) (k + c) = M := by
      rw [hM, Nat.mul_assoc, ← Nat.pow_add, Nat.add_comm c k, rhe_exact]
    rw [e1, e2]
    have hlt : c * 2 ^ 52 + M < infBits := by
      unfold infBits
      have : c ≤ 2045 := by omega
      have : c * 2 ^ 52 ≤ 2045 * 2 ^ 52 := Nat.mul_le_mul_right _ this
      omega
    rw [min_eq_left hlt.le, mag_enc hM1 hM2, hM]
    exact ⟨rfl, hlt⟩

theorem mag_lt_max {b : Nat} (h : b < infBits) : mag b < umax := by
  obtain ⟨m, s, h1, h2, h3⟩ := mag_form b h
  rw [h1]
  calc m * 2 ^ s < 2 ^ 53 * 2 ^ s := Nat.mul_lt_mul_of_pos_right h2 (Nat.two_pow_pos s)
    _ = 2 ^ (53 + s) := (Nat.pow_add _ _ _).symm
    _ ≤ umax := umax_le _ (by omega)

/-- the number itself is recovered -/
theorem rmag_mag {b : Nat} (h : b < infBits) (k : Nat) : rmag (mag b * 2 ^ k) k = b := by
  obtain ⟨m, s, h1, h2, h3⟩ := mag_form b h
  exact mag_strictMono.injective (rmag_exact h1 h2 (mag_lt_max h)).1

/-- only the quotient matters -/
theorem rmag_scale (n k j : Nat) : rmag (n * 2 ^ j) (k + j) = rmag n k := by
  have hp : 0 < 2 ^ j := Nat.two_pow_pos j
  have hdiv : ∀ t, n * 2 ^ j / 2 ^ (t + j) = n / 2 ^ t := fun t => by
    rw [Nat.pow_add, Nat.mul_div_mul_right _ _ hp]
  have hr : ∀ t, rhe (n * 2 ^ j) (t + j) = rhe n t := fun t => by
    have hmod : n * 2 ^ j % 2 ^ (t + j) = n % 2 ^ t * 2 ^ j := by
      rw [Nat.pow_add, Nat.mul_mod_mul_right]
    have c1 : 2 * (n % 2 ^ t * 2 ^ j) < 2 ^ (t + j) ↔ 2 * (n % 2 ^ t) < 2 ^ t := by
      rw [Nat.pow_add, ← Nat.mul_assoc]; exact Nat.mul_lt_mul_right hp
    have c2 : 2 ^ (t + j) < 2 * (n % 2 ^ t * 2 ^ j) ↔ 2 ^ t < 2 * (n % 2 ^ t) := by
      rw [Nat.pow_add, ← Nat.mul_assoc]; exact Nat.mul_lt_mul_right hp
    unfold rhe
    rw [hmod, hdiv]
    simp only [c1, c2]
  unfold rmag
  rw [hdiv]
  dsimp only
  rw [show k + j + (Nat.log 2 (n / 2 ^ k) - 52) = k + (Nat.log 2 (n / 2 ^ k) - 52) + j by omega, hr]

/-- the value of a pattern whose significand may have reached `2^53` -/
theorem mag_spacing {s m : Nat} (h1 : s = 0 ∨ 2 ^ 52 ≤ m) (h2 : m ≤ 2 ^ 53) : mag (s * 2 ^ 52 + m) = m * 2 ^ s := by
  by_cases h : m < 2 ^ 52
  · have : s = 0 := by omega
    subst this
    rw [Nat.zero_mul, Nat.zero_add, mag_lt h, pow_zero, mul_one]
  · by_cases h3 : m < 2 ^ 53
    · exact mag_enc (by omega) h3
    · have : m = 2 ^ 53 := by omega
      subst this
      have e : s * 2 ^ 52 + 2 ^ 53 = (s + 1) * 2 ^ 52 + 2 ^ 52 := by omega
      rw [e, mag_enc (le_refl _) (by norm_num)]
      ring

/-- shift and significand chosen by the rounding -/
theorem rmag_floor (n k : Nat) : ∃ s m, s = Nat.log 2 (n / 2 ^ k) - 52 ∧ m = n / 2 ^ (k + s) ∧ (s = 0 ∨ 2 ^ 52 ≤ m) ∧ m < 2 ^ 53 := by
  refine ⟨_, _, rfl, rfl, ?_⟩
  generalize hq : n / 2 ^ k = q
  have hm : n / 2 ^ (k + (Nat.log 2 q - 52)) = q / 2 ^ (Nat.log 2 q - 52) := by
    rw [Nat.pow_add, ← Nat.div_div_eq_div_mul, hq]
  rw [hm]
  by_cases h0 : q = 0
  · subst h0; simp
  · have l1 : 2 ^ Nat.log 2 q ≤ q := Nat.pow_log_le_self 2 h0
    have l2 : q < 2 ^ (Nat.log 2 q + 1) := Nat.lt_pow_succ_log_self (by norm_num) q
    refine ⟨?_, ?_⟩
    · by_cases h : Nat.log 2 q < 52
      · left; omega
      · right
        rw [Nat.le_div_iff_mul_le (Nat.two_pow_pos _), ← Nat.pow_add, show 52 + (Nat.log 2 q - 52) = Nat.log 2 q by omega]
        exact l1
    · rw [Nat.div_lt_iff_lt_mul (Nat.two_pow_pos _), ← Nat.pow_add]
      exact lt_of_lt_of_le l2 (Nat.pow_le_pow_right (by norm_num) (by omega))

/-- distance -/
theorem rhe_cases (n k : Nat) :
    (rhe n k = n / 2 ^ k ∧ 2 * (n % 2 ^ k) ≤ 2 ^ k ∧ (2 * (n % 2 ^ k) = 2 ^ k → rhe n k % 2 = 0)) ∨
    (rhe n k = n / 2 ^ k + 1 ∧ 2 ^ k ≤ 2 * (n % 2 ^ k) ∧ (2 * (n % 2 ^ k) = 2 ^ k → rhe n k % 2 = 0)) := by
  unfold rhe
  by_cases h1 : 2 * (n % 2 ^ k) < 2 ^ k
  · rw [if_pos h1]; left; exact ⟨rfl, h1.le, fun h => absurd h (by omega)⟩
  · rw [if_neg h1]
    by_cases h2 : 2 ^ k < 2 * (n % 2 ^ k)
    · rw [if_pos h2]; right; exact ⟨rfl, h2.le, fun h => absurd h (by omega)⟩
    · rw [if_neg h2]
      have he : 2 * (n % 2 ^ k) = 2 ^ k := by omega
      generalize hq : n / 2 ^ k = q
      rcases Nat.mod_two_eq_zero_or_one q with h | h
      · left; rw [h]; exact ⟨rfl, he.le, fun _ => by omega⟩
      · right; rw [h]; exact ⟨rfl, he.ge, fun _ => by omega⟩

/-- **the rounding is to nearest, ties to even**: no other number is nearer to `n / 2^k`, and if another one is as near, the last bit of the
result is zero -/
theorem C103_round_nearest {n k : Nat} (hfin : rmag n k < infBits) (b : Nat) :
    |(mag (rmag n k) : Int) * 2 ^ k - n| ≤ |(mag b : Int) * 2 ^ k - n| ∧
    (b ≠ rmag n k → |(mag (rmag n k) : Int) * 2 ^ k - n| = |(mag b : Int) * 2 ^ k - n| → rmag n k % 2 = 0) := by
  obtain ⟨s, m, hs, hm, h1, h2⟩ := rmag_floor n k
  have hr : rmag n k = s * 2 ^ 52 + rhe n (k + s) := by
    have : rmag n k = min (s * 2 ^ 52 + rhe n (k + s)) infBits := by rw [rmag, hs]
    rw [this] at hfin ⊢
    exact min_eq_left (by omega)
  have g0 : mag (s * 2 ^ 52 + m) = m * 2 ^ s := mag_spacing h1 h2.le
  have g1 : mag (s * 2 ^ 52 + m + 1) = (m + 1) * 2 ^ s := by
    rw [Nat.add_assoc]; exact mag_spacing (by omega) (by omega)
  have hsplit : n = m * 2 ^ s * 2 ^ k + n % 2 ^ (k + s) := by
    have := Nat.div_add_mod n (2 ^ (k + s))
    rw [← hm] at this
    calc n = 2 ^ (k + s) * m + n % 2 ^ (k + s) := this.symm
      _ = _ := by rw [Nat.pow_add]; ring
  have hP : 2 ^ (k + s) = 2 ^ s * 2 ^ k := by rw [Nat.pow_add, Nat.mul_comm]
  have hlt : n % 2 ^ (k + s) < 2 ^ (k + s) := Nat.mod_lt _ (Nat.two_pow_pos _)
  have hcase := rhe_cases n (k + s)
  rw [← hm] at hcase
  generalize hR : n % 2 ^ (k + s) = R at *
  generalize hrh : rhe n (k + s) = rh at *
  -- in integers: lower neighbour `A`, spacing `P`
  obtain ⟨A, hA⟩ : ∃ A : Int, A = (m : Int) * 2 ^ s * 2 ^ k := ⟨_, rfl⟩
  obtain ⟨P, hPP⟩ : ∃ P : Int, P = (2 : Int) ^ s * 2 ^ k := ⟨_, rfl⟩
  have hPn : ((2 ^ (k + s) : Nat) : Int) = P := by rw [hP, hPP]; push_cast; ring
  have hn : (n : Int) = A + R := by rw [hA]; exact_mod_cast hsplit
  have k0 : (mag (s * 2 ^ 52 + m) : Int) * 2 ^ k = A := by rw [g0, hA]; push_cast; ring
  have k1 : (mag (s * 2 ^ 52 + m + 1) : Int) * 2 ^ k = A + P := by rw [g1, hA, hPP]; push_cast; ring
  have hRP : (R : Int) < P := by rw [← hPn]; exact_mod_cast hlt
  have hR0 : (0 : Int) ≤ R := Int.natCast_nonneg _
  have h2k : (0 : Int) < 2 ^ k := by positivity
  have hb : (mag b : Int) * 2 ^ k ≤ A ∨ A + P ≤ (mag b : Int) * 2 ^ k := by
    rcases Nat.lt_or_ge b (s * 2 ^ 52 + m + 1) with h | h
    · left
      rw [← k0]
      exact mul_le_mul_of_nonneg_right (by exact_mod_cast mag_strictMono.monotone (by omega)) h2k.le
    · right
      rw [← k1]
      exact mul_le_mul_of_nonneg_right (by exact_mod_cast mag_strictMono.monotone h) h2k.le
  have hsm : (s * 2 ^ 52 + rh) % 2 = rh % 2 := by omega
  have hinj : ∀ b', (mag b' : Int) * 2 ^ k = (mag b : Int) * 2 ^ k → b = b' := fun b' h => by
    have := mul_right_cancel₀ (ne_of_gt h2k) h
    exact mag_strictMono.injective (by exact_mod_cast this.symm)
  rw [hr]
  rcases hcase with ⟨c1, c2, c3⟩ | ⟨c1, c2, c3⟩
  · have c2' : 2 * (R : Int) ≤ P := by rw [← hPn]; exact_mod_cast c2
    rw [c1, k0, hn]
    have e1 : |A - (A + R)| = R := by rw [show A - (A + R) = -(R : Int) by ring, abs_neg, abs_of_nonneg hR0]
    rw [e1]
    rcases hb with hb | hb
    · have e2 : |(mag b : Int) * 2 ^ k - (A + R)| = A + R - (mag b : Int) * 2 ^ k := by
        rw [abs_of_nonpos (by linarith)]; ring
      rw [e2]
      refine ⟨by linarith, fun hne heq => absurd (hinj _ ?_) hne⟩
      rw [k0]; linarith
    · have e2 : |(mag b : Int) * 2 ^ k - (A + R)| = (mag b : Int) * 2 ^ k - (A + R) := by
        rw [abs_of_nonneg (by linarith)]
      rw [e2]
      refine ⟨by linarith, fun _ heq => ?_⟩
      have : 2 * R = 2 ^ (k + s) := by
        have : 2 * (R : Int) = ((2 ^ (k + s) : Nat) : Int) := by rw [hPn]; linarith
        exact_mod_cast this
      rw [← c1, hsm]
      exact c3 this
  · have c2' : P ≤ 2 * (R : Int) := by rw [← hPn]; exact_mod_cast c2
    rw [c1, ← Nat.add_assoc, k1, hn]
    have e1 : |A + P - (A + R)| = P - R := by rw [abs_of_nonneg (by linarith)]; ring
    rw [e1]
    rcases hb with hb | hb
    · have e2 : |(mag b : Int) * 2 ^ k - (A + R)| = A + R - (mag b : Int) * 2 ^ k := by
        rw [abs_of_nonpos (by linarith)]; ring
      rw [e2]
      refine ⟨by linarith, fun _ heq => ?_⟩
      have : 2 * R = 2 ^ (k + s) := by
        have : 2 * (R : Int) = ((2 ^ (k + s) : Nat) : Int) := by rw [hPn]; linarith
        exact_mod_cast this
      rw [Nat.add_assoc, ← c1, hsm]
      exact c3 this
    · have e2 : |(mag b : Int) * 2 ^ k - (A + R)| = (mag b : Int) * 2 ^ k - (A + R) := by
        rw [abs_of_nonneg (by linarith)]
      rw [e2]
      refine ⟨by linarith, fun hne heq => absurd (hinj _ ?_) hne⟩
      rw [k1]; linarith

/-- less than half of the smallest number becomes zero -/
theorem rmag_tiny {n k : Nat} (h : 2 * n < 2 ^ k) : rmag n k = 0 := by
  have e : n / 2 ^ k = 0 := Nat.div_eq_of_lt (by omega)
  have e2 : n % 2 ^ k = n := Nat.mod_eq_of_lt (by omega)
  unfold rmag
  rw [e]
  simp [rhe, e, e2, h]

/-- too large: infinity -/
theorem rmag_huge {n k : Nat} (h : 2 ^ k * umax ≤ n) : rmag n k = infBits := by
  obtain ⟨s, m, hs, hm, h1, h2⟩ := rmag_floor n k
  have hq : umax ≤ n / 2 ^ k := (Nat.le_div_iff_mul_le (Nat.two_pow_pos _)).2 (by rw [Nat.mul_comm]; exact h)
  have hL : 2098 ≤ Nat.log 2 (n / 2 ^ k) := by
    obtain ⟨e, he⟩ : ∃ e, e = 2098 := ⟨_, rfl⟩
    rw [umax_pow he] at hq
    rw [← he]
    exact Nat.le_log_of_pow_le (by norm_num) hq
  have hm52 : 2 ^ 52 ≤ m := by omega
  have : m ≤ rhe n (k + s) := by
    rcases rhe_cases n (k + s) with ⟨c, _⟩ | ⟨c, _⟩ <;> omega
  have e : rmag n k = min (s * 2 ^ 52 + rhe n (k + s)) infBits := by rw [rmag, hs]
  rw [e]
  apply min_eq_right
  have : 2046 * 2 ^ 52 ≤ s * 2 ^ 52 := Nat.mul_le_mul_right _ (by omega)
  unfold infBits
  omega

theorem rmag_le (n k : Nat) : rmag n k ≤ infBits := min_le_right _ _

/-! ## Fields -/

theorem ub_lt (x : Nat) : ub x < 2 ^ 63 := Nat.mod_lt _ (by norm_num)

theorem split_bits (x : Nat) : x = sgn x * 2 ^ 63 + ub x := by unfold sgn ub; omega

theorem sgn_le {x : Nat} (h : x < 2 ^ 64) : sgn x ≤ 1 := by unfold sgn; omega

theorem sgn_mk {s b : Nat} (hb : b < 2 ^ 63) : sgn (s * 2 ^ 63 + b) = s := by unfold sgn; omega

theorem ub_mk {s b : Nat} (hb : b < 2 ^ 63) : ub (s * 2 ^ 63 + b) = b := by unfold ub; omega

theorem val_mk {s b : Nat} (hb : b < 2 ^ 63) : val (s * 2 ^ 63 + b) = if s = 0 then (mag b : Int) else -(mag b : Int) := by
  rw [val, sgn_mk hb, ub_mk hb]

theorem expo_eq (x : Nat) : expo x = ub x / 2 ^ 52 := by unfold expo ub; omega

theorem mant_eq (x : Nat) : mant x = ub x % 2 ^ 52 := by unfold mant ub; omega

theorem ub_eq (x : Nat) : ub x = expo x * 2 ^ 52 + mant x := by rw [expo_eq, mant_eq]; omega

/-- `x & (1 << 63)` -/
theorem and_sign {x : Nat} (h : x < 2 ^ 64) : x &&& 2 ^ 63 = sgn x * 2 ^ 63 := by
  unfold sgn
  rw [← Nat.shiftRight_eq_div_pow, ← Nat.shiftLeft_eq]
  apply Nat.eq_of_testBit_eq
  intro i
  rw [Nat.testBit_and, Nat.testBit_shiftLeft, Nat.testBit_shiftRight, Nat.testBit_two_pow]
  rcases Nat.lt_trichotomy i 63 with hi | hi | hi
  · simp [Nat.not_le.2 hi, Nat.ne_of_gt hi]
  · subst hi; simp
  · have : x.testBit i = false := Nat.testBit_lt_two_pow (lt_of_lt_of_le h (Nat.pow_le_pow_right (by norm_num) (by omega)))
    rw [show 63 + (i - 63) = i by omega, this]
    simp

/-- `x & 0x800fffffffffffff` -/
theorem and_sign_mant {x : Nat} (h : x < 2 ^ 64) : x &&& 0x800fffffffffffff = sgn x * 2 ^ 63 + mant x := by
  have e : (0x800fffffffffffff : Nat) = 2 ^ 63 ||| (2 ^ 52 - 1) := by decide
  rw [e, Nat.and_or_distrib_left, and_sign h, Nat.and_two_pow_sub_one_eq_mod]
  have := Nat.two_pow_add_eq_or_of_lt (i := 63) (b := x % 2 ^ 52) (by omega) (sgn x)
  rw [Nat.mul_comm (sgn x), ← this]
  rfl

/-- setting the exponent -/
theorem or_expo {s m c : Nat} (hm : m < 2 ^ 52) (hc : c < 2 ^ 11) :
    (s * 2 ^ 63 + m) ||| (c <<< 52) = s * 2 ^ 63 + (c * 2 ^ 52 + m) := by
  have e1 : s * 2 ^ 63 + m = 2 ^ 63 * s ||| m := by
    rw [Nat.mul_comm]; exact Nat.two_pow_add_eq_or_of_lt (by omega) s
  have e2 : c <<< 52 ||| m = 2 ^ 52 * c + m := by
    rw [Nat.two_pow_add_eq_or_of_lt hm c, Nat.shiftLeft_eq, Nat.mul_comm]
  rw [e1, Nat.or_assoc, Nat.or_comm m, e2]
  rw [← Nat.two_pow_add_eq_or_of_lt (by omega) s]
  ring

/-- clearing the low bits -/
theorem and_not_mask {x j : Nat} (h : x < 2 ^ 64) (hj : j ≤ 64) : x &&& (2 ^ 64 - 1 - (2 ^ j - 1)) = x / 2 ^ j * 2 ^ j := by
  have hjp : 2 ^ j ≤ 2 ^ 64 := Nat.pow_le_pow_right (by norm_num) hj
  have hp : 0 < 2 ^ j := Nat.two_pow_pos j
  have e : 2 ^ 64 - 1 - (2 ^ j - 1) = (2 ^ (64 - j) - 1) <<< j := by
    rw [Nat.shiftLeft_eq, Nat.sub_mul, ← Nat.pow_add, Nat.sub_add_cancel hj]
    omega
  rw [e, ← Nat.shiftRight_eq_div_pow, ← Nat.shiftLeft_eq]
  apply Nat.eq_of_testBit_eq
  intro i
  rw [Nat.testBit_and, Nat.testBit_shiftLeft, Nat.testBit_shiftLeft, Nat.testBit_two_pow_sub_one, Nat.testBit_shiftRight]
  by_cases hi : j ≤ i
  · have : j + (i - j) = i := by omega
    rw [this]
    by_cases h64 : i < 64
    · have : i - j < 64 - j := by omega
      simp [hi, this]
    · have : x.testBit i = false := Nat.testBit_lt_two_pow (lt_of_lt_of_le h (Nat.pow_le_pow_right (by norm_num) (by omega)))
      simp [this]
  · simp [hi]

end Russell.Ieee
