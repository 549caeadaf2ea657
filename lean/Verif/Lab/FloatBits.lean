import Verif.Lab.Ieee
import Mathlib.Tactic.FieldSimp
import Mathlib.Data.Rat.Cast.Defs
import Mathlib.Algebra.Order.Field.Basic

/-!
# Splitting, decomposing and composing floating point numbers; remainder (property C103)

The functions of /repo/russell_lab/src/math/composition.rs and modulo.rs on bit patterns.
-/

namespace Russell.Ieee

open Russell Russell.Res

/-! ## Models -/

/-- `float_split`: integer and fractional parts (/repo/russell_lab/src/math/composition.rs:37-68) -/
def floatSplit (x : Nat) : Nat × Nat :=
  let e : Int := (((x >>> 52) &&& 0x7ff : Nat) : Int) - 0x3ff
  if 52 ≤ e then
    if e = 0x400 ∧ (x <<< 12) % 2 ^ 64 ≠ 0 then (x, x) else (x, x &&& 2 ^ 63)
  else if e < 0 then (x &&& 2 ^ 63, x)
  else
    let mask := ((2 ^ 64 - 1) >>> 12) >>> e.toNat
    if x &&& mask = 0 then (x, x &&& 2 ^ 63)
    else (x &&& (2 ^ 64 - 1 - mask), fsub x (x &&& (2 ^ 64 - 1 - mask)))

/-- `float_is_neg_integer` (/repo/russell_lab/src/math/composition.rs:86-97) -/
def floatIsNegInteger (x : Nat) : Bool :=
  if isFin x then (if flt x 0 then decide (isZero (floatSplit x).2) else false) else false

/-- `float_is_integer` (/repo/russell_lab/src/math/composition.rs:115-122) -/
def floatIsInteger (x : Nat) : Bool :=
  if isFin x then decide (isZero (floatSplit x).2) else false

/-- the scaling of subnormal numbers, `f64::abs(x) < f64::MIN_POSITIVE`; the factor is `(1_u64 << 52) as f64`
(/repo/russell_lab/src/math/composition.rs:156-161, 206-210) -/
def norm52 (x : Nat) : Nat × Int :=
  if flt (ub x) (2 ^ 52) then (fmul x (1075 * 2 ^ 52), -52) else (x, 0)

/-- `float_decompose` (frexp); the exponents are far from the limits of `i32`
(/repo/russell_lab/src/math/composition.rs:152-169) -/
def floatDecompose (x : Nat) : Nat × Int :=
  if isZero x ∨ isInf x ∨ isNan x then (x, 0)
  else
    let p := norm52 x
    ((p.1 &&& 0x800fffffffffffff) ||| 0x3fe0000000000000, p.2 + ((((p.1 >>> 52) &&& 0x7ff : Nat) : Int) - 0x3fe))

/-- last part of `float_compose`: `1.0` or `2^-53` times the number with the new exponent
(/repo/russell_lab/src/math/composition.rs:228-236) -/
def composeEnd (x : Nat) (exp : Int) : Nat :=
  let p : Int × Nat := if exp < -1022 then (exp + 53, (1023 - 53) * 2 ^ 52) else (exp, 1023 * 2 ^ 52)
  fmul p.2 ((x &&& 0x800fffffffffffff) ||| ((p.1 + 1023).toNat <<< 52))

/-- `float_compose` (ldexp); the additions of `i32` numbers panic on overflow (debug build)
(/repo/russell_lab/src/math/composition.rs:202-237) -/
def floatCompose (mantissa : Nat) (exponent : Int) : Res Nat :=
  if isZero mantissa ∨ isInf mantissa ∨ isNan mantissa then ok mantissa
  else do
    let p := norm52 mantissa
    let exp ← addI32 exponent p.2
    let exp ← addI32 exp ((((p.1 >>> 52) &&& 0x7ff : Nat) : Int) - 0x3ff)
    if exp < -1075 then ok (p.1 &&& 2 ^ 63)
    else if 1023 < exp then ok (if flt p.1 0 then 2 ^ 63 + infBits else infBits)
    else ok (composeEnd p.1 exp)

/-- one pass of the loop of `modulo` (/repo/russell_lab/src/math/modulo.rs:44-48) -/
def moduloStep (y yFrac : Nat) (yExp : Int) (r : Nat) : Res Nat := do
  let p := floatDecompose r
  let rExp := if flt p.1 yFrac then p.2 - 1 else p.2
  let z ← floatCompose y (rExp - yExp)
  ok (fsub r z)

/-- the loop `while r >= y`; if a pass does not make `r` smaller the loop would go on forever, here `panic`
(/repo/russell_lab/src/math/modulo.rs:43-49) -/
def moduloLoop (y yFrac : Nat) (yExp : Int) (r : Nat) : Res Nat :=
  if fge r y then
    match moduloStep y yFrac yExp r with
    | ok r' => if r' < r then moduloLoop y yFrac yExp r' else Res.panic
    | Res.err m => Res.err m
    | Res.panic => Res.panic
  else ok r
termination_by r

/-- `f64::NAN` -/
def nanBits : Nat := 0x7ff8000000000000

/-- `modulo` (fmod) (/repo/russell_lab/src/math/modulo.rs:31-55) -/
def modulo (x y : Nat) : Res Nat :=
  if isZero y ∨ isInf x ∨ isNan x ∨ isNan y then ok nanBits
  else do
    let q := floatDecompose (ub y)
    let r ← moduloLoop (ub y) q.1 q.2 (if flt x 0 then fneg x else x)
    ok (if flt x 0 then fneg r else r)

/-! ## Splitting -/

theorem exp_bits (x : Nat) : (x >>> 52) &&& 0x7ff = expo x := by
  have : (0x7ff : Nat) = 2 ^ 11 - 1 := by norm_num
  rw [this, Nat.and_two_pow_sub_one_eq_mod, Nat.shiftRight_eq_div_pow]
  rfl

theorem isFin_expo {x : Nat} : isFin x ↔ expo x < 2047 := by
  unfold isFin infBits
  rw [expo_eq]
  have := ub_lt x
  omega

theorem mag_expo {x : Nat} (h : 1 ≤ expo x) : mag (ub x) = (2 ^ 52 + mant x) * 2 ^ (expo x - 1) := by
  have hm : mant x < 2 ^ 52 := Nat.mod_lt _ (by norm_num)
  obtain ⟨t, ht⟩ : ∃ t, expo x = t + 1 := ⟨expo x - 1, by omega⟩
  rw [ub_eq, ht, show (t + 1) * 2 ^ 52 + mant x = t * 2 ^ 52 + (2 ^ 52 + mant x) by ring,
    mag_enc (by omega) (by omega), Nat.add_sub_cancel]

/-- exact subtraction -/
theorem fsub_spec {x y m s : Nat} (hd : val x - val y ≠ 0) (hms : (val x - val y).natAbs = m * 2 ^ s) (hm : m < 2 ^ 53)
    (hmax : (val x - val y).natAbs < umax) :
    ∃ b, b < infBits ∧ fsub x y = (if val x - val y < 0 then 1 else 0) * 2 ^ 63 + b ∧ mag b = (val x - val y).natAbs := by
  have h := rmag_exact (k := 0) hms hm hmax
  rw [pow_zero, mul_one] at h
  refine ⟨_, h.2, ?_, h.1⟩
  unfold fsub
  dsimp only
  rw [if_neg hd]
  congr 1
  by_cases hn : val x - val y < 0 <;> simp [hn]

theorem mag_pow (e : Nat) : mag ((e + 1) * 2 ^ 52) = 2 ^ (e + 52) := by
  rw [show (e + 1) * 2 ^ 52 = e * 2 ^ 52 + 2 ^ 52 by ring, mag_enc (le_refl _) (by norm_num), Nat.pow_add, Nat.mul_comm]

theorem mag_pow' {e w : Nat} (h : w = e + 52) : mag ((e + 1) * 2 ^ 52) = 2 ^ w := by rw [h, mag_pow]

theorem val_sign {x : Nat} : val (sgn x * 2 ^ 63) = 0 := by
  have := val_mk (s := sgn x) (b := 0) (by norm_num)
  rw [Nat.add_zero] at this
  rw [this, mag_lt (by norm_num)]
  simp

theorem infBits_lt : infBits < 2 ^ 63 := by unfold infBits; norm_num

/-- what splitting a number means -/
structure IsSplit (x i f : Nat) : Prop where
  bits_i : i < 2 ^ 64
  bits_f : f < 2 ^ 64
  fin_i : isFin i
  fin_f : isFin f
  sgn_i : sgn i = sgn x
  sgn_f : sgn f = sgn x
  /-- the sum is exact -/
  sum : val i + val f = val x
  /-- the first part is an integer -/
  int : (uone : Int) ∣ val i
  /-- the second part is less than one -/
  frac : |val f| < uone

theorem val_dvd {x : Nat} {d : Int} : d ∣ val x ↔ d ∣ (mag (ub x) : Int) := by
  unfold val
  split
  · rfl
  · exact dvd_neg

theorem abs_val (x : Nat) : |val x| = (mag (ub x) : Int) := by
  unfold val
  split
  · exact abs_of_nonneg (Int.natCast_nonneg _)
  · rw [abs_neg]; exact abs_of_nonneg (Int.natCast_nonneg _)

theorem zero_part {x : Nat} (h : x < 2 ^ 64) :
    sgn x * 2 ^ 63 < 2 ^ 64 ∧ isFin (sgn x * 2 ^ 63) ∧ sgn (sgn x * 2 ^ 63) = sgn x ∧ val (sgn x * 2 ^ 63) = 0 := by
  have hs := sgn_le h
  refine ⟨by omega, ?_, ?_, val_sign⟩
  · have := ub_mk (s := sgn x) (b := 0) (by norm_num)
    rw [Nat.add_zero] at this
    unfold isFin; rw [this]; unfold infBits; norm_num
  · have := sgn_mk (s := sgn x) (b := 0) (by norm_num)
    rwa [Nat.add_zero] at this

theorem split_whole {x : Nat} (h : x < 2 ^ 64) (hf : isFin x) (hd : (uone : Int) ∣ val x) : IsSplit x x (sgn x * 2 ^ 63) := by
  obtain ⟨z1, z2, z3, z4⟩ := zero_part h
  exact ⟨h, z1, hf, z2, rfl, z3, by rw [z4, add_zero], hd, by rw [z4, abs_zero]; exact_mod_cast uone_pos⟩

theorem bits_lt {s c : Nat} (h : s ≤ 1) (hc : c < 2 ^ 63) : s * 2 ^ 63 + c < 2 ^ 64 := by omega

theorem floatSplit_mid {x j : Nat} (h : x < 2 ^ 64) (hj1 : 1 ≤ j) (hj2 : j ≤ 52) (he : expo x = 1075 - j) (hr : x % 2 ^ j ≠ 0) :
    IsSplit x (x / 2 ^ j * 2 ^ j) (fsub x (x / 2 ^ j * 2 ^ j)) := by
  have hp : 0 < 2 ^ j := Nat.two_pow_pos j
  have hrj : x % 2 ^ j < 2 ^ j := Nat.mod_lt _ hp
  have hj52 : 2 ^ j ≤ 2 ^ 52 := Nat.pow_le_pow_right (by norm_num) hj2
  have hdm := Nat.div_add_mod x (2 ^ j)
  -- the significand
  have hmj : mant x % 2 ^ j = x % 2 ^ j := Nat.mod_mod_of_dvd x (Nat.pow_dvd_pow 2 hj2)
  have hub : ub x % 2 ^ j = x % 2 ^ j := Nat.mod_mod_of_dvd x (Nat.pow_dvd_pow 2 (by omega))
  generalize hR : x % 2 ^ j = r at *
  have hrle : r ≤ mant x := hmj ▸ Nat.mod_le _ _
  have hm : mant x < 2 ^ 52 := Nat.mod_lt _ (by norm_num)
  have hi : x / 2 ^ j * 2 ^ j = sgn x * 2 ^ 63 + (ub x - r) := by
    have := split_bits x
    have : r ≤ ub x := hub ▸ Nat.mod_le _ _
    have : 2 ^ j * (x / 2 ^ j) = x / 2 ^ j * 2 ^ j := Nat.mul_comm _ _
    omega
  have hubl := ub_lt x
  have hle : 1023 ≤ expo x := by omega
  have hlt : expo x < 1075 := by omega
  have hs := sgn_le h
  have hje : j + (expo x - 1) = 1074 := by omega
  have hxfin : isFin x := isFin_expo.2 (by omega)
  rw [hi]
  have ui : ub (sgn x * 2 ^ 63 + (ub x - r)) = ub x - r := ub_mk (by omega)
  have si : sgn (sgn x * 2 ^ 63 + (ub x - r)) = sgn x := sgn_mk (by omega)
  have hue := ub_eq x
  have mx := mag_expo (x := x) (by omega)
  -- magnitude of the integer part
  have mi : mag (ub x - r) = (2 ^ 52 + (mant x - r)) * 2 ^ (expo x - 1) := by
    obtain ⟨t, ht⟩ : ∃ t, expo x = t + 1 := ⟨expo x - 1, by omega⟩
    rw [ht] at hue ⊢
    rw [show ub x - r = t * 2 ^ 52 + (2 ^ 52 + (mant x - r)) by omega, mag_enc (by omega) (by omega), Nat.add_sub_cancel]
  have hsum : mag (ub x) = mag (ub x - r) + r * 2 ^ (expo x - 1) := by
    rw [mx, mi, ← Nat.add_mul]; congr 1; omega
  have hfr : r * 2 ^ (expo x - 1) < uone := by
    calc r * 2 ^ (expo x - 1) < 2 ^ j * 2 ^ (expo x - 1) := Nat.mul_lt_mul_of_pos_right hrj (Nat.two_pow_pos _)
      _ = uone := uone_eq _ _ hje
  have hpos : 0 < r * 2 ^ (expo x - 1) := Nat.mul_pos (by omega) (Nat.two_pow_pos _)
  have hvi : val (sgn x * 2 ^ 63 + (ub x - r)) = if sgn x = 0 then (mag (ub x - r) : Int) else -(mag (ub x - r) : Int) :=
    val_mk (by omega)
  obtain ⟨F, hF⟩ : ∃ F, F = r * 2 ^ (expo x - 1) := ⟨_, rfl⟩
  rw [← hF] at hsum hfr hpos
  have hd : val x - val (sgn x * 2 ^ 63 + (ub x - r)) = if sgn x = 0 then (F : Int) else -(F : Int) := by
    rw [hvi]
    unfold val
    rw [hsum]
    split <;> push_cast <;> ring
  have hna : (val x - val (sgn x * 2 ^ 63 + (ub x - r))).natAbs = F := by
    rw [hd]; split
    · exact Int.natAbs_natCast _
    · rw [Int.natAbs_neg]; exact Int.natAbs_natCast _
  obtain ⟨b, hb1, hb2, hb3⟩ := fsub_spec (x := x) (y := sgn x * 2 ^ 63 + (ub x - r)) (m := r) (s := expo x - 1)
    (by rw [hd]; split <;> omega) (by rw [hna, hF]) (by omega)
    (by rw [hna]; exact lt_of_lt_of_le hfr uone_le_umax)
  have hsg : (if val x - val (sgn x * 2 ^ 63 + (ub x - r)) < 0 then 1 else 0) = sgn x := by
    rw [hd]
    rcases (by omega : sgn x = 0 ∨ sgn x = 1) with e | e
    · rw [e, if_pos rfl, if_neg (by omega : ¬ (F : Int) < 0)]
    · rw [e, if_neg (by norm_num : ¬ (1 : Nat) = 0), if_pos (by omega : -(F : Int) < 0)]
  rw [hsg] at hb2
  rw [hna] at hb3
  have hbl : b < 2 ^ 63 := lt_trans hb1 infBits_lt
  rw [hb2]
  refine ⟨bits_lt hs (lt_of_le_of_lt (Nat.sub_le _ _) hubl), bits_lt hs hbl, ?_, ?_, si, sgn_mk hbl, ?_, ?_, ?_⟩
  · unfold isFin; rw [ui]
    exact lt_of_le_of_lt (Nat.sub_le _ _) hxfin
  · unfold isFin; rw [ub_mk hbl]; exact hb1
  · rw [hvi, val_mk hbl, hb3]
    unfold val
    rw [hsum]
    split <;> push_cast <;> ring
  · rw [val_dvd, ui, mi]
    have : 2 ^ j ∣ 2 ^ 52 + (mant x - r) :=
      (Nat.dvd_add_right (Nat.pow_dvd_pow 2 hj2)).2 (hmj ▸ Nat.dvd_sub_mod _)
    obtain ⟨c, hc⟩ := this
    rw [hc]
    refine ⟨c, ?_⟩
    have : 2 ^ j * c * 2 ^ (expo x - 1) = uone * c := by
      rw [Nat.mul_right_comm, uone_eq _ _ hje]
    exact_mod_cast this
  · rw [abs_val, ub_mk hbl, hb3]
    exact_mod_cast hfr

/-- **`float_split` is exact**: for every finite number the two parts add up to the number without rounding error, the first one is an
integer, the second one is less than one in absolute value, and both have the sign of the number (also when they are zero) -/
theorem C103_float_split {x : Nat} (h : x < 2 ^ 64) (hf : isFin x) : IsSplit x (floatSplit x).1 (floatSplit x).2 := by
  have hexp := isFin_expo.1 hf
  unfold floatSplit
  rw [exp_bits]
  dsimp only
  by_cases c1 : (52 : Int) ≤ (expo x : Int) - 0x3ff
  · rw [if_pos c1, if_neg (by omega)]
    dsimp only
    rw [and_sign h]
    apply split_whole h hf
    rw [val_dvd, mag_expo (by omega)]
    refine ⟨((2 ^ 52 + mant x) * 2 ^ (expo x - 1 - 1074) : Nat), ?_⟩
    have : (2 ^ 52 + mant x) * 2 ^ (expo x - 1) = uone * ((2 ^ 52 + mant x) * 2 ^ (expo x - 1 - 1074)) := by
      obtain ⟨e, he⟩ : ∃ e, e = 1074 := ⟨_, rfl⟩
      rw [Nat.mul_left_comm, uone_pow he, ← Nat.pow_add, show e + (expo x - 1 - 1074) = expo x - 1 by omega]
    exact_mod_cast this
  · rw [if_neg c1]
    by_cases c2 : (expo x : Int) - 0x3ff < 0
    · rw [if_pos c2]
      dsimp only
      rw [and_sign h]
      obtain ⟨z1, z2, z3, z4⟩ := zero_part h
      refine ⟨z1, h, z2, hf, z3, rfl, by rw [z4, zero_add], by rw [z4]; exact dvd_zero _, ?_⟩
      rw [abs_val]
      have e1 : mag ((1022 + 1) * 2 ^ 52) = uone := by
        rw [mag_pow 1022, uone_pow (by norm_num : 1022 + 52 = 1074)]
      have : mag (ub x) < mag ((1022 + 1) * 2 ^ 52) := mag_strictMono (by
        have := ub_eq x
        have hm : mant x < 2 ^ 52 := Nat.mod_lt _ (by norm_num)
        have : expo x ≤ 1022 := by omega
        omega)
      rw [e1] at this
      exact_mod_cast this
    · rw [if_neg c2]
      obtain ⟨j, hj1, hj2, hj⟩ : ∃ j, 1 ≤ j ∧ j ≤ 52 ∧ expo x = 1075 - j := ⟨1075 - expo x, by omega, by omega, by omega⟩
      have hmask : ((2 ^ 64 - 1) >>> 12) >>> ((expo x : Int) - 0x3ff).toNat = 2 ^ j - 1 := by
        have ht : ((expo x : Int) - 0x3ff).toNat = 52 - j := by omega
        rw [ht, ← Nat.shiftRight_add, Nat.shiftRight_eq_div_pow]
        have : 2 ^ 64 = 2 ^ j * 2 ^ (12 + (52 - j)) := by rw [← Nat.pow_add]; congr 1; omega
        have h1 : 0 < 2 ^ j := Nat.two_pow_pos _
        have h2 : 0 < 2 ^ (12 + (52 - j)) := Nat.two_pow_pos _
        rw [Nat.div_eq_iff h2, this]
        constructor
        · rw [Nat.sub_mul]; omega
        · rw [Nat.sub_mul]
          have : 2 ^ (12 + (52 - j)) ≤ 2 ^ j * 2 ^ (12 + (52 - j)) := Nat.le_mul_of_pos_left _ h1
          omega
      rw [hmask, Nat.and_two_pow_sub_one_eq_mod, and_not_mask h (by omega)]
      by_cases c3 : x % 2 ^ j = 0
      · rw [if_pos c3]
        dsimp only
        rw [and_sign h]
        apply split_whole h hf
        rw [val_dvd, mag_expo (by omega)]
        have hmj : mant x % 2 ^ j = 0 := by rw [← c3]; exact Nat.mod_mod_of_dvd x (Nat.pow_dvd_pow 2 hj2)
        have : 2 ^ j ∣ 2 ^ 52 + mant x := (Nat.dvd_add_right (Nat.pow_dvd_pow 2 hj2)).2 (Nat.dvd_of_mod_eq_zero hmj)
        obtain ⟨c, hc⟩ := this
        rw [hc]
        refine ⟨c, ?_⟩
        have : 2 ^ j * c * 2 ^ (expo x - 1) = uone * c := by
          rw [Nat.mul_right_comm, uone_eq _ _ (by omega : j + (expo x - 1) = 1074)]
        exact_mod_cast this
      · rw [if_neg c3]
        exact floatSplit_mid h hj1 hj2 hj c3

theorem mag_ub_zero {x : Nat} : mag (ub x) = 0 ↔ isZero x := mag_eq_zero

theorem val_eq_zero {x : Nat} : val x = 0 ↔ isZero x := by
  rw [← mag_ub_zero, ← abs_eq_zero, abs_val]
  exact_mod_cast Iff.rfl

/-- the fractional part vanishes exactly for the integers -/
theorem split_isZero {x : Nat} (h : x < 2 ^ 64) (hf : isFin x) : isZero (floatSplit x).2 ↔ (uone : Int) ∣ val x := by
  have sp := C103_float_split h hf
  rw [← val_eq_zero]
  constructor
  · intro h0
    rw [← sp.sum, h0, add_zero]
    exact sp.int
  · intro hd
    have : (uone : Int) ∣ val (floatSplit x).2 := by
      have e : val (floatSplit x).2 = val x - val (floatSplit x).1 := by rw [← sp.sum]; ring
      rw [e]
      exact dvd_sub hd sp.int
    exact Int.eq_zero_of_abs_lt_dvd this sp.frac

theorem not_isNan_of_fin {x : Nat} (h : isFin x) : ¬ isNan x := by unfold isNan; unfold isFin at h; omega

theorem flt_zero_iff {x : Nat} (h : x < 2 ^ 64) (hn : ¬ isNan x) : flt x 0 ↔ sgn x = 1 ∧ ¬ isZero x := by
  have hs := sgn_le h
  have h0 : key 0 = 0 := by simp [key, sgn, ub]
  have hz : ¬ isNan 0 := by unfold isNan ub infBits; norm_num
  unfold flt isZero
  rw [h0]
  unfold key
  constructor
  · rintro ⟨-, -, h3⟩
    split at h3
    · omega
    · omega
  · rintro ⟨h1, h2⟩
    refine ⟨hn, hz, ?_⟩
    rw [if_neg (by omega)]
    omega

/-- **`float_is_integer` recognizes exactly the integers** -/
theorem C103_float_is_integer {x : Nat} (h : x < 2 ^ 64) : floatIsInteger x = true ↔ isFin x ∧ (uone : Int) ∣ val x := by
  unfold floatIsInteger
  by_cases hf : isFin x
  · rw [if_pos hf, decide_eq_true_iff, split_isZero h hf]
    exact ⟨fun q => ⟨hf, q⟩, fun q => q.2⟩
  · rw [if_neg hf]
    exact ⟨fun q => absurd q (by decide), fun q => absurd q.1 hf⟩

/-- **`float_is_neg_integer` recognizes exactly the negative integers** -/
theorem C103_float_is_neg_integer {x : Nat} (h : x < 2 ^ 64) :
    floatIsNegInteger x = true ↔ isFin x ∧ val x < 0 ∧ (uone : Int) ∣ val x := by
  unfold floatIsNegInteger
  by_cases hf : isFin x
  · have hneg : flt x 0 ↔ val x < 0 := by
      rw [flt_zero_iff h (not_isNan_of_fin hf), ← mag_ub_zero]
      have hs := sgn_le h
      unfold val
      split <;> omega
    rw [if_pos hf]
    by_cases hn : flt x 0
    · rw [if_pos hn, decide_eq_true_iff, split_isZero h hf]
      exact ⟨fun q => ⟨hf, hneg.1 hn, q⟩, fun q => q.2.2⟩
    · rw [if_neg hn]
      exact ⟨fun q => absurd q (by decide), fun q => absurd (hneg.2 q.2.1) hn⟩
  · rw [if_neg hf]
    exact ⟨fun q => absurd q (by decide), fun q => absurd q.1 hf⟩

/-- **Special values of `float_split`**: not-a-number gives not-a-number twice; for the infinities the fractional part is *zero* with the sign
of the number, although the documentation announces not-a-number -/
theorem C103_float_split_special {x : Nat} (h : x < 2 ^ 64) :
    (isNan x → floatSplit x = (x, x)) ∧ (isInf x → floatSplit x = (x, sgn x * 2 ^ 63)) := by
  have hub := ub_lt x
  have hue := ub_eq x
  have hm : mant x < 2 ^ 52 := Nat.mod_lt _ (by norm_num)
  have hshift : (x <<< 12) % 2 ^ 64 = mant x * 2 ^ 12 := by
    rw [Nat.shiftLeft_eq]; unfold mant; omega
  refine ⟨fun hn => ?_, fun hi => ?_⟩
  · unfold isNan infBits at hn
    have he : expo x = 2047 := by rw [expo_eq]; omega
    unfold floatSplit
    rw [exp_bits, he, hshift]
    dsimp only
    rw [if_pos (by norm_num), if_pos]
    refine ⟨by norm_num, ?_⟩
    rw [he] at hue
    omega
  · unfold isInf infBits at hi
    have he : expo x = 2047 := by rw [expo_eq]; omega
    unfold floatSplit
    rw [exp_bits, he, hshift]
    dsimp only
    rw [if_pos (by norm_num), if_neg, and_sign h]
    rintro ⟨-, h2⟩
    rw [he] at hue
    omega

/-- the documentation of `float_split` announces a not-a-number fractional part for infinity; it is zero -/
theorem C103_float_split_inf_counterexample : isInf infBits ∧ ¬ isNan (floatSplit infBits).2 ∧ (floatSplit infBits).2 = 0 := by
  refine ⟨?_, ?_, ?_⟩ <;> decide +kernel

/-! ## Decomposition -/

/-- a normal number after scaling, written `M 2^P / 2^52` -/
theorem norm52_spec {x : Nat} (h : x < 2 ^ 64) (hf : isFin x) (hz : ¬ isZero x) :
    ∃ (xx : Nat) (e : Int) (P : Nat), norm52 x = (xx, e) ∧ xx < 2 ^ 64 ∧ sgn xx = sgn x ∧ isFin xx ∧ 1 ≤ expo xx ∧
      mag (ub x) * 2 ^ 52 = (2 ^ 52 + mant xx) * 2 ^ P ∧ (P : Int) = e + expo xx + 51 ∧ -52 ≤ e ∧ e ≤ 0 := by
  have hs := sgn_le h
  have hflt : flt (ub x) (2 ^ 52) ↔ ub x < 2 ^ 52 := by
    have hub := ub_lt x
    have s1 : sgn (ub x) = 0 := by unfold sgn; omega
    have u1 : ub (ub x) = ub x := by unfold ub; omega
    have s2 : sgn (2 ^ 52) = 0 := by unfold sgn; norm_num
    have u2 : ub (2 ^ 52) = 2 ^ 52 := by unfold ub; norm_num
    have n1 : ¬ isNan (ub x) := by unfold isNan; unfold isFin at hf; omega
    have n2 : ¬ isNan (2 ^ 52) := by unfold isNan infBits; rw [u2]; norm_num
    unfold flt key
    rw [s1, u1, s2, u2, if_pos rfl, if_pos rfl]
    constructor
    · rintro ⟨-, -, h3⟩; exact_mod_cast h3
    · intro h3; exact ⟨n1, n2, by exact_mod_cast h3⟩
  unfold norm52
  by_cases hsub : flt (ub x) (2 ^ 52)
  · rw [if_pos hsub]
    have hlt := hflt.1 hsub
    have mx : mag (ub x) = ub x := mag_lt hlt
    have hz' : ub x ≠ 0 := hz
    -- the product is exact
    have uc : ub (1075 * 2 ^ 52) = (1074 + 1) * 2 ^ 52 := by unfold ub; norm_num
    have sc : sgn (1075 * 2 ^ 52) = 0 := by unfold sgn; norm_num
    obtain ⟨w, hw⟩ : ∃ w, w = 1074 := ⟨_, rfl⟩
    have mc : mag ((1074 + 1) * 2 ^ 52) = 2 ^ 52 * 2 ^ w := by
      rw [mag_pow' (w := 52 + w) (by omega), Nat.pow_add]
    have ex := rmag_exact (N := ub x * 2 ^ 52) (k := w) (m := ub x) (s := 52) rfl (by omega)
      (lt_of_lt_of_le (b := 2 ^ 104) (by omega) (umax_le _ (by norm_num)))
    have hfm : fmul x (1075 * 2 ^ 52) = sgn x * 2 ^ 63 + rmag (ub x * 2 ^ 52 * 2 ^ w) w := by
      unfold fmul
      rw [uc, sc, mx, mc, ← Nat.mul_assoc, ← hw]
      rcases (by omega : sgn x = 0 ∨ sgn x = 1) with e | e <;> rw [e] <;> rfl
    rw [hfm]
    generalize rmag (ub x * 2 ^ 52 * 2 ^ w) w = b at ex
    obtain ⟨e1, e2⟩ := ex
    have hb : b < 2 ^ 63 := lt_trans e2 infBits_lt
    have hE : 1 ≤ expo (sgn x * 2 ^ 63 + b) := by
      rw [expo_eq, ub_mk hb]
      by_contra hc
      have : b < 2 ^ 52 := by omega
      rw [mag_lt this] at e1
      omega
    refine ⟨_, _, expo (sgn x * 2 ^ 63 + b) - 1, rfl, bits_lt hs hb, sgn_mk hb, ?_, hE, ?_, by omega, by omega, by omega⟩
    · unfold isFin; rw [ub_mk hb]; exact e2
    · have := mag_expo hE
      rw [ub_mk hb, e1] at this
      rw [mx, this]
  · rw [if_neg hsub]
    have hge : 2 ^ 52 ≤ ub x := by rw [hflt] at hsub; omega
    have hE : 1 ≤ expo x := by rw [expo_eq]; omega
    refine ⟨_, _, expo x - 1 + 52, rfl, h, rfl, hf, hE, ?_, by omega, by omega, by omega⟩
    rw [mag_expo hE, Nat.pow_add, Nat.mul_assoc]

theorem finite_branch {x : Nat} (hf : isFin x) (hz : ¬ isZero x) : ¬ (isZero x ∨ isInf x ∨ isNan x) := by
  unfold isFin at hf
  unfold isInf isNan
  rintro (q | q | q)
  · exact hz q
  · omega
  · omega

theorem floatDecompose_spec {x : Nat} (h : x < 2 ^ 64) (hf : isFin x) (hz : ¬ isZero x) :
    ∃ M P : Nat, mag (ub x) * 2 ^ 52 = M * 2 ^ P ∧ 2 ^ 52 ≤ M ∧ M < 2 ^ 53 ∧
      floatDecompose x = (sgn x * 2 ^ 63 + (1021 * 2 ^ 52 + M), (P : Int) - 1073) := by
  obtain ⟨xx, e, P, h1, h2, h3, h4, h5, h6, h7, h8, h9⟩ := norm52_spec h hf hz
  have hm : mant xx < 2 ^ 52 := Nat.mod_lt _ (by norm_num)
  refine ⟨_, P, h6, by omega, by omega, ?_⟩
  unfold floatDecompose
  rw [if_neg (finite_branch hf hz), h1]
  dsimp only
  have e2 : (0x3fe0000000000000 : Nat) = 1022 <<< 52 := by decide
  rw [exp_bits, and_sign_mant h2, e2, or_expo hm (by norm_num), h3]
  refine Prod.ext ?_ ?_
  · show _ = _
    ring
  · show _ = _
    omega

theorem val_split (x : Nat) : val x = (if sgn x = 0 then 1 else -1) * (mag (ub x) : Int) := by
  unfold val; split <;> ring

/-- **`float_decompose` is exact**: every finite nonzero number, also a subnormal one, is `m 2^e` with `1/2 ≤ |m| < 1`, and `m` has its sign -/
theorem C103_float_decompose {x : Nat} (h : x < 2 ^ 64) (hf : isFin x) (hz : ¬ isZero x) :
    isFin (floatDecompose x).1 ∧ sgn (floatDecompose x).1 = sgn x ∧
    (uone : Int) ≤ 2 * |val (floatDecompose x).1| ∧ |val (floatDecompose x).1| < uone ∧
    (val x : ℚ) = val (floatDecompose x).1 * 2 ^ (floatDecompose x).2 := by
  obtain ⟨M, P, h1, h2, h3, h4⟩ := floatDecompose_spec h hf hz
  rw [h4]
  dsimp only
  have hb : 1021 * 2 ^ 52 + M < 2 ^ 63 := by omega
  have hmag : mag (1021 * 2 ^ 52 + M) = M * 2 ^ 1021 := mag_enc h2 h3
  obtain ⟨t, ht⟩ : ∃ t, t = 1021 := ⟨_, rfl⟩
  rw [← ht] at hmag
  have hU : uone = 2 ^ 53 * 2 ^ t := (uone_eq 53 t (by omega)).symm
  have hpt : 0 < 2 ^ t := Nat.two_pow_pos t
  refine ⟨?_, sgn_mk hb, ?_, ?_, ?_⟩
  · unfold isFin; rw [ub_mk hb]; unfold infBits; omega
  · rw [abs_val, ub_mk hb, ← ht, hmag, hU]
    have : 2 ^ 53 * 2 ^ t ≤ 2 * (M * 2 ^ t) := by
      rw [← Nat.mul_assoc]; exact Nat.mul_le_mul_right _ (by omega)
    exact_mod_cast this
  · rw [abs_val, ub_mk hb, ← ht, hmag, hU]
    exact_mod_cast Nat.mul_lt_mul_of_pos_right h3 hpt
  · rw [val_split x, val_split (_ + _), sgn_mk hb, ub_mk hb, ← ht, hmag]
    have hq : ((mag (ub x) : Int) : ℚ) = ((M * 2 ^ t : Nat) : Int) * 2 ^ ((P : Int) - 1073) := by
      have hq1 : (mag (ub x) : ℚ) * 2 ^ 52 = M * 2 ^ P := by exact_mod_cast h1
      have e1 : (2 : ℚ) ^ ((P : Int) - 1073) = 2 ^ P / (2 ^ t * 2 ^ 52) := by
        rw [zpow_sub₀ (by norm_num : (2 : ℚ) ≠ 0), zpow_natCast, ← pow_add, ← zpow_natCast (2 : ℚ) (t + 52), ht]
        norm_num
      rw [e1]
      push_cast
      have ht0 : (2 : ℚ) ^ t ≠ 0 := pow_ne_zero _ (by norm_num)
      field_simp
      exact hq1
    push_cast at hq ⊢
    rw [hq]
    ring

/-- **Special values of `float_decompose`**: zeros, infinities and not-a-number are returned with exponent zero -/
theorem C103_float_decompose_special {x : Nat} (hx : isZero x ∨ isInf x ∨ isNan x) : floatDecompose x = (x, 0) := by
  rw [floatDecompose, if_pos hx]

/-! ## Composition -/

/-- the correctly rounded absolute value of `M 2^t` units -/
def rI (M : Nat) (t : Int) : Nat := rmag (M * 2 ^ t.toNat) (-t).toNat

theorem rI_shift (M j : Nat) (t : Int) : rI (M * 2 ^ j) t = rI M (t + j) := by
  unfold rI
  rcases le_total 0 t with h | h
  · obtain ⟨a, rfl⟩ := Int.eq_ofNat_of_zero_le h
    rw [show (-(a : Int)).toNat = 0 by omega, show (-((a : Int) + j)).toNat = 0 by omega,
      show ((a : Int) + j).toNat = j + a by omega, Int.toNat_natCast, Nat.mul_assoc, ← Nat.pow_add]
  · obtain ⟨a, ha⟩ := Int.eq_ofNat_of_zero_le (by omega : 0 ≤ -t)
    rw [ha, show t.toNat = 0 by omega, pow_zero, Nat.mul_one, Int.toNat_natCast]
    rcases Nat.le_total j a with hj | hj
    · rw [show (t + j).toNat = 0 by omega, pow_zero, Nat.mul_one, show (-(t + (j : Int))).toNat = a - j by omega]
      have := rmag_scale M (a - j) j
      rwa [Nat.sub_add_cancel hj] at this
    · rw [show (t + j).toNat = j - a by omega, show (-(t + (j : Int))).toNat = 0 by omega]
      have := rmag_scale (M * 2 ^ (j - a)) 0 a
      rw [Nat.zero_add, Nat.mul_assoc, ← Nat.pow_add, Nat.sub_add_cancel hj] at this
      exact this

theorem mul_pos_const {c x : Nat} (hx : x < 2 ^ 64) (hs : sgn c = 0) :
    fmul c x = sgn x * 2 ^ 63 + rmag (mag (ub c) * mag (ub x)) 1074 := by
  have := sgn_le hx
  unfold fmul
  rw [hs]
  rcases (by omega : sgn x = 0 ∨ sgn x = 1) with e | e <;> rw [e] <;> rfl

theorem composeEnd_spec {x : Nat} {exp : Int} (h : x < 2 ^ 64) (h1 : -1075 ≤ exp) (h2 : exp ≤ 1023) :
    composeEnd x exp = sgn x * 2 ^ 63 + rI (2 ^ 52 + mant x) (exp + 1022) := by
  have hm : mant x < 2 ^ 52 := Nat.mod_lt _ (by norm_num)
  have hs := sgn_le h
  generalize hM : 2 ^ 52 + mant x = M
  have hM1 : 2 ^ 52 ≤ M := by omega
  have hM2 : M < 2 ^ 53 := by omega
  -- the number with exponent `c + 1`
  have key : ∀ c : Nat, c ≤ 2045 → (x &&& 0x800fffffffffffff) ||| ((c + 1) <<< 52) = sgn x * 2 ^ 63 + (c * 2 ^ 52 + M) := fun c hc => by
    rw [and_sign_mant h, or_expo hm (by omega), ← hM]
    ring
  have hlt : ∀ c : Nat, c ≤ 2045 → c * 2 ^ 52 + M < infBits := fun c hc => by
    unfold infBits
    have : c * 2 ^ 52 ≤ 2045 * 2 ^ 52 := Nat.mul_le_mul_right _ hc
    omega
  unfold composeEnd
  by_cases hsub : exp < -1022
  · rw [if_pos hsub]
    dsimp only
    obtain ⟨c, hc⟩ := Int.eq_ofNat_of_zero_le (by omega : 0 ≤ exp + 53 + 1022)
    have hc' : c ≤ 2045 := by omega
    have hb := lt_trans (hlt c hc') infBits_lt
    rw [show (exp + 53 + 1023).toNat = c + 1 by omega, key c hc']
    obtain ⟨w, hw⟩ : ∃ w, w = 969 + 52 := ⟨_, rfl⟩
    have u0 : ub ((1023 - 53) * 2 ^ 52) = (969 + 1) * 2 ^ 52 := by unfold ub; norm_num
    rw [mul_pos_const (bits_lt hs hb) (by unfold sgn; norm_num), sgn_mk hb, ub_mk hb, u0, mag_pow' hw, mag_enc hM1 hM2]
    rw [Nat.add_left_cancel_iff, Nat.mul_comm, Nat.mul_assoc, ← Nat.pow_add]
    have e := rI_shift M (c + w) (-1074)
    unfold rI at e
    rw [show (-1074 : Int).toNat = 0 by rfl, pow_zero, Nat.mul_one, show (-(-1074) : Int).toNat = 1074 by rfl] at e
    rw [e, show (-1074 : Int) + ((c + w : Nat) : Int) = exp + 1022 by omega]
    rfl
  · rw [if_neg hsub]
    dsimp only
    obtain ⟨c, hc⟩ := Int.eq_ofNat_of_zero_le (by omega : 0 ≤ exp + 1022)
    have hc' : c ≤ 2045 := by omega
    have hb := lt_trans (hlt c hc') infBits_lt
    rw [show (exp + 1023).toNat = c + 1 by omega, key c hc']
    obtain ⟨w, hw⟩ : ∃ w, w = 1022 + 52 := ⟨_, rfl⟩
    have u0 : ub (1023 * 2 ^ 52) = (1022 + 1) * 2 ^ 52 := by unfold ub; norm_num
    rw [mul_pos_const (bits_lt hs hb) (by unfold sgn; norm_num), sgn_mk hb, ub_mk hb, u0, mag_pow' hw]
    rw [Nat.add_left_cancel_iff, show 1074 = w from hw.symm, Nat.mul_comm, rmag_mag (hlt c hc')]
    rw [hc]
    unfold rI
    rw [Int.toNat_natCast, show (-(c : Int)).toNat = 0 by omega, ← mag_enc hM1 hM2]
    have := rmag_mag (hlt c hc') 0
    rw [pow_zero, Nat.mul_one] at this
    exact this.symm

/-- **`float_compose` rounds once**: for every finite nonzero number and every exponent for which the additions do not overflow, the result
is `m 2^e` correctly rounded (`rI`, see `C103_round_nearest`), including gradual underflow, underflow to zero and overflow to infinity -/
theorem C103_float_compose {m : Nat} {e : Int} (h : m < 2 ^ 64) (hf : isFin m) (hz : ¬ isZero m)
    (he1 : -2147482573 ≤ e) (he2 : e ≤ 2147482623) :
    floatCompose m e = ok (sgn m * 2 ^ 63 + rI (mag (ub m)) e) := by
  obtain ⟨xx, a, P, h1, h2, h3, h4, h5, h6, h7, h8, h9⟩ := norm52_spec h hf hz
  have hE := isFin_expo.1 h4
  have hm : mant xx < 2 ^ 52 := Nat.mod_lt _ (by norm_num)
  unfold floatCompose
  rw [if_neg (finite_branch hf hz), h1]
  dsimp only
  rw [exp_bits]
  have hadd1 : addI32 e a = ok (e + a) := by unfold addI32; rw [if_pos ⟨by omega, by omega⟩]
  have hadd2 : addI32 (e + a) ((expo xx : Int) - 0x3ff) = ok (e + a + ((expo xx : Int) - 0x3ff)) := by
    unfold addI32; rw [if_pos ⟨by omega, by omega⟩]
  rw [hadd1, ok_bind, hadd2, ok_bind]
  -- the exponent of the scaled number
  have hrI : rI (mag (ub m)) e = rI (2 ^ 52 + mant xx) (e + a + ((expo xx : Int) - 0x3ff) + 1022) := by
    have e1 := rI_shift (mag (ub m)) 52 (e - 52)
    rw [h6, rI_shift] at e1
    rw [show e - 52 + ((52 : Nat) : Int) = e by push_cast; ring] at e1
    rw [← e1]
    congr 1
    omega
  rw [hrI, ← h3]
  generalize e + a + ((expo xx : Int) - 0x3ff) = t
  by_cases c1 : t < -1075
  · rw [if_pos c1, and_sign h2]
    have : rI (2 ^ 52 + mant xx) (t + 1022) = 0 := by
      unfold rI
      rw [show (t + 1022).toNat = 0 by omega, pow_zero, Nat.mul_one]
      apply rmag_tiny
      calc 2 * (2 ^ 52 + mant xx) < 2 ^ 54 := by omega
        _ ≤ 2 ^ (-(t + 1022)).toNat := Nat.pow_le_pow_right (by norm_num) (by omega)
    rw [this, Nat.add_zero]
  · rw [if_neg c1]
    by_cases c2 : 1023 < t
    · rw [if_pos c2]
      have : rI (2 ^ 52 + mant xx) (t + 1022) = infBits := by
        unfold rI
        rw [show (-(t + 1022)).toNat = 0 by omega]
        apply rmag_huge
        rw [pow_zero, Nat.one_mul]
        calc umax ≤ 2 ^ (52 + (t + 1022).toNat) := le_umax (by omega)
          _ = 2 ^ 52 * 2 ^ (t + 1022).toNat := Nat.pow_add _ _ _
          _ ≤ _ := Nat.mul_le_mul_right _ (by omega)
      rw [this]
      have hzx : ¬ isZero xx := by
        unfold isZero
        rw [expo_eq] at h5
        omega
      have hs := sgn_le h2
      by_cases c3 : sgn xx = 1
      · rw [if_pos ((flt_zero_iff h2 (not_isNan_of_fin h4)).2 ⟨c3, hzx⟩), c3, Nat.one_mul]
      · rw [if_neg (fun q => c3 ((flt_zero_iff h2 (not_isNan_of_fin h4)).1 q).1), show sgn xx = 0 by omega, Nat.zero_mul, Nat.zero_add]
    · rw [if_neg c2, composeEnd_spec h2 (by omega) (by omega)]

/-- **Composition undoes decomposition** for every finite number -/
theorem C103_compose_decompose {x : Nat} (h : x < 2 ^ 64) (hf : isFin x) :
    floatCompose (floatDecompose x).1 (floatDecompose x).2 = ok x := by
  by_cases hz : isZero x
  · rw [floatDecompose, if_pos (Or.inl hz)]
    show floatCompose x 0 = _
    rw [floatCompose, if_pos (Or.inl hz)]
  · obtain ⟨M, P, h1, h2, h3, h4⟩ := floatDecompose_spec h hf hz
    have hb : 1021 * 2 ^ 52 + M < 2 ^ 63 := by omega
    have hPmax : P < 2150 := by
      have g1 := mag_lt_max hf
      by_contra hc
      have g2 : umax * 2 ^ 52 ≤ M * 2 ^ P := by
        obtain ⟨v, hv⟩ : ∃ v, v = 2098 := ⟨_, rfl⟩
        calc umax * 2 ^ 52 = 2 ^ v * 2 ^ 52 := by rw [umax_pow hv]
          _ = 2 ^ (v + 52) := (Nat.pow_add _ _ _).symm
          _ ≤ 2 ^ P := Nat.pow_le_pow_right (by norm_num) (by omega)
          _ ≤ M * 2 ^ P := Nat.le_mul_of_pos_left _ (by omega)
      rw [← h1] at g2
      exact absurd (Nat.le_of_mul_le_mul_right g2 (by norm_num)) (Nat.not_le.2 g1)
    rw [h4]
    dsimp only
    rw [C103_float_compose (bits_lt (sgn_le h) hb) (by unfold isFin; rw [ub_mk hb]; unfold infBits; omega)
      (by unfold isZero; rw [ub_mk hb]; omega) (by omega) (by omega), sgn_mk hb, ub_mk hb, mag_enc h2 h3, rI_shift]
    have e1 := rI_shift M P (-52)
    rw [← h1, rI_shift] at e1
    rw [show (-52 : Int) + ((52 : Nat) : Int) = 0 by norm_num] at e1
    rw [show (P : Int) - 1073 + ((1021 : Nat) : Int) = -52 + (P : Int) by push_cast; ring, ← e1]
    unfold rI
    rw [show (0 : Int).toNat = 0 from rfl, show (-0 : Int).toNat = 0 from rfl, rmag_mag hf 0, ← split_bits]

/-- **Special values of `float_compose`**: zeros, infinities and not-a-number are returned unchanged -/
theorem C103_float_compose_special {m : Nat} (hx : isZero m ∨ isInf m ∨ isNan m) (e : Int) : floatCompose m e = ok m := by
  rw [floatCompose, if_pos hx]

/-- the documented behaviour "`float_compose(m, e) = m 2^e`" fails near the limits of `i32`: composing two (or the smallest positive number)
with the largest (smallest) exponent overflows in the addition of the exponents (a panic in debug builds) instead of giving infinity (zero) -/
theorem C103_float_compose_counterexample :
    floatCompose (1024 * 2 ^ 52) 2147483647 = Res.panic ∧ rI (mag (1024 * 2 ^ 52)) 0 = 1024 * 2 ^ 52 ∧
    floatCompose 1 (-2147483648) = Res.panic := by
  refine ⟨?_, ?_, ?_⟩ <;> decide +kernel

end Russell.Ieee
