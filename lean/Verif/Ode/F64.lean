import Verif.Prelude
import Mathlib.Data.Rat.Floor

/-!
# Arithmetic of `f64` on normal numbers

`F64` is a rational number; every operation rounds the exact result to 53 significant bits, ties to even (IEEE 754,
round to nearest). Overflow, underflow, infinities, NaN and the sign of zero are outside this model; it is used for
evaluations in which every number is zero or normal.
-/

namespace Russell

/-- `⌊log₂ q⌋` of a positive rational number. -/
def ilog2 (q : ℚ) : Int :=
  let n := q.num.natAbs
  let d := q.den
  let e : Int := (Nat.log2 n : Int) - (Nat.log2 d : Int)
  -- 2^(e-1) < n/d < 2^(e+1)
  if (if 0 ≤ e then d * 2 ^ e.toNat ≤ n else d ≤ n * 2 ^ (-e).toNat) then e else e - 1

/-- `2 ^ e` for an integer exponent. -/
def zpow2 (e : Int) : ℚ := if 0 ≤ e then ((2 ^ e.toNat : Nat) : ℚ) else 1 / ((2 ^ (-e).toNat : Nat) : ℚ)

/-- Nearest integer, ties to even. -/
def roundEven (q : ℚ) : Int :=
  let f := q.num / (q.den : Int)
  let r2 := 2 * (q.num - f * (q.den : Int))
  if r2 < q.den then f else if (q.den : Int) < r2 then f + 1 else if f % 2 = 0 then f else f + 1

/-- Round to 53 significant bits, to nearest, ties to even. -/
def rne53 (q : ℚ) : ℚ :=
  if q = 0 then 0
  else
    let u := zpow2 (ilog2 |q| - 52)
    (roundEven (q / u) : ℚ) * u

/-- A number of the type `f64` (zero or normal). -/
structure F64 where
  val : ℚ
  deriving DecidableEq

namespace F64

instance : Add F64 := ⟨fun a b => ⟨rne53 (a.val + b.val)⟩⟩
instance : Sub F64 := ⟨fun a b => ⟨rne53 (a.val - b.val)⟩⟩
instance : Mul F64 := ⟨fun a b => ⟨rne53 (a.val * b.val)⟩⟩
instance : Div F64 := ⟨fun a b => ⟨rne53 (a.val / b.val)⟩⟩
instance : LE F64 := ⟨fun a b => a.val ≤ b.val⟩
instance : LT F64 := ⟨fun a b => a.val < b.val⟩
instance : DecidableLE F64 := fun a b => inferInstanceAs (Decidable (a.val ≤ b.val))
instance : DecidableLT F64 := fun a b => inferInstanceAs (Decidable (a.val < b.val))

/-- A literal is rounded. -/
def ofRat (q : ℚ) : F64 := ⟨rne53 q⟩

/-- `x as usize`: toward zero, negative numbers give 0. -/
def truncU (a : F64) : Nat := (a.val.num / (a.val.den : Int)).toNat

/-- `f64::ceil(x) as usize`. -/
def ceilU (a : F64) : Nat := (-((-a.val.num) / (a.val.den : Int))).toNat

end F64

/-- Rounding is correct on samples: one third, one tenth, a tie. -/
example : rne53 (1 / 3) = 6004799503160661 / 2 ^ 54 := by decide +kernel
example : rne53 (1 / 10) = 3602879701896397 / 2 ^ 55 := by decide +kernel
example : rne53 (9007199254740993) = 9007199254740992 := by decide +kernel

end Russell
