import Verif.Prelude
import Verif.Text
import Mathlib.Tactic.Ring

/-!
# Printing durations and numbers in scientific notation (property C105)

`format_nanoseconds` and `format_scientific` of russell_lab.
-/

namespace Russell.Lab

open Russell Russell.Res Russell.Text

/-! ## Models -/

/-- the digits of `r / 10^k` after the decimal point, without trailing zeros (`r < 10^k`) -/
def fracDigits : Nat → Nat → List Char
  | 0, _ => []
  | k + 1, r => if r = 0 then [] else digitChar (r / 10 ^ k) :: fracDigits k (r % 10 ^ k)

/-- `{}` of the `f64` quotient of `v` by `10^k`. Simplification: the exact decimal expansion; for the values that occur (at most eleven
digits) the shortest text that identifies the rounded quotient is this expansion -/
def quotText (v k : Nat) : List Char :=
  decimal (v / 10 ^ k) ++ (if v % 10 ^ k = 0 then [] else '.' :: fracDigits k (v % 10 ^ k))

/-- `format_nanoseconds_in_seconds` (/repo/russell_lab/src/base/formatters.rs:13-21) -/
def formatNsInSeconds (buf : List Char) (value : Nat) : List Char :=
  if value < 1000 then buf ++ decimal value ++ ['n', 's']
  else if value < 1000000 then buf ++ quotText value 3 ++ ['µ', 's']
  else buf ++ quotText value 6 ++ ['m', 's']

/-- the seconds in `format_nanoseconds` (/repo/russell_lab/src/base/formatters.rs:81-88) -/
def formatNsSeconds (value : Nat) (buf : List Char) : List Char :=
  if 0 < value then
    if value < 1000000000 then formatNsInSeconds buf value
    else buf ++ quotText value 9 ++ ['s']
  else buf

/-- the minutes in `format_nanoseconds` and what follows them (/repo/russell_lab/src/base/formatters.rs:76-80) -/
def formatNsMinutes (value : Nat) (buf : List Char) : List Char :=
  if 60000000000 ≤ value then
    let minutes := value / 60000000000
    formatNsSeconds (value - minutes * 60000000000) (buf ++ decimal minutes ++ ['m'])
  else formatNsSeconds value buf

/-- `format_nanoseconds` (/repo/russell_lab/src/base/formatters.rs:59-92) -/
def formatNanoseconds (nanoseconds : Nat) : List Char :=
  if nanoseconds = 0 then ['0', 'n', 's']
  else if nanoseconds < 1000000000 then formatNsInSeconds [] nanoseconds
  else if 3600000000000 ≤ nanoseconds then
    let hours := nanoseconds / 3600000000000
    formatNsMinutes (nanoseconds - hours * 3600000000000) ([] ++ decimal hours ++ ['h'])
  else formatNsMinutes nanoseconds []

/-! ## Reading durations -/

/-- the duration, in nanoseconds, denoted by a text made of numbers with units: the state is the sum of what has been read, the digits of the
number being read, how many of them are after the decimal point, and whether the point has been met -/
def readDur (tot num k : Nat) (frac : Bool) : List Char → Option Nat
  | [] => some tot
  | 'h' :: r => readDur (tot + num * 3600000000000 / 10 ^ k) 0 0 false r
  | 'm' :: 's' :: r => readDur (tot + num * 1000000 / 10 ^ k) 0 0 false r
  | 'm' :: r => readDur (tot + num * 60000000000 / 10 ^ k) 0 0 false r
  | 's' :: r => readDur (tot + num * 1000000000 / 10 ^ k) 0 0 false r
  | 'µ' :: 's' :: r => readDur (tot + num * 1000 / 10 ^ k) 0 0 false r
  | 'n' :: 's' :: r => readDur (tot + num / 10 ^ k) 0 0 false r
  | '.' :: r => readDur tot num k true r
  | c :: r => match digitVal c with
    | some d => readDur tot (10 * num + d) (if frac then k + 1 else k) frac r
    | none => none

theorem readDur_digit {d : Nat} (h : d < 10) (tot num k : Nat) (fr : Bool) (r : List Char) :
    readDur tot num k fr (digitChar d :: r) = readDur tot (10 * num + d) (if fr then k + 1 else k) fr r := by
  interval_cases d <;> rfl

theorem readDur_decimalAux (k n : Nat) (h : n < k) (tot : Nat) (r : List Char) :
    readDur tot 0 0 false (decimalAux k n ++ r) = readDur tot n 0 false r := by
  induction k generalizing n r with
  | zero => omega
  | succ k ih =>
    have hm : n % 10 < 10 := Nat.mod_lt _ (by omega)
    rw [decimalAux, List.append_assoc]
    by_cases h10 : n < 10
    · rw [if_pos h10, List.nil_append, List.singleton_append, readDur_digit hm]
      rw [Nat.mod_eq_of_lt h10]; simp
    · rw [if_neg h10, ih (n / 10) (by omega), List.singleton_append, readDur_digit hm]
      rw [show 10 * (n / 10) + n % 10 = n by omega]; rfl

theorem readDur_decimal (n tot : Nat) (r : List Char) : readDur tot 0 0 false (decimal n ++ r) = readDur tot n 0 false r :=
  readDur_decimalAux _ _ (by omega) tot r

theorem readDur_frac (k r0 : Nat) (h : r0 < 10 ^ k) (tot num j : Nat) (r : List Char) :
    ∃ l num' : Nat, l ≤ k ∧ num' * 10 ^ (k - l) = num * 10 ^ k + r0 ∧
      readDur tot num j true (fracDigits k r0 ++ r) = readDur tot num' (j + l) true r := by
  induction k generalizing r0 num j with
  | zero => exact ⟨0, num, le_refl _, by simp at h; simp [h], rfl⟩
  | succ k ih =>
    by_cases h0 : r0 = 0
    · refine ⟨0, num, Nat.zero_le _, by rw [h0]; rfl, ?_⟩
      rw [fracDigits, if_pos h0]; rfl
    · have hd : r0 / 10 ^ k < 10 := by
        rw [Nat.div_lt_iff_lt_mul (by positivity)]
        rw [pow_succ] at h; omega
      obtain ⟨l, num', hl, h1, h2⟩ := ih (r0 % 10 ^ k) (Nat.mod_lt _ (by positivity)) (10 * num + r0 / 10 ^ k) (j + 1)
      refine ⟨l + 1, num', by omega, ?_, ?_⟩
      · rw [show k + 1 - (l + 1) = k - l by omega, h1]
        have := Nat.div_add_mod r0 (10 ^ k)
        calc (10 * num + r0 / 10 ^ k) * 10 ^ k + r0 % 10 ^ k = num * (10 ^ k * 10) + (10 ^ k * (r0 / 10 ^ k) + r0 % 10 ^ k) := by ring
          _ = _ := by rw [this, pow_succ]
      · rw [fracDigits, if_neg h0, List.cons_append, readDur_digit hd, if_pos rfl, h2, show j + 1 + l = j + (l + 1) by omega]

/-- reading a quotient followed by a unit -/
theorem readDur_quot (v k tot : Nat) (r : List Char) :
    ∃ l num fr, l ≤ k ∧ num * 10 ^ (k - l) = v ∧ readDur tot 0 0 false (quotText v k ++ r) = readDur tot num l fr r := by
  unfold quotText
  rw [List.append_assoc, readDur_decimal]
  by_cases h : v % 10 ^ k = 0
  · refine ⟨0, v / 10 ^ k, false, Nat.zero_le _, ?_, ?_⟩
    · have := Nat.div_add_mod v (10 ^ k)
      rw [Nat.sub_zero, Nat.mul_comm]; omega
    · rw [if_pos h]; rfl
  · rw [if_neg h]
    obtain ⟨l, num', hl, h1, h2⟩ := readDur_frac k (v % 10 ^ k) (Nat.mod_lt _ (by positivity)) tot (v / 10 ^ k) 0 r
    refine ⟨l, num', true, hl, ?_, ?_⟩
    · have := Nat.div_add_mod v (10 ^ k)
      rw [h1, Nat.mul_comm]; exact this
    · rw [Nat.zero_add] at h2
      rw [← h2]; rfl

theorem exact_div {num k l v : Nat} (hl : l ≤ k) (h : num * 10 ^ (k - l) = v) : num * 10 ^ k / 10 ^ l = v := by
  have : num * 10 ^ k = v * 10 ^ l := by
    rw [← h, Nat.mul_assoc, ← Nat.pow_add, Nat.sub_add_cancel hl]
  rw [this, Nat.mul_div_cancel _ (by positivity)]

theorem readDur_inSeconds (buf : List Char) (v tot : Nat) :
    ∃ t, formatNsInSeconds buf v = buf ++ t ∧ readDur tot 0 0 false t = some (tot + v) := by
  unfold formatNsInSeconds
  split
  · refine ⟨decimal v ++ ['n', 's'], by rw [List.append_assoc], ?_⟩
    rw [readDur_decimal]
    show readDur (tot + v / 10 ^ 0) 0 0 false [] = _
    rw [pow_zero, Nat.div_one]; rfl
  split
  · refine ⟨quotText v 3 ++ ['µ', 's'], by rw [List.append_assoc], ?_⟩
    obtain ⟨l, num, fr, h1, h2, h3⟩ := readDur_quot v 3 tot ['µ', 's']
    rw [h3]
    show readDur (tot + num * 10 ^ 3 / 10 ^ l) 0 0 false [] = _
    rw [exact_div h1 h2]; rfl
  · refine ⟨quotText v 6 ++ ['m', 's'], by rw [List.append_assoc], ?_⟩
    obtain ⟨l, num, fr, h1, h2, h3⟩ := readDur_quot v 6 tot ['m', 's']
    rw [h3]
    show readDur (tot + num * 10 ^ 6 / 10 ^ l) 0 0 false [] = _
    rw [exact_div h1 h2]; rfl

theorem decimal_head_ne_s (n : Nat) (r : List Char) : ∀ t, decimal n ++ r ≠ 's' :: t := by
  intro t h
  cases hd : decimal n with
  | nil => exact decimal_ne_nil n hd
  | cons c cs =>
    rw [hd, List.cons_append, List.cons.injEq] at h
    obtain ⟨d, h1, h2⟩ := decimal_chars n c (by rw [hd]; exact List.mem_cons_self)
    rw [h2] at h
    exact absurd h.1 (by interval_cases d <;> decide)

theorem readDur_m (tot num : Nat) (r : List Char) (h : ∀ t, r ≠ 's' :: t) :
    readDur tot num 0 false ('m' :: r) = readDur (tot + num * 60000000000) 0 0 false r := by
  cases r with
  | nil =>
    show readDur (tot + num * 60000000000 / 10 ^ 0) 0 0 false [] = _
    rw [pow_zero, Nat.div_one]
  | cons c r =>
    rw [readDur]
    · rw [pow_zero, Nat.div_one]
    · intro r' h'; exact h _ h'

theorem readDur_h (tot num : Nat) (r : List Char) :
    readDur tot num 0 false ('h' :: r) = readDur (tot + num * 3600000000000) 0 0 false r := by
  rw [readDur, pow_zero, Nat.div_one]

/-- the text after hours and minutes -/
theorem readDur_tail (buf : List Char) (v tot : Nat) :
    ∃ t, formatNsSeconds v buf = buf ++ t ∧ readDur tot 0 0 false t = some (tot + v) ∧ ∀ t', t ≠ 's' :: t' := by
  unfold formatNsSeconds
  by_cases h0 : 0 < v
  · rw [if_pos h0]
    split
    · obtain ⟨t, h1, h2⟩ := readDur_inSeconds buf v tot
      refine ⟨t, h1, h2, ?_⟩
      intro t' he
      have h3 : t = formatNsInSeconds [] v := by
        have : formatNsInSeconds buf v = buf ++ formatNsInSeconds [] v := by
          unfold formatNsInSeconds
          split
          · simp
          split <;> simp
        rw [this] at h1
        exact (List.append_cancel_left h1).symm
      rw [h3] at he
      unfold formatNsInSeconds quotText at he
      split at he
      · rw [List.nil_append] at he; exact decimal_head_ne_s _ _ _ he
      split at he
      · rw [List.nil_append, List.append_assoc] at he; exact decimal_head_ne_s _ _ _ he
      · rw [List.nil_append, List.append_assoc] at he; exact decimal_head_ne_s _ _ _ he
    · refine ⟨quotText v 9 ++ ['s'], by rw [List.append_assoc], ?_, ?_⟩
      · obtain ⟨l, num, fr, h1, h2, h3⟩ := readDur_quot v 9 tot ['s']
        rw [h3, readDur, readDur, show num * 1000000000 / 10 ^ l = v from exact_div (k := 9) h1 h2]
      · intro t' he
        rw [quotText, List.append_assoc] at he
        exact decimal_head_ne_s _ _ _ he
  · rw [if_neg h0]
    refine ⟨[], (List.append_nil _).symm, ?_, fun t' h => by cases h⟩
    have : v = 0 := by omega
    rw [this]; rfl

theorem readDur_minutes (buf : List Char) (v tot : Nat) :
    ∃ t, formatNsMinutes v buf = buf ++ t ∧ readDur tot 0 0 false t = some (tot + v) := by
  unfold formatNsMinutes
  split
  · dsimp only
    obtain ⟨t, h1, h2, h3⟩ := readDur_tail (buf ++ decimal (v / 60000000000) ++ ['m']) (v - v / 60000000000 * 60000000000)
      (tot + v / 60000000000 * 60000000000)
    refine ⟨decimal (v / 60000000000) ++ ('m' :: t), ?_, ?_⟩
    · rw [h1, List.append_assoc, List.append_assoc, List.singleton_append]
    · rw [readDur_decimal, readDur_m _ _ _ h3, h2]
      exact congrArg some (by omega)
  · obtain ⟨t, h1, h2, -⟩ := readDur_tail buf v tot
    exact ⟨t, h1, h2⟩

/-- **A printed duration denotes the duration**: no nanosecond is lost, whatever units are chosen -/
theorem C105_format_nanoseconds (n : Nat) : readDur 0 0 0 false (formatNanoseconds n) = some n := by
  unfold formatNanoseconds
  by_cases h0 : n = 0
  · rw [if_pos h0, h0]; rfl
  rw [if_neg h0]
  split
  · obtain ⟨t, h1, h2⟩ := readDur_inSeconds [] n 0
    rw [h1, List.nil_append, h2, Nat.zero_add]
  split
  · dsimp only
    obtain ⟨t, h1, h2⟩ := readDur_minutes ([] ++ decimal (n / 3600000000000) ++ ['h']) (n - n / 3600000000000 * 3600000000000)
      (n / 3600000000000 * 3600000000000)
    rw [h1, List.nil_append, List.append_assoc, readDur_decimal, List.singleton_append, readDur_h, Nat.zero_add, h2]
    exact congrArg some (by omega)
  · obtain ⟨t, h1, h2⟩ := readDur_minutes [] n 0
    rw [h1, List.nil_append, h2, Nat.zero_add]

/-- a number with a unit, omitted if zero -/
def partText (n : Nat) (u : Char) : List Char := if n = 0 then [] else decimal n ++ [u]

/-- the seconds of a duration below one minute -/
def secondsText (r : Nat) : List Char :=
  if r = 0 then [] else if r < 1000 then decimal r ++ ['n', 's'] else if r < 10 ^ 6 then quotText r 3 ++ ['µ', 's']
  else if r < 10 ^ 9 then quotText r 6 ++ ['m', 's'] else quotText r 9 ++ ['s']

theorem seconds_eq (buf : List Char) (v : Nat) : formatNsSeconds v buf = buf ++ secondsText v := by
  unfold formatNsSeconds secondsText formatNsInSeconds
  by_cases h0 : v = 0
  · rw [if_neg (by omega), if_pos h0, List.append_nil]
  · rw [if_pos (by omega), if_neg h0]
    by_cases h1 : v < 1000
    · rw [if_pos (by omega), if_pos h1, if_pos h1, List.append_assoc]
    · by_cases h2 : v < 1000000
      · rw [if_pos (by omega), if_neg h1, if_neg h1, if_pos h2, if_pos (by omega), List.append_assoc]
      · by_cases h3 : v < 1000000000
        · rw [if_pos h3, if_neg h1, if_neg h1, if_neg h2, if_neg (by omega : ¬ v < 10 ^ 6), if_pos (by omega), List.append_assoc]
        · rw [if_neg h3, if_neg h1, if_neg (by omega : ¬ v < 10 ^ 6), if_neg (by omega : ¬ v < 10 ^ 9), List.append_assoc]

theorem minutes_eq (buf : List Char) (v : Nat) (hv : v < 3600000000000) :
    formatNsMinutes v buf = buf ++ partText (v / 60000000000 % 60) 'm' ++ secondsText (v % 60000000000) := by
  unfold formatNsMinutes
  by_cases h1 : 60000000000 ≤ v
  · rw [if_pos h1]
    dsimp only
    rw [seconds_eq]
    rw [show v / 60000000000 % 60 = v / 60000000000 by omega, show v - v / 60000000000 * 60000000000 = v % 60000000000 by omega,
      show partText (v / 60000000000) 'm' = decimal (v / 60000000000) ++ ['m'] from if_neg (by omega), ← List.append_assoc]
  · rw [if_neg h1, seconds_eq]
    rw [show partText (v / 60000000000 % 60) 'm' = [] from if_pos (by omega), List.append_nil, show v % 60000000000 = v by omega]

/-- **The units of a printed duration**: hours, minutes below sixty, and the remainder below one minute in the largest unit not exceeding
it; zero parts are omitted -/
theorem C105_format_nanoseconds_units {n : Nat} (h : n ≠ 0) :
    formatNanoseconds n = partText (n / 3600000000000) 'h' ++ partText (n / 60000000000 % 60) 'm' ++ secondsText (n % 60000000000) := by
  unfold formatNanoseconds
  rw [if_neg h]
  by_cases h1 : n < 1000000000
  · rw [if_pos h1]
    have := seconds_eq [] n
    unfold formatNsSeconds at this
    rw [if_pos (by omega), if_pos h1] at this
    rw [this, show partText (n / 3600000000000) 'h' = [] from if_pos (by omega),
      show partText (n / 60000000000 % 60) 'm' = [] from if_pos (by omega), show n % 60000000000 = n by omega, List.append_nil]
  · rw [if_neg h1]
    by_cases h2 : 3600000000000 ≤ n
    · rw [if_pos h2]
      dsimp only
      rw [minutes_eq _ _ (by omega)]
      rw [show (n - n / 3600000000000 * 3600000000000) / 60000000000 % 60 = n / 60000000000 % 60 by omega,
        show (n - n / 3600000000000 * 3600000000000) % 60000000000 = n % 60000000000 by omega,
        show partText (n / 3600000000000) 'h' = decimal (n / 3600000000000) ++ ['h'] from if_neg (by omega), List.nil_append]
    · rw [if_neg h2, minutes_eq _ _ (by omega), show partText (n / 3600000000000) 'h' = [] from if_pos (by omega)]

/-- **Different durations are printed differently** -/
theorem C105_format_nanoseconds_injective {a b : Nat} (h : formatNanoseconds a = formatNanoseconds b) : a = b := by
  have ha := C105_format_nanoseconds a
  rw [h, C105_format_nanoseconds b] at ha
  exact (Option.some.inj ha).symm

example : formatNanoseconds 3723000000000 = "1h2m3s".toList := by decide +kernel
example : formatNanoseconds 2500 = "2.5µs".toList := by decide +kernel
example : formatNanoseconds 3600000000001 = "1h1ns".toList := by decide +kernel
example : formatNanoseconds 61020000000 = "1m1.02s".toList := by decide +kernel
example : readDur 0 0 0 false "1h2m3s".toList = some 3723000000000 := by decide +kernel

end Russell.Lab
