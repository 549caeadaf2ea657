import Verif.Prelude
import Mathlib.Tactic.SplitIfs
import Mathlib.Tactic.IntervalCases

/-!
# Text: lines, tokens and integers

A file is a list of characters (files that are not valid UTF-8 are not modelled).
-/

namespace Russell.Text

open Russell Russell.Res

/-- Unicode `White_Space`, the characters separating the tokens of `str::split_whitespace` -/
def isWs (c : Char) : Bool :=
  let n := c.toNat
  (9 ≤ n && n ≤ 13) || n == 32 || n == 0x85 || n == 0xA0 || n == 0x1680 || (0x2000 ≤ n && n ≤ 0x200A) || n == 0x2028 ||
    n == 0x2029 || n == 0x202F || n == 0x205F || n == 0x3000

/-- `str::trim_start` -/
def trimStart (s : List Char) : List Char := s.dropWhile isWs

/-- the tokens of `cur ++ s`, where `cur` has no white space -/
def splitAux : List Char → List Char → List (List Char)
  | cur, [] => if cur = [] then [] else [cur]
  | cur, c :: cs =>
    if isWs c then (if cur = [] then splitAux [] cs else cur :: splitAux [] cs)
    else splitAux (cur ++ [c]) cs

/-- `str::split_whitespace` -/
def splitWs (s : List Char) : List (List Char) := splitAux [] s

/-- a token: something with neither spaces nor line ends -/
def Token (t : List Char) : Prop := t ≠ [] ∧ ∀ c ∈ t, isWs c = false

theorem splitAux_append {t : List Char} (ht : ∀ c ∈ t, isWs c = false) (cur rest : List Char) :
    splitAux cur (t ++ rest) = splitAux (cur ++ t) rest := by
  induction t generalizing cur with
  | nil => simp
  | cons c t ih =>
    rw [List.cons_append, splitAux, if_neg (by simp [ht c List.mem_cons_self]),
      ih (fun d hd => ht d (List.mem_cons_of_mem _ hd))]
    simp

theorem splitWs_token {t : List Char} (h : Token t) : splitWs t = [t] := by
  have := splitAux_append h.2 [] []
  simp only [List.append_nil, List.nil_append] at this
  rw [splitWs, this, splitAux, if_neg h.1]

theorem splitWs_cons {t : List Char} (h : Token t) {c : Char} (hc : isWs c = true) (rest : List Char) :
    splitWs (t ++ c :: rest) = t :: splitWs rest := by
  rw [splitWs, splitAux_append h.2, List.nil_append, splitAux, if_pos hc, if_neg h.1]
  rfl

theorem splitAux_tokens : ∀ (s cur : List Char), (∀ c ∈ cur, isWs c = false) → ∀ t ∈ splitAux cur s, Token t := by
  intro s
  induction s with
  | nil =>
    intro cur hcur t ht
    rw [splitAux] at ht
    split_ifs at ht with h
    · simp at ht
    · rw [List.mem_singleton.1 ht]; exact ⟨h, hcur⟩
  | cons c s ih =>
    intro cur hcur t ht
    rw [splitAux] at ht
    split_ifs at ht with h1 h2
    · exact ih [] (by simp) t ht
    · rcases List.mem_cons.1 ht with rfl | ht
      · exact ⟨h2, hcur⟩
      · exact ih [] (by simp) t ht
    · refine ih (cur ++ [c]) ?_ t ht
      intro d hd
      rcases List.mem_append.1 hd with hd | hd
      · exact hcur d hd
      · rw [List.mem_singleton.1 hd]; simpa using h1

/-- leading white space does not matter -/
theorem splitWs_trimStart (s : List Char) : splitWs (trimStart s) = splitWs s := by
  unfold splitWs trimStart
  induction s with
  | nil => rfl
  | cons c s ih =>
    by_cases h : isWs c = true
    · rw [List.dropWhile_cons, if_pos h, ih]
      conv => rhs; rw [splitAux, if_pos h, if_pos rfl]
    · rw [List.dropWhile_cons, if_neg h]

theorem trimStart_eq_nil_iff {s : List Char} : trimStart s = [] ↔ splitWs s = [] := by
  unfold splitWs trimStart
  induction s with
  | nil => simp [splitAux]
  | cons c s ih =>
    by_cases h : isWs c = true
    · rw [List.dropWhile_cons, if_pos h, ih, splitAux, if_pos h, if_pos rfl]
    · rw [List.dropWhile_cons, if_neg h, splitAux, if_neg h]
      constructor
      · intro h'; cases h'
      · intro h'
        exfalso
        have : ∀ (s cur : List Char), cur ≠ [] → splitAux cur s ≠ [] := by
          intro s
          induction s with
          | nil => intro cur hc; rw [splitAux, if_neg hc]; simp
          | cons d s ih =>
            intro cur hc
            rw [splitAux]
            split_ifs
            · simp
            · exact ih _ (by simp)
        exact this s ([] ++ [c]) (by simp) h'

/-! ## lines -/

/-- `BufRead::lines`: lines end with `\n` or `\r\n`; the last line may lack the end -/
def linesAux : List Char → List Char → List (List Char)
  | cur, [] => if cur = [] then [] else [cur]
  | cur, c :: cs =>
    if c = '\n' then (if cur.getLast? = some '\r' then cur.dropLast else cur) :: linesAux [] cs
    else linesAux (cur ++ [c]) cs

def linesOf (s : List Char) : List (List Char) := linesAux [] s

theorem linesAux_append {t : List Char} (ht : '\n' ∉ t) (cur rest : List Char) :
    linesAux cur (t ++ rest) = linesAux (cur ++ t) rest := by
  induction t generalizing cur with
  | nil => simp
  | cons c t ih =>
    rw [List.cons_append, linesAux, if_neg (by rintro rfl; simp at ht), ih (fun h => ht (List.mem_cons_of_mem _ h))]
    simp

/-- text made of lines -/
def unlines (ls : List (List Char)) : List Char := ls.flatMap fun l => l ++ ['\n']

theorem linesOf_unlines {ls : List (List Char)} (h : ∀ l ∈ ls, '\n' ∉ l ∧ l.getLast? ≠ some '\r') : linesOf (unlines ls) = ls := by
  induction ls with
  | nil => rfl
  | cons l ls ih =>
    obtain ⟨h1, h2⟩ := h l List.mem_cons_self
    have h3 := ih (fun l' h' => h l' (List.mem_cons_of_mem _ h'))
    unfold linesOf unlines at *
    rw [List.flatMap_cons, List.append_assoc, linesAux_append h1, List.nil_append, List.singleton_append, linesAux, if_pos rfl, if_neg h2, h3]

theorem unlines_append (a b : List (List Char)) : unlines (a ++ b) = unlines a ++ unlines b := by
  simp [unlines]

/-! ## integers -/

def digitVal (c : Char) : Option Nat := if 48 ≤ c.toNat ∧ c.toNat ≤ 57 then some (c.toNat - 48) else none

def parseDigits : Nat → List Char → Option Nat
  | acc, [] => some acc
  | acc, c :: cs => match digitVal c with
    | some d => parseDigits (10 * acc + d) cs
    | none => none

/-- range check of `i32` -/
def inI32 (v : Int) : Option Int := if -2147483648 ≤ v ∧ v ≤ 2147483647 then some v else none

/-- `str::parse::<i32>`: an optional sign, at least one digit, and a value within range -/
def parseI32 (s : List Char) : Option Int :=
  match s with
  | [] => none
  | '-' :: ds => if ds = [] then none else (parseDigits 0 ds).bind fun v => inI32 (-(v : Int))
  | '+' :: ds => if ds = [] then none else (parseDigits 0 ds).bind fun v => inI32 (v : Int)
  | ds => (parseDigits 0 ds).bind fun v => inI32 (v : Int)

def digitChar (d : Nat) : Char := Char.ofNat (48 + d)

def decimalAux : Nat → Nat → List Char
  | 0, _ => []
  | k + 1, n => (if n < 10 then [] else decimalAux k (n / 10)) ++ [digitChar (n % 10)]

/-- `{}` of a `usize` -/
def decimal (n : Nat) : List Char := decimalAux (n + 1) n

theorem digitChar_val {d : Nat} (h : d < 10) : digitVal (digitChar d) = some d := by
  interval_cases d <;> rfl

theorem digitChar_ws {d : Nat} (h : d < 10) : isWs (digitChar d) = false := by
  interval_cases d <;> rfl

theorem digitChar_special {d : Nat} (h : d < 10) : digitChar d ≠ '-' ∧ digitChar d ≠ '+' ∧ digitChar d ≠ '%' ∧ digitChar d ≠ '\n' ∧
    digitChar d ≠ '\r' := by
  interval_cases d <;> decide

theorem decimalAux_chars (k n : Nat) : ∀ c ∈ decimalAux k n, ∃ d, d < 10 ∧ c = digitChar d := by
  induction k generalizing n with
  | zero => simp [decimalAux]
  | succ k ih =>
    intro c hc
    rw [decimalAux] at hc
    rcases List.mem_append.1 hc with hc | hc
    · split_ifs at hc
      · simp at hc
      · exact ih _ c hc
    · rw [List.mem_singleton] at hc
      exact ⟨n % 10, Nat.mod_lt _ (by omega), hc⟩

theorem decimal_chars (n : Nat) : ∀ c ∈ decimal n, ∃ d, d < 10 ∧ c = digitChar d := decimalAux_chars _ _

theorem decimal_ne_nil (n : Nat) : decimal n ≠ [] := by
  rw [decimal, decimalAux]; simp

theorem decimal_token (n : Nat) : Token (decimal n) := by
  refine ⟨decimal_ne_nil n, ?_⟩
  intro c hc
  obtain ⟨d, hd, rfl⟩ := decimal_chars n c hc
  exact digitChar_ws hd

theorem parseDigits_append (a b : List Char) (acc : Nat) :
    parseDigits acc (a ++ b) = (parseDigits acc a).bind fun v => parseDigits v b := by
  induction a generalizing acc with
  | nil => rfl
  | cons c a ih =>
    rw [List.cons_append, parseDigits, parseDigits]
    cases digitVal c with
    | none => rfl
    | some d => exact ih _

theorem parseDigits_decimalAux (k n : Nat) (h : n < k) : parseDigits 0 (decimalAux k n) = some n := by
  induction k generalizing n with
  | zero => omega
  | succ k ih =>
    have hm : n % 10 < 10 := Nat.mod_lt _ (by omega)
    rw [decimalAux, parseDigits_append]
    by_cases h10 : n < 10
    · rw [if_pos h10]
      show parseDigits 0 [digitChar (n % 10)] = some n
      rw [parseDigits, digitChar_val hm]
      show some _ = _
      rw [Nat.mod_eq_of_lt h10]; simp
    · rw [if_neg h10, ih (n / 10) (by omega)]
      show parseDigits (n / 10) [digitChar (n % 10)] = some n
      rw [parseDigits, digitChar_val hm]
      show some _ = _
      congr 1; omega

theorem parseI32_decimal {n : Nat} (h : n < 2147483648) : parseI32 (decimal n) = some (n : Int) := by
  have h1 : parseDigits 0 (decimal n) = some n := parseDigits_decimalAux _ _ (by omega)
  have h2 := decimal_ne_nil n
  have h3 := decimal_chars n
  have h4 : inI32 (n : Int) = some (n : Int) := by
    unfold inI32; rw [if_pos (by omega)]
  cases hd : decimal n with
  | nil => exact absurd hd h2
  | cons c cs =>
    rw [hd] at h1 h3
    obtain ⟨d, hd10, rfl⟩ := h3 c List.mem_cons_self
    obtain ⟨k1, k2, -⟩ := digitChar_special hd10
    unfold parseI32
    split
    · rename_i h; cases h
    · rename_i h; rw [List.cons.injEq] at h; exact absurd h.1 k1
    · rename_i h; rw [List.cons.injEq] at h; exact absurd h.1 k2
    · rw [h1]; exact h4

example : parseI32 "2147483648".toList = none := by decide +kernel
example : parseI32 "-2147483648".toList = some (-2147483648) := by decide +kernel
example : parseI32 "+07".toList = some 7 := by decide +kernel
example : decimal 1203 = "1203".toList := by decide +kernel
example : splitWs "  a\tbc  d ".toList = ["a".toList, "bc".toList, "d".toList] := by decide +kernel
example : linesOf "a\r\n\nb".toList = ["a".toList, [], "b".toList] := by decide +kernel

end Russell.Text
