import Verif.Lab.Durations
import Verif.Lab.Dense
import Mathlib.Algebra.Order.Field.Basic
import Mathlib.Algebra.Order.Ring.Abs
import Mathlib.Tactic.FieldSimp

/-!
# Matrices and vectors printed as program text, scientific notation, mesh grids (property C105)

`mat_to_numpy`, `mat_to_mathematica`, `mat_to_static_array`, `vec_to_static_array`, `mat_write_vismatrix`, `format_scientific`,
`vec_fmt_scientific`, `generate2d` and `generate3d` of russell_lab.
-/

namespace Russell.Lab

open Russell Russell.Res Russell.Text Russell.Sparse

variable {α : Type}

/-! ## Models -/

/-- the loops over rows and columns shared by the functions below: `cls` closes the previous row, `opn` opens a row, `sep` separates the
entries -/
def nestLoop (opn sep cls : List Char) (disp : α → List Char) (a : NumMatrix α) (buf : List Char) : Res (List Char) :=
  forRange 0 a.nrow buf fun i buf =>
    let buf := if 0 < i then buf ++ cls else buf
    forRange 0 a.ncol buf fun j buf => do
      let buf := if j = 0 then buf ++ opn else buf ++ sep
      let val ← a.get i j
      ok (buf ++ disp val)

/-- `mat_to_numpy` (/repo/russell_lab/src/matrix/mat_to_numpy.rs:31-52); `disp` is the `{}` text of a number -/
def matToNumpy (disp : α → List Char) (name : List Char) (a : NumMatrix α) : Res (List Char) := do
  let buf := name ++ " = np.array([".toList
  let buf ← nestLoop "[".toList ",".toList "],".toList disp a buf
  ok (buf ++ "]],dtype=float)".toList)

/-- `mat_to_mathematica` (/repo/russell_lab/src/matrix/mat_to_mathematica.rs:31-52) -/
def matToMathematica (disp : α → List Char) (name : List Char) (a : NumMatrix α) : Res (List Char) := do
  let buf := name ++ " = {".toList
  let buf ← nestLoop "{".toList ",".toList "},".toList disp a buf
  ok (buf ++ "}};\n".toList)

/-- `mat_to_static_array` (/repo/russell_lab/src/matrix/mat_to_static_array.rs:37-61); `disp` is `format_scientific(val, 23, 15)` -/
def matToStaticArray (disp : α → List Char) (name : List Char) (a : NumMatrix α) : Res (List Char) := do
  let buf := "// ".toList ++ name ++ ": nrow = ".toList ++ decimal a.nrow ++ ", ncol = ".toList ++ decimal a.ncol ++ "\n".toList
  let buf := buf ++ "#[rustfmt::skip]\n".toList
  let buf := buf ++ "const ".toList ++ name ++ ": [[f64; ".toList ++ decimal a.ncol ++ "]; ".toList ++ decimal a.nrow ++ "] = [\n".toList
  let buf ← nestLoop "    [".toList ",".toList " ],\n".toList disp a buf
  ok (buf ++ " ],\n".toList ++ "];\n".toList)

/-- `vec_to_static_array` (/repo/russell_lab/src/vector/vec_to_static_array.rs:28-43) -/
def vecToStaticArray (disp : α → List Char) (name : List Char) (v : List α) : Res (List Char) := do
  let buf := "// ".toList ++ name ++ ": dim = ".toList ++ decimal v.length ++ "\n".toList
  let buf := buf ++ "#[rustfmt::skip]\n".toList
  let buf := buf ++ "const ".toList ++ name ++ ": [f64; ".toList ++ decimal v.length ++ "] = [\n".toList
  let buf := buf ++ "    ".toList
  let buf ← forRange 0 v.length buf fun i buf => do
    let buf := if 0 < i then buf ++ ",".toList else buf
    let x ← vget v i
    ok (buf ++ disp x)
  ok (buf ++ ",\n];\n".toList)

/-- the text written by `mat_write_vismatrix` (/repo/russell_lab/src/matrix/mat_write_vismatrix.rs:42-64); writing the file is not modelled;
`disp` is the `{:?}` text of a number -/
def visMatrix [Zero α] [LT α] [DecidableLT α] (abs : α → α) (disp : α → List Char) (a : NumMatrix α) (tol : α) : Res (List Char) :=
  if tol < 0 then err "tol must be ≥ 0"
  else do
    let (nnz, buffer) ← forRange 0 a.nrow (0, []) fun i s => forRange 0 a.ncol s fun j (nnz, buffer) => do
      let value ← a.get i j
      if tol < abs value then
        ok (nnz + 1, buffer ++ decimal i ++ " ".toList ++ decimal j ++ " ".toList ++ disp value ++ "\n".toList)
      else ok (nnz, buffer)
    let header := decimal a.nrow ++ " ".toList ++ decimal a.ncol ++ " ".toList ++ decimal nnz ++ "\n".toList
    ok (header ++ buffer)

/-- `{:>width$}` -/
def padLeft (width : Nat) (t : List Char) : List Char := List.replicate (width - t.length) ' ' ++ t

/-- `{:0>pad$}` -/
def padZero (width : Nat) (t : List Char) : List Char := List.replicate (width - t.length) '0' ++ t

/-- `format_scientific` (/repo/russell_lab/src/base/formatters.rs:153-169); `disp` is the `{}` text of the number and `sci` its `{:.p$e}` text -/
def formatScientific (finite : Bool) (disp sci : List Char) (width : Nat) : Res (List Char) :=
  if !finite then ok (padLeft width disp)
  else match sci.findIdx? (· = 'e') with
    | none => Res.panic
    | some pos =>
      let result := sci.take pos
      let exp := sci.drop pos
      let (sign, exp) := if ['e', '-'].isPrefixOf exp then ('-', exp.drop 2) else ('+', exp.drop 1)
      ok (padLeft width (result ++ ('E' :: sign :: padZero 2 exp)))

/-- `vec_fmt_scientific` (/repo/russell_lab/src/vector/vec_fmt_scientific.rs:25-60) on the texts of the components: `{:.p$e}` of each;
`fin` tells which are finite and `disp` their `{}` texts -/
def vecFmtScientific (fin : List Char → Bool) (disp : List Char → List Char) (u : List (List Char)) : Res (List Char) :=
  if u.length = 0 then ok "[]".toList
  else do
    let width ← forRange 0 u.length 0 fun i width => do
      let buf ← vget u i
      match buf.findIdx? (· = 'e') with
      | none => Res.panic
      | some pos => ok (max (buf.take pos).length width)
    let width := width + 4
    let width := width + 1
    let f := '┌' :: List.replicate (width + 1) ' ' ++ ['┐', '\n']
    let f ← forRange 0 u.length f fun i f => do
      let f := if 0 < i then f ++ [' ', '│', '\n'] else f
      let f := f ++ ['│']
      let x ← vget u i
      let t ← formatScientific (fin x) (disp x) x width
      ok (f ++ t)
    let f := f ++ [' ', '│', '\n']
    ok (f ++ '└' :: List.replicate (width + 1) ' ' ++ ['┘'])

/-- `generate3d` (/repo/russell_lab/src/base/generators.rs:112-154); `generate2d` (lines 39-65) is the same without the third matrix -/
def generate3d {K : Type} [Field K] (xmin xmax ymin ymax : K) (nx ny : Nat) (calcZ : K → K → K) :
    Res (NumMatrix K × NumMatrix K × NumMatrix K) :=
  let x := NumMatrix.new ny nx
  let y := NumMatrix.new ny nx
  let z := NumMatrix.new ny nx
  if nx = 0 ∨ ny = 0 then ok (x, y, z)
  else
    let dx := if nx = 1 then xmin else (xmax - xmin) / ((nx - 1 : Nat) : K)
    let dy := if ny = 1 then ymin else (ymax - ymin) / ((ny - 1 : Nat) : K)
    forRange 0 ny (x, y, z) fun i s =>
      let v := ymin + (i : K) * dy
      forRange 0 nx s fun j (x, y, z) => do
        let u := xmin + (j : K) * dx
        let x ← x.set i j u
        let y ← y.set i j v
        let z ← z.set i j (calcZ u v)
        ok (x, y, z)

/-! ## Joined texts -/

/-- texts with a separator between them -/
def joined (sep : List Char) : List (List Char) → List Char
  | [] => []
  | [x] => x
  | x :: y :: r => x ++ sep ++ joined sep (y :: r)

theorem joined_snoc (sep : List Char) (l : List (List Char)) (x : List Char) (h : l ≠ []) :
    joined sep (l ++ [x]) = joined sep l ++ sep ++ x := by
  induction l with
  | nil => exact absurd rfl h
  | cons a l ih =>
    cases l with
    | nil => simp [joined]
    | cons b l =>
      have := ih (by simp)
      simp only [List.cons_append] at this ⊢
      rw [joined, this, joined]
      simp

/-- the text of `n` entries with separators -/
theorem joined_range (sep : List Char) (g : Nat → List Char) (n : Nat) :
    joined sep ((List.range (n + 1)).map g) = (if n = 0 then [] else joined sep ((List.range n).map g) ++ sep) ++ g n := by
  rw [List.range_succ, List.map_append, List.map_singleton]
  cases n with
  | zero => rfl
  | succ n => rw [joined_snoc _ _ _ (by simp [List.range_succ]), if_neg (by omega)]

/-- the text of the rows -/
def rowsText (opn sep cls : List Char) (m n : Nat) (g : Nat → Nat → List Char) : List Char :=
  joined cls ((List.range m).map fun i => opn ++ joined sep ((List.range n).map (g i)))

theorem nestLoop_spec (opn sep cls : List Char) (disp : α → List Char) {a : NumMatrix α} {m n : Nat} {f : Nat → Nat → α}
    (ha : IsDense a m n f) (hn : 0 < n) (buf : List Char) :
    nestLoop opn sep cls disp a buf = ok (buf ++ rowsText opn sep cls m n fun i j => disp (f i j)) := by
  unfold nestLoop
  rw [ha.nrow, ha.ncol]
  obtain ⟨r, h1, h2⟩ := forRange_spec (f := fun i buf => forRange 0 n (if 0 < i then buf ++ cls else buf) fun j buf => do
      let buf := if j = 0 then buf ++ opn else buf ++ sep
      let val ← a.get i j
      ok (buf ++ disp val)) (fun k b => b = buf ++ rowsText opn sep cls k n fun i j => disp (f i j)) (Nat.zero_le m) (s := buf)
    (by simp [rowsText, joined]) (by
    intro k b _ hk hb
    obtain ⟨r, h1, h2⟩ := forRange_spec (f := fun j buf => do
        let buf := if j = 0 then buf ++ opn else buf ++ sep
        let val ← a.get k j
        ok (buf ++ disp val))
      (fun j c => c = (if 0 < k then b ++ cls else b) ++ (if j = 0 then [] else opn ++ joined sep ((List.range j).map fun j => disp (f k j))))
      (Nat.zero_le n) (s := if 0 < k then b ++ cls else b) (by simp) (by
      intro j c _ hj hc
      refine ⟨_, by rw [ha.get k j hk hj]; rfl, ?_⟩
      rw [hc, if_neg (by omega : ¬ j + 1 = 0), joined_range]
      by_cases h0 : j = 0
      · simp [h0]
      · simp [h0])
    refine ⟨r, h1, ?_⟩
    rw [h2, if_neg (by omega : ¬ n = 0), hb]
    show _ = buf ++ rowsText opn sep cls (k + 1) n fun i j => disp (f i j)
    unfold rowsText
    rw [joined_range]
    by_cases h0 : k = 0
    · simp [h0, joined]
    · rw [if_pos (by omega : 0 < k), if_neg h0]; simp)
  rw [show forRange 0 m buf _ = _ from h1, h2]

theorem joined_close (sep c : List Char) (g : Nat → List Char) (m : Nat) (hm : 0 < m) :
    joined (c ++ sep) ((List.range m).map g) ++ c = joined sep ((List.range m).map fun i => g i ++ c) := by
  obtain ⟨m, rfl⟩ : ∃ k, m = k + 1 := ⟨m - 1, by omega⟩
  induction m with
  | zero => simp [joined]
  | succ m ih =>
    rw [joined_range sep _ (m + 1), joined_range (c ++ sep) g (m + 1), if_neg (by omega), if_neg (by omega), ← ih (by omega)]
    simp

theorem joined_nil_sep (g : Nat → List Char) (m : Nat) : joined [] ((List.range m).map g) = (List.range m).flatMap g := by
  induction m with
  | zero => rfl
  | succ m ih =>
    rw [joined_range, ih, List.range_succ, List.flatMap_append, List.flatMap_singleton]
    cases m with
    | zero => rfl
    | succ m => rw [if_neg (by omega), List.append_nil]

/-- **`mat_to_numpy`** writes the nested list of the rows -/
theorem C105_mat_to_numpy (disp : α → List Char) (name : List Char) {a : NumMatrix α} {m n : Nat} {f : Nat → Nat → α}
    (ha : IsDense a m n f) (hm : 0 < m) (hn : 0 < n) :
    matToNumpy disp name a = ok (name ++ " = np.array([".toList ++
      joined ",".toList ((List.range m).map fun i =>
        "[".toList ++ joined ",".toList ((List.range n).map fun j => disp (f i j)) ++ "]".toList) ++ "],dtype=float)".toList) := by
  unfold matToNumpy
  dsimp only
  rw [nestLoop_spec _ _ _ _ ha hn, ok_bind, rowsText, ← joined_close _ _ _ _ hm]
  simp

/-- **`mat_to_mathematica`** writes the nested list of the rows -/
theorem C105_mat_to_mathematica (disp : α → List Char) (name : List Char) {a : NumMatrix α} {m n : Nat} {f : Nat → Nat → α}
    (ha : IsDense a m n f) (hm : 0 < m) (hn : 0 < n) :
    matToMathematica disp name a = ok (name ++ " = {".toList ++
      joined ",".toList ((List.range m).map fun i =>
        "{".toList ++ joined ",".toList ((List.range n).map fun j => disp (f i j)) ++ "}".toList) ++ "};\n".toList) := by
  unfold matToMathematica
  dsimp only
  rw [nestLoop_spec _ _ _ _ ha hn, ok_bind, rowsText, ← joined_close _ _ _ _ hm]
  simp

/-- **`mat_to_static_array`** writes a Rust constant with one line for every row -/
theorem C105_mat_to_static_array (disp : α → List Char) (name : List Char) {a : NumMatrix α} {m n : Nat} {f : Nat → Nat → α}
    (ha : IsDense a m n f) (hm : 0 < m) (hn : 0 < n) :
    matToStaticArray disp name a = ok ("// ".toList ++ name ++ ": nrow = ".toList ++ decimal m ++ ", ncol = ".toList ++ decimal n ++
      "\n#[rustfmt::skip]\nconst ".toList ++ name ++ ": [[f64; ".toList ++ decimal n ++ "]; ".toList ++ decimal m ++ "] = [\n".toList ++
      ((List.range m).flatMap fun i =>
        "    [".toList ++ joined ",".toList ((List.range n).map fun j => disp (f i j)) ++ " ],\n".toList) ++ "];\n".toList) := by
  unfold matToStaticArray
  dsimp only
  rw [nestLoop_spec _ _ _ _ ha hn, ok_bind, rowsText, ha.nrow, ha.ncol, ← joined_nil_sep, ← joined_close _ _ _ _ hm]
  simp

/-- **`vec_to_static_array`** writes a Rust constant with the components on one line -/
theorem C105_vec_to_static_array (disp : α → List Char) (name : List Char) (v : List α) :
    vecToStaticArray disp name v = ok ("// ".toList ++ name ++ ": dim = ".toList ++ decimal v.length ++
      "\n#[rustfmt::skip]\nconst ".toList ++ name ++ ": [f64; ".toList ++ decimal v.length ++ "] = [\n    ".toList ++
      joined ",".toList (v.map disp) ++ ",\n];\n".toList) := by
  unfold vecToStaticArray
  dsimp only
  set b0 := "// ".toList ++ name ++ ": dim = ".toList ++ decimal v.length ++ "\n".toList ++ "#[rustfmt::skip]\n".toList ++
    "const ".toList ++ name ++ ": [f64; ".toList ++ decimal v.length ++ "] = [\n".toList ++ "    ".toList with hb0
  obtain ⟨r, h1, h2⟩ := forRange_spec (f := fun i buf => do
      let x ← vget v i
      ok ((if 0 < i then buf ++ ",".toList else buf) ++ disp x))
    (fun k b => b = b0 ++ joined ",".toList ((v.take k).map disp)) (Nat.zero_le v.length) (s := b0) (by simp [joined]) (by
    intro k b _ hk hb
    refine ⟨_, by rw [vget_lt hk]; rfl, ?_⟩
    rw [hb, List.take_succ_eq_append_getElem hk, List.map_append, List.map_singleton]
    by_cases h0 : k = 0
    · subst h0; simp [joined]
    · rw [joined_snoc _ _ _ (by simp; constructor; exact h0; rintro rfl; simp at hk), if_pos (by omega)]
      simp)
  rw [show forRange 0 v.length b0 _ = _ from h1, ok_bind, h2, List.take_length, hb0]
  simp

/-! ## VisMatrix -/

/-- the line of an entry -/
def visLine (disp : α → List Char) (i j : Nat) (x : α) : List Char :=
  decimal i ++ " ".toList ++ decimal j ++ " ".toList ++ disp x

/-- **`mat_write_vismatrix`** writes the dimensions and the number of entries above the tolerance in absolute value, then one line for each
of these entries, in row-major order -/
theorem C105_vismatrix [Field α] [LinearOrder α] [IsStrictOrderedRing α] (disp : α → List Char) {a : NumMatrix α} {m n : Nat}
    {f : Nat → Nat → α} (ha : IsDense a m n f) {tol : α} (ht : 0 ≤ tol) :
    let entries := (List.range m).flatMap fun i =>
      ((List.range n).filter fun j => decide (tol < |f i j|)).map fun j => visLine disp i j (f i j)
    visMatrix (fun x => |x|) disp a tol = ok (unlines
      ((decimal m ++ " ".toList ++ decimal n ++ " ".toList ++ decimal entries.length) :: entries)) := by
  intro entries
  unfold visMatrix
  rw [if_neg (not_lt.2 ht), ha.nrow, ha.ncol]
  set row : Nat → Nat → List (List Char) := fun i c =>
    ((List.range c).filter fun j => decide (tol < |f i j|)).map fun j => visLine disp i j (f i j) with hrow
  obtain ⟨⟨nnz, buf⟩, h1, h2, h3⟩ := forRange_spec (f := fun i (s : Nat × List Char) => forRange 0 n s fun j (nnz, buffer) => do
      let value ← a.get i j
      if tol < |value| then
        ok (nnz + 1, buffer ++ decimal i ++ " ".toList ++ decimal j ++ " ".toList ++ disp value ++ "\n".toList)
      else ok (nnz, buffer))
    (fun k (s : Nat × List Char) => s.1 = ((List.range k).flatMap fun i => row i n).length ∧
      s.2 = unlines ((List.range k).flatMap fun i => row i n)) (Nat.zero_le m) (s := (0, [])) ⟨rfl, rfl⟩ (by
    intro k s _ hk hs
    obtain ⟨r, h1, h2⟩ := forRange_spec (f := fun j (s : Nat × List Char) => do
        let value ← a.get k j
        if tol < |value| then
          ok (s.1 + 1, s.2 ++ decimal k ++ " ".toList ++ decimal j ++ " ".toList ++ disp value ++ "\n".toList)
        else ok (s.1, s.2))
      (fun c (t : Nat × List Char) => t.1 = s.1 + (row k c).length ∧ t.2 = s.2 ++ unlines (row k c)) (Nat.zero_le n) (s := s)
      (by simp [hrow, unlines]) (by
      intro j t _ hj htt
      have hr : row k (j + 1) = row k j ++ (if tol < |f k j| then [visLine disp k j (f k j)] else []) := by
        rw [hrow]
        dsimp only
        rw [List.range_succ, List.filter_append, List.map_append]
        congr 1
        by_cases hc : tol < |f k j|
        · rw [if_pos hc]; simp [hc]
        · rw [if_neg hc]; simp [hc]
      rw [ha.get k j hk hj, ok_bind]
      by_cases hc : tol < |f k j|
      · rw [if_pos hc]
        refine ⟨_, rfl, ?_, ?_⟩
        · rw [hr, if_pos hc, List.length_append, htt.1]; rfl
        · rw [hr, if_pos hc, unlines_append, htt.2]
          simp [visLine, unlines]
      · rw [if_neg hc]
        refine ⟨_, rfl, ?_, ?_⟩
        · rw [hr, if_neg hc, List.append_nil, htt.1]
        · rw [hr, if_neg hc, List.append_nil, htt.2])
    refine ⟨r, h1, ?_, ?_⟩
    · rw [h2.1, hs.1, List.range_succ, List.flatMap_append, List.length_append, List.flatMap_singleton]
    · rw [h2.2, hs.2, List.range_succ, List.flatMap_append, unlines_append, List.flatMap_singleton])
  rw [show forRange 0 m ((0, []) : Nat × List Char) _ = _ from h1, ok_bind]
  dsimp only at h2 h3 ⊢
  rw [h2, h3]
  show ok _ = ok _
  congr 1

/-- a negative tolerance is an error -/
theorem C105_vismatrix_tol [Field α] [LinearOrder α] [IsStrictOrderedRing α] (disp : α → List Char) (a : NumMatrix α) {tol : α} (ht : tol < 0) :
    visMatrix (fun x => |x|) disp a tol = err "tol must be ≥ 0" := by
  rw [visMatrix, if_pos ht]

/-! ## Scientific notation -/

/-- the text of `{:.p$e}`: mantissa, `e`, and the exponent -/
def sciText (m : List Char) (x : Int) : List Char := m ++ 'e' :: (if x < 0 then '-' :: decimal x.natAbs else decimal x.natAbs)

/-- the same number with at least two digits and a sign in the exponent -/
def sciForm (m : List Char) (x : Int) : List Char :=
  m ++ 'E' :: (if x < 0 then '-' else '+') :: ((if x.natAbs < 10 then ['0'] else []) ++ decimal x.natAbs)

theorem decimalAux_length (d : Nat) (hd : 0 < d) (k n : Nat) (h : n < 10 ^ d) : (decimalAux k n).length ≤ d := by
  induction d generalizing k n with
  | zero => omega
  | succ d ih =>
    cases k with
    | zero => simp [decimalAux]
    | succ k =>
      rw [decimalAux, List.length_append]
      by_cases h10 : n < 10
      · rw [if_pos h10]; simp
      · rw [if_neg h10]
        have hd : 0 < d := by
          rcases Nat.eq_zero_or_pos d with h0 | h0
          · subst h0; omega
          · exact h0
        have := ih hd k (n / 10) (by rw [pow_succ] at h; omega)
        simp; omega

theorem decimal_length_small {n : Nat} (h : n < 10) : (decimal n).length = 1 := by
  rw [decimal, decimalAux, if_pos h]; rfl

theorem decimal_length_big {n : Nat} (h : ¬ n < 10) : 2 ≤ (decimal n).length := by
  obtain ⟨k, rfl⟩ : ∃ k, n = k + 1 := ⟨n - 1, by omega⟩
  rw [decimal, decimalAux, if_neg h, decimalAux]
  simp

theorem padZero_two (n : Nat) : padZero 2 (decimal n) = (if n < 10 then ['0'] else []) ++ decimal n := by
  unfold padZero
  by_cases h : n < 10
  · rw [if_pos h, decimal_length_small h]; rfl
  · have := decimal_length_big h
    rw [if_neg h, show 2 - (decimal n).length = 0 by omega]; rfl

theorem findIdx_sci {m : List Char} (hm : 'e' ∉ m) (r : List Char) : (m ++ 'e' :: r).findIdx? (· = 'e') = some m.length := by
  induction m with
  | nil => rfl
  | cons c m ih =>
    have h1 : c ≠ 'e' := fun h => hm (by rw [h]; exact List.mem_cons_self)
    rw [List.cons_append, List.findIdx?_cons, ih fun h => hm (List.mem_cons_of_mem _ h)]
    simp [h1]

/-- **`format_scientific`** writes mantissa, `E`, the sign and at least two digits of the exponent, right-aligned -/
theorem C105_format_scientific {m : List Char} (hm : 'e' ∉ m) (x : Int) (disp : List Char) (w : Nat) :
    formatScientific true disp (sciText m x) w = ok (padLeft w (sciForm m x)) := by
  unfold formatScientific sciText
  rw [if_neg (by simp), findIdx_sci hm]
  dsimp only
  rw [List.take_left, List.drop_left]
  unfold sciForm
  by_cases hx : x < 0
  · rw [if_pos hx, if_pos hx, if_pos (by rfl)]
    dsimp only
    rw [← padZero_two]; rfl
  · have hp : ¬ ['e', '-'].isPrefixOf ('e' :: decimal x.natAbs) = true := by
      cases hd : decimal x.natAbs with
      | nil => exact absurd hd (decimal_ne_nil _)
      | cons c cs =>
        obtain ⟨d, h1, h2⟩ := decimal_chars x.natAbs c (by rw [hd]; exact List.mem_cons_self)
        have := (digitChar_special h1).1
        rw [← h2] at this
        simp [List.isPrefixOf, this.symm]
    rw [if_neg hx, if_neg hx, if_neg hp]
    dsimp only
    rw [← padZero_two]; rfl

/-- infinities and NaN are printed right-aligned -/
theorem C105_format_scientific_special (disp sci : List Char) (w : Nat) : formatScientific false disp sci w = ok (padLeft w disp) := rfl

theorem sciForm_length (m : List Char) {x : Int} (hx : x.natAbs < 1000) : (sciForm m x).length ≤ m.length + 5 := by
  have h3 : (decimal x.natAbs).length ≤ 3 := decimalAux_length 3 (by norm_num) _ _ hx
  unfold sciForm
  by_cases h : x.natAbs < 10
  · have := decimal_length_small h
    rw [if_pos h]; simp; omega
  · rw [if_neg h]; simp; omega

theorem padLeft_length {w : Nat} {t : List Char} (h : t.length ≤ w) : (padLeft w t).length = w := by
  unfold padLeft; simp; omega

/-- **columns**: all finite numbers have the same number of characters if the field leaves five for the exponent (`ES23.15`: the mantissa
has at most eighteen characters) -/
theorem C105_scientific_width {m : List Char} {x : Int} (hx : x.natAbs < 1000) {w : Nat} (hw : m.length + 5 ≤ w) :
    (padLeft w (sciForm m x)).length = w := padLeft_length ((sciForm_length m hx).trans hw)

/-- **`vec_fmt_scientific`** draws a box: all lines have the same number of characters, one line for each component -/
theorem C105_vec_fmt_scientific (disp : List Char → List Char) {u : List (List Char × Int)} (h0 : u ≠ [])
    (hm : ∀ p ∈ u, 'e' ∉ p.1 ∧ p.2.natAbs < 1000) :
    ∃ w, (∃ p ∈ u, w = p.1.length + 5) ∧
      let lines := ('┌' :: List.replicate (w + 1) ' ' ++ ['┐']) ::
        (u.map fun p => '│' :: padLeft w (sciForm p.1 p.2) ++ [' ', '│']) ++ ['└' :: List.replicate (w + 1) ' ' ++ ['┘']]
      vecFmtScientific (fun _ => true) disp (u.map fun p => sciText p.1 p.2) = ok (joined ['\n'] lines) ∧
        ∀ l ∈ lines, l.length = w + 3 := by
  have hlen : (u.map fun p => sciText p.1 p.2).length = u.length := List.length_map _
  have hpos : 0 < u.length := List.length_pos_iff.2 h0
  have hget : ∀ i (h : i < u.length), vget (u.map fun p => sciText p.1 p.2) i = ok (sciText u[i].1 u[i].2) := fun i h => by
    rw [vget_lt (by rw [hlen]; exact h), List.getElem_map]
  obtain ⟨w0, h1, h2, h3⟩ := forRange_spec (f := fun i width => do
      let buf ← vget (u.map fun p => sciText p.1 p.2) i
      match buf.findIdx? (· = 'e') with
      | none => Res.panic
      | some pos => ok (max (buf.take pos).length width))
    (fun k w => (∀ i (h : i < u.length), i < k → u[i].1.length ≤ w) ∧ (w = 0 ∨ ∃ p ∈ u, w = p.1.length)) (Nat.zero_le u.length) (s := 0)
    ⟨fun i _ h => by omega, Or.inl rfl⟩ (by
    intro k w _ hk hw
    have hmem : u[k] ∈ u := List.getElem_mem hk
    refine ⟨max u[k].1.length w, ?_, ?_, ?_⟩
    · rw [hget k hk, ok_bind]
      unfold sciText
      rw [findIdx_sci (hm _ hmem).1]
      dsimp only
      rw [List.take_left]
    · intro i hi hik
      rcases Nat.lt_or_ge i k with h | h
      · exact (hw.1 i hi h).trans (le_max_right _ _)
      · have : i = k := by omega
        subst this; exact le_max_left _ _
    · rcases le_total u[k].1.length w with h | h
      · rw [max_eq_right h]; exact hw.2
      · rw [max_eq_left h]; exact Or.inr ⟨_, hmem, rfl⟩)
  have hle : ∀ p ∈ u, p.1.length ≤ w0 := fun p hp => by
    obtain ⟨i, hi, rfl⟩ := List.getElem_of_mem hp
    exact h2 i hi hi
  refine ⟨w0 + 4 + 1, ?_, ?_⟩
  · rcases h3 with h | ⟨p, hp, h⟩
    · obtain ⟨p, hp⟩ := List.exists_mem_of_ne_nil u h0
      have := hle p hp
      exact ⟨p, hp, by omega⟩
    · exact ⟨p, hp, by omega⟩
  intro lines
  constructor
  · unfold vecFmtScientific
    rw [hlen, if_neg (by omega), show forRange 0 u.length 0 _ = _ from h1, ok_bind]
    dsimp only
    set W := w0 + 4 + 1 with hW
    set top : List Char := '┌' :: List.replicate (W + 1) ' ' ++ ['┐', '\n'] with htop
    set row : List Char × Int → List Char := fun p => '│' :: padLeft W (sciForm p.1 p.2) with hrow
    obtain ⟨f, g1, g2⟩ := forRange_spec (f := fun i f => do
        let x ← vget (u.map fun p => sciText p.1 p.2) i
        let t ← formatScientific true (disp x) x W
        ok ((if 0 < i then f ++ [' ', '│', '\n'] else f) ++ ['│'] ++ t))
      (fun k f => f = top ++ joined [' ', '│', '\n'] ((u.take k).map row)) (Nat.zero_le u.length) (s := top) (by simp [joined]) (by
      intro k f _ hk hf
      have hmem : u[k] ∈ u := List.getElem_mem hk
      refine ⟨_, by rw [hget k hk, ok_bind, C105_format_scientific (hm _ hmem).1, ok_bind], ?_⟩
      rw [hf, List.take_succ_eq_append_getElem hk, List.map_append, List.map_singleton]
      by_cases hk0 : k = 0
      · subst hk0; simp [joined, hrow]
      · rw [joined_snoc _ _ _ (by simp; exact ⟨hk0, h0⟩), if_pos (by omega)]
        simp [hrow])
    rw [show forRange 0 u.length top _ = _ from g1, ok_bind, g2, List.take_length]
    have hj : ∀ (v : List (List Char × Int)), v ≠ [] → ∀ b : List Char,
        joined [' ', '│', '\n'] (v.map row) ++ ([' ', '│', '\n'] ++ b) =
          joined ['\n'] ((v.map fun p => '│' :: padLeft W (sciForm p.1 p.2) ++ [' ', '│']) ++ [b]) := by
      intro v hv b
      induction v with
      | nil => exact absurd rfl hv
      | cons p v ih =>
        cases v with
        | nil => simp [joined, hrow]
        | cons q v =>
          have := ih (by simp)
          simp only [List.map_cons, List.cons_append] at this ⊢
          rw [joined, joined, ← this]
          simp [hrow]
    show ok _ = ok _
    congr 1
    have hne : u = u.head h0 :: u.tail := (List.cons_head_tail h0).symm
    have e2 : joined ['\n'] lines = ('┌' :: List.replicate (W + 1) ' ' ++ ['┐']) ++ ['\n'] ++ joined ['\n']
        ((u.map fun p => '│' :: padLeft W (sciForm p.1 p.2) ++ [' ', '│']) ++ ['└' :: List.replicate (W + 1) ' ' ++ ['┘']]) := by
      show joined ['\n'] (_ :: _ ++ _) = _
      rw [hne]
      rfl
    rw [e2, ← hj u h0, htop]
    simp
  · intro l hl
    rcases List.mem_append.1 hl with h | h
    · rcases List.mem_cons.1 h with h | h
      · subst h; simp
      · obtain ⟨p, hp, rfl⟩ := List.mem_map.1 h
        have h5 := hle p hp
        have := C105_scientific_width (m := p.1) (hm p hp).2 (by omega : p.1.length + 5 ≤ w0 + 4 + 1)
        simp [this]
    · rw [List.mem_singleton] at h
      subst h; simp

/-- a component that is not finite makes `vec_fmt_scientific` panic (its text has no `e`) -/
theorem C105_vec_fmt_nan_counterexample : vecFmtScientific (fun t => t ≠ "NaN".toList) id ["1.0e0".toList, "NaN".toList] = Res.panic := by
  decide +kernel

/-- a matrix without rows is written with unbalanced brackets -/
theorem C105_numpy_empty_counterexample :
    matToNumpy decimal "a".toList ⟨0, 2, []⟩ = ok "a = np.array([]],dtype=float)".toList ∧
    matToMathematica decimal "a".toList ⟨0, 2, []⟩ = ok "a = {}};\n".toList ∧
    matToStaticArray decimal "A".toList ⟨0, 2, []⟩ =
      ok "// A: nrow = 0, ncol = 2\n#[rustfmt::skip]\nconst A: [[f64; 2]; 0] = [\n ],\n];\n".toList ∧
    vecToStaticArray decimal "A".toList [] = ok "// A: dim = 0\n#[rustfmt::skip]\nconst A: [f64; 0] = [\n    ,\n];\n".toList := by
  decide +kernel

/-! ## Mesh grids -/

/-- **`generate2d`, `generate3d`**: the coordinates do not depend on the other index, start at the minimum, are equally spaced and end at the
maximum; `z` is the function of the coordinates -/
theorem C105_generate3d {K : Type} [Field K] [CharZero K] (xmin xmax ymin ymax : K) {nx ny : Nat} (hx : 0 < nx) (hy : 0 < ny)
    (calcZ : K → K → K) :
    ∃ (x y z : NumMatrix K) (X Y : Nat → K), generate3d xmin xmax ymin ymax nx ny calcZ = ok (x, y, z) ∧
      IsDense x ny nx (fun _ j => X j) ∧ IsDense y ny nx (fun i _ => Y i) ∧ IsDense z ny nx (fun i j => calcZ (X j) (Y i)) ∧
      X 0 = xmin ∧ Y 0 = ymin ∧ (1 < nx → X (nx - 1) = xmax) ∧ (1 < ny → Y (ny - 1) = ymax) ∧
      (∀ j k, X (j + 1) - X j = X (k + 1) - X k) ∧ ∀ j k, Y (j + 1) - Y j = Y (k + 1) - Y k := by
  set dx : K := if nx = 1 then xmin else (xmax - xmin) / ((nx - 1 : Nat) : K) with hdx
  set dy : K := if ny = 1 then ymin else (ymax - ymin) / ((ny - 1 : Nat) : K) with hdy
  set X : Nat → K := fun j => xmin + (j : K) * dx with hX
  set Y : Nat → K := fun i => ymin + (i : K) * dy with hY
  have key : ∃ s : NumMatrix K × NumMatrix K × NumMatrix K, generate3d xmin xmax ymin ymax nx ny calcZ = ok s ∧
      IsDense s.1 ny nx (fun i j => if i < ny then X j else 0) ∧ IsDense s.2.1 ny nx (fun i j => if i < ny then Y i else 0) ∧
      IsDense s.2.2 ny nx (fun i j => if i < ny then calcZ (X j) (Y i) else 0) := by
    unfold generate3d
    dsimp only
    rw [if_neg (by omega)]
    refine forRange_spec (I := fun k (s : NumMatrix K × NumMatrix K × NumMatrix K) =>
      IsDense s.1 ny nx (fun i j => if i < k then X j else 0) ∧ IsDense s.2.1 ny nx (fun i j => if i < k then Y i else 0) ∧
      IsDense s.2.2 ny nx (fun i j => if i < k then calcZ (X j) (Y i) else 0)) (Nat.zero_le ny) ?_ ?_
    · exact ⟨isDense_new _ _, isDense_new _ _, isDense_new _ _⟩
    · intro k s _ hk hs
      obtain ⟨r, h1, h2⟩ := forRange_spec (f := fun j (s : NumMatrix K × NumMatrix K × NumMatrix K) => do
          let x ← s.1.set k j (X j)
          let y ← s.2.1.set k j (Y k)
          let z ← s.2.2.set k j (calcZ (X j) (Y k))
          ok (x, y, z))
        (fun c (t : NumMatrix K × NumMatrix K × NumMatrix K) =>
          IsDense t.1 ny nx (fun i j => if i < k ∨ i = k ∧ j < c then X j else 0) ∧
          IsDense t.2.1 ny nx (fun i j => if i < k ∨ i = k ∧ j < c then Y i else 0) ∧
          IsDense t.2.2 ny nx (fun i j => if i < k ∨ i = k ∧ j < c then calcZ (X j) (Y i) else 0)) (Nat.zero_le nx) (s := s)
        (by
          refine ⟨hs.1.congr ?_, hs.2.1.congr ?_, hs.2.2.congr ?_⟩ <;> intro r c _ _ <;> simp) (by
        intro j t _ hj ht
        obtain ⟨x, e1, d1⟩ := ht.1.set hk hj (X j)
        obtain ⟨y, e2, d2⟩ := ht.2.1.set hk hj (Y k)
        obtain ⟨z, e3, d3⟩ := ht.2.2.set hk hj (calcZ (X j) (Y k))
        refine ⟨(x, y, z), by rw [e1, ok_bind, e2, ok_bind, e3, ok_bind], d1.congr ?_, d2.congr ?_, d3.congr ?_⟩ <;>
        · intro r c _ _
          by_cases h : r = k ∧ c = j
          · obtain ⟨rfl, rfl⟩ := h
            rw [if_pos ⟨rfl, rfl⟩, if_pos (by omega)]
          · rw [if_neg h]
            by_cases h' : r < k ∨ r = k ∧ c < j
            · rw [if_pos h', if_pos (by omega)]
            · rw [if_neg h', if_neg (by omega)])
      refine ⟨r, h1, h2.1.congr ?_, h2.2.1.congr ?_, h2.2.2.congr ?_⟩ <;>
      · intro i j _ hj
        by_cases h : i < k + 1
        · rw [if_pos h, if_pos (by omega)]
        · rw [if_neg h, if_neg (by omega)]
  obtain ⟨⟨x, y, z⟩, h1, h2, h3, h4⟩ := key
  have hend : ∀ (lo hi : K) (n : Nat), 1 < n → lo + ((n - 1 : Nat) : K) * (if n = 1 then lo else (hi - lo) / ((n - 1 : Nat) : K)) = hi := by
    intro lo hi n hn
    rw [if_neg (by omega)]
    have : ((n - 1 : Nat) : K) ≠ 0 := Nat.cast_ne_zero.2 (by omega)
    field_simp
    ring
  refine ⟨x, y, z, X, Y, h1, h2.congr fun i j hi _ => if_pos hi, h3.congr fun i j hi _ => if_pos hi,
    h4.congr fun i j hi _ => if_pos hi, by simp [hX], by simp [hY], hend _ _ _, hend _ _ _, ?_, ?_⟩
  · intro j k; simp only [hX]; push_cast; ring
  · intro j k; simp only [hY]; push_cast; ring

/-! ## Examples -/

example : matToNumpy decimal "a".toList ⟨2, 2, [1, 2, 3, 4]⟩ = ok "a = np.array([[1,3],[2,4]],dtype=float)".toList := by decide +kernel
example : matToMathematica decimal "a".toList ⟨2, 2, [1, 2, 3, 4]⟩ = ok "a = {{1,3},{2,4}};\n".toList := by decide +kernel
example : vecToStaticArray decimal "V".toList [1, 2] =
    ok "// V: dim = 2\n#[rustfmt::skip]\nconst V: [f64; 2] = [\n    1,2,\n];\n".toList := by decide +kernel
example : formatScientific true [] "3.723e6".toList 10 = ok " 3.723E+06".toList := by decide +kernel
example : sciText "-1.5".toList (-123) = "-1.5e-123".toList ∧ sciForm "-1.5".toList (-123) = "-1.5E-123".toList := by decide +kernel
example : visMatrix (fun x : Int => |x|) (fun x => decimal x.natAbs) ⟨2, 2, [1, 0, 0, 5]⟩ 0 = ok "2 2 2\n0 0 1\n1 1 5\n".toList := by
  decide +kernel
example : vecFmtScientific (fun _ => true) id ["1.0e0".toList, "-2.5e-10".toList] =
    ok "┌          ┐\n│  1.0E+00 │\n│ -2.5E-10 │\n└          ┘".toList := by decide +kernel

end Russell.Lab
