import Verif.Sparse.CompressedProps
import Verif.Text

/-!
# C14, C15: MatrixMarket files

`write_matrix_market` and `read_matrix_market`. A file is its text; the creation of directories and files, the errors of the
operating system and texts that are not UTF-8 are not modelled. How a floating point number is written and read back is abstract
(`text`, `parse`): the theorems ask that a number written is a token without white space that is read back as the same number.
-/

namespace Russell.Sparse

open Russell Russell.Res Russell.Lab Russell.Text

variable {α ρ κ : Type}

/-! ## The writer -/

/-- the double loop over the entries of a CSC matrix, column by column. The loops that only count do not all read the row index
(line 84); the loop that writes the data does, so that the outcome is the same. -/
def Csc.foldEntries {σ : Type} (s : Csc α) (init : σ) (f : Nat → Nat → α → σ → σ) : Res σ :=
  forRange 0 s.ncol init fun j st => do
    let lo ← vget s.colPointers j
    let hi ← vget s.colPointers (j + 1)
    forRange 0 (hi - lo).toNat st fun t st => do
      let p := asUsize (lo + t)
      let i ← vget s.rowIndices p
      let x ← vget s.values p
      ok (f (asUsize i) j x st)

/-- what differs between the writers of real and complex matrices: the word in the header, the test in the loops that count and in
the loop of the visualization format, the test in the loop of the standard format, and the text of a value in the two formats -/
structure MMWriter (α : Type) where
  field : List Char
  keep : α → Bool
  keepStd : α → Bool
  text : α → List Char
  visText : α → List Char

/-- the real writer (/repo/russell_sparse/src/write_matrix_market.rs:55, 71, 85, 102, 118, 120) -/
def realWriter [LinearOrder ρ] [AddGroup ρ] (tol : ρ) (text : ρ → List Char) : MMWriter ρ where
  field := "real".toList
  keep := fun a => decide (|a| > tol)
  keepStd := fun a => decide (|a| > tol)
  text := text
  visText := text

/-- the complex writer; `norm` is the modulus of a complex number, which is abstract
(/repo/russell_sparse/src/write_matrix_market.rs:198, 214, 228, 245-246, 261, 263) -/
def complexWriter [LinearOrder ρ] [AddGroup ρ] (tol : ρ) (norm : ρ × ρ → ρ) (text : ρ → List Char) : MMWriter (ρ × ρ) where
  field := "complex".toList
  keep := fun a => decide (|a.1| > tol) || decide (|a.2| > tol)
  keepStd := fun a => decide (|a.1| > tol) || decide (|a.2| < tol)
  text := fun a => text a.1 ++ ' ' :: text a.2
  visText := fun a => text (norm a)

/-- the first line (/repo/russell_sparse/src/write_matrix_market.rs:39-45, 182-188) -/
def mmHeader (w : MMWriter α) (vis : Bool) (sym : Sym) : List Char :=
  if vis then []
  else if sym = .no then "%%MatrixMarket matrix coordinate ".toList ++ w.field ++ " general\n".toList
  else "%%MatrixMarket matrix coordinate ".toList ++ w.field ++ " symmetric\n".toList

/-- the number of entries in the second line (/repo/russell_sparse/src/write_matrix_market.rs:48-91, 191-234) -/
def mmCount (w : MMWriter α) (vis : Bool) (s : Csc α) : Res Nat :=
  if vis && (s.symmetric == .yesLower || s.symmetric == .yesUpper) then
    s.foldEntries 0 fun i j a count => if w.keep a then (if i ≠ j then count + 1 + 1 else count + 1) else count
  else if !vis && s.symmetric == .yesFull then
    s.foldEntries 0 fun i j a count => if w.keep a then (if i ≥ j then count + 1 else count) else count
  else
    s.foldEntries 0 fun _ _ a count => if w.keep a then count + 1 else count

/-- `write!(&mut buffer, "{} {} {:?}\n", i, j, a)` -/
def mmLine (i j : Nat) (a : List Char) : List Char :=
  decimal i ++ ' ' :: (decimal j ++ ' ' :: (a ++ ['\n']))

/-- the data lines (/repo/russell_sparse/src/write_matrix_market.rs:97-133, 240-281) -/
def mmData (w : MMWriter α) (vis : Bool) (s : Csc α) (buffer : List Char) : Res (List Char) :=
  if vis then
    s.foldEntries buffer fun i j a buffer =>
      if w.keep a then
        let buffer := buffer ++ mmLine i j (w.visText a)
        if (s.symmetric == .yesLower || s.symmetric == .yesUpper) && i != j then buffer ++ mmLine j i (w.visText a) else buffer
      else buffer
  else
    s.foldEntries buffer fun i j a buffer =>
      if w.keepStd a then
        match s.symmetric with
        | .no => buffer ++ mmLine (i + 1) (j + 1) (w.text a)
        | .yesLower => buffer ++ mmLine (i + 1) (j + 1) (w.text a)
        | .yesUpper => buffer ++ mmLine (j + 1) (i + 1) (w.text a)
        | .yesFull => if i ≥ j then buffer ++ mmLine (i + 1) (j + 1) (w.text a) else buffer
      else buffer

/-- `write_matrix_market`: the text written to the file (/repo/russell_sparse/src/write_matrix_market.rs:31-148, 174-295) -/
def Csc.writeMatrixMarket (w : MMWriter α) (vis : Bool) (s : Csc α) : Res (List Char) := do
  let nnz ← mmCount w vis s
  mmData w vis s (mmHeader w vis s.symmetric ++
    (decimal s.nrow ++ ' ' :: (decimal s.ncol ++ ' ' :: (decimal nnz ++ ['\n']))))

/-! ## The reader -/

/-- `enum MMsym` (/repo/russell_sparse/src/enums.rs:45-64) -/
inductive MMsym where
  | leaveAsLower
  | swapToUpper
  | makeItFull
  deriving DecidableEq, Repr

structure MMHeader where
  complex : Bool
  symmetric : Bool
  deriving DecidableEq, Repr

/-- the fourth word (/repo/russell_sparse/src/read_matrix_market.rs:83-100) -/
def parseKind (complex : Bool) : List (List Char) → Res MMHeader
  | [] => err "cannot find the fourth option in the header line"
  | v :: _ =>
    if v = "general".toList then ok ⟨complex, false⟩
    else if v = "symmetric".toList then ok ⟨complex, true⟩
    else if v = "Hermitian".toList then
      if !complex then err "\"Hermitian\" keyword can only be used with the \"complex\" type"
      else ok ⟨complex, false⟩
    else err "after %%MatrixMarket, the fourth option must be \"general\", \"symmetric\", or \"Hermitian\""

/-- the third word (/repo/russell_sparse/src/read_matrix_market.rs:74-81) -/
def parseField : List (List Char) → Res MMHeader
  | [] => err "cannot find the third option in the header line"
  | v :: ts =>
    if v = "real".toList then parseKind false ts
    else if v = "complex".toList then parseKind true ts
    else err "after %%MatrixMarket, the third option must be \"real\" or \"complex\""

/-- the second word (/repo/russell_sparse/src/read_matrix_market.rs:65-72) -/
def parseFormat : List (List Char) → Res MMHeader
  | [] => err "cannot find the second option in the header line"
  | v :: ts =>
    if v ≠ "coordinate".toList then err "after %%MatrixMarket, the second option must be \"coordinate\""
    else parseField ts

/-- the first word (/repo/russell_sparse/src/read_matrix_market.rs:56-63) -/
def parseObject : List (List Char) → Res MMHeader
  | [] => err "cannot find the first option in the header line"
  | v :: ts =>
    if v ≠ "matrix".toList then err "after %%MatrixMarket, the first option must be \"matrix\""
    else parseFormat ts

/-- `parse_header` (/repo/russell_sparse/src/read_matrix_market.rs:44-103). A line has no line end, so that
`trim_end_matches("\n")` does nothing. -/
def parseHeader (line : List Char) : Res MMHeader :=
  match splitWs (trimStart line) with
  | [] => err "cannot find the keyword %%MatrixMarket on the first line"
  | v :: ts =>
    if v ≠ "%%MatrixMarket".toList then err "the header (first line) must start with %%MatrixMarket"
    else parseObject ts

/-- comments and empty lines (/repo/russell_sparse/src/read_matrix_market.rs:107-110, 139-142) -/
def skipLine (line : List Char) : Bool :=
  match trimStart line with
  | [] => true
  | c :: _ => c == '%'

/-- `parse().map_err(|_| msg)?` for an `i32` -/
def i32Or (msg : String) (t : List Char) : Res Int :=
  match parseI32 t with
  | some v => ok v
  | none => err msg

/-- `data.next()` with an error message -/
def tokenOr (msg : String) : List (List Char) → Res (List Char × List (List Char))
  | [] => err msg
  | t :: ts => ok (t, ts)

structure MMDims where
  m : Int
  n : Int
  nnz : Int
  deriving DecidableEq, Repr

/-- `parse_dimensions` of a line that is not ignored (/repo/russell_sparse/src/read_matrix_market.rs:112-134) -/
def parseDims (line : List Char) : Res MMDims :=
  match splitWs (trimStart line) with
  | [] => Res.panic
  | t :: ts => do
    let m ← i32Or "cannot parse number of rows" t
    let t ← tokenOr "cannot read number of columns" ts
    let n ← i32Or "cannot parse number of columns" t.1
    let t ← tokenOr "cannot read number of non-zeros" t.2
    let nnz ← i32Or "cannot parse number of non-zeros" t.1
    if m < 1 ∨ n < 1 ∨ nnz < 1 then err "found invalid (zero or negative) dimensions"
    else ok ⟨m, n, nnz⟩

/-- the loop that looks for the dimensions; `lines_iter.next().unwrap()` panics at the end of the file
(/repo/russell_sparse/src/read_matrix_market.rs:371-376) -/
def readDims : List (List Char) → Res (MMDims × List (List Char))
  | [] => Res.panic
  | line :: rest =>
    if skipLine line then readDims rest
    else do
      let d ← parseDims line
      ok (d, rest)

/-- a real value (/repo/russell_sparse/src/read_matrix_market.rs:161-164) -/
def realValue (parse : List Char → Option ρ) (ts : List (List Char)) : Res ρ := do
  let t ← tokenOr "cannot read aij" ts
  match parse t.1 with
  | some a => ok a
  | none => err "cannot parse aij"

/-- a complex value (/repo/russell_sparse/src/read_matrix_market.rs:161-171) -/
def complexValue (parse : List Char → Option ρ) (ts : List (List Char)) : Res (ρ × ρ) := do
  let t ← tokenOr "cannot read aij" ts
  match parse t.1 with
  | none => err "cannot parse aij"
  | some a => do
    let t ← tokenOr "cannot read bij" t.2
    match parse t.1 with
    | some b => ok (a, b)
    | none => err "cannot parse bij"

/-- `parse_values` (/repo/russell_sparse/src/read_matrix_market.rs:138-183). The `i32` subtractions are checked, as in a debug
build. -/
def parseValues (value : List (List Char) → Res α) (d : MMDims) (pos : Nat) (line : List Char) : Res (Option (Entry α)) :=
  if skipLine line then ok none
  else if (pos : Int) = d.nnz then err "there are more values than specified"
  else match splitWs (trimStart line) with
    | [] => Res.panic
    | t :: ts => do
      let i ← i32Or "cannot parse i" t
      let t ← tokenOr "cannot read j" ts
      let j ← i32Or "cannot parse j" t.1
      let a ← value t.2
      let i ← addI32 i (-1)
      let j ← addI32 j (-1)
      if i < 0 ∨ i ≥ d.m ∨ j < 0 ∨ j ≥ d.n then err "found an invalid index"
      else ok (some (asUsize i, asUsize j, a))

/-- `coo.put(..).unwrap()` -/
def putOk (c : Coo α) (i j : Nat) (a : α) : Res (Coo α) :=
  match c.put i j a with
  | .ok c => ok c
  | _ => Res.panic

/-- the storage of one triple (/repo/russell_sparse/src/read_matrix_market.rs:408-430, 447-464) -/
def putHandled (symmetric : Bool) (handling : MMsym) (c : Coo α) (e : Entry α) : Res (Coo α) :=
  if symmetric then
    match handling with
    | .leaveAsLower => putOk c e.1 e.2.1 e.2.2
    | .swapToUpper => putOk c e.2.1 e.1 e.2.2
    | .makeItFull => do
      let c ← putOk c e.1 e.2.1 e.2.2
      if e.1 ≠ e.2.1 then putOk c e.2.1 e.1 e.2.2 else ok c
  else putOk c e.1 e.2.1 e.2.2

/-- the loop body (/repo/russell_sparse/src/read_matrix_market.rs:404-434, 443-468) -/
def readLine (value : List (List Char) → Res α) (d : MMDims) (symmetric : Bool) (handling : MMsym) (line : List Char)
    (st : Nat × Coo α) : Res (Nat × Coo α) := do
  let r ← parseValues value d st.1 line
  match r with
  | none => ok st
  | some e => do
    let c ← putHandled symmetric handling st.2 e
    ok (st.1 + 1, c)

/-- the values (/repo/russell_sparse/src/read_matrix_market.rs:402-439, 441-473) -/
def readValues [Zero α] (value : List (List Char) → Res α) (d : MMDims) (symmetric : Bool) (handling : MMsym) (max : Int) (sym : Sym)
    (lines : List (List Char)) : Res (Coo α) := do
  let c ← (Coo.new (asUsize d.m) (asUsize d.n) (asUsize max) sym).unwrap
  let st ← forList lines (0, c) (readLine value d symmetric handling)
  if (st.1 : Int) ≠ d.nnz then err "not all values have been found" else ok st.2

/-- the storage type (/repo/russell_sparse/src/read_matrix_market.rs:385-389) -/
def MMsym.kind : MMsym → Sym
  | .leaveAsLower => .yesLower
  | .swapToUpper => .yesUpper
  | .makeItFull => .yesFull

/-- `max` (/repo/russell_sparse/src/read_matrix_market.rs:395-398); `2 * nnz` is checked, as in a debug build -/
def mmMax (symmetric : Bool) (handling : MMsym) (nnz : Int) : Res Int :=
  if symmetric && handling == .makeItFull then addI32 nnz nnz else ok nnz

/-- the matrix read: real or complex -/
inductive MMRead (ρ : Type) where
  | real (c : Coo ρ)
  | complex (c : Coo (ρ × ρ))
  deriving DecidableEq

/-- `read_matrix_market` (/repo/russell_sparse/src/read_matrix_market.rs:346-475) -/
def readMatrixMarket [Zero ρ] (parse : List Char → Option ρ) (handling : MMsym) (text : List Char) : Res (MMRead ρ) :=
  match linesOf text with
  | [] => err "the file is empty"
  | header :: rest => do
    let hd ← parseHeader header
    let dl ← readDims rest
    let d := dl.1
    if hd.symmetric = true ∧ d.m ≠ d.n then err "MatrixMarket data is invalid: the number of rows must equal the number of columns for symmetric matrices"
    else do
      let sym := if hd.symmetric then handling.kind else Sym.no
      let max ← mmMax hd.symmetric handling d.nnz
      if hd.complex then do
        let c ← readValues (complexValue parse) d hd.symmetric handling max sym dl.2
        ok (.complex c)
      else do
        let c ← readValues (realValue parse) d hd.symmetric handling max sym dl.2
        ok (.real c)

/-! ## What a MatrixMarket file is -/

/-- the first line -/
def IsHeader (line : List Char) (field kind : String) : Prop :=
  ∃ more, splitWs line = "%%MatrixMarket".toList :: "matrix".toList :: "coordinate".toList :: field.toList :: kind.toList :: more

/-- a line that is not ignored has a token, and the first token does not start with `%` -/
def IsData (line : List Char) : Prop := ∃ c t ts, splitWs line = (c :: t) :: ts ∧ c ≠ '%'

/-- the line with the dimensions -/
def IsDims (line : List Char) (m n nnz : Nat) : Prop :=
  IsData line ∧ ∃ t1 t2 t3 ts, splitWs line = t1 :: t2 :: t3 :: ts ∧ parseI32 t1 = some (m : Int) ∧ parseI32 t2 = some (n : Int) ∧
    parseI32 t3 = some (nnz : Int)

/-- a line with an entry; the indices in the file start at one, those of the entry start at zero -/
def IsEntryLine (value : List (List Char) → Res α) (line : List Char) (e : Entry α) : Prop :=
  IsData line ∧ ∃ t1 t2 ts, splitWs line = t1 :: t2 :: ts ∧ parseI32 t1 = some ((e.1 : Int) + 1) ∧
    parseI32 t2 = some ((e.2.1 : Int) + 1) ∧ value ts = ok e.2.2

/-- the lines after the dimensions: entries, between lines that are ignored -/
inductive BodyOf (value : List (List Char) → Res α) : List (List Char) → List (Entry α) → Prop
  | nil : BodyOf value [] []
  | skip {l ls es} : ¬ IsData l → BodyOf value ls es → BodyOf value (l :: ls) es
  | entry {l ls e es} : IsEntryLine value l e → BodyOf value ls es → BodyOf value (l :: ls) (e :: es)

/-- The text is a file with the given words in the header, size and entries. -/
structure IsFile (value : List (List Char) → Res α) (field kind : String) (m n : Nat) (es : List (Entry α)) (text : List Char) : Prop where
  lines : ∃ header pre dims body, linesOf text = header :: (pre ++ dims :: body) ∧ IsHeader header field kind ∧
    (∀ l ∈ pre, ¬ IsData l) ∧ IsDims dims m n es.length ∧ BodyOf value body es
  rows : 1 ≤ m
  cols : 1 ≤ n
  some : es ≠ []
  rangeI : ∀ e ∈ es, e.1 < m
  rangeJ : ∀ e ∈ es, e.2.1 < n

/-! ## Lines and tokens -/

theorem trimStart_head {l : List Char} {c : Char} {cs : List Char} (h : trimStart l = c :: cs) : isWs c = false := by
  unfold trimStart at h
  have := List.head?_dropWhile_not isWs l
  rw [h] at this
  simpa using this

theorem splitAux_head (cs : List Char) : ∀ cur c, ∃ t ts, splitAux (c :: cur) cs = (c :: t) :: ts := by
  induction cs with
  | nil => intro cur c; exact ⟨cur, [], by rw [splitAux, if_neg (by simp)]⟩
  | cons d cs ih =>
    intro cur c
    rw [splitAux]
    split_ifs with h1 h2
    · simp at h2
    · exact ⟨cur, _, rfl⟩
    · exact ih (cur ++ [d]) c

theorem splitWs_head {l : List Char} {c : Char} {cs : List Char} (h : trimStart l = c :: cs) :
    ∃ t ts, splitWs l = (c :: t) :: ts := by
  rw [← splitWs_trimStart, h, splitWs, splitAux, if_neg (by simp [trimStart_head h])]
  exact splitAux_head cs [] c

theorem skipLine_eq_false {l : List Char} : skipLine l = false ↔ IsData l := by
  unfold skipLine
  cases h : trimStart l with
  | nil =>
    refine ⟨by simp, ?_⟩
    rintro ⟨c, t, ts, h1, -⟩
    rw [trimStart_eq_nil_iff.1 h] at h1
    cases h1
  | cons c cs =>
    obtain ⟨t, ts, h1⟩ := splitWs_head h
    dsimp only
    constructor
    · intro h2
      exact ⟨c, t, ts, h1, by simpa using h2⟩
    · rintro ⟨c', t', ts', h2, h3⟩
      rw [h1] at h2
      simp only [List.cons.injEq] at h2
      rw [h2.1.1]; simpa using h3

theorem skipLine_eq_true {l : List Char} : skipLine l = true ↔ ¬ IsData l := by
  rw [← skipLine_eq_false]; simp

theorem parseHeader_spec {line : List Char} {field kind : String} (h : IsHeader line field kind) (hf : field = "real" ∨ field = "complex")
    (hk : kind = "general" ∨ kind = "symmetric") :
    parseHeader line = ok ⟨decide (field = "complex"), decide (kind = "symmetric")⟩ := by
  obtain ⟨more, h⟩ := h
  unfold parseHeader
  rw [splitWs_trimStart, h]
  rcases hf with rfl | rfl <;> rcases hk with rfl | rfl <;> rfl

theorem parseDims_spec {line : List Char} {m n nnz : Nat} (h : IsDims line m n nnz) (hm : 1 ≤ m) (hn : 1 ≤ n) (hz : 1 ≤ nnz) :
    parseDims line = ok ⟨m, n, nnz⟩ := by
  obtain ⟨-, t1, t2, t3, ts, h, h1, h2, h3⟩ := h
  unfold parseDims
  rw [splitWs_trimStart, h]
  simp only [i32Or, tokenOr, h1, h2, h3, ok_bind]
  rw [if_neg (by omega)]

theorem readDims_spec {pre : List (List Char)} {dims : List Char} {body : List (List Char)} {m n nnz : Nat}
    (hpre : ∀ l ∈ pre, ¬ IsData l) (h : IsDims dims m n nnz) (hm : 1 ≤ m) (hn : 1 ≤ n) (hz : 1 ≤ nnz) :
    readDims (pre ++ dims :: body) = ok (⟨m, n, nnz⟩, body) := by
  induction pre with
  | nil =>
    rw [List.nil_append, readDims, if_neg (by rw [skipLine_eq_false.2 h.1]; simp), parseDims_spec h hm hn hz]
    rfl
  | cons l pre ih =>
    rw [List.cons_append, readDims, if_pos (skipLine_eq_true.2 (hpre l List.mem_cons_self))]
    exact ih (fun l' hl => hpre l' (List.mem_cons_of_mem _ hl))

theorem parseValues_entry {value : List (List Char) → Res α} {line : List Char} {e : Entry α} (h : IsEntryLine value line e) {m n nnz : Nat}
    {pos : Nat} (hp : pos < nnz) (hi : e.1 < m) (hj : e.2.1 < n) (hm : m < 2147483648) (hn : n < 2147483648) :
    parseValues value ⟨m, n, nnz⟩ pos line = ok (some e) := by
  obtain ⟨hd, t1, t2, ts, h, h1, h2, h3⟩ := h
  unfold parseValues
  rw [if_neg (by rw [skipLine_eq_false.2 hd]; simp), if_neg (by dsimp only; omega), splitWs_trimStart, h]
  have a1 : addI32 ((e.1 : Int) + 1) (-1) = ok (e.1 : Int) := by
    unfold addI32; rw [if_pos (by omega)]; congr 1; omega
  have a2 : addI32 ((e.2.1 : Int) + 1) (-1) = ok (e.2.1 : Int) := by
    unfold addI32; rw [if_pos (by omega)]; congr 1; omega
  simp only [i32Or, tokenOr, h1, h2, h3, ok_bind, a1, a2]
  rw [if_neg (by omega), asUsize_natCast (by omega), asUsize_natCast (by omega)]

/-! ## Storage -/

/-- what is stored for an entry -/
def handled (symmetric : Bool) (handling : MMsym) (e : Entry α) : List (Entry α) :=
  if symmetric then
    match handling with
    | .leaveAsLower => [e]
    | .swapToUpper => [(e.2.1, e.1, e.2.2)]
    | .makeItFull => if e.1 = e.2.1 then [e] else [e, (e.2.1, e.1, e.2.2)]
  else [e]

theorem putOk_spec {c : Coo α} {es : List (Entry α)} (h : c.Rep es) {i j : Nat} {x : α} (hi : i < c.nrow) (hj : j < c.ncol)
    (hl : es.length < c.maxNnz) (ht : InTriangle c.symmetric i j) :
    ∃ c', putOk c i j x = ok c' ∧ c'.Rep (es ++ [(i, j, x)]) ∧ c'.nrow = c.nrow ∧ c'.ncol = c.ncol ∧
        c'.maxNnz = c.maxNnz ∧ c'.symmetric = c.symmetric := by
  have := Coo.put_spec h i j x
  rw [if_pos ⟨hi, hj, hl, ht⟩] at this
  obtain ⟨c', h1, h2⟩ := this
  exact ⟨c', by rw [putOk, h1], h2⟩

theorem handled_length (symmetric : Bool) (handling : MMsym) (e : Entry α) :
    (handled symmetric handling e).length ≤ if symmetric && handling == .makeItFull then 2 else 1 := by
  unfold handled
  cases symmetric <;> cases handling <;> simp
  split_ifs <;> simp

theorem putHandled_spec {c : Coo α} {es : List (Entry α)} (h : c.Rep es) {symmetric : Bool} {handling : MMsym} {e : Entry α}
    (hi : e.1 < c.nrow) (hj : e.2.1 < c.ncol) (hs : symmetric = true → c.nrow = c.ncol ∧ e.2.1 ≤ e.1)
    (hk : c.symmetric = if symmetric then handling.kind else Sym.no)
    (hl : es.length + (handled symmetric handling e).length ≤ c.maxNnz) :
    ∃ c', putHandled symmetric handling c e = ok c' ∧ c'.Rep (es ++ handled symmetric handling e) ∧ c'.nrow = c.nrow ∧ c'.ncol = c.ncol ∧
        c'.maxNnz = c.maxNnz ∧ c'.symmetric = c.symmetric := by
  unfold putHandled handled at *
  cases symmetric with
  | false =>
    simp only [Bool.false_eq_true, if_false] at *
    exact putOk_spec h hi hj (by simpa using hl) (by rw [hk]; exact ⟨by simp, by simp⟩)
  | true =>
    obtain ⟨h1, h2⟩ := hs rfl
    simp only [if_true] at *
    cases handling with
    | leaveAsLower =>
      exact putOk_spec h hi hj (by simpa using hl) (by rw [hk]; exact ⟨fun _ => h2, by simp [MMsym.kind]⟩)
    | swapToUpper =>
      exact putOk_spec h (by omega) (by omega) (by simpa using hl) (by rw [hk]; exact ⟨by simp [MMsym.kind], fun _ => h2⟩)
    | makeItFull =>
      dsimp only at hl ⊢
      have ht : ∀ i j, InTriangle c.symmetric i j := by
        intro i j; rw [hk]; exact ⟨by simp [MMsym.kind], by simp [MMsym.kind]⟩
      by_cases hd : e.1 = e.2.1
      · rw [if_pos hd] at hl ⊢
        obtain ⟨c', k1, k2⟩ := putOk_spec h (x := e.2.2) hi hj (by simpa using hl) (ht _ _)
        refine ⟨c', ?_, k2⟩
        rw [k1, ok_bind, if_neg (not_not.2 hd)]
      · rw [if_neg hd] at hl ⊢
        simp only [List.length_cons, List.length_nil] at hl
        obtain ⟨c1, k1, k2, f1, f2, f3, f4⟩ := putOk_spec h (x := e.2.2) hi hj (by omega) (ht _ _)
        obtain ⟨c2, l1, l2, g1, g2, g3, g4⟩ := putOk_spec k2 (i := e.2.1) (j := e.1) (x := e.2.2) (by omega) (by omega)
          (by simp; omega) (by rw [f4]; exact ht _ _)
        refine ⟨c2, ?_, by simpa using l2, by rw [g1, f1], by rw [g2, f2], by rw [g3, f3], by rw [g4, f4]⟩
        rw [k1, ok_bind, if_pos hd, l1]

theorem readLines_spec {value : List (List Char) → Res α} {m n nnz : Nat} (hm : m < 2147483648) (hn : n < 2147483648)
    {symmetric : Bool} {handling : MMsym} (hs : symmetric = true → m = n) {body : List (List Char)} {es : List (Entry α)}
    (hb : BodyOf value body es) (hI : ∀ e ∈ es, e.1 < m) (hJ : ∀ e ∈ es, e.2.1 < n) (hL : symmetric = true → ∀ e ∈ es, e.2.1 ≤ e.1)
    {c : Coo α} {es0 : List (Entry α)} {pos : Nat} (hr : c.Rep es0) (hc1 : c.nrow = m) (hc2 : c.ncol = n)
    (hk : c.symmetric = if symmetric then handling.kind else Sym.no) (hp : pos + es.length ≤ nnz)
    (hx : es0.length + (es.flatMap (handled symmetric handling)).length ≤ c.maxNnz) :
    ∃ c', forList body (pos, c) (readLine value ⟨m, n, nnz⟩ symmetric handling) = ok (pos + es.length, c') ∧
      c'.Rep (es0 ++ es.flatMap (handled symmetric handling)) ∧ c'.nrow = m ∧ c'.ncol = n ∧ c'.symmetric = c.symmetric := by
  induction hb generalizing pos c es0 with
  | nil => exact ⟨c, rfl, by simpa using hr, hc1, hc2, rfl⟩
  | skip h _ ih =>
    obtain ⟨c', k1, k2⟩ := ih hI hJ hL hr hc1 hc2 hk hp hx
    refine ⟨c', ?_, k2⟩
    have : ∀ l : List Char, ¬ IsData l → readLine value ⟨m, n, nnz⟩ symmetric handling l (pos, c) = ok (pos, c) := by
      intro l hl
      unfold readLine parseValues
      rw [if_pos (skipLine_eq_true.2 hl), ok_bind]
    rw [forList, this _ h, ok_bind]
    exact k1
  | @entry l ls e es h _ ih =>
    rw [List.flatMap_cons, List.length_append] at hx
    rw [List.length_cons] at hp
    obtain ⟨c1, k1, k2, f1, f2, f3, f4⟩ := putHandled_spec hr (symmetric := symmetric) (handling := handling) (e := e)
      (by rw [hc1]; exact hI e List.mem_cons_self) (by rw [hc2]; exact hJ e List.mem_cons_self)
      (fun h => ⟨by rw [hc1, hc2, hs h], hL h e List.mem_cons_self⟩) hk (by omega)
    obtain ⟨c2, l1, l2, g1, g2, g3⟩ := ih (fun e h => hI e (List.mem_cons_of_mem _ h)) (fun e h => hJ e (List.mem_cons_of_mem _ h))
      (fun h' e h => hL h' e (List.mem_cons_of_mem _ h)) (pos := pos + 1) k2 (by rw [f1, hc1]) (by rw [f2, hc2]) (by rw [f4, hk])
      (by omega) (by rw [List.length_append]; omega)
    refine ⟨c2, ?_, ?_, g1, g2, by rw [g3, f4]⟩
    · rw [forList]
      have : readLine value ⟨m, n, nnz⟩ symmetric handling l (pos, c) = ok (pos + 1, c1) := by
        unfold readLine
        rw [parseValues_entry h (by omega) (hI e List.mem_cons_self) (hJ e List.mem_cons_self) hm hn, ok_bind]
        dsimp only
        rw [k1, ok_bind]
      rw [this, ok_bind, l1]
      congr 2
      simp; omega
    · rw [List.flatMap_cons, ← List.append_assoc]; exact l2

theorem flatMap_handled_length (symmetric : Bool) (handling : MMsym) (es : List (Entry α)) :
    (es.flatMap (handled symmetric handling)).length ≤ (if symmetric && handling == .makeItFull then 2 else 1) * es.length := by
  induction es with
  | nil => simp
  | cons e es ih =>
    rw [List.flatMap_cons, List.length_append, List.length_cons, Nat.mul_add]
    have := handled_length symmetric handling e
    omega

theorem parseI32_range {t : List Char} {v : Int} (h : parseI32 t = some v) : -2147483648 ≤ v ∧ v ≤ 2147483647 := by
  have key : ∀ w u : Int, inI32 w = some u → -2147483648 ≤ u ∧ u ≤ 2147483647 := by
    intro w u hw
    unfold inI32 at hw
    split_ifs at hw with hh
    cases hw; exact hh
  unfold parseI32 at h
  split at h
  · cases h
  · split_ifs at h
    obtain ⟨w, -, h2⟩ := Option.bind_eq_some_iff.1 h
    exact key _ _ h2
  · split_ifs at h
    obtain ⟨w, -, h2⟩ := Option.bind_eq_some_iff.1 h
    exact key _ _ h2
  · obtain ⟨w, -, h2⟩ := Option.bind_eq_some_iff.1 h
    exact key _ _ h2

/-- the values of a file are stored according to the option -/
theorem readValues_spec [Zero α] {value : List (List Char) → Res α} {m n nnz : Nat} (hm : m < 2147483648) (hn : n < 2147483648)
    (hm1 : 1 ≤ m) (hn1 : 1 ≤ n)
    {symmetric : Bool} {handling : MMsym} (hs : symmetric = true → m = n) {body : List (List Char)} {es : List (Entry α)}
    (hb : BodyOf value body es) (hI : ∀ e ∈ es, e.1 < m) (hJ : ∀ e ∈ es, e.2.1 < n) (hL : symmetric = true → ∀ e ∈ es, e.2.1 ≤ e.1)
    (hz : nnz = es.length) (hne : es ≠ []) (hfit : nnz < 2147483648) (hfull : symmetric = true → handling = .makeItFull → nnz < 1073741824) :
    ∃ max c, mmMax symmetric handling nnz = ok max ∧
      readValues value ⟨m, n, nnz⟩ symmetric handling max (if symmetric then handling.kind else Sym.no) body = ok c ∧
      c.Rep (es.flatMap (handled symmetric handling)) ∧ c.nrow = m ∧ c.ncol = n ∧
      c.symmetric = if symmetric then handling.kind else Sym.no := by
  have hlen : 1 ≤ es.length := by
    cases es with
    | nil => exact absurd rfl hne
    | cons e es => simp
  have hmax : ∃ k : Nat, mmMax symmetric handling (nnz : Int) = ok (k : Int) ∧ 1 ≤ k ∧ k < 2147483648 ∧
      (es.flatMap (handled symmetric handling)).length ≤ k := by
    have := flatMap_handled_length symmetric handling es
    unfold mmMax
    by_cases hc : (symmetric && handling == .makeItFull) = true
    · rw [if_pos hc] at this ⊢
      simp only [Bool.and_eq_true, beq_iff_eq] at hc
      have := hfull hc.1 hc.2
      exact ⟨nnz + nnz, addI32_nat (by omega), by omega, by omega, by omega⟩
    · rw [if_neg hc] at this ⊢
      exact ⟨nnz, rfl, by omega, hfit, by omega⟩
  obtain ⟨k, hk, hk1, hk2, hk3⟩ := hmax
  have hnew : ∃ c, Coo.new (α := α) m n k (if symmetric then handling.kind else Sym.no) = ok c := by
    unfold Coo.new
    rw [if_neg (by omega), if_neg (by omega), if_neg (by omega), if_neg]
    · exact ⟨_, rfl⟩
    · rintro ⟨h1, h2⟩
      cases symmetric with
      | false => exact h1 rfl
      | true => exact h2 (hs rfl)
  obtain ⟨c0, hc0⟩ := hnew
  obtain ⟨hr, f1, f2, f3, f4⟩ := Coo.new_rep hc0 hm hn
  obtain ⟨c, h1, h2, g1, g2, g3⟩ := readLines_spec (nnz := nnz) (pos := 0) hm hn hs hb hI hJ hL hr f1 f2 f4 (by omega)
    (by rw [f3, List.length_nil]; omega)
  refine ⟨k, c, hk, ?_, by simpa using h2, g1, g2, by rw [g3, f4]⟩
  unfold readValues
  dsimp only
  rw [asUsize_natCast hm, asUsize_natCast hn, asUsize_natCast hk2, hc0]
  show (forList body (0, c0) _ >>= _) = _
  rw [h1, ok_bind, if_neg]
  dsimp only; omega

/-- the whole reader on a real file -/
theorem readMatrixMarket_real [Zero ρ] {parse : List Char → Option ρ} {kind : String} (hkind : kind = "general" ∨ kind = "symmetric")
    {m n : Nat} {es : List (Entry ρ)} {text : List Char} (h : IsFile (realValue parse) "real" kind m n es text) (handling : MMsym)
    (hs : kind = "symmetric" → m = n ∧ ∀ e ∈ es, e.2.1 ≤ e.1) (hfull : kind = "symmetric" → handling = .makeItFull → es.length < 1073741824) :
    ∃ c, readMatrixMarket parse handling text = ok (.real c) ∧
      c.Rep (es.flatMap (handled (decide (kind = "symmetric")) handling)) ∧ c.nrow = m ∧ c.ncol = n ∧
      c.symmetric = if kind = "symmetric" then handling.kind else Sym.no := by
  obtain ⟨⟨header, pre, dims, body, h1, h2, h3, h4, h5⟩, r1, r2, r3, r4, r5⟩ := h
  have h4' := h4
  obtain ⟨-, t1, t2, t3, ts, -, p1, p2, p3⟩ := h4'
  have q1 := parseI32_range p1
  have q2 := parseI32_range p2
  have q3 := parseI32_range p3
  have hlen : 1 ≤ es.length := by
    cases es with
    | nil => exact absurd rfl r3
    | cons e es => simp
  obtain ⟨max, c, k1, k2, k3, k4, k5, k6⟩ := readValues_spec (symmetric := decide (kind = "symmetric")) (handling := handling)
    (m := m) (n := n) (by omega) (by omega) r1 r2 (fun h => (hs (by simpa using h)).1) h5 r4 r5
    (fun h => (hs (by simpa using h)).2) rfl r3 (by omega) (fun h => hfull (by simpa using h))
  refine ⟨c, ?_, k3, k4, k5, by simpa using k6⟩
  unfold readMatrixMarket
  rw [h1]
  dsimp only
  rw [parseHeader_spec h2 (Or.inl rfl) hkind, ok_bind, readDims_spec h3 h4 r1 r2 hlen, ok_bind]
  dsimp only
  rw [if_neg, k1, ok_bind, if_neg (by decide), k2, ok_bind]
  rintro ⟨a, b⟩
  exact b (by rw [(hs (by simpa using a)).1])

/-- the whole reader on a complex file -/
theorem readMatrixMarket_complex [Zero ρ] {parse : List Char → Option ρ} {kind : String} (hkind : kind = "general" ∨ kind = "symmetric")
    {m n : Nat} {es : List (Entry (ρ × ρ))} {text : List Char} (h : IsFile (complexValue parse) "complex" kind m n es text) (handling : MMsym)
    (hs : kind = "symmetric" → m = n ∧ ∀ e ∈ es, e.2.1 ≤ e.1) (hfull : kind = "symmetric" → handling = .makeItFull → es.length < 1073741824) :
    ∃ c, readMatrixMarket parse handling text = ok (.complex c) ∧
      c.Rep (es.flatMap (handled (decide (kind = "symmetric")) handling)) ∧ c.nrow = m ∧ c.ncol = n ∧
      c.symmetric = if kind = "symmetric" then handling.kind else Sym.no := by
  obtain ⟨⟨header, pre, dims, body, h1, h2, h3, h4, h5⟩, r1, r2, r3, r4, r5⟩ := h
  have h4' := h4
  obtain ⟨-, t1, t2, t3, ts, -, p1, p2, p3⟩ := h4'
  have q1 := parseI32_range p1
  have q2 := parseI32_range p2
  have q3 := parseI32_range p3
  have hlen : 1 ≤ es.length := by
    cases es with
    | nil => exact absurd rfl r3
    | cons e es => simp
  obtain ⟨max, c, k1, k2, k3, k4, k5, k6⟩ := readValues_spec (symmetric := decide (kind = "symmetric")) (handling := handling)
    (m := m) (n := n) (by omega) (by omega) r1 r2 (fun h => (hs (by simpa using h)).1) h5 r4 r5
    (fun h => (hs (by simpa using h)).2) rfl r3 (by omega) (fun h => hfull (by simpa using h))
  refine ⟨c, ?_, k3, k4, k5, by simpa using k6⟩
  unfold readMatrixMarket
  rw [h1]
  dsimp only
  rw [parseHeader_spec h2 (Or.inr rfl) hkind, ok_bind, readDims_spec h3 h4 r1 r2 hlen, ok_bind]
  dsimp only
  rw [if_neg, k1, ok_bind, if_pos (by decide), k2, ok_bind]
  rintro ⟨a, b⟩
  exact b (by rw [(hs (by simpa using a)).1])

end Russell.Sparse
