import Verif.Text
import Mathlib.Data.List.Forall2
import Mathlib.Data.List.TakeWhile

/-!
# Reading tables (C40)

/repo/russell_lab/src/base/read_table.rs. The file is a list of characters; the type of the values is given by its parser
(`FromStr`). A `HashMap` is a function from labels to optional columns (the order of iteration is not modelled).
-/

namespace Russell.Lab

open Russell Russell.Res Russell.Text

variable {T : Type}

/-- `HashMap<String, Vec<T>>` -/
abbrev Table (T : Type) := List Char → Option (List T)

/-- append a value to the column of a label, or create it (/repo/russell_lab/src/base/read_table.rs:183-188) -/
def Table.push (t : Table T) (label : List Char) (v : T) : Table T := fun l =>
  if l = label then
    match t label with
    | some column => some (column ++ [v])
    | none => some [v]
  else t l

def startsHash (s : List Char) : Bool := s.head? == some '#'

/-- the label of a column of the header (/repo/russell_lab/src/base/read_table.rs:158-174) -/
def headerLabel (labels : Option (List (List Char))) (header : List (List Char)) (col : Nat) (s : List Char) : Res (List Char) :=
  match labels with
  | some ls =>
    if col ≥ ls.length then err "there are more columns than labels"
    else do
      let l ← vget ls col
      if s ≠ l then err "column data is missing" else ok l
  | none => if s ∈ header then err "found duplicate column label" else ok s

/-- one word of a row (/repo/russell_lab/src/base/read_table.rs:156-189) -/
def cellStep (parse : List Char → Option T) (labels : Option (List (List Char))) (first : Bool) (s : List Char) (col : Nat)
    (header : List (List Char)) (table : Table T) : Res (List (List Char) × Table T) :=
  if first then do
    let label ← headerLabel labels header col s
    ok (header ++ [label], table)
  else if col ≥ header.length then err "there are more columns than labels"
  else
    match parse s with
    | none => err "cannot parse value"
    | some v => do
      let label ← vget header col
      ok (header, table.push label v)

/-- the words of a row, up to a comment (/repo/russell_lab/src/base/read_table.rs:149-194) -/
def rowLoop (parse : List Char → Option T) (labels : Option (List (List Char))) (first : Bool) :
    List (List Char) → Nat → List (List Char) → Table T → Res (Nat × List (List Char) × Table T)
  | [], col, header, table => ok (col, header, table)
  | s :: words, col, header, table =>
    if startsHash s then ok (col, header, table)
    else do
      let st ← cellStep parse labels first s col header table
      rowLoop parse labels first words (col + 1) st.1 st.2

/-- variables of the loop over lines (/repo/russell_lab/src/base/read_table.rs:127-132) -/
structure TState (T : Type) where
  header : List (List Char)
  table : Table T
  first : Bool
  ncol : Nat

/-- one line (/repo/russell_lab/src/base/read_table.rs:137-205) -/
def tableLine (parse : List Char → Option T) (labels : Option (List (List Char))) (st : TState T) (line : List Char) : Res (TState T) :=
  let d := ((trimStart line).reverse.dropWhile (· == '\n')).reverse
  if startsHash d ∨ d = [] then ok st
  else do
    let r ← rowLoop parse labels st.first (splitWs d) 0 st.header st.table
    if st.first then ok ⟨r.2.1, r.2.2, false, r.1⟩
    else if r.1 ≠ st.ncol then err "column data is missing"
    else ok ⟨r.2.1, r.2.2, false, st.ncol⟩

/-- the loop over lines (/repo/russell_lab/src/base/read_table.rs:133-208) -/
def tableLines (parse : List Char → Option T) (labels : Option (List (List Char))) : List (List Char) → TState T → Res (TState T)
  | [], st => ok st
  | line :: lines, st => do
    let st ← tableLine parse labels st line
    tableLines parse labels lines st

/-- `read_table` on the content of a file (/repo/russell_lab/src/base/read_table.rs:115-211) -/
def readTable (parse : List Char → Option T) (labels : Option (List (List Char))) (text : List Char) : Res (Table T) := do
  let st ← tableLines parse labels (linesOf text) ⟨[], fun _ => none, true, 0⟩
  ok st.table

/-! ## Specification -/

/-- the words of a line before a word that begins with `#` -/
def cells (line : List Char) : List (List Char) := (splitWs line).takeWhile fun s => !startsHash s

/-- the rows with something in them -/
def tableRows (text : List Char) : List (List (List Char)) := ((linesOf text).map cells).filter (· ≠ [])

/-- the header agrees with the labels, or has no duplicates -/
def HeaderOk (labels : Option (List (List Char))) (header : List (List Char)) : Prop :=
  match labels with
  | some ls => header <+: ls
  | none => header.Nodup

/-- every data row has as many cells as the header, and its cells are numbers -/
def RowsOk (parse : List Char → Option T) (header : List (List Char)) (data : List (List (List Char))) : Prop :=
  ∀ r ∈ data, r.length = header.length ∧ ∀ s ∈ r, (parse s).isSome

/-- the text is a table -/
def TableOk (parse : List Char → Option T) (labels : Option (List (List Char))) : List (List (List Char)) → Prop
  | [] => True
  | header :: data => HeaderOk labels header ∧ RowsOk parse header data

/-! ## Text -/

theorem splitAux_head : ∀ (s cur : List Char), cur ≠ [] → ∃ t ts, splitAux cur s = t :: ts ∧ t.head? = cur.head? := by
  intro s
  induction s with
  | nil => intro cur h; exact ⟨cur, [], by rw [splitAux, if_neg h], rfl⟩
  | cons c s ih =>
    intro cur h
    rw [splitAux]
    by_cases hc : isWs c = true
    · exact ⟨cur, _, by rw [if_pos hc, if_neg h], rfl⟩
    · obtain ⟨t, ts, e1, e2⟩ := ih (cur ++ [c]) (by simp)
      refine ⟨t, ts, by rw [if_neg hc, e1], by rw [e2]; cases cur with
        | nil => exact absurd rfl h
        | cons => rfl⟩

theorem splitWs_trimStart (s : List Char) : splitWs (trimStart s) = splitWs s := by
  induction s with
  | nil => rfl
  | cons c s ih =>
    unfold trimStart at *
    rw [List.dropWhile_cons]
    by_cases hc : isWs c = true
    · rw [if_pos hc, ih, splitWs, splitWs, splitAux, if_pos hc, if_pos rfl]
    · rw [if_neg hc]

theorem trimStart_cases (s : List Char) :
    (trimStart s = [] ∧ splitWs s = []) ∨ ∃ c r t ts, trimStart s = c :: r ∧ isWs c = false ∧ splitWs s = t :: ts ∧ t.head? = some c := by
  cases h : trimStart s with
  | nil => left; refine ⟨rfl, ?_⟩; rw [← splitWs_trimStart, h]; rfl
  | cons c r =>
    right
    have hc : isWs c = false := by
      have := List.head_dropWhile_not (l := s) isWs (by unfold trimStart at h; rw [h]; simp)
      unfold trimStart at h
      simpa only [h, List.head_cons] using this
    obtain ⟨t, ts, e1, e2⟩ := splitAux_head r [c] (by simp)
    refine ⟨c, r, t, ts, rfl, hc, ?_, by rw [e2]; rfl⟩
    rw [← splitWs_trimStart, h, splitWs, splitAux, if_neg (by simp [hc])]
    exact e1

/-- a line of a text has no line end -/
theorem linesAux_no_nl : ∀ (s cur : List Char), '\n' ∉ cur → ∀ l ∈ linesAux cur s, '\n' ∉ l := by
  intro s
  induction s with
  | nil =>
    intro cur h l hl
    rw [linesAux] at hl
    split_ifs at hl with h1
    · simp at hl
    · rw [List.mem_singleton.1 hl]; exact h
  | cons c s ih =>
    intro cur h l hl
    rw [linesAux] at hl
    split_ifs at hl with h1 h2
    · rcases List.mem_cons.1 hl with rfl | hl
      · exact fun hm => h (List.dropLast_subset _ hm)
      · exact ih [] (by simp) l hl
    · rcases List.mem_cons.1 hl with rfl | hl
      · exact h
      · exact ih [] (by simp) l hl
    · refine ih (cur ++ [c]) ?_ l hl
      intro hm
      rcases List.mem_append.1 hm with hm | hm
      · exact h hm
      · exact h1 (List.mem_singleton.1 hm).symm

theorem trim_nl {l : List Char} (h : '\n' ∉ l) : (l.reverse.dropWhile (· == '\n')).reverse = l := by
  have : l.reverse.dropWhile (· == '\n') = l.reverse := by
    cases hl : l.reverse with
    | nil => rfl
    | cons c r =>
      rw [List.dropWhile_cons, if_neg]
      intro hc
      have hc' : c = '\n' := by simpa using hc
      apply h
      rw [← List.mem_reverse, hl, hc']
      exact List.mem_cons_self
  rw [this, List.reverse_reverse]

/-! ## Rows -/

/-- a row, after the removal of comments -/
def rowStep (parse : List Char → Option T) (labels : Option (List (List Char))) (st : TState T) (row : List (List Char)) : Res (TState T) := do
  let r ← rowLoop parse labels st.first row 0 st.header st.table
  if st.first then ok ⟨r.2.1, r.2.2, false, r.1⟩
  else if r.1 ≠ st.ncol then err "column data is missing"
  else ok ⟨r.2.1, r.2.2, false, st.ncol⟩

theorem rowLoop_takeWhile (parse : List Char → Option T) (labels : Option (List (List Char))) (first : Bool) (words : List (List Char)) :
    ∀ (col : Nat) (header : List (List Char)) (table : Table T),
      rowLoop parse labels first words col header table = rowLoop parse labels first (words.takeWhile fun s => !startsHash s) col header table := by
  induction words with
  | nil => intros; rfl
  | cons s words ih =>
    intro col header table
    rw [rowLoop, List.takeWhile_cons]
    by_cases h : startsHash s = true
    · rw [if_pos h, if_neg (by simp [h])]; rfl
    · rw [if_neg h, if_pos (by simp [h]), rowLoop, if_neg h]
      cases cellStep parse labels first s col header table with
      | ok st => exact ih _ _ _
      | err m => rfl
      | panic => rfl

theorem tableLine_eq (parse : List Char → Option T) (labels : Option (List (List Char))) (st : TState T) {line : List Char} (hl : '\n' ∉ line) :
    tableLine parse labels st line = if cells line = [] then ok st else rowStep parse labels st (cells line) := by
  have hnl : '\n' ∉ trimStart line := fun h => hl (List.dropWhile_subset _ h)
  unfold tableLine
  dsimp only
  rw [trim_nl hnl]
  rcases trimStart_cases line with ⟨h1, h2⟩ | ⟨c, r, t, ts, h1, h2, h3, h4⟩
  · rw [if_pos (Or.inr h1), if_pos (by rw [cells, h2]; rfl)]
  · by_cases hc : c = '#'
    · rw [if_pos (Or.inl (by rw [h1, hc]; rfl)), if_pos]
      rw [cells, h3, List.takeWhile_cons, if_neg (by simp [startsHash, h4, hc])]
    · rw [if_neg (by rw [h1]; simp [startsHash, hc]), if_neg, rowStep, splitWs_trimStart, rowLoop_takeWhile]
      · rfl
      · rw [cells, h3, List.takeWhile_cons, if_pos (by simp [startsHash, h4, hc])]; simp

def rowsLoop (parse : List Char → Option T) (labels : Option (List (List Char))) : List (List (List Char)) → TState T → Res (TState T)
  | [], st => ok st
  | row :: rows, st => do
    let st ← rowStep parse labels st row
    rowsLoop parse labels rows st

theorem tableLines_eq (parse : List Char → Option T) (labels : Option (List (List Char))) (lines : List (List Char)) :
    ∀ st : TState T, (∀ l ∈ lines, '\n' ∉ l) →
      tableLines parse labels lines st = rowsLoop parse labels ((lines.map cells).filter (· ≠ [])) st := by
  induction lines with
  | nil => intros; rfl
  | cons l lines ih =>
    intro st h
    rw [tableLines, tableLine_eq parse labels st (h l List.mem_cons_self), List.map_cons, List.filter_cons]
    by_cases hc : cells l = []
    · rw [if_pos hc, ok_bind, if_neg (by simp [hc]), ih st (fun l' h' => h l' (List.mem_cons_of_mem _ h'))]
    · rw [if_neg hc, if_pos (by simp [hc]), rowsLoop]
      cases rowStep parse labels st (cells l) with
      | ok st => exact ih st (fun l' h' => h l' (List.mem_cons_of_mem _ h'))
      | err m => rfl
      | panic => rfl

theorem readTable_eq (parse : List Char → Option T) (labels : Option (List (List Char))) (text : List Char) :
    readTable parse labels text = (rowsLoop parse labels (tableRows text) ⟨[], fun _ => none, true, 0⟩ >>= fun st => ok st.table) := by
  unfold readTable tableRows
  rw [tableLines_eq parse labels (linesOf text) _ (linesAux_no_nl text [] (by simp))]

/-- the words of a row do not begin a comment -/
def NoHash (row : List (List Char)) : Prop := ∀ s ∈ row, startsHash s = false

theorem tableRows_noHash {text : List Char} {r : List (List Char)} (h : r ∈ tableRows text) : NoHash r ∧ r ≠ [] := by
  unfold tableRows at h
  rw [List.mem_filter, List.mem_map] at h
  obtain ⟨⟨l, -, rfl⟩, h2⟩ := h
  refine ⟨fun s hs => ?_, by simpa using h2⟩
  have := List.mem_takeWhile_imp hs
  simpa using this

/-! ## The header -/

theorem header_labels (parse : List Char → Option T) (ls : List (List Char)) (row : List (List Char)) :
    ∀ (pre : List (List Char)) (table : Table T), NoHash row → pre <+: ls →
      (pre ++ row <+: ls → rowLoop parse (some ls) true row pre.length pre table = ok ((pre ++ row).length, pre ++ row, table)) ∧
      (¬ pre ++ row <+: ls → ∃ m, rowLoop parse (some ls) true row pre.length pre table = err m) := by
  induction row with
  | nil =>
    intro pre table _ hp
    rw [List.append_nil]
    exact ⟨fun _ => rfl, fun h => absurd hp h⟩
  | cons s row ih =>
    intro pre table hn hp
    have hs : ¬ startsHash s = true := by simp [hn s List.mem_cons_self]
    have hn' : NoHash row := fun t ht => hn t (List.mem_cons_of_mem _ ht)
    rw [rowLoop, if_neg hs, cellStep, if_pos rfl, headerLabel]
    by_cases hlen : pre.length ≥ ls.length
    · rw [if_pos hlen]
      refine ⟨fun h => ?_, fun _ => ⟨_, rfl⟩⟩
      have := h.length_le
      simp only [List.length_append, List.length_cons] at this
      omega
    · rw [if_neg hlen, vget_lt (by omega), ok_bind]
      obtain ⟨suf, hsuf⟩ := hp
      have hget : ls[pre.length]'(by omega) :: (suf.drop 1) = suf := by
        subst hsuf
        cases suf with
        | nil => simp at hlen
        | cons a suf => simp
      by_cases heq : s = ls[pre.length]'(by omega)
      · rw [if_neg (not_not.2 heq), ok_bind, ok_bind]
        dsimp only
        have hpre : pre ++ [s] <+: ls := by
          refine ⟨suf.drop 1, ?_⟩
          rw [List.append_assoc, List.singleton_append, heq, hget, hsuf]
        have := ih (pre ++ [s]) table hn' hpre
        rw [List.append_assoc, List.singleton_append, List.length_append, List.length_singleton] at this
        rw [← heq]
        exact this
      · rw [if_pos heq]
        refine ⟨fun h => ?_, fun _ => ⟨_, rfl⟩⟩
        exfalso
        obtain ⟨suf', h'⟩ := h
        apply heq
        have e : ls[pre.length]? = some s := by rw [← h']; simp
        rw [List.getElem?_eq_getElem (by omega)] at e
        exact (Option.some.inj e).symm

theorem header_free (parse : List Char → Option T) (row : List (List Char)) :
    ∀ (pre : List (List Char)) (col : Nat) (table : Table T), NoHash row → pre.Nodup →
      ((pre ++ row).Nodup → rowLoop parse none true row col pre table = ok (col + row.length, pre ++ row, table)) ∧
      (¬ (pre ++ row).Nodup → ∃ m, rowLoop parse none true row col pre table = err m) := by
  induction row with
  | nil =>
    intro pre col table _ hp
    rw [List.append_nil]
    exact ⟨fun _ => rfl, fun h => absurd hp h⟩
  | cons s row ih =>
    intro pre col table hn hp
    have hs : ¬ startsHash s = true := by simp [hn s List.mem_cons_self]
    have hn' : NoHash row := fun t ht => hn t (List.mem_cons_of_mem _ ht)
    rw [rowLoop, if_neg hs, cellStep, if_pos rfl, headerLabel]
    by_cases hmem : s ∈ pre
    · rw [if_pos hmem]
      refine ⟨fun h => ?_, fun _ => ⟨_, rfl⟩⟩
      exact absurd rfl ((List.nodup_append.1 h).2.2 s hmem s List.mem_cons_self)
    · rw [if_neg hmem, ok_bind, ok_bind]
      dsimp only
      have hpre : (pre ++ [s]).Nodup := by
        rw [List.nodup_append]
        refine ⟨hp, by simp, ?_⟩
        intro a ha b hb
        rw [List.mem_singleton.1 hb]
        rintro rfl
        exact hmem ha
      have := ih (pre ++ [s]) (col + 1) table hn' hpre
      rw [List.append_assoc, List.singleton_append, Nat.add_assoc, Nat.add_comm 1] at this
      exact this

/-! ## The data -/

/-- the values of a row appended to the columns -/
def pushRow : Table T → List (List Char) → List T → Table T
  | t, h :: hs, v :: vs => pushRow (t.push h v) hs vs
  | t, _, _ => t

theorem data_row_ok (parse : List Char → Option T) (labels : Option (List (List Char))) (row : List (List Char)) (vs : List T) :
    ∀ (col : Nat) (header : List (List Char)) (table : Table T), NoHash row → List.Forall₂ (fun s v => parse s = some v) row vs →
      col + row.length ≤ header.length →
      rowLoop parse labels false row col header table = ok (col + row.length, header, pushRow table (header.drop col) vs) := by
  induction row generalizing vs with
  | nil =>
    intro col header table _ hv _
    cases hv
    rw [rowLoop, pushRow]; · rfl
    · intro _ _ _ _ _ h; cases h
  | cons s row ih =>
    intro col header table hn hv hl
    have hs : ¬ startsHash s = true := by simp [hn s List.mem_cons_self]
    have hn' : NoHash row := fun t ht => hn t (List.mem_cons_of_mem _ ht)
    cases hv with
    | cons hv1 hv2 =>
      rename_i v vs
      rw [List.length_cons] at hl ⊢
      rw [rowLoop, if_neg hs, cellStep, if_neg (by simp), if_neg (by omega), hv1]
      dsimp only
      rw [vget_lt (by omega), ok_bind, ok_bind]
      dsimp only
      rw [ih vs (col + 1) header _ hn' hv2 (by omega), List.drop_eq_getElem_cons (by omega : col < header.length), pushRow,
        Nat.add_assoc, Nat.add_comm 1]

theorem data_row_err (parse : List Char → Option T) (labels : Option (List (List Char))) (row : List (List Char)) :
    ∀ (col : Nat) (header : List (List Char)) (table : Table T), NoHash row →
      ¬ (col + row.length ≤ header.length ∧ ∀ s ∈ row, (parse s).isSome) → col ≤ header.length →
      ∃ m, rowLoop parse labels false row col header table = err m := by
  induction row with
  | nil => intro col header table _ h hc; exact absurd ⟨hc, by simp⟩ h
  | cons s row ih =>
    intro col header table hn h hc
    have hs : ¬ startsHash s = true := by simp [hn s List.mem_cons_self]
    have hn' : NoHash row := fun t ht => hn t (List.mem_cons_of_mem _ ht)
    rw [rowLoop, if_neg hs, cellStep, if_neg (by simp)]
    by_cases hlen : col ≥ header.length
    · exact ⟨_, by rw [if_pos hlen]; rfl⟩
    · rw [if_neg hlen]
      cases hp : parse s with
      | none => exact ⟨_, rfl⟩
      | some v =>
        dsimp only
        rw [vget_lt (by omega), ok_bind, ok_bind]
        dsimp only
        apply ih (col + 1) header _ hn' _ (by omega)
        rintro ⟨h1, h2⟩
        apply h
        refine ⟨by rw [List.length_cons]; omega, ?_⟩
        intro t ht
        rcases List.mem_cons.1 ht with rfl | ht
        · rw [hp]; rfl
        · exact h2 t ht

/-- all rows appended to the columns -/
def pushRows (header : List (List Char)) : List (List T) → Table T → Table T
  | [], t => t
  | vs :: rows, t => pushRows header rows (pushRow t header vs)

theorem exists_values {parse : List Char → Option T} {row : List (List Char)} (h : ∀ s ∈ row, (parse s).isSome) :
    ∃ vs, List.Forall₂ (fun s v => parse s = some v) row vs := by
  induction row with
  | nil => exact ⟨[], .nil⟩
  | cons s row ih =>
    obtain ⟨vs, hvs⟩ := ih (fun t ht => h t (List.mem_cons_of_mem _ ht))
    obtain ⟨v, hv⟩ := Option.isSome_iff_exists.1 (h s List.mem_cons_self)
    exact ⟨v :: vs, .cons hv hvs⟩

theorem rowsLoop_data (parse : List Char → Option T) (labels : Option (List (List Char))) (header : List (List Char))
    (data : List (List (List Char))) :
    ∀ (table : Table T), (∀ r ∈ data, NoHash r) →
      (RowsOk parse header data → ∃ vals, List.Forall₂ (List.Forall₂ fun s v => parse s = some v) data vals ∧
        rowsLoop parse labels data ⟨header, table, false, header.length⟩ = ok ⟨header, pushRows header vals table, false, header.length⟩) ∧
      (¬ RowsOk parse header data → ∃ m, rowsLoop parse labels data ⟨header, table, false, header.length⟩ = err m) := by
  induction data with
  | nil => intro table _; exact ⟨fun _ => ⟨[], .nil, rfl⟩, fun h => absurd (by intro r hr; cases hr) h⟩
  | cons r data ih =>
    intro table hn
    have hn' : ∀ r ∈ data, NoHash r := fun t ht => hn t (List.mem_cons_of_mem _ ht)
    have hr := hn r List.mem_cons_self
    by_cases hok : r.length = header.length ∧ ∀ s ∈ r, (parse s).isSome
    · obtain ⟨vs, hvs⟩ := exists_values hok.2
      have e : rowStep parse labels ⟨header, table, false, header.length⟩ r = ok ⟨header, pushRow table header vs, false, header.length⟩ := by
        rw [rowStep]
        dsimp only
        rw [data_row_ok parse labels r vs 0 header table hr hvs (by omega), ok_bind, if_neg (by simp)]
        dsimp only
        rw [if_neg (by omega), List.drop_zero]
      obtain ⟨i1, i2⟩ := ih (pushRow table header vs) hn'
      constructor
      · intro h
        obtain ⟨vals, f1, f2⟩ := i1 (fun t ht => h t (List.mem_cons_of_mem _ ht))
        exact ⟨vs :: vals, .cons hvs f1, by rw [rowsLoop, e, ok_bind, f2, pushRows]⟩
      · intro h
        obtain ⟨m, f⟩ := i2 (by
          intro h'
          apply h
          intro t ht
          rcases List.mem_cons.1 ht with rfl | ht
          · exact hok
          · exact h' t ht)
        exact ⟨m, by rw [rowsLoop, e, ok_bind, f]⟩
    · refine ⟨fun h => absurd (h r List.mem_cons_self) hok, fun _ => ?_⟩
      suffices ∃ m, rowStep parse labels ⟨header, table, false, header.length⟩ r = err m by
        obtain ⟨m, e⟩ := this
        exact ⟨m, by rw [rowsLoop, e]; rfl⟩
      rw [rowStep]
      dsimp only
      by_cases h1 : r.length ≤ header.length ∧ ∀ s ∈ r, (parse s).isSome
      · obtain ⟨vs, hvs⟩ := exists_values h1.2
        have : r.length ≠ header.length := fun h => hok ⟨h, h1.2⟩
        refine ⟨"column data is missing", ?_⟩
        rw [data_row_ok parse labels r vs 0 header table hr hvs (by omega), ok_bind, if_neg (by simp)]
        dsimp only
        rw [if_pos (by omega)]
      · obtain ⟨m, e⟩ := data_row_err parse labels r 0 header table hr (by rw [Nat.zero_add]; exact h1) (by omega)
        exact ⟨m, by rw [e]; rfl⟩

/-! ## The property -/

theorem rowsLoop_header (parse : List Char → Option T) (labels : Option (List (List Char))) (header : List (List Char))
    (data : List (List (List Char))) (table : Table T) (hn : NoHash header) :
    (HeaderOk labels header → rowsLoop parse labels (header :: data) ⟨[], table, true, 0⟩ =
      rowsLoop parse labels data ⟨header, table, false, header.length⟩) ∧
    (¬ HeaderOk labels header → ∃ m, rowsLoop parse labels (header :: data) ⟨[], table, true, 0⟩ = err m) := by
  rw [rowsLoop, rowStep]
  dsimp only
  cases labels with
  | some ls =>
    obtain ⟨h1, h2⟩ := header_labels parse ls header [] table hn List.nil_prefix
    rw [List.nil_append, List.length_nil] at h1 h2
    refine ⟨fun h => ?_, fun h => ?_⟩
    · rw [h1 h, ok_bind, if_pos rfl, ok_bind]
    · obtain ⟨m, e⟩ := h2 h
      exact ⟨m, by rw [e]; rfl⟩
  | none =>
    obtain ⟨h1, h2⟩ := header_free parse header [] 0 table hn List.nodup_nil
    rw [List.nil_append, Nat.zero_add] at h1
    rw [List.nil_append] at h2
    refine ⟨fun h => ?_, fun h => ?_⟩
    · rw [h1 h, ok_bind, if_pos rfl, ok_bind]
    · obtain ⟨m, e⟩ := h2 h
      exact ⟨m, by rw [e]; rfl⟩

/-- everything about `read_table`: the texts that are tables are accepted and the others are errors -/
theorem readTable_spec (parse : List Char → Option T) (labels : Option (List (List Char))) (text : List Char) :
    (TableOk parse labels (tableRows text) → ∃ vals,
      List.Forall₂ (List.Forall₂ fun s v => parse s = some v) (tableRows text).tail vals ∧
      readTable parse labels text = ok (pushRows ((tableRows text).headD []) vals fun _ => none)) ∧
    (¬ TableOk parse labels (tableRows text) → ∃ m, readTable parse labels text = err m) := by
  rw [readTable_eq]
  have hn : ∀ r ∈ tableRows text, NoHash r := fun r hr => (tableRows_noHash hr).1
  generalize tableRows text = rows at hn
  cases rows with
  | nil => exact ⟨fun _ => ⟨[], .nil, rfl⟩, fun h => absurd trivial h⟩
  | cons header data =>
    obtain ⟨h1, h2⟩ := rowsLoop_header parse labels header data (fun _ => none) (hn _ List.mem_cons_self)
    obtain ⟨d1, d2⟩ := rowsLoop_data parse labels header data (fun _ => none) (fun r hr => hn r (List.mem_cons_of_mem _ hr))
    constructor
    · rintro ⟨g1, g2⟩
      obtain ⟨vals, e1, e2⟩ := d1 g2
      exact ⟨vals, e1, by rw [h1 g1, e2]; rfl⟩
    · intro h
      by_cases g1 : HeaderOk labels header
      · obtain ⟨m, e⟩ := d2 (fun g2 => h ⟨g1, g2⟩)
        exact ⟨m, by rw [h1 g1, e]; rfl⟩
      · obtain ⟨m, e⟩ := h2 g1
        exact ⟨m, by rw [e]; rfl⟩

/-- **C40** A text is accepted exactly when its non-empty, non-comment rows form a table: a header that agrees with the given labels
(or has distinct labels when none are given) followed by rows with as many parseable cells; in every other case the result
is an error, never a panic. -/
theorem C40_accepts (parse : List Char → Option T) (labels : Option (List (List Char))) (text : List Char) :
    ((∃ t, readTable parse labels text = ok t) ↔ TableOk parse labels (tableRows text)) ∧
    ((∃ m, readTable parse labels text = err m) ↔ ¬ TableOk parse labels (tableRows text)) := by
  obtain ⟨h1, h2⟩ := readTable_spec parse labels text
  by_cases h : TableOk parse labels (tableRows text)
  · obtain ⟨vals, -, e⟩ := h1 h
    refine ⟨⟨fun _ => h, fun _ => ⟨_, e⟩⟩, ⟨?_, fun h' => absurd h h'⟩⟩
    rintro ⟨m, e'⟩; rw [e] at e'; cases e'
  · obtain ⟨m, e⟩ := h2 h
    refine ⟨⟨?_, fun h' => absurd h' h⟩, ⟨fun _ => h, fun _ => ⟨_, e⟩⟩⟩
    rintro ⟨t, e'⟩; rw [e] at e'; cases e'

theorem pushRow_not_mem {header : List (List Char)} {l : List Char} (hl : l ∉ header) : ∀ (vs : List T) (t : Table T), pushRow t header vs l = t l := by
  induction header with
  | nil => intro vs t; rw [pushRow]; intro _ _ _ _ h; cases h
  | cons h hs ih =>
    intro vs t
    cases vs with
    | nil => rw [pushRow]; intro _ _ _ _ _ h; cases h
    | cons v vs =>
      rw [pushRow, ih (fun h' => hl (List.mem_cons_of_mem _ h')), Table.push, if_neg]
      rintro rfl; exact hl List.mem_cons_self

theorem pushRow_get {header : List (List Char)} (hd : header.Nodup) : ∀ (vs : List T) (t : Table T) (c : Nat) (h1 : c < header.length)
    (h2 : c < vs.length), pushRow t header vs header[c] = some ((t header[c]).getD [] ++ [vs[c]]) := by
  induction header with
  | nil => intro vs t c h; cases h
  | cons h hs ih =>
    intro vs t c h1 h2
    rw [List.nodup_cons] at hd
    cases vs with
    | nil => cases h2
    | cons v vs =>
      rw [pushRow]
      cases c with
      | zero =>
        rw [List.getElem_cons_zero, List.getElem_cons_zero, pushRow_not_mem hd.1, Table.push, if_pos rfl]
        cases t h <;> rfl
      | succ c =>
        rw [List.length_cons] at h1 h2
        rw [List.getElem_cons_succ, List.getElem_cons_succ, ih hd.2 vs _ c (by omega) (by omega), Table.push, if_neg]
        intro he; exact hd.1 (he ▸ List.getElem_mem _)

theorem pushRows_not_mem {header : List (List Char)} {l : List Char} (hl : l ∉ header) : ∀ (vals : List (List T)) (t : Table T),
    pushRows header vals t l = t l := by
  intro vals
  induction vals with
  | nil => intro t; rfl
  | cons vs vals ih => intro t; rw [pushRows, ih, pushRow_not_mem hl]

theorem pushRows_get {header : List (List Char)} (hd : header.Nodup) {c : Nat} (h1 : c < header.length) : ∀ (vals : List (List T)) (t : Table T)
    (h2 : ∀ vs ∈ vals, c < vs.length), vals ≠ [] →
    pushRows header vals t header[c] = some ((t header[c]).getD [] ++ vals.pmap (fun vs h => vs[c]'h) h2) := by
  intro vals
  induction vals with
  | nil => intro t _ h; exact absurd rfl h
  | cons vs vals ih =>
    intro t h2 _
    rw [pushRows]
    by_cases hv : vals = []
    · subst hv
      rw [pushRows, pushRow_get hd vs t c h1 (h2 _ List.mem_cons_self)]; rfl
    · rw [ih _ (fun v hv => h2 v (List.mem_cons_of_mem _ hv)) hv, pushRow_get hd vs t c h1 (h2 _ List.mem_cons_self), Option.getD_some,
        List.append_assoc]
      rfl

/-- **C40** The table of an accepted text with distinct labels in the header is rectangular: with at least one data row every label of the
header has a column with one value per data row, parsed from its cell; nothing else is in the table. -/
theorem C40_columns {parse : List Char → Option T} {labels : Option (List (List Char))} {text : List Char} {t : Table T}
    {header : List (List Char)} {data : List (List (List Char))} (hok : readTable parse labels text = ok t)
    (hrows : tableRows text = header :: data) (hd : header.Nodup) :
    (∀ l, l ∉ header → t l = none) ∧ (data = [] → ∀ l, t l = none) ∧
    (data ≠ [] → ∀ c (hc : c < header.length), ∃ col, t header[c] = some col ∧ col.length = data.length ∧
      ∀ i (hi : i < data.length), ∃ hi' : c < data[i].length, (parse (data[i][c])).isSome ∧ parse (data[i][c]) = col[i]?) := by
  obtain ⟨h1, h2⟩ := readTable_spec parse labels text
  have hT : TableOk parse labels (tableRows text) := ((C40_accepts parse labels text).1).1 ⟨t, hok⟩
  obtain ⟨vals, v1, v2⟩ := h1 hT
  rw [hok, hrows, List.headD_cons] at v2
  rw [hrows, List.tail_cons] at v1
  rw [hrows] at hT
  have ht := Res.ok.inj v2
  have hlen := v1.length_eq
  have hrow : ∀ i (h1 : i < data.length) (h2 : i < vals.length), List.Forall₂ (fun s v => parse s = some v) data[i] vals[i] := by
    intro i h1 h2
    exact List.Forall₂.get v1 h1 h2
  have hcell : ∀ c, c < header.length → ∀ vs ∈ vals, c < vs.length := by
    intro c hc vs hvs
    obtain ⟨i, hi, rfl⟩ := List.getElem_of_mem hvs
    have e := (hrow i (by omega) hi).length_eq
    have := (hT.2 data[i] (List.getElem_mem _)).1
    omega
  refine ⟨?_, ?_, ?_⟩
  · intro l hl; rw [ht, pushRows_not_mem hl]
  · rintro rfl l
    have : vals = [] := by cases vals with
      | nil => rfl
      | cons => simp at hlen
    rw [ht, this]; rfl
  · intro hne c hc
    have hvne : vals ≠ [] := by
      rintro rfl
      exact hne (List.length_eq_zero_iff.1 (by simpa using hlen))
    refine ⟨_, by rw [ht, pushRows_get hd hc vals _ (hcell c hc) hvne], ?_, ?_⟩
    · simp [hlen]
    · intro i hi
      have e := (hT.2 data[i] (List.getElem_mem _)).1
      have hi' : c < data[i].length := by omega
      have hiv : i < vals.length := by omega
      have hp : parse (data[i][c]) = some ((vals[i])[c]'(hcell c hc _ (List.getElem_mem _))) :=
        List.Forall₂.get (hrow i hi hiv) hi' (hcell c hc _ (List.getElem_mem _))
      refine ⟨hi', by rw [hp]; rfl, ?_⟩
      rw [hp]
      simp [hiv]

/-- **C40** Without given labels, the header of an accepted text has distinct labels, so that `C40_columns` applies; with given distinct
labels too. -/
theorem C40_nodup {parse : List Char → Option T} {labels : Option (List (List Char))} {text : List Char} {t : Table T}
    {header : List (List Char)} {data : List (List (List Char))} (hok : readTable parse labels text = ok t)
    (hrows : tableRows text = header :: data) (hl : ∀ ls, labels = some ls → ls.Nodup) : header.Nodup := by
  have hT : TableOk parse labels (tableRows text) := ((C40_accepts parse labels text).1).1 ⟨t, hok⟩
  rw [hrows] at hT
  cases labels with
  | none => exact hT.1
  | some ls => exact (hl ls rfl).sublist (hT.1 : header <+: ls).sublist

/-- a parser of integers -/
def cellI32 (s : List Char) : Option Int := parseI32 s

/-- **C40** Header columns that are missing at the end are not noticed: with the labels `x`, `y` a text with the column `x` only is
accepted and there is no column `y`. -/
theorem C40_missing_label_counterexample :
    ∃ t, readTable cellI32 (some ["x".toList, "y".toList]) "x\n1\n".toList = ok t ∧ t "x".toList = some [1] ∧ t "y".toList = none :=
  ⟨_, rfl, by decide +kernel, by decide +kernel⟩

/-- **C40** With duplicate given labels the columns are merged into one that is longer than the number of rows. -/
theorem C40_duplicate_labels_counterexample :
    ∃ t, readTable cellI32 (some ["x".toList, "x".toList]) "x x\n1 2\n".toList = ok t ∧ t "x".toList = some [1, 2] :=
  ⟨_, rfl, by decide +kernel⟩

/-- a table with comments, blank lines and a different line end -/
example : ∃ t, readTable cellI32 none "# data\n\n a b # header\n1 2\r\n  -3 4 # last\n#end".toList = ok t ∧
    t "a".toList = some [1, -3] ∧ t "b".toList = some [2, 4] ∧ t "c".toList = none :=
  ⟨_, rfl, by decide +kernel, by decide +kernel, by decide +kernel⟩

/-- the rows of this text, to which `C40_columns` and `C40_nodup` apply -/
example : tableRows "# data\n\n a b # header\n1 2\r\n  -3 4 # last\n#end".toList =
    ["a".toList, "b".toList] :: [["1".toList, "2".toList], ["-3".toList, "4".toList]] := by
  decide +kernel

/-- texts that are not tables -/
example : (∃ m, readTable cellI32 none "a a\n".toList = err m) ∧ (∃ m, readTable cellI32 none "a b\n1\n".toList = err m) ∧
    (∃ m, readTable cellI32 none "a b\n1 2 3\n".toList = err m) ∧ (∃ m, readTable cellI32 none "a b\n1 x\n".toList = err m) ∧
    (∃ m, readTable cellI32 (some ["a".toList]) "b\n".toList = err m) :=
  ⟨⟨_, rfl⟩, ⟨_, rfl⟩, ⟨_, rfl⟩, ⟨_, rfl⟩, ⟨_, rfl⟩⟩

end Russell.Lab
