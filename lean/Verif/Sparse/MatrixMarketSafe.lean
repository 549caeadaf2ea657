import Verif.Sparse.MatrixMarketProps
import Verif.Sparse.NewProps

/-!
# What the MatrixMarket reader accepts, and when it panics (C15)

The reader is followed on an arbitrary text: it returns an error, or it accepts the text, and then the text is a MatrixMarket file
(`IsFile`) and the matrix read has the entries of the file, or it panics, and then the text has one of four listed defects.
-/

namespace Russell.Sparse
open Russell Russell.Res Russell.Lab Russell.Text

variable {α ρ : Type}

/-- `putHandled_spec` without the restriction to the lower triangle -/
theorem putHandled_full {c : Coo α} {es : List (Entry α)} (h : c.Rep es) {e : Entry α}
    (hi : e.1 < c.nrow) (hj : e.2.1 < c.ncol) (hs : c.nrow = c.ncol) (hk : c.symmetric = .yesFull)
    (hl : es.length + 2 ≤ c.maxNnz) :
    ∃ c', putHandled true .makeItFull c e = ok c' ∧ c'.Rep (es ++ handled true .makeItFull e) ∧ c'.nrow = c.nrow ∧ c'.ncol = c.ncol ∧
        c'.maxNnz = c.maxNnz ∧ c'.symmetric = c.symmetric := by
  have ht : ∀ i j, InTriangle c.symmetric i j := by
    intro i j; rw [hk]; exact ⟨by simp, by simp⟩
  unfold putHandled handled
  simp only [if_true]
  obtain ⟨c1, k1, k2, f1, f2, f3, f4⟩ := putOk_spec h (x := e.2.2) hi hj (by omega) (ht _ _)
  by_cases hd : e.1 = e.2.1
  · rw [if_pos hd]
    refine ⟨c1, ?_, k2, f1, f2, f3, f4⟩
    rw [k1, ok_bind, if_neg (not_not.2 hd)]
  · rw [if_neg hd]
    obtain ⟨c2, l1, l2, g1, g2, g3, g4⟩ := putOk_spec k2 (i := e.2.1) (j := e.1) (x := e.2.2) (by omega) (by omega)
      (by simp; omega) (by rw [f4]; exact ht _ _)
    refine ⟨c2, ?_, by simpa using l2, by rw [g1, f1], by rw [g2, f2], by rw [g3, f3], by rw [g4, f4]⟩
    rw [k1, ok_bind, if_pos hd, l1]

theorem putOk_panic {c : Coo α} {es : List (Entry α)} (h : c.Rep es) {i j : Nat} {x : α} (ht : ¬ InTriangle c.symmetric i j) :
    putOk c i j x = Res.panic := by
  have := Coo.put_spec h i j x
  rw [if_neg (fun h => ht h.2.2.2)] at this
  obtain ⟨msg, h1⟩ := this
  rw [putOk, h1]

/-- the entry is in the wrong triangle for the option -/
def WrongTriangle (symmetric : Bool) (handling : MMsym) (i j : Int) : Prop := symmetric = true ∧ handling ≠ .makeItFull ∧ i < j

/-- the storage of one triple: it succeeds, or the triple is in the wrong triangle -/
theorem putHandled_cases {c : Coo α} {es : List (Entry α)} (h : c.Rep es) {symmetric : Bool} {handling : MMsym} {e : Entry α}
    (hi : e.1 < c.nrow) (hj : e.2.1 < c.ncol) (hs : symmetric = true → c.nrow = c.ncol)
    (hk : c.symmetric = if symmetric then handling.kind else Sym.no)
    (hl : es.length + (if symmetric && handling == .makeItFull then 2 else 1) ≤ c.maxNnz) :
    (¬ WrongTriangle symmetric handling e.1 e.2.1 ∧
      ∃ c', putHandled symmetric handling c e = ok c' ∧ c'.Rep (es ++ handled symmetric handling e) ∧ c'.nrow = c.nrow ∧
        c'.ncol = c.ncol ∧ c'.maxNnz = c.maxNnz ∧ c'.symmetric = c.symmetric) ∨
    (WrongTriangle symmetric handling e.1 e.2.1 ∧ putHandled symmetric handling c e = Res.panic) := by
  by_cases hw : WrongTriangle symmetric handling e.1 e.2.1
  · refine Or.inr ⟨hw, ?_⟩
    obtain ⟨rfl, h2, h3⟩ := hw
    unfold putHandled
    simp only [if_true] at hk ⊢
    cases handling with
    | makeItFull => exact absurd rfl h2
    | leaveAsLower => exact putOk_panic h (by rw [hk]; intro h; have := h.1 rfl; omega)
    | swapToUpper => exact putOk_panic h (by rw [hk]; intro h; have := h.2 rfl; omega)
  · refine Or.inl ⟨hw, ?_⟩
    by_cases hf : symmetric = true ∧ handling = .makeItFull
    · obtain ⟨rfl, rfl⟩ := hf
      exact putHandled_full h hi hj (hs rfl) (by simpa [MMsym.kind] using hk) (by simpa using hl)
    · refine putHandled_spec h hi hj (fun h => ⟨hs h, ?_⟩) hk ?_
      · have : handling ≠ .makeItFull := fun h' => hf ⟨h, h'⟩
        by_contra hlt
        exact hw ⟨h, this, by omega⟩
      · have := handled_length symmetric handling e
        omega

/-- the line has an index that cannot be decremented, or an entry in the wrong triangle -/
def BadLine (symmetric : Bool) (handling : MMsym) (line : List Char) : Prop :=
  ∃ t1 t2 ts i j, splitWs line = t1 :: t2 :: ts ∧ parseI32 t1 = some i ∧ parseI32 t2 = some j ∧
    (i = -2147483648 ∨ j = -2147483648 ∨ WrongTriangle symmetric handling i j)

theorem realValue_no_panic (parse : List Char → Option ρ) (ts : List (List Char)) : realValue parse ts ≠ Res.panic := by
  unfold realValue tokenOr
  cases ts with
  | nil => simp
  | cons t ts =>
    rw [ok_bind]
    dsimp only
    cases parse t <;> simp

theorem complexValue_no_panic (parse : List Char → Option ρ) (ts : List (List Char)) : complexValue parse ts ≠ Res.panic := by
  unfold complexValue tokenOr
  cases ts with
  | nil => simp
  | cons t ts =>
    rw [ok_bind]
    dsimp only
    cases parse t with
    | none => simp
    | some a =>
      cases ts with
      | nil => simp
      | cons t' ts =>
        dsimp only
        rw [ok_bind]
        dsimp only
        cases parse t' <;> simp

/-- one line: an error, an ignored line, an entry within range, or an index that cannot be decremented -/
theorem parseValues_cases {value : List (List Char) → Res α} (hv : ∀ ts, value ts ≠ Res.panic) {m n nnz : Nat} {pos : Nat}
    (hm : m < 2147483648) (hn : n < 2147483648) (line : List Char) :
    (∃ msg, parseValues value ⟨m, n, nnz⟩ pos line = err msg) ∨
    (parseValues value ⟨m, n, nnz⟩ pos line = ok none ∧ ¬ IsData line) ∨
    (∃ e, parseValues value ⟨m, n, nnz⟩ pos line = ok (some e) ∧ IsEntryLine value line e ∧ e.1 < m ∧ e.2.1 < n ∧ pos ≠ nnz) ∨
    (parseValues value ⟨m, n, nnz⟩ pos line = Res.panic ∧ ∃ t1 t2 ts i j, splitWs line = t1 :: t2 :: ts ∧ parseI32 t1 = some i ∧
      parseI32 t2 = some j ∧ (i = -2147483648 ∨ j = -2147483648)) := by
  by_cases hd : IsData line
  · unfold parseValues
    rw [if_neg (by rw [skipLine_eq_false.2 hd]; simp)]
    by_cases hp : (pos : Int) = (nnz : Int)
    · exact Or.inl ⟨_, if_pos hp⟩
    · rw [if_neg hp, splitWs_trimStart]
      have hd' := hd
      obtain ⟨ch, t, ts, h1, h2⟩ := hd
      generalize hw : splitWs line = ws at *
      subst h1
      dsimp only
      cases hi : parseI32 (ch :: t) with
      | none => exact Or.inl ⟨_, by simp only [i32Or, hi]; rfl⟩
      | some i =>
        cases ts with
        | nil => exact Or.inl ⟨_, by simp only [i32Or, hi, tokenOr, ok_bind]; rfl⟩
        | cons t2 ts =>
          cases hj : parseI32 t2 with
          | none => exact Or.inl ⟨_, by simp only [i32Or, hi, hj, tokenOr, ok_bind]; rfl⟩
          | some j =>
            cases ha : value ts with
            | panic => exact absurd ha (hv ts)
            | err msg => exact Or.inl ⟨msg, by simp only [i32Or, hi, hj, tokenOr, ok_bind, ha]; rfl⟩
            | ok a =>
              have ri := parseI32_range hi
              have rj := parseI32_range hj
              have e1 : i32Or "cannot parse i" (ch :: t) = ok i := by simp only [i32Or, hi]
              have e2 : i32Or "cannot parse j" t2 = ok j := by simp only [i32Or, hj]
              by_cases hbad : i = -2147483648 ∨ j = -2147483648
              · refine Or.inr (Or.inr (Or.inr ⟨?_, _, _, _, i, j, rfl, hi, hj, hbad⟩))
                simp only [e1, e2, tokenOr, ok_bind, ha]
                by_cases hi0 : i = -2147483648
                · unfold addI32
                  rw [if_neg (by omega)]
                  rfl
                · have : addI32 i (-1) = ok (i + -1) := by unfold addI32; rw [if_pos (by omega)]
                  rw [this, ok_bind]
                  unfold addI32
                  rw [if_neg (by omega)]
                  rfl
              · have a1 : addI32 i (-1) = ok (i + -1) := by unfold addI32; rw [if_pos (by omega)]
                have a2 : addI32 j (-1) = ok (j + -1) := by unfold addI32; rw [if_pos (by omega)]
                simp only [e1, e2, tokenOr, ok_bind, ha, a1, a2]
                by_cases hr : i + -1 < 0 ∨ i + -1 ≥ (m : Int) ∨ j + -1 < 0 ∨ j + -1 ≥ (n : Int)
                · exact Or.inl ⟨_, if_pos hr⟩
                · rw [if_neg hr]
                  obtain ⟨p, hp'⟩ : ∃ p : Nat, i + -1 = (p : Int) := ⟨(i - 1).toNat, by omega⟩
                  obtain ⟨q, hq'⟩ : ∃ q : Nat, j + -1 = (q : Int) := ⟨(j - 1).toNat, by omega⟩
                  rw [hp', hq', asUsize_natCast (by omega), asUsize_natCast (by omega)]
                  refine Or.inr (Or.inr (Or.inl ⟨(p, q, a), rfl, ⟨hd', _, _, _, hw, ?_, ?_, ha⟩, by simp only; omega, by simp only; omega, by omega⟩))
                  · rw [hi]; congr 1; simp only; omega
                  · rw [hj]; congr 1; simp only; omega
  · refine Or.inr (Or.inl ⟨?_, hd⟩)
    unfold parseValues
    rw [if_pos (skipLine_eq_true.2 hd)]

/-- all lines: an error, a body with all entries stored, or a bad line -/
theorem readLines_cases {value : List (List Char) → Res α} (hv : ∀ ts, value ts ≠ Res.panic) {m n nnz : Nat} (hm : m < 2147483648)
    (hn : n < 2147483648) {symmetric : Bool} {handling : MMsym} (hs : symmetric = true → m = n) (body : List (List Char)) :
    ∀ {c : Coo α} {es0 : List (Entry α)} {pos : Nat}, c.Rep es0 → c.nrow = m → c.ncol = n →
    (c.symmetric = if symmetric then handling.kind else Sym.no) → pos ≤ nnz →
    es0.length + (if symmetric && handling == .makeItFull then 2 else 1) * (nnz - pos) ≤ c.maxNnz →
    (∃ msg, forList body (pos, c) (readLine value ⟨m, n, nnz⟩ symmetric handling) = err msg) ∨
    (∃ es c', forList body (pos, c) (readLine value ⟨m, n, nnz⟩ symmetric handling) = ok (pos + es.length, c') ∧
      BodyOf value body es ∧ (∀ e ∈ es, e.1 < m) ∧ (∀ e ∈ es, e.2.1 < n) ∧ (∀ e ∈ es, ¬ WrongTriangle symmetric handling e.1 e.2.1) ∧
      c'.Rep (es0 ++ es.flatMap (handled symmetric handling)) ∧ c'.nrow = m ∧ c'.ncol = n ∧ c'.symmetric = c.symmetric) ∨
    (forList body (pos, c) (readLine value ⟨m, n, nnz⟩ symmetric handling) = Res.panic ∧ ∃ l ∈ body, BadLine symmetric handling l) := by
  induction body with
  | nil =>
    intro c es0 pos hr h1 h2 hk _ _
    exact Or.inr (Or.inl ⟨[], c, rfl, .nil, by simp, by simp, by simp, by simpa using hr, h1, h2, rfl⟩)
  | cons l body ih =>
    intro c es0 pos hr h1 h2 hk hp hx
    rw [forList]
    rcases parseValues_cases hv (nnz := nnz) (pos := pos) hm hn l with ⟨msg, h⟩ | ⟨h, hd⟩ | ⟨e, h, he, r1, r2, r3⟩ | ⟨h, t1, t2, ts, i, j, k1, k2, k3, k4⟩
    · left
      exact ⟨msg, by unfold readLine; rw [h]; rfl⟩
    · have : readLine value ⟨m, n, nnz⟩ symmetric handling l (pos, c) = ok (pos, c) := by
        unfold readLine; rw [h, ok_bind]
      rw [this, ok_bind]
      rcases ih hr h1 h2 hk hp hx with h | ⟨es, c', g1, g2, g3⟩ | ⟨g1, l', g2, g3⟩
      · exact Or.inl h
      · exact Or.inr (Or.inl ⟨es, c', g1, .skip hd g2, g3⟩)
      · exact Or.inr (Or.inr ⟨g1, l', List.mem_cons_of_mem _ g2, g3⟩)
    · obtain ⟨t, ht⟩ : ∃ t, nnz - pos = t + 1 := ⟨nnz - pos - 1, by omega⟩
      have hx' : es0.length + (if symmetric && handling == .makeItFull then 2 else 1) * (nnz - (pos + 1)) +
          (if symmetric && handling == .makeItFull then 2 else 1) ≤ c.maxNnz := by
        have : nnz - (pos + 1) = t := by omega
        rw [this]
        rw [ht, Nat.mul_add, Nat.mul_one] at hx
        omega
      rcases putHandled_cases hr (e := e) (symmetric := symmetric) (handling := handling) (by omega) (by omega)
        (fun h => by rw [h1, h2, hs h]) hk (by omega) with ⟨hw, c1, q1, q2, q3, q4, q5, q6⟩ | ⟨hw, q⟩
      · have : readLine value ⟨m, n, nnz⟩ symmetric handling l (pos, c) = ok (pos + 1, c1) := by
          unfold readLine; rw [h, ok_bind]; dsimp only; rw [q1, ok_bind]
        rw [this, ok_bind]
        have hlen := handled_length symmetric handling e
        rcases ih q2 (by omega) (by omega) (by rw [q6, hk]) (pos := pos + 1) (by omega)
          (by rw [q5, List.length_append]; omega) with h | ⟨es, c', g1, g2, g3, g4, g5, g6, g7, g8, g9⟩ | ⟨g1, l', g2, g3⟩
        · exact Or.inl h
        · refine Or.inr (Or.inl ⟨e :: es, c', ?_, .entry he g2, ?_, ?_, ?_, ?_, g7, g8, by rw [g9, q6]⟩)
          · rw [g1]; congr 2; simp; omega
          · simp only [List.mem_cons, forall_eq_or_imp]; exact ⟨r1, g3⟩
          · simp only [List.mem_cons, forall_eq_or_imp]; exact ⟨r2, g4⟩
          · simp only [List.mem_cons, forall_eq_or_imp]; exact ⟨hw, g5⟩
          · rw [List.flatMap_cons, ← List.append_assoc]; exact g6
        · exact Or.inr (Or.inr ⟨g1, l', List.mem_cons_of_mem _ g2, g3⟩)
      · refine Or.inr (Or.inr ⟨?_, l, List.mem_cons_self, ?_⟩)
        · have : readLine value ⟨m, n, nnz⟩ symmetric handling l (pos, c) = Res.panic := by
            unfold readLine; rw [h, ok_bind]; dsimp only; rw [q]; rfl
          rw [this]; rfl
        · obtain ⟨-, t1, t2, ts, e1, e2, e3, -⟩ := he
          exact ⟨t1, t2, ts, _, _, e1, e2, e3, Or.inr (Or.inr ⟨hw.1, hw.2.1, by have := hw.2.2; omega⟩)⟩
    · refine Or.inr (Or.inr ⟨?_, l, List.mem_cons_self, t1, t2, ts, i, j, k1, k2, k3, ?_⟩)
      · unfold readLine; rw [h]; rfl
      · rcases k4 with h | h
        · exact Or.inl h
        · exact Or.inr (Or.inl h)

theorem readDims_cases : ∀ lines : List (List Char),
    (∃ msg, readDims lines = err msg) ∨ (readDims lines = Res.panic ∧ ∀ l ∈ lines, ¬ IsData l) ∨
    (∃ pre dims body m n nnz, lines = pre ++ dims :: body ∧ (∀ l ∈ pre, ¬ IsData l) ∧ IsDims dims m n nnz ∧ 1 ≤ m ∧ 1 ≤ n ∧ 1 ≤ nnz ∧
      readDims lines = ok (⟨m, n, nnz⟩, body)) := by
  intro lines
  induction lines with
  | nil => exact Or.inr (Or.inl ⟨rfl, by simp⟩)
  | cons l lines ih =>
    by_cases hd : IsData l
    · rw [readDims, if_neg (by rw [skipLine_eq_false.2 hd]; simp)]
      have hd' := hd
      obtain ⟨ch, t, ts, h1, h2⟩ := hd
      unfold parseDims
      rw [splitWs_trimStart, h1]
      dsimp only
      cases hm : parseI32 (ch :: t) with
      | none => exact Or.inl ⟨_, by simp only [i32Or, hm]; rfl⟩
      | some m =>
        cases ts with
        | nil => exact Or.inl ⟨_, by simp only [i32Or, hm, tokenOr, ok_bind]; rfl⟩
        | cons t2 ts =>
          cases hn : parseI32 t2 with
          | none => exact Or.inl ⟨_, by simp only [i32Or, hm, hn, tokenOr, ok_bind]; rfl⟩
          | some n =>
            cases ts with
            | nil => exact Or.inl ⟨_, by simp only [i32Or, hm, hn, tokenOr, ok_bind]; rfl⟩
            | cons t3 ts =>
              cases hz : parseI32 t3 with
              | none => exact Or.inl ⟨_, by simp only [i32Or, hm, hn, hz, tokenOr, ok_bind]; rfl⟩
              | some z =>
                simp only [i32Or, hm, hn, hz, tokenOr, ok_bind]
                by_cases hb : m < 1 ∨ n < 1 ∨ z < 1
                · exact Or.inl ⟨_, by rw [if_pos hb]; rfl⟩
                · obtain ⟨m', rfl⟩ : ∃ p : Nat, m = (p : Int) := ⟨m.toNat, by omega⟩
                  obtain ⟨n', rfl⟩ : ∃ p : Nat, n = (p : Int) := ⟨n.toNat, by omega⟩
                  obtain ⟨z', rfl⟩ : ∃ p : Nat, z = (p : Int) := ⟨z.toNat, by omega⟩
                  refine Or.inr (Or.inr ⟨[], l, lines, m', n', z', rfl, by simp, ⟨hd', _, _, _, _, h1, hm, hn, hz⟩, by omega, by omega, by omega, ?_⟩)
                  rw [if_neg hb]; rfl
    · rw [readDims, if_pos (skipLine_eq_true.2 hd)]
      rcases ih with h | ⟨h, h'⟩ | ⟨pre, dims, body, m, n, nnz, rfl, h2, h3⟩
      · exact Or.inl h
      · refine Or.inr (Or.inl ⟨h, ?_⟩)
        simp only [List.mem_cons, forall_eq_or_imp]; exact ⟨hd, h'⟩
      · refine Or.inr (Or.inr ⟨l :: pre, dims, body, m, n, nnz, rfl, ?_, h3⟩)
        simp only [List.mem_cons, forall_eq_or_imp]; exact ⟨hd, h2⟩

/-- the words of the header that the reader accepts -/
theorem parseHeader_cases (line : List Char) :
    (∃ msg, parseHeader line = err msg) ∨
    ∃ field kind, IsHeader line field kind ∧ (field = "real" ∨ field = "complex") ∧
      (kind = "general" ∨ kind = "symmetric" ∨ (kind = "Hermitian" ∧ field = "complex")) ∧
      parseHeader line = ok ⟨decide (field = "complex"), decide (kind = "symmetric")⟩ := by
  unfold parseHeader IsHeader
  rw [splitWs_trimStart]
  generalize splitWs line = ws
  rcases ws with _ | ⟨w1, ws⟩
  · exact Or.inl ⟨_, rfl⟩
  dsimp only
  by_cases h1 : w1 ≠ "%%MatrixMarket".toList
  · exact Or.inl ⟨_, if_pos h1⟩
  rw [if_neg h1]
  rw [not_not] at h1; subst h1
  unfold parseObject
  rcases ws with _ | ⟨w2, ws⟩
  · exact Or.inl ⟨_, rfl⟩
  dsimp only
  by_cases h1 : w2 ≠ "matrix".toList
  · exact Or.inl ⟨_, if_pos h1⟩
  rw [if_neg h1]
  rw [not_not] at h1; subst h1
  unfold parseFormat
  rcases ws with _ | ⟨w3, ws⟩
  · exact Or.inl ⟨_, rfl⟩
  dsimp only
  by_cases h1 : w3 ≠ "coordinate".toList
  · exact Or.inl ⟨_, if_pos h1⟩
  rw [if_neg h1]
  rw [not_not] at h1; subst h1
  unfold parseField
  rcases ws with _ | ⟨w4, ws⟩
  · exact Or.inl ⟨_, rfl⟩
  dsimp only
  have kinds : ∀ (complex : Bool) (ws : List (List Char)), (∃ msg, parseKind complex ws = err msg) ∨
      ∃ kind more, ws = kind.toList :: more ∧ (kind = "general" ∨ kind = "symmetric" ∨ (kind = "Hermitian" ∧ complex = true)) ∧
        parseKind complex ws = ok ⟨complex, decide (kind = "symmetric")⟩ := by
    intro complex ws
    unfold parseKind
    rcases ws with _ | ⟨w, ws⟩
    · exact Or.inl ⟨_, rfl⟩
    dsimp only
    by_cases k1 : w = "general".toList
    · subst k1; exact Or.inr ⟨"general", ws, rfl, Or.inl rfl, rfl⟩
    rw [if_neg k1]
    by_cases k2 : w = "symmetric".toList
    · subst k2; exact Or.inr ⟨"symmetric", ws, rfl, Or.inr (Or.inl rfl), rfl⟩
    rw [if_neg k2]
    by_cases k3 : w = "Hermitian".toList
    · subst k3
      rw [if_pos rfl]
      cases complex with
      | false => exact Or.inl ⟨_, rfl⟩
      | true => exact Or.inr ⟨"Hermitian", ws, rfl, Or.inr (Or.inr ⟨rfl, rfl⟩), rfl⟩
    · rw [if_neg k3]; exact Or.inl ⟨_, rfl⟩
  by_cases h1 : w4 = "real".toList
  · rw [if_pos h1]; subst h1
    rcases kinds false ws with h | ⟨kind, more, rfl, h2, h3⟩
    · exact Or.inl h
    · exact Or.inr ⟨"real", kind, ⟨more, rfl⟩, Or.inl rfl, by simpa using h2, h3⟩
  rw [if_neg h1]
  by_cases h1 : w4 = "complex".toList
  · rw [if_pos h1]; subst h1
    rcases kinds true ws with h | ⟨kind, more, rfl, h2, h3⟩
    · exact Or.inl h
    · exact Or.inr ⟨"complex", kind, ⟨more, rfl⟩, Or.inr rfl, by simpa using h2, h3⟩
  rw [if_neg h1]
  exact Or.inl ⟨_, rfl⟩

theorem mmMax_cases {symmetric : Bool} {handling : MMsym} {nnz : Nat} (hz : nnz < 2147483648) (hz1 : 1 ≤ nnz) :
    (∃ k : Nat, mmMax symmetric handling nnz = ok (k : Int) ∧ 1 ≤ k ∧ k < 2147483648 ∧
      (if symmetric && handling == .makeItFull then 2 else 1) * nnz ≤ k) ∨
    (mmMax symmetric handling nnz = Res.panic ∧ symmetric = true ∧ handling = .makeItFull ∧ 1073741824 ≤ nnz) := by
  unfold mmMax
  by_cases hc : (symmetric && handling == .makeItFull) = true
  · rw [if_pos hc, if_pos hc]
    simp only [Bool.and_eq_true, beq_iff_eq] at hc
    by_cases hb : nnz < 1073741824
    · exact Or.inl ⟨nnz + nnz, addI32_nat (by omega), by omega, by omega, by omega⟩
    · refine Or.inr ⟨?_, hc.1, hc.2, by omega⟩
      unfold addI32
      rw [if_neg (by omega)]
  · rw [if_neg hc, if_neg hc]
    exact Or.inl ⟨nnz, rfl, by omega, hz, by omega⟩

theorem readValues_cases [Zero α] {value : List (List Char) → Res α} (hv : ∀ ts, value ts ≠ Res.panic) {m n nnz : Nat}
    (hm : m < 2147483648) (hn : n < 2147483648) (hm1 : 1 ≤ m) (hn1 : 1 ≤ n)
    {symmetric : Bool} {handling : MMsym} (hs : symmetric = true → m = n) (body : List (List Char)) {k : Nat} (hk1 : 1 ≤ k)
    (hk2 : k < 2147483648) (hk3 : (if symmetric && handling == .makeItFull then 2 else 1) * nnz ≤ k) :
    (∃ msg, readValues value ⟨m, n, nnz⟩ symmetric handling k (if symmetric then handling.kind else Sym.no) body = err msg) ∨
    (∃ es c, readValues value ⟨m, n, nnz⟩ symmetric handling k (if symmetric then handling.kind else Sym.no) body = ok c ∧
      es.length = nnz ∧ BodyOf value body es ∧ (∀ e ∈ es, e.1 < m) ∧ (∀ e ∈ es, e.2.1 < n) ∧
      (∀ e ∈ es, ¬ WrongTriangle symmetric handling e.1 e.2.1) ∧
      c.Rep (es.flatMap (handled symmetric handling)) ∧ c.nrow = m ∧ c.ncol = n ∧
      c.symmetric = if symmetric then handling.kind else Sym.no) ∨
    (readValues value ⟨m, n, nnz⟩ symmetric handling k (if symmetric then handling.kind else Sym.no) body = Res.panic ∧
      ∃ l ∈ body, BadLine symmetric handling l) := by
  have hnew : ∃ c, Coo.new (α := α) m n k (if symmetric then handling.kind else Sym.no) = ok c := by
    unfold Coo.new
    rw [if_neg (by omega), if_neg (by omega), if_neg (by omega), if_neg]
    · exact ⟨_, rfl⟩
    · rintro ⟨h1, h2⟩
      cases symmetric with
      | false => exact h1 rfl
      | true => exact h2 (hs rfl)
  obtain ⟨c0, hc0⟩ := hnew
  obtain ⟨hr, f1, f2, f3, f4⟩ := Coo.new_rep hc0 hm hn
  have e0 : readValues value ⟨m, n, nnz⟩ symmetric handling k (if symmetric then handling.kind else Sym.no) body =
      (forList body (0, c0) (readLine value ⟨m, n, nnz⟩ symmetric handling) >>= fun st =>
        if (st.1 : Int) ≠ (nnz : Int) then err "not all values have been found" else ok st.2) := by
    unfold readValues
    dsimp only
    rw [asUsize_natCast hm, asUsize_natCast hn, asUsize_natCast hk2, hc0]
    rfl
  rw [e0]
  rcases readLines_cases hv (nnz := nnz) hm hn hs body hr f1 f2 f4 (Nat.zero_le _)
    (by rw [f3, List.length_nil, Nat.sub_zero]; omega) with ⟨msg, h⟩ | ⟨es, c, h, g1, g2, g3, g4, g5, g6, g7, g8⟩ | ⟨h, h'⟩
  · rw [h]; exact Or.inl ⟨msg, rfl⟩
  · rw [h, ok_bind]
    dsimp only
    by_cases hz : ((0 + es.length : Nat) : Int) ≠ (nnz : Int)
    · exact Or.inl ⟨_, if_pos hz⟩
    · refine Or.inr (Or.inl ⟨es, c, if_neg hz, by omega, g1, g2, g3, g4, by simpa using g5, g6, g7, by rw [g8, f4]⟩)
  · rw [h]; exact Or.inr (Or.inr ⟨rfl, h'⟩)

/-- the matrix of the file, in the storage of the option -/
def StoredAs (c : Coo α) (kind : String) (handling : MMsym) (m n : Nat) (es : List (Entry α)) : Prop :=
  c.Rep (es.flatMap (handled (decide (kind = "symmetric")) handling)) ∧ c.nrow = m ∧ c.ncol = n ∧
    c.symmetric = if kind = "symmetric" then handling.kind else Sym.no

/-- the four defects of a text that make the reader panic -/
def Defect (handling : MMsym) (text : List Char) : Prop :=
  ∃ header rest field kind, linesOf text = header :: rest ∧ IsHeader header field kind ∧
    ((∀ l ∈ rest, ¬ IsData l) ∨
      (∃ pre dims body m n nnz, rest = pre ++ dims :: body ∧ (∀ l ∈ pre, ¬ IsData l) ∧ IsDims dims m n nnz ∧
        ((kind = "symmetric" ∧ handling = .makeItFull ∧ 1073741824 ≤ nnz) ∨
          ∃ l ∈ body, BadLine (decide (kind = "symmetric")) handling l)))

/-- the reader on any text -/
theorem readMatrixMarket_cases [Zero ρ] (parse : List Char → Option ρ) (handling : MMsym) (text : List Char) :
    (∃ msg, readMatrixMarket parse handling text = err msg) ∨
    (∃ kind m n es c, readMatrixMarket parse handling text = ok (.real c) ∧ IsFile (realValue parse) "real" kind m n es text ∧
      (kind = "general" ∨ kind = "symmetric") ∧
      (kind = "symmetric" → m = n ∧ (handling ≠ .makeItFull → ∀ e ∈ es, e.2.1 ≤ e.1)) ∧ StoredAs c kind handling m n es) ∨
    (∃ kind m n es c, readMatrixMarket parse handling text = ok (.complex c) ∧ IsFile (complexValue parse) "complex" kind m n es text ∧
      (kind = "general" ∨ kind = "symmetric" ∨ kind = "Hermitian") ∧
      (kind = "symmetric" → m = n ∧ (handling ≠ .makeItFull → ∀ e ∈ es, e.2.1 ≤ e.1)) ∧ StoredAs c kind handling m n es) ∨
    (readMatrixMarket parse handling text = Res.panic ∧ Defect handling text) := by
  unfold readMatrixMarket
  cases hlines : linesOf text with
  | nil => exact Or.inl ⟨_, rfl⟩
  | cons header rest =>
    dsimp only
    rcases parseHeader_cases header with ⟨msg, h⟩ | ⟨field, kind, hh, hf, hk, h⟩
    · rw [h]; exact Or.inl ⟨msg, rfl⟩
    rw [h, ok_bind]
    rcases readDims_cases rest with ⟨msg, h⟩ | ⟨h, hno⟩ | ⟨pre, dims, body, m, n, nnz, rfl, hpre, hdims, hm1, hn1, hz1, h⟩
    · rw [h]; exact Or.inl ⟨msg, rfl⟩
    · rw [h]
      exact Or.inr (Or.inr (Or.inr ⟨rfl, header, rest, field, kind, hlines, hh, Or.inl hno⟩))
    rw [h, ok_bind]
    dsimp only
    by_cases hsq : decide (kind = "symmetric") = true ∧ (m : Int) ≠ (n : Int)
    · rw [if_pos hsq]; exact Or.inl ⟨_, rfl⟩
    rw [if_neg hsq]
    have hdims' := hdims
    obtain ⟨-, t1, t2, t3, ts, -, p1, p2, p3⟩ := hdims'
    have q1 := parseI32_range p1
    have q2 := parseI32_range p2
    have q3 := parseI32_range p3
    have hs : decide (kind = "symmetric") = true → m = n := by
      intro h1
      by_contra h2
      exact hsq ⟨h1, by omega⟩
    rcases mmMax_cases (symmetric := decide (kind = "symmetric")) (handling := handling) (nnz := nnz) (by omega) hz1 with
      ⟨k, g1, g2, g3, g4⟩ | ⟨g1, g2, g3, g4⟩
    · rw [g1, ok_bind]
      have fin : ∀ {β : Type} (value : List (List Char) → Res β) (es : List (Entry β)), es.length = nnz → BodyOf value body es →
          (∀ e ∈ es, e.1 < m) → (∀ e ∈ es, e.2.1 < n) → (∀ e ∈ es, ¬ WrongTriangle (decide (kind = "symmetric")) handling e.1 e.2.1) →
          IsFile value field kind m n es text ∧
            (kind = "symmetric" → m = n ∧ (handling ≠ .makeItFull → ∀ e ∈ es, e.2.1 ≤ e.1)) := by
        intro β value es a1 a2 a3 a4 a5
        refine ⟨⟨⟨header, pre, dims, body, hlines, hh, hpre, by rw [a1]; exact hdims, a2⟩, hm1, hn1, ?_, a3, a4⟩, ?_⟩
        · intro h; rw [h, List.length_nil] at a1; omega
        · intro hk
          refine ⟨hs (by simpa using hk), fun hm e he => ?_⟩
          by_contra hlt
          exact a5 e he ⟨by simpa using hk, hm, by omega⟩
      by_cases hc : field = "complex"
      · have hr : ¬ field = "real" := by rw [hc]; decide
        rw [if_pos (by simpa using hc)]
        rcases readValues_cases (complexValue_no_panic parse) (nnz := nnz) (by omega) (by omega) hm1 hn1 hs body g2 g3 g4 with
          ⟨msg, h⟩ | ⟨es, c, h, a1, a2, a3, a4, a5, a6, a7, a8, a9⟩ | ⟨h, h'⟩
        · rw [h]; exact Or.inl ⟨msg, rfl⟩
        · rw [h, ok_bind]
          obtain ⟨b1, b2⟩ := fin _ es a1 a2 a3 a4 a5
          rw [hc] at b1
          refine Or.inr (Or.inr (Or.inl ⟨kind, m, n, es, c, rfl, b1, ?_, b2, a6, a7, a8, by simpa using a9⟩))
          rcases hk with h | h | h
          · exact Or.inl h
          · exact Or.inr (Or.inl h)
          · exact Or.inr (Or.inr h.1)
        · rw [h]
          exact Or.inr (Or.inr (Or.inr ⟨rfl, header, _, field, kind, hlines, hh, Or.inr ⟨pre, dims, body, m, n, nnz, rfl, hpre, hdims,
            Or.inr h'⟩⟩))
      · have hr : field = "real" := hf.resolve_right hc
        rw [if_neg (by simpa using hc)]
        rcases readValues_cases (realValue_no_panic parse) (nnz := nnz) (by omega) (by omega) hm1 hn1 hs body g2 g3 g4 with
          ⟨msg, h⟩ | ⟨es, c, h, a1, a2, a3, a4, a5, a6, a7, a8, a9⟩ | ⟨h, h'⟩
        · rw [h]; exact Or.inl ⟨msg, rfl⟩
        · rw [h, ok_bind]
          obtain ⟨b1, b2⟩ := fin _ es a1 a2 a3 a4 a5
          rw [hr] at b1
          refine Or.inr (Or.inl ⟨kind, m, n, es, c, rfl, b1, ?_, b2, a6, a7, a8, by simpa using a9⟩)
          rcases hk with h | h | h
          · exact Or.inl h
          · exact Or.inr h
          · exact absurd h.2 hc
        · rw [h]
          exact Or.inr (Or.inr (Or.inr ⟨rfl, header, _, field, kind, hlines, hh, Or.inr ⟨pre, dims, body, m, n, nnz, rfl, hpre, hdims,
            Or.inr h'⟩⟩))
    · rw [g1]
      exact Or.inr (Or.inr (Or.inr ⟨rfl, header, _, field, kind, hlines, hh, Or.inr ⟨pre, dims, body, m, n, nnz, rfl, hpre, hdims,
        Or.inl ⟨by simpa using g2, g3, g4⟩⟩⟩))

/-- C15: the reader accepts only MatrixMarket files, and then stores exactly the entries of the file (a real matrix). -/
theorem C15_accepts_real [Zero ρ] {parse : List Char → Option ρ} {handling : MMsym} {text : List Char} {c : Coo ρ}
    (h : readMatrixMarket parse handling text = ok (.real c)) :
    ∃ kind m n es, IsFile (realValue parse) "real" kind m n es text ∧ (kind = "general" ∨ kind = "symmetric") ∧
      (kind = "symmetric" → m = n ∧ (handling ≠ .makeItFull → ∀ e ∈ es, e.2.1 ≤ e.1)) ∧ StoredAs c kind handling m n es := by
  rcases readMatrixMarket_cases parse handling text with ⟨msg, h1⟩ | ⟨kind, m, n, es, c', h1, h2⟩ | ⟨kind, m, n, es, c', h1, h2⟩ | ⟨h1, -⟩
  · rw [h1] at h; cases h
  · rw [h1] at h; cases h; exact ⟨kind, m, n, es, h2⟩
  · rw [h1] at h; cases h
  · rw [h1] at h; cases h

/-- C15: the same for a complex matrix; here the kind may be `Hermitian` (see `C15_hermitian_counterexample`). -/
theorem C15_accepts_complex [Zero ρ] {parse : List Char → Option ρ} {handling : MMsym} {text : List Char} {c : Coo (ρ × ρ)}
    (h : readMatrixMarket parse handling text = ok (.complex c)) :
    ∃ kind m n es, IsFile (complexValue parse) "complex" kind m n es text ∧ (kind = "general" ∨ kind = "symmetric" ∨ kind = "Hermitian") ∧
      (kind = "symmetric" → m = n ∧ (handling ≠ .makeItFull → ∀ e ∈ es, e.2.1 ≤ e.1)) ∧ StoredAs c kind handling m n es := by
  rcases readMatrixMarket_cases parse handling text with ⟨msg, h1⟩ | ⟨kind, m, n, es, c', h1, h2⟩ | ⟨kind, m, n, es, c', h1, h2⟩ | ⟨h1, -⟩
  · rw [h1] at h; cases h
  · rw [h1] at h; cases h
  · rw [h1] at h; cases h; exact ⟨kind, m, n, es, h2⟩
  · rw [h1] at h; cases h

/-- C15: malformed text gives an error and not a panic, except for the texts with one of the defects in `Defect`: no line
with data after the header; an index equal to -2147483648; an entry above the diagonal of a symmetric file read with `LeaveAsLower` or
`SwapToUpper`; 2³⁰ or more entries in a symmetric file read with `MakeItFull`. -/
theorem C15_panic_only_defects [Zero ρ] (parse : List Char → Option ρ) (handling : MMsym) (text : List Char) (h : ¬ Defect handling text) :
    readMatrixMarket parse handling text ≠ Res.panic := by
  rcases readMatrixMarket_cases parse handling text with ⟨msg, h1⟩ | ⟨kind, m, n, es, c', h1, h2⟩ | ⟨kind, m, n, es, c', h1, h2⟩ | ⟨-, h1⟩
  · rw [h1]; simp
  · rw [h1]; simp
  · rw [h1]; simp
  · exact absurd h1 h

/-! ## Concrete cases -/

/-- integers written with a sign -/
def intText (z : Int) : List Char := (if z < 0 then '-' else '+') :: decimal z.natAbs

def intParse : List Char → Option Int
  | '-' :: ds => (parseDigits 0 ds).map fun v => -(v : Int)
  | '+' :: ds => (parseDigits 0 ds).map fun v => (v : Int)
  | _ => none

theorem int_faithful : Faithful intText intParse := by
  intro z
  have h1 : parseDigits 0 (decimal z.natAbs) = some z.natAbs := parseDigits_decimalAux _ _ (by omega)
  refine ⟨⟨by simp [intText], ?_⟩, ?_⟩
  · intro c hc
    simp only [intText, List.mem_cons] at hc
    rcases hc with rfl | hc
    · split_ifs <;> decide
    · exact (decimal_token _).2 c hc
  · unfold intText
    split_ifs with h
    · show (parseDigits 0 (decimal z.natAbs)).map (fun v => -(v : Int)) = some z
      rw [h1]; show some _ = some _; congr 1; dsimp only; omega
    · show (parseDigits 0 (decimal z.natAbs)).map (fun v => (v : Int)) = some z
      rw [h1]; show some _ = some _; congr 1; dsimp only; omega

/-- a symmetric matrix with the upper triangle stored; one stored value is zero -/
def exampleUpper : Csc Int :=
  { symmetric := .yesUpper, nrow := 3, ncol := 3, colPointers := [0, 1, 3, 4], rowIndices := [0, 0, 1, 1], values := [5, -1, 7, 0],
    tempRp := [], tempRj := [], tempRx := [], tempRc := [], tempW := [] }

theorem exampleUpper_writable (handling : MMsym) :
    Writable exampleUpper (rowsOf [0, 1, 3, 4] [0, 0, 1, 1] [5, -1, 7, 0]) (fun a => decide (|a| > 0)) handling where
  rep := (Csc.new_rep (ptr := [0, 1, 3, 4]) (idx := [0, 0, 1, 1]) (val := [(5 : Int), -1, 7, 0]) (s := exampleUpper) (nrow := 3) (ncol := 3)
    (sym := .yesUpper) rfl (by decide) rfl (by decide) (by decide)).1
  triangle := by
    have : colEntries (rowsOf [0, 1, 3, 4] [0, 0, 1, 1] [(5 : Int), -1, 7, 0]) exampleUpper.ncol = [(0, 0, 5), (0, 1, -1), (1, 1, 7), (1, 2, 0)] := by
      decide +kernel
    rw [this]
    intro e he
    simp only [List.mem_cons, List.not_mem_nil, or_false] at he
    rcases he with rfl | rfl | rfl | rfl <;> exact ⟨by simp [exampleUpper], by simp⟩
  full := by intro h; cases h
  kept := ⟨(0, 1, -1), by decide +kernel, by decide, by intro h; cases h⟩
  size := by intro _ _; decide +kernel

example : ∃ t c a, exampleUpper.writeMatrixMarket (realWriter 0 intText) false = ok t ∧
    readMatrixMarket intParse .swapToUpper t = ok (.real c) ∧ c.symmetric = .yesUpper ∧ exampleUpper.asDense = ok a ∧ c.asDense = ok a := by
  refine C14_roundtrip_real_exact int_faithful (exampleUpper_writable .swapToUpper) ?_
  intro e _ h
  exact abs_eq_zero.1 (le_antisymm h (abs_nonneg _))

example : exampleUpper.writeMatrixMarket (realWriter 0 intText) false =
    ok "%%MatrixMarket matrix coordinate real symmetric\n3 3 3\n1 1 +5\n2 1 -1\n2 2 +7\n".toList := by decide +kernel

def exampleComplex : Csc (Int × Int) :=
  { symmetric := .no, nrow := 1, ncol := 1, colPointers := [0, 1], rowIndices := [0], values := [(3, 4)],
    tempRp := [], tempRj := [], tempRx := [], tempRc := [], tempW := [] }

/-- the hypotheses of `C57_roundtrip_complex_partial` can be met -/
example : ∃ t c a, exampleComplex.writeMatrixMarket (complexWriter 0 Prod.fst intText) false = ok t ∧
    readMatrixMarket intParse .makeItFull t = ok (.complex c) ∧ c.nrow = 1 ∧ c.ncol = 1 ∧ c.symmetric = .no ∧ c.asDense = ok a ∧
    IsDense a 1 1 (denseOf .no ((colEntries (rowsOf [0, 1] [0] [((3 : Int), (4 : Int))]) 1).filter
      fun e => decide (|e.2.2.1| > 0) || decide (|e.2.2.2| > 0))) :=
  C57_roundtrip_complex_partial int_faithful
    { rep := (Csc.new_rep (ptr := [0, 1]) (idx := [0]) (val := [((3 : Int), (4 : Int))]) (nrow := 1) (ncol := 1)
        (sym := .no) rfl (by decide) rfl (by decide) (by decide)).1
      triangle := fun _ _ => ⟨fun h => Sym.noConfusion h, fun h => Sym.noConfusion h⟩
      full := fun h => Sym.noConfusion h
      kept := ⟨(0, 0, (3, 4)), by decide +kernel, by decide, fun h => Sym.noConfusion h⟩
      size := fun h => absurd rfl h }
    (by decide +kernel)

/-- C57: the complex writer counts an entry with a zero real part and does not write it (line 261 tests `|im| < tol` instead of
`|im| > tol`); the file cannot be read back. -/
theorem C57_complex_counterexample : ∃ s t, Csc.new 1 1 [0, 1] [0] [((0 : Int), (5 : Int))] .no = ok s ∧
    s.writeMatrixMarket (complexWriter 0 Prod.fst intText) false = ok t ∧
    t = "%%MatrixMarket matrix coordinate complex general\n1 1 1\n".toList ∧
    readMatrixMarket intParse .leaveAsLower t = err "not all values have been found" :=
  ⟨_, _, rfl, by decide +kernel, rfl, by decide +kernel⟩

/-- C14: a matrix without entries above the tolerance can be written but not read back. -/
theorem C14_no_entries_counterexample : ∃ s t, Csc.new 1 1 [0, 1] [0] [(0 : Int)] .no = ok s ∧
    s.writeMatrixMarket (realWriter 0 intText) false = ok t ∧
    readMatrixMarket intParse .leaveAsLower t = err "found invalid (zero or negative) dimensions" :=
  ⟨_, _, rfl, rfl, by decide +kernel⟩

/-- a symmetric file with comments and empty lines -/
def exampleFile : List Char :=
  "%%MatrixMarket matrix coordinate real symmetric\n% comment\n\n 2 2   2\n1 1 +4\n  % another\n2 1 -3".toList

theorem exampleFile_isFile : IsFile (realValue intParse) "real" "symmetric" 2 2 [(0, 0, 4), (1, 0, -3)] exampleFile where
  lines := by
    refine ⟨"%%MatrixMarket matrix coordinate real symmetric".toList, ["% comment".toList, []], " 2 2   2".toList,
      ["1 1 +4".toList, "  % another".toList, "2 1 -3".toList], by decide +kernel, ⟨[], by decide +kernel⟩, ?_, ?_, ?_⟩
    · intro l hl
      rw [← skipLine_eq_true]
      simp only [List.mem_cons, List.not_mem_nil, or_false] at hl
      rcases hl with rfl | rfl <;> decide +kernel
    · exact ⟨skipLine_eq_false.1 (by decide +kernel), ['2'], ['2'], ['2'], [], by decide +kernel, by decide +kernel, by decide +kernel, by decide +kernel⟩
    · refine .entry ⟨skipLine_eq_false.1 (by decide +kernel), ['1'], ['1'], [['+', '4']], by decide +kernel, by decide +kernel, by decide +kernel, by decide +kernel⟩ (.skip ?_ (.entry ⟨skipLine_eq_false.1 (by decide +kernel), ['2'], ['1'], [['-', '3']], by decide +kernel, by decide +kernel, by decide +kernel, by decide +kernel⟩ .nil))
      rw [← skipLine_eq_true]; decide +kernel
  rows := by decide
  cols := by decide
  some := by decide
  rangeI := by decide
  rangeJ := by decide

example : ∃ a, IsDense a 2 2 (denseOf .yesLower [(0, 0, (4 : Int)), (1, 0, -3)]) ∧ ∀ handling, ∃ c,
    readMatrixMarket intParse handling exampleFile = ok (.real c) ∧ c.symmetric = handling.kind ∧ c.nrow = 2 ∧ c.ncol = 2 ∧
    c.asDense = ok a :=
  C15_symmetric_real exampleFile_isFile (by decide) (by decide)

/-- C15: four texts that make the reader panic: no dimensions, an index that cannot be decremented, and entries above the diagonal. -/
theorem C15_panic_counterexample :
    readMatrixMarket intParse .leaveAsLower "%%MatrixMarket matrix coordinate real general\n".toList = Res.panic ∧
    readMatrixMarket intParse .leaveAsLower "%%MatrixMarket matrix coordinate real general\n1 1 1\n-2147483648 1 +1\n".toList = Res.panic ∧
    readMatrixMarket intParse .leaveAsLower "%%MatrixMarket matrix coordinate real symmetric\n2 2 1\n1 2 +1\n".toList = Res.panic ∧
    readMatrixMarket intParse .makeItFull "%%MatrixMarket matrix coordinate real symmetric\n2 2 1073741824\n1 2 +1\n".toList = Res.panic := by
  decide +kernel

/-- C15: a text without defects is rejected with an error -/
example : ¬ Defect .leaveAsLower "%%MatrixMarket matrix array real general\n".toList := by
  rintro ⟨header, rest, field, kind, h1, ⟨more, h2⟩, -⟩
  have : header = "%%MatrixMarket matrix array real general".toList := by
    have h3 : linesOf "%%MatrixMarket matrix array real general\n".toList = ["%%MatrixMarket matrix array real general".toList] := by decide +kernel
    rw [h3] at h1
    exact (List.cons.inj h1).1.symm
  subst this
  have h4 : splitWs "%%MatrixMarket matrix array real general".toList =
    ["%%MatrixMarket".toList, "matrix".toList, "array".toList, "real".toList, "general".toList] := by decide +kernel
  rw [h4] at h2
  simp only [List.cons.injEq] at h2
  exact absurd h2.2.2.1 (by decide)

/-- C15: a Hermitian file, which has only the lower triangle, is read as a general matrix: the upper triangle is missing. -/
theorem C15_hermitian_counterexample : ∃ c, readMatrixMarket intParse .makeItFull
      "%%MatrixMarket matrix coordinate complex Hermitian\n2 2 2\n1 1 +1 +0\n2 1 +3 +4\n".toList = ok (.complex c) ∧
    c.symmetric = .no ∧ c.asDense = ok ⟨2, 2, [(1, 0), (3, 4), (0, 0), (0, 0)]⟩ :=
  ⟨_, rfl, rfl, rfl⟩

end Russell.Sparse
