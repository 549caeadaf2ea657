import Verif.Sparse.MatrixMarket

/-!
# C14, C15: MatrixMarket files, properties
-/

namespace Russell.Sparse

open Russell Russell.Res Russell.Lab Russell.Text

variable {α ρ : Type}

/-! ## The loops of the writer -/

theorem Csc.foldEntries_spec {σ : Type} {s : Csc α} {col : Nat → List (Nat × α)} (h : s.Rep col) (init : σ) (f : Nat → Nat → α → σ → σ) :
    s.foldEntries init f = ok ((colEntries col s.ncol).foldl (fun st e => f e.1 e.2.1 e.2.2 st) init) := by
  unfold Csc.foldEntries
  obtain ⟨st, h1, h2⟩ := forRange_spec (lo := 0) (hi := s.ncol)
    (f := fun j st => do
      let lo ← vget s.colPointers j
      let hi ← vget s.colPointers (j + 1)
      forRange 0 (hi - lo).toNat st fun t st => do
        let p := asUsize (lo + t)
        let i ← vget s.rowIndices p
        let x ← vget s.values p
        ok (f (asUsize i) j x st))
    (fun k st => st = (colEntries col k).foldl (fun st e => f e.1 e.2.1 e.2.2 st) init) (s := init) (by omega) rfl (by
      rintro k st - hk hinv
      simp only [h.arr.readP (show k ≤ s.ncol by omega), h.arr.readP (show k + 1 ≤ s.ncol from hk), ok_bind, h.arr.span k]
      obtain ⟨st', g1, g2⟩ := forRange_spec (lo := 0) (hi := (col k).length)
        (f := fun t st => do
          let p := asUsize (((off col k : Nat) : Int) + (t : Int))
          let i ← vget s.rowIndices p
          let x ← vget s.values p
          ok (f (asUsize i) k x st))
        (fun t st' => st' = ((col k).take t).foldl (fun st e => f e.1 k e.2 st) st) (s := st) (by omega) rfl (by
          rintro t st' - ht hinv'
          refine ⟨f (col k)[t].1 k (col k)[t].2 st', by simp only [h.arr.usizeP hk ht, vget_of (h.arr.idx_get hk ht), vget_of (h.arr.val_get hk ht), ok_bind, h.arr.usizeJ hk ht], ?_⟩
          rw [List.take_succ_eq_append_getElem ht, List.foldl_append, ← hinv']
          rfl)
      refine ⟨st', g1, ?_⟩
      rw [g2, List.take_length, hinv, colEntries, colEntries, flat_succ, List.foldl_append, List.foldl_map])
  rw [h1, h2]

/-- the entries written to a standard file, in file coordinates -/
def fileEntries (sym : Sym) (es : List (Entry α)) : List (Entry α) :=
  match sym with
  | .no => es
  | .yesLower => es
  | .yesUpper => es.map fun e => (e.2.1, e.1, e.2.2)
  | .yesFull => es.filter fun e => decide (e.2.1 ≤ e.1)

theorem foldl_append_flatMap {β γ : Type} (g : β → List γ) (l : List β) (b : List γ) :
    l.foldl (fun b e => b ++ g e) b = b ++ l.flatMap g := by
  induction l generalizing b with
  | nil => simp
  | cons x l ih => simp [ih]

theorem foldl_count {β : Type} (k : β → Nat) (l : List β) (c : Nat) :
    l.foldl (fun c e => c + k e) c = c + (l.map k).sum := by
  induction l generalizing c with
  | nil => simp
  | cons x l ih => simp [ih]; omega

theorem foldl_congr' {β γ : Type} {f g : γ → β → γ} (l : List β) (h : ∀ e ∈ l, ∀ c, f c e = g c e) (c : γ) :
    l.foldl f c = l.foldl g c := by
  induction l generalizing c with
  | nil => rfl
  | cons x l ih =>
    rw [List.foldl_cons, List.foldl_cons, h x List.mem_cons_self]
    exact ih (fun e he => h e (List.mem_cons_of_mem _ he)) _

theorem length_eq_sum {β γ : Type} (g : β → List γ) (l : List β) : (l.flatMap g).length = (l.map fun e => (g e).length).sum := by
  simp [List.length_flatMap]

/-- what one stored entry contributes to a standard file -/
def stdPart (sym : Sym) (keep : α → Bool) (e : Entry α) : List (Entry α) :=
  if keep e.2.2 then fileEntries sym [e] else []

/-- what one stored entry contributes to a visualization file -/
def visPart (sym : Sym) (keep : α → Bool) (e : Entry α) : List (Entry α) :=
  if keep e.2.2 then (if sym.triangular = true ∧ e.1 ≠ e.2.1 then [e, (e.2.1, e.1, e.2.2)] else [e]) else []

theorem flatMap_stdPart (sym : Sym) (keep : α → Bool) (es : List (Entry α)) :
    es.flatMap (stdPart sym keep) = fileEntries sym (es.filter fun e => keep e.2.2) := by
  induction es with
  | nil => cases sym <;> rfl
  | cons e es ih =>
    rw [List.flatMap_cons, ih, stdPart, List.filter_cons]
    cases keep e.2.2 with
    | false => simp
    | true =>
      simp only [if_true]
      cases sym <;> simp [fileEntries, List.filter_cons]
      split_ifs <;> rfl

theorem mmCount_std {w : MMWriter α} {s : Csc α} {col : Nat → List (Nat × α)} (h : s.Rep col) :
    mmCount w false s = ok ((colEntries col s.ncol).flatMap (stdPart s.symmetric w.keep)).length := by
  unfold mmCount
  rw [if_neg (by simp)]
  have key : ∀ (f : Nat → Nat → α → Nat → Nat), (∀ e : Entry α, ∀ c, f e.1 e.2.1 e.2.2 c = c + (stdPart s.symmetric w.keep e).length) →
      s.foldEntries 0 f = ok ((colEntries col s.ncol).flatMap (stdPart s.symmetric w.keep)).length := by
    intro f hf
    rw [Csc.foldEntries_spec h, foldl_congr' (g := fun c e => c + (stdPart s.symmetric w.keep e).length) _ (fun e _ c => hf e c),
      foldl_count, length_eq_sum, Nat.zero_add]
  by_cases hs : s.symmetric = .yesFull
  · rw [if_pos (by simp [hs])]
    apply key
    intro e c
    unfold stdPart fileEntries
    rw [hs]
    cases w.keep e.2.2 <;> simp [List.filter_cons]
    split_ifs <;> simp
  · rw [if_neg (by simpa using hs)]
    apply key
    intro e c
    unfold stdPart fileEntries
    cases w.keep e.2.2 <;> cases hk : s.symmetric <;> simp_all

theorem mmCount_vis {w : MMWriter α} {s : Csc α} {col : Nat → List (Nat × α)} (h : s.Rep col) :
    mmCount w true s = ok ((colEntries col s.ncol).flatMap (visPart s.symmetric w.keep)).length := by
  unfold mmCount
  have key : ∀ (f : Nat → Nat → α → Nat → Nat), (∀ e : Entry α, ∀ c, f e.1 e.2.1 e.2.2 c = c + (visPart s.symmetric w.keep e).length) →
      s.foldEntries 0 f = ok ((colEntries col s.ncol).flatMap (visPart s.symmetric w.keep)).length := by
    intro f hf
    rw [Csc.foldEntries_spec h, foldl_congr' (g := fun c e => c + (visPart s.symmetric w.keep e).length) _ (fun e _ c => hf e c),
      foldl_count, length_eq_sum, Nat.zero_add]
  by_cases hs : s.symmetric = .yesLower ∨ s.symmetric = .yesUpper
  · rw [if_pos (by simpa using hs)]
    apply key
    intro e c
    unfold visPart
    have : s.symmetric.triangular = true := by rcases hs with h | h <;> rw [h] <;> rfl
    rw [this]
    cases w.keep e.2.2 <;> simp
    split_ifs <;> simp
  · rw [if_neg (by simpa using hs), if_neg (by simp)]
    apply key
    intro e c
    unfold visPart
    have : s.symmetric.triangular = false := by
      cases hk : s.symmetric <;> simp_all [Sym.triangular]
    rw [this]
    cases w.keep e.2.2 <;> simp

theorem mmData_std {w : MMWriter α} {s : Csc α} {col : Nat → List (Nat × α)} (h : s.Rep col) (buffer : List Char) :
    mmData w false s buffer = ok (buffer ++ ((colEntries col s.ncol).flatMap (stdPart s.symmetric w.keepStd)).flatMap
      fun e => mmLine (e.1 + 1) (e.2.1 + 1) (w.text e.2.2)) := by
  unfold mmData
  rw [if_neg (by simp), Csc.foldEntries_spec h, List.flatMap_assoc]
  rw [foldl_congr' (g := fun c e => c ++ (stdPart s.symmetric w.keepStd e).flatMap
      fun e => mmLine (e.1 + 1) (e.2.1 + 1) (w.text e.2.2)), foldl_append_flatMap]
  intro e _ c
  unfold stdPart fileEntries
  cases w.keepStd e.2.2 <;> cases s.symmetric <;> simp [List.filter_cons]
  split_ifs <;> simp

theorem mmData_vis {w : MMWriter α} {s : Csc α} {col : Nat → List (Nat × α)} (h : s.Rep col) (buffer : List Char) :
    mmData w true s buffer = ok (buffer ++ ((colEntries col s.ncol).flatMap (visPart s.symmetric w.keep)).flatMap
      fun e => mmLine e.1 e.2.1 (w.visText e.2.2)) := by
  unfold mmData
  rw [if_pos rfl, Csc.foldEntries_spec h, List.flatMap_assoc]
  rw [foldl_congr' (g := fun c e => c ++ (visPart s.symmetric w.keep e).flatMap
      fun e => mmLine e.1 e.2.1 (w.visText e.2.2)), foldl_append_flatMap]
  intro e _ c
  unfold visPart
  cases w.keep e.2.2 <;> cases s.symmetric <;> simp [Sym.triangular]
  · split_ifs <;> simp
  · split_ifs <;> simp

/-! ## The lines of the text -/

/-- the text of a value is not empty, has no line end, and does not end with a carriage return -/
def LineText (t : List Char) : Prop := t ≠ [] ∧ '\n' ∉ t ∧ t.getLast? ≠ some '\r'

/-- A line without the line end -/
def rawLine (i j : Nat) (a : List Char) : List Char := decimal i ++ ' ' :: (decimal j ++ ' ' :: a)

theorem mmLine_eq (i j : Nat) (a : List Char) : mmLine i j a = rawLine i j a ++ ['\n'] := by
  simp [mmLine, rawLine]

theorem decimal_no {n : Nat} {c : Char} (hc : c ∈ decimal n) : c ≠ '%' ∧ c ≠ '\n' ∧ c ≠ '\r' := by
  obtain ⟨d, hd, rfl⟩ := decimal_chars n c hc
  obtain ⟨-, -, h1, h2, h3⟩ := digitChar_special hd
  exact ⟨h1, h2, h3⟩

theorem lineText_decimal (n : Nat) : LineText (decimal n) := by
  refine ⟨decimal_ne_nil n, ?_, ?_⟩
  · intro h; exact (decimal_no h).2.1 rfl
  · intro h
    exact (decimal_no (List.mem_of_getLast? h)).2.2 rfl

theorem LineText.raw {a : List Char} (h : LineText a) (i j : Nat) : LineText (rawLine i j a) := by
  obtain ⟨h1, h2, h3⟩ := h
  refine ⟨by simp [rawLine], ?_, ?_⟩
  · unfold rawLine
    simp only [List.mem_append, List.mem_cons, not_or]
    refine ⟨?_, by decide, ?_, by decide, h2⟩
    · intro h; exact (decimal_no h).2.1 rfl
    · intro h; exact (decimal_no h).2.1 rfl
  · unfold rawLine
    rw [List.getLast?_append_of_ne_nil _ (by simp), List.getLast?_cons_of_ne_nil (by simp),
      List.getLast?_append_of_ne_nil _ (by simp), List.getLast?_cons_of_ne_nil h1]
    exact h3

theorem rawLine_split (i j : Nat) (a : List Char) : splitWs (rawLine i j a) = decimal i :: decimal j :: splitWs a := by
  unfold rawLine
  rw [splitWs_cons (decimal_token i) (by decide), splitWs_cons (decimal_token j) (by decide)]

theorem rawLine_data (i j : Nat) (a : List Char) : IsData (rawLine i j a) := by
  cases hd : decimal i with
  | nil => exact absurd hd (decimal_ne_nil i)
  | cons c t =>
    refine ⟨c, t, decimal j :: splitWs a, by rw [rawLine_split, hd], ?_⟩
    exact (decimal_no (n := i) (by rw [hd]; exact List.mem_cons_self)).1

/-- the line with the dimensions -/
def dimsLine (m n nnz : Nat) : List Char := rawLine m n (decimal nnz)

theorem flatMap_mmLine (es : List (Entry α)) (p q : Entry α → Nat) (t : Entry α → List Char) :
    es.flatMap (fun e => mmLine (p e) (q e) (t e)) = unlines (es.map fun e => rawLine (p e) (q e) (t e)) := by
  simp only [unlines, List.flatMap_map, mmLine_eq]

theorem linesOf_written {hd : List (List Char)} (hh : ∀ l ∈ hd, LineText l) (m n nnz : Nat) {es : List (Entry α)} {p q : Entry α → Nat}
    {t : Entry α → List Char} (ht : ∀ e ∈ es, LineText (t e)) :
    linesOf (unlines hd ++ (decimal m ++ ' ' :: (decimal n ++ ' ' :: (decimal nnz ++ ['\n']))) ++
      es.flatMap fun e => mmLine (p e) (q e) (t e)) =
      hd ++ dimsLine m n nnz :: es.map fun e => rawLine (p e) (q e) (t e) := by
  have h1 : unlines hd ++ (decimal m ++ ' ' :: (decimal n ++ ' ' :: (decimal nnz ++ ['\n']))) ++
      es.flatMap (fun e => mmLine (p e) (q e) (t e)) = unlines (hd ++ dimsLine m n nnz :: es.map fun e => rawLine (p e) (q e) (t e)) := by
    rw [flatMap_mmLine, unlines_append, List.append_assoc, ← List.singleton_append (l := es.map _), unlines_append]
    congr 2
    simp [unlines, dimsLine, rawLine]
  rw [h1]
  apply linesOf_unlines
  intro l hl
  rcases List.mem_append.1 hl with hl | hl
  · exact (hh l hl).2
  · rcases List.mem_cons.1 hl with rfl | hl
    · exact ((lineText_decimal nnz).raw m n).2
    · obtain ⟨e, he, rfl⟩ := List.mem_map.1 hl
      exact ((ht e he).raw _ _).2

theorem mem_stdPart {sym : Sym} {keep : α → Bool} {e f : Entry α} (h : f ∈ stdPart sym keep e) : f.2.2 = e.2.2 := by
  unfold stdPart fileEntries at h
  split_ifs at h
  · cases sym <;> simp at h
    · rw [h]
    · rw [h.1]
    · rw [h]
    · rw [h]
  · simp at h

theorem mem_visPart {sym : Sym} {keep : α → Bool} {e f : Entry α} (h : f ∈ visPart sym keep e) : f.2.2 = e.2.2 := by
  unfold visPart at h
  split_ifs at h
  · simp at h; rcases h with rfl | rfl <;> rfl
  · simp at h; rw [h]
  · simp at h

/-- the header line without the line end -/
def headerLine (field kind : String) : List Char :=
  "%%MatrixMarket matrix coordinate ".toList ++ field.toList ++ ' ' :: kind.toList

theorem headerLine_spec {field kind : String} (hf : field = "real" ∨ field = "complex") (hk : kind = "general" ∨ kind = "symmetric") :
    IsHeader (headerLine field kind) field kind ∧ LineText (headerLine field kind) := by
  rcases hf with rfl | rfl <;> rcases hk with rfl | rfl <;>
    exact ⟨⟨[], by decide +kernel⟩, by decide +kernel, by decide +kernel, by decide +kernel⟩

theorem mmHeader_eq {w : MMWriter α} {field : String} (hf : w.field = field.toList) (sym : Sym) :
    mmHeader w false sym = unlines [headerLine field (if sym = .no then "general" else "symmetric")] := by
  unfold mmHeader headerLine unlines
  rw [if_neg (by simp), hf]
  split_ifs <;> simp

theorem writeStd_lines {w : MMWriter α} {field : String} (hf : w.field = field.toList) (hfc : field = "real" ∨ field = "complex")
    (ht : ∀ a, LineText (w.text a)) {s : Csc α} {col : Nat → List (Nat × α)} (h : s.Rep col) :
    ∃ text, s.writeMatrixMarket w false = ok text ∧
      linesOf text = headerLine field (if s.symmetric = .no then "general" else "symmetric") ::
        dimsLine s.nrow s.ncol (fileEntries s.symmetric ((colEntries col s.ncol).filter fun e => w.keep e.2.2)).length ::
          (fileEntries s.symmetric ((colEntries col s.ncol).filter fun e => w.keepStd e.2.2)).map
            fun e => rawLine (e.1 + 1) (e.2.1 + 1) (w.text e.2.2) := by
  have hk : (if s.symmetric = Sym.no then "general" else "symmetric") = "general" ∨
      (if s.symmetric = Sym.no then "general" else "symmetric") = "symmetric" := by split_ifs <;> simp
  have hl := (headerLine_spec hfc hk).2
  unfold Csc.writeMatrixMarket
  rw [mmCount_std h, ok_bind, mmData_std h, mmHeader_eq hf]
  refine ⟨_, rfl, ?_⟩
  rw [linesOf_written (by simpa using hl) _ _ _ (by intro e _; exact ht _), flatMap_stdPart, flatMap_stdPart]
  rfl

theorem writeVis_lines {w : MMWriter α} (ht : ∀ a, LineText (w.visText a)) {s : Csc α} {col : Nat → List (Nat × α)} (h : s.Rep col) :
    ∃ text, s.writeMatrixMarket w true = ok text ∧
      linesOf text = dimsLine s.nrow s.ncol ((colEntries col s.ncol).flatMap (visPart s.symmetric w.keep)).length ::
          ((colEntries col s.ncol).flatMap (visPart s.symmetric w.keep)).map fun e => rawLine e.1 e.2.1 (w.visText e.2.2) := by
  unfold Csc.writeMatrixMarket
  rw [mmCount_vis h, ok_bind, mmData_vis h]
  refine ⟨_, rfl, ?_⟩
  have := linesOf_written (hd := []) (by simp) s.nrow s.ncol ((colEntries col s.ncol).flatMap (visPart s.symmetric w.keep)).length
    (es := (colEntries col s.ncol).flatMap (visPart s.symmetric w.keep)) (p := fun e => e.1) (q := fun e => e.2.1)
    (t := fun e => w.visText e.2.2) (by intro e _; exact ht _)
  exact this

/-! ## Dense forms -/

theorem denseOf_handled [Zero α] [Add α] (handling : MMsym) (es : List (Entry α)) (r c : Nat) :
    denseOf handling.kind (es.flatMap (handled true handling)) r c = denseOf .yesLower es r c := by
  unfold denseOf
  rw [List.foldl_flatMap]
  apply foldl_congr'
  intro e _ acc
  unfold handled
  rw [if_pos rfl]
  cases handling with
  | leaveAsLower => rfl
  | swapToUpper =>
    show (if Hits .yesUpper _ r c then _ else _) = _
    have : Hits Sym.yesUpper (e.2.1, e.1, e.2.2) r c ↔ Hits Sym.yesLower e r c := by unfold Hits; simp; tauto
    simp only [this]
  | makeItFull =>
    dsimp only
    by_cases hd : e.1 = e.2.1
    · rw [if_pos hd]
      show (if Hits .yesFull _ r c then _ else _) = _
      have : Hits Sym.yesFull e r c ↔ Hits Sym.yesLower e r c := by unfold Hits; simp; omega
      simp only [this]
    · rw [if_neg hd]
      show (if Hits .yesFull (e.2.1, e.1, e.2.2) r c then (if Hits .yesFull e r c then _ else _) + _ else (if Hits .yesFull e r c then _ else _)) = _
      by_cases h1 : e.1 = r ∧ e.2.1 = c
      · rw [if_neg (by unfold Hits; simp; omega), if_pos (show Hits .yesFull e r c from Or.inl h1), if_pos (show Hits .yesLower e r c from Or.inl h1)]
      · by_cases h2 : e.2.1 = r ∧ e.1 = c
        · rw [if_pos (show Hits .yesFull (e.2.1, e.1, e.2.2) r c from Or.inl h2), if_neg (by unfold Hits; simp; omega),
            if_pos (show Hits .yesLower e r c from Or.inr ⟨Or.inl rfl, h2.2, h2.1⟩)]
        · rw [if_neg (by unfold Hits; simp; omega), if_neg (by unfold Hits; simp; omega), if_neg (by unfold Hits; simp; omega)]

theorem denseOf_filter_lower [Zero α] [Add α] (es : List (Entry α)) (r c : Nat) :
    denseOf .yesLower (es.filter fun e => decide (e.2.1 ≤ e.1)) r c =
      if c ≤ r then denseOf .yesFull es r c else denseOf .yesFull es c r := by
  unfold denseOf
  have key : ∀ (p q : Nat), q ≤ p → (p = r ∧ q = c ∨ p = c ∧ q = r) → ∀ (es : List (Entry α)) (z : α),
      (es.filter fun e => decide (e.2.1 ≤ e.1)).foldl (fun acc e => if Hits .yesLower e r c then acc + e.2.2 else acc) z =
      es.foldl (fun acc e => if Hits .yesFull e p q then acc + e.2.2 else acc) z := by
    intro p q hpq hrc es
    induction es with
    | nil => intro z; rfl
    | cons e es ih =>
      intro z
      rw [List.filter_cons]
      by_cases hl : e.2.1 ≤ e.1
      · rw [if_pos (by simpa using hl), List.foldl_cons, List.foldl_cons, ih]
        congr 1
        have : Hits Sym.yesLower e r c ↔ Hits Sym.yesFull e p q := by unfold Hits; simp; omega
        simp only [this]
      · rw [if_neg (by simpa using hl), List.foldl_cons, if_neg (by unfold Hits; simp; omega), ih]
  split_ifs with h
  · exact key r c h (Or.inl ⟨rfl, rfl⟩) es 0
  · exact key c r (by omega) (Or.inr ⟨rfl, rfl⟩) es 0

theorem denseOf_fileEntries [Zero α] [Add α] {sym : Sym} (hs : sym ≠ .no) {es : List (Entry α)}
    (hsym : sym = .yesFull → ∀ r c, denseOf sym es r c = denseOf sym es c r) (r c : Nat) :
    denseOf .yesLower (fileEntries sym es) r c = denseOf sym es r c := by
  cases sym with
  | no => exact absurd rfl hs
  | yesLower => rfl
  | yesUpper =>
    unfold fileEntries denseOf
    rw [List.foldl_map]
    apply foldl_congr'
    intro e _ acc
    have : Hits Sym.yesLower (e.2.1, e.1, e.2.2) r c ↔ Hits Sym.yesUpper e r c := by unfold Hits; simp; tauto
    simp only [this]
  | yesFull =>
    unfold fileEntries
    dsimp only
    rw [denseOf_filter_lower]
    split_ifs
    · rfl
    · exact hsym rfl c r

theorem denseOf_filter_zero [AddMonoid α] (sym : Sym) (es : List (Entry α)) (keep : α → Bool) (h : ∀ e ∈ es, keep e.2.2 = false → e.2.2 = 0)
    (r c : Nat) : denseOf sym (es.filter fun e => keep e.2.2) r c = denseOf sym es r c := by
  unfold denseOf
  have key : ∀ (es : List (Entry α)) (z : α), (∀ e ∈ es, keep e.2.2 = false → e.2.2 = 0) →
      (es.filter fun e => keep e.2.2).foldl (fun acc e => if Hits sym e r c then acc + e.2.2 else acc) z =
      es.foldl (fun acc e => if Hits sym e r c then acc + e.2.2 else acc) z := by
    intro es
    induction es with
    | nil => intro z _; rfl
    | cons e es ih =>
      intro z h
      rw [List.filter_cons]
      cases hk : keep e.2.2 with
      | true => rw [if_pos rfl, List.foldl_cons, List.foldl_cons]; exact ih _ (fun e he => h e (List.mem_cons_of_mem _ he))
      | false =>
        rw [if_neg (by simp), List.foldl_cons, ih _ (fun e he => h e (List.mem_cons_of_mem _ he)), h e List.mem_cons_self hk, add_zero]
        simp
  exact key es 0 h

/-! ## C14 -/

/-- C14: the number in the line with the dimensions is the number of data lines, in the visualization format (real and complex: `w`
is arbitrary) -/
theorem C14_count_vis {w : MMWriter α} (ht : ∀ a, LineText (w.visText a)) {s : Csc α} {col : Nat → List (Nat × α)} (h : s.Rep col) :
    ∃ text dims data, s.writeMatrixMarket w true = ok text ∧ linesOf text = dims :: data ∧
      splitWs dims = [decimal s.nrow, decimal s.ncol, decimal data.length] := by
  obtain ⟨text, h1, h2⟩ := writeVis_lines ht h
  refine ⟨text, _, _, h1, h2, ?_⟩
  rw [dimsLine, rawLine_split, splitWs_token (decimal_token _), List.length_map]

/-- C14: the visualization format contains the entries with `|a| > tol` of the full matrix, with indices starting at zero. -/
theorem C14_vis_entries [Zero α] [Add α] {w : MMWriter α} (ht : ∀ a, LineText (w.visText a)) {s : Csc α} {col : Nat → List (Nat × α)}
    (h : s.Rep col) : ∃ text dims es, s.writeMatrixMarket w true = ok text ∧
      linesOf text = dims :: es.map (fun e => rawLine e.1 e.2.1 (w.visText e.2.2)) ∧
      ∀ r c, denseOf .no es r c = denseOf s.symmetric ((colEntries col s.ncol).filter fun e => w.keep e.2.2) r c := by
  obtain ⟨text, h1, h2⟩ := writeVis_lines ht h
  refine ⟨text, _, _, h1, h2, ?_⟩
  intro r c
  unfold denseOf
  generalize colEntries col s.ncol = es
  generalize (0 : α) = z
  induction es generalizing z with
  | nil => rfl
  | cons e es ih =>
    rw [List.flatMap_cons, List.foldl_append, ih, List.filter_cons]
    unfold visPart
    cases w.keep e.2.2 with
    | false => rfl
    | true =>
      rw [if_pos rfl, if_pos rfl, List.foldl_cons]
      congr 1
      by_cases hs : s.symmetric.triangular = true
      · have hs' : s.symmetric = .yesLower ∨ s.symmetric = .yesUpper := by
          cases hk : s.symmetric <;> simp_all [Sym.triangular]
        by_cases hd : e.1 = e.2.1
        · rw [if_neg (by tauto)]
          show (if Hits .no _ r c then _ else _) = _
          have : Hits Sym.no e r c ↔ Hits s.symmetric e r c := by unfold Hits; simp [hs']; omega
          simp only [this]
        · rw [if_pos ⟨hs, hd⟩]
          show (if Hits .no (e.2.1, e.1, e.2.2) r c then (if Hits .no e r c then _ else _) + _ else (if Hits .no e r c then _ else _)) = _
          by_cases h1 : e.1 = r ∧ e.2.1 = c
          · rw [if_neg (by unfold Hits; simp; omega), if_pos (show Hits .no e r c from Or.inl h1),
              if_pos (show Hits s.symmetric e r c from Or.inl h1)]
          · by_cases h2 : e.2.1 = r ∧ e.1 = c
            · rw [if_pos (show Hits .no (e.2.1, e.1, e.2.2) r c from Or.inl h2), if_neg (by unfold Hits; simp; omega),
                if_pos (show Hits s.symmetric e r c from Or.inr ⟨hs', h2.2, h2.1⟩)]
            · rw [if_neg (by unfold Hits; simp; omega), if_neg (by unfold Hits; simp; omega),
                if_neg (by unfold Hits; simp; omega)]
      · rw [if_neg (by tauto)]
        show (if Hits .no _ r c then _ else _) = _
        have : Hits Sym.no e r c ↔ Hits s.symmetric e r c := by
          unfold Hits
          cases hk : s.symmetric <;> simp_all [Sym.triangular]
        simp only [this]

theorem fileEntries_length {sym : Sym} {es es' : List (Entry α)} (h : es = es') : (fileEntries sym es).length = (fileEntries sym es').length := by
  rw [h]

/-- C14: in the standard format, the number in the line with the dimensions is the number of data lines for real matrices. -/
theorem C14_count_real [LinearOrder ρ] [AddGroup ρ] (tol : ρ) {text : ρ → List Char} (ht : ∀ a, LineText (text a)) {s : Csc ρ}
    {col : Nat → List (Nat × ρ)} (h : s.Rep col) :
    ∃ t header dims data, s.writeMatrixMarket (realWriter tol text) false = ok t ∧ linesOf t = header :: dims :: data ∧
      splitWs dims = [decimal s.nrow, decimal s.ncol, decimal data.length] := by
  obtain ⟨t, h1, h2⟩ := writeStd_lines (w := realWriter tol text) (field := "real") rfl (Or.inl rfl) ht h
  refine ⟨t, _, _, _, h1, h2, ?_⟩
  rw [dimsLine, rawLine_split, splitWs_token (decimal_token _), List.length_map]
  rfl

/-- the number written is read back -/
structure GoodText (text : α → List Char) (value : List (List Char) → Res α) : Prop where
  line : ∀ a, LineText (text a)
  back : ∀ a, value (splitWs (text a)) = ok a

/-- the file written in the standard format -/
theorem writeStd_isFile {w : MMWriter α} {field : String} (hf : w.field = field.toList) (hfc : field = "real" ∨ field = "complex")
    {value : List (List Char) → Res α} (ht : GoodText w.text value) {s : Csc α} {col : Nat → List (Nat × α)} (h : s.Rep col)
    (hk : ∀ e ∈ colEntries col s.ncol, w.keepStd e.2.2 = w.keep e.2.2) (hsq : s.symmetric = .yesFull → s.nrow = s.ncol)
    (hne : fileEntries s.symmetric ((colEntries col s.ncol).filter fun e => w.keep e.2.2) ≠ []) :
    ∃ text, s.writeMatrixMarket w false = ok text ∧
      IsFile value field (if s.symmetric = .no then "general" else "symmetric") s.nrow s.ncol
        (fileEntries s.symmetric ((colEntries col s.ncol).filter fun e => w.keep e.2.2)) text := by
  obtain ⟨text, h1, h2⟩ := writeStd_lines hf hfc ht.line h
  have hkk : ((colEntries col s.ncol).filter fun e => w.keepStd e.2.2) = (colEntries col s.ncol).filter fun e => w.keep e.2.2 :=
    List.filter_congr hk
  rw [hkk] at h2
  generalize hE : (colEntries col s.ncol).filter (fun e => w.keep e.2.2) = E at *
  have hkind : (if s.symmetric = Sym.no then "general" else "symmetric") = "general" ∨
      (if s.symmetric = Sym.no then "general" else "symmetric") = "symmetric" := by split_ifs <;> simp
  have hr : ∀ e ∈ E, e.1 < s.nrow ∧ e.2.1 < s.ncol := by
    intro e he
    rw [← hE] at he
    obtain ⟨k1, k2⟩ := mem_colEntries.1 (List.mem_of_mem_filter he)
    exact ⟨h.arr.range _ k1 _ k2, k1⟩
  have hrF : ∀ e ∈ fileEntries s.symmetric E, e.1 < s.nrow ∧ e.2.1 < s.ncol := by
    intro e he
    cases hs : s.symmetric with
    | no => rw [hs] at he; exact hr e he
    | yesLower => rw [hs] at he; exact hr e he
    | yesUpper =>
      rw [hs] at he
      obtain ⟨e', he', rfl⟩ := List.mem_map.1 he
      have := hr e' he'
      have := h.square (by rw [hs]; rfl)
      dsimp only
      omega
    | yesFull =>
      rw [hs] at he
      exact hr e (List.mem_of_mem_filter he)
  have hlen : (fileEntries s.symmetric E).length ≤ off col s.ncol := by
    have h3 : (fileEntries s.symmetric E).length ≤ E.length := by
      cases s.symmetric with
      | no => exact le_refl _
      | yesLower => exact le_refl _
      | yesUpper => simp [fileEntries]
      | yesFull => exact List.length_filter_le _ _
    have h4 : E.length ≤ (colEntries col s.ncol).length := by rw [← hE]; exact List.length_filter_le _ _
    have h5 : (colEntries col s.ncol).length = off col s.ncol := by
      simp [colEntries, off, flat, List.length_flatMap]
    omega
  have hp := h.arr.fitsP
  have hM := h.arr.fitsM
  have hN := h.arr.fitsN
  obtain ⟨e0, l0, hcons⟩ : ∃ e l, fileEntries s.symmetric E = e :: l := by
    cases hF : fileEntries s.symmetric E with
    | nil => exact absurd hF hne
    | cons e l => exact ⟨e, l, rfl⟩
  have h0 := hrF e0 (by rw [hcons]; exact List.mem_cons_self)
  refine ⟨text, h1, ⟨⟨_, [], _, _, by rw [h2]; rfl, (headerLine_spec hfc hkind).1, by simp, ?_, ?_⟩, by omega, by omega, hne,
    fun e he => (hrF e he).1, fun e he => (hrF e he).2⟩⟩
  · refine ⟨rawLine_data _ _ _, _, _, _, [], ?_, parseI32_decimal hM, parseI32_decimal hN, parseI32_decimal (by omega)⟩
    rw [dimsLine, rawLine_split, splitWs_token (decimal_token _)]
  · have : ∀ F : List (Entry α), (∀ e ∈ F, e.1 < s.nrow ∧ e.2.1 < s.ncol) →
        BodyOf value (F.map fun e => rawLine (e.1 + 1) (e.2.1 + 1) (w.text e.2.2)) F := by
      intro F
      induction F with
      | nil => intro _; exact BodyOf.nil
      | cons e F ih =>
        intro hF
        have := hF e List.mem_cons_self
        refine BodyOf.entry ⟨rawLine_data _ _ _, _, _, _, rawLine_split _ _ _, ?_, ?_, ht.back _⟩ (ih fun e he => hF e (List.mem_cons_of_mem _ he))
        · rw [parseI32_decimal (by omega)]; simp
        · rw [parseI32_decimal (by omega)]; simp
    exact this _ hrF

/-- what is written and read back, as a dense matrix -/
theorem roundtrip_dense [Zero α] [Add α] {s : Csc α} {E : List (Entry α)} {handling : MMsym} {c : Coo α}
    (hc : c.Rep ((fileEntries s.symmetric E).flatMap (handled (decide ((if s.symmetric = .no then "general" else "symmetric") = "symmetric")) handling)))
    (hk : c.symmetric = if (if s.symmetric = .no then "general" else "symmetric") = "symmetric" then handling.kind else Sym.no)
    (hsym : s.symmetric = .yesFull → ∀ p q, denseOf s.symmetric E p q = denseOf s.symmetric E q p) :
    c.symmetric = (if s.symmetric = .no then Sym.no else handling.kind) ∧
    ∃ a, c.asDense = ok a ∧ IsDense a c.nrow c.ncol (denseOf s.symmetric E) := by
  obtain ⟨a, h1, h2⟩ := Coo.asDense_spec hc
  by_cases hs : s.symmetric = .no
  · rw [hs] at hk hc h2 ⊢
    have hk' : c.symmetric = .no := hk
    refine ⟨hk', a, h1, ?_⟩
    rw [hk'] at h2
    have : (fileEntries Sym.no E).flatMap (handled (decide ((if Sym.no = Sym.no then "general" else "symmetric") = "symmetric")) handling) = E := by
      show E.flatMap (fun e => handled false handling e) = E
      simp [handled]
    rw [this] at h2
    exact h2
  · rw [if_neg hs] at hk hc h2 ⊢
    have hk' : c.symmetric = handling.kind := hk
    refine ⟨hk', a, h1, ?_⟩
    have : ∀ p q, denseOf c.symmetric ((fileEntries s.symmetric E).flatMap (handled (decide ("symmetric" = "symmetric")) handling)) p q =
        denseOf s.symmetric E p q := by
      intro p q
      rw [hk']
      show denseOf handling.kind ((fileEntries s.symmetric E).flatMap (handled true handling)) p q = _
      rw [denseOf_handled, denseOf_fileEntries hs hsym]
    refine h2.congr ?_
    intro p q _ _
    exact this p q

theorem lineText_of_token {t : List Char} (h : Token t) : LineText t := by
  refine ⟨h.1, ?_, ?_⟩
  · intro h'; have := h.2 _ h'; revert this; decide
  · intro h'; have := h.2 _ (List.mem_of_getLast? h'); revert this; decide

/-- a number is written as a token that is read back as the same number -/
def Faithful (text : ρ → List Char) (parse : List Char → Option ρ) : Prop := ∀ a, Token (text a) ∧ parse (text a) = some a

theorem goodText_real {text : ρ → List Char} {parse : List Char → Option ρ} (h : Faithful text parse) : GoodText text (realValue parse) := by
  refine ⟨fun a => lineText_of_token (h a).1, fun a => ?_⟩
  rw [splitWs_token (h a).1]
  simp only [realValue, tokenOr, ok_bind, (h a).2]

theorem goodText_complex {text : ρ → List Char} {parse : List Char → Option ρ} (h : Faithful text parse) :
    GoodText (fun a : ρ × ρ => text a.1 ++ ' ' :: text a.2) (complexValue parse) := by
  refine ⟨fun a => ⟨by simp, ?_, ?_⟩, fun a => ?_⟩
  · have h1 := (lineText_of_token (h a.1).1).2.1
    have h2 := (lineText_of_token (h a.2).1).2.1
    simp only [List.mem_append, List.mem_cons, not_or]
    exact ⟨h1, by decide, h2⟩
  · rw [List.getLast?_append_of_ne_nil _ (by simp), List.getLast?_cons_of_ne_nil (h a.2).1.1]
    exact (lineText_of_token (h a.2).1).2.2
  · rw [splitWs_cons (h a.1).1 (by decide), splitWs_token (h a.2).1]
    simp only [complexValue, tokenOr, ok_bind, (h a.1).2, (h a.2).2]

/-- the conditions under which a matrix can be written and read back: triangular matrices have their entries in the triangle, full
symmetric matrices are symmetric, at least one entry is kept (for full symmetric matrices, in the lower triangle), and, if the option is
`MakeItFull`, twice the number of entries fits in an `i32` -/
structure Writable [Zero α] [Add α] (s : Csc α) (col : Nat → List (Nat × α)) (keep : α → Bool) (handling : MMsym) : Prop where
  rep : s.Rep col
  triangle : ∀ e ∈ colEntries col s.ncol, InTriangle s.symmetric e.1 e.2.1
  full : s.symmetric = .yesFull → s.nrow = s.ncol ∧ ∀ r c,
    denseOf s.symmetric ((colEntries col s.ncol).filter fun e => keep e.2.2) r c =
      denseOf s.symmetric ((colEntries col s.ncol).filter fun e => keep e.2.2) c r
  kept : ∃ e ∈ colEntries col s.ncol, keep e.2.2 = true ∧ (s.symmetric = .yesFull → e.2.1 ≤ e.1)
  size : s.symmetric ≠ .no → handling = .makeItFull → (colEntries col s.ncol).length < 1073741824

theorem Writable.ne_nil [Zero α] [Add α] {s : Csc α} {col : Nat → List (Nat × α)} {keep : α → Bool} {handling : MMsym}
    (h : Writable s col keep handling) : fileEntries s.symmetric ((colEntries col s.ncol).filter fun e => keep e.2.2) ≠ [] := by
  obtain ⟨e, h1, h2, h3⟩ := h.kept
  have hm : e ∈ (colEntries col s.ncol).filter fun e => keep e.2.2 := List.mem_filter.2 ⟨h1, h2⟩
  cases hs : s.symmetric with
  | no => exact List.ne_nil_of_mem hm
  | yesLower => exact List.ne_nil_of_mem hm
  | yesUpper => exact List.ne_nil_of_mem (List.mem_map.2 ⟨e, hm, rfl⟩)
  | yesFull => exact List.ne_nil_of_mem (List.mem_filter.2 ⟨hm, by simpa using h3 hs⟩)

theorem Writable.lower [Zero α] [Add α] {s : Csc α} {col : Nat → List (Nat × α)} {keep : α → Bool} {handling : MMsym}
    (h : Writable s col keep handling) (hs : s.symmetric ≠ .no) :
    s.nrow = s.ncol ∧ (∀ e ∈ fileEntries s.symmetric ((colEntries col s.ncol).filter fun e => keep e.2.2), e.2.1 ≤ e.1) ∧
    (fileEntries s.symmetric ((colEntries col s.ncol).filter fun e => keep e.2.2)).length ≤ (colEntries col s.ncol).length := by
  have ht : ∀ e ∈ (colEntries col s.ncol).filter fun e => keep e.2.2, InTriangle s.symmetric e.1 e.2.1 :=
    fun e he => h.triangle e (List.mem_of_mem_filter he)
  cases hk : s.symmetric with
  | no => exact absurd hk hs
  | yesLower => exact ⟨h.rep.square (by rw [hk]; rfl), fun e he => (ht e he).1 hk, List.length_filter_le _ _⟩
  | yesUpper =>
    refine ⟨h.rep.square (by rw [hk]; rfl), ?_, ?_⟩
    · intro e he
      obtain ⟨e', he', rfl⟩ := List.mem_map.1 he
      exact (ht e' he').2 hk
    · simp only [fileEntries, List.length_map]; exact List.length_filter_le _ _
  | yesFull =>
    refine ⟨(h.full hk).1, fun e he => by simpa using (List.mem_filter.1 he).2, ?_⟩
    exact le_trans (List.length_filter_le _ _) (List.length_filter_le _ _)

theorem ite_symmetric {s : Csc α} : ((if s.symmetric = .no then "general" else "symmetric") = "symmetric") → s.symmetric ≠ .no := by
  intro h h'
  rw [if_pos h'] at h
  revert h; decide

/-- C14: a real matrix written in the standard format and read back with any option. The matrix read has the size of the
matrix written, the general kind for a general matrix and the kind of the option for a symmetric matrix; it is the same matrix, except
for the entries with `|a| ≤ tol`, which are dropped. -/
theorem C14_roundtrip_real [LinearOrder ρ] [AddGroup ρ] {tol : ρ} {text : ρ → List Char} {parse : List Char → Option ρ}
    (ht : Faithful text parse) {s : Csc ρ} {col : Nat → List (Nat × ρ)} {handling : MMsym}
    (h : Writable s col (fun a => decide (|a| > tol)) handling) :
    ∃ t c a, s.writeMatrixMarket (realWriter tol text) false = ok t ∧ readMatrixMarket parse handling t = ok (.real c) ∧
      c.nrow = s.nrow ∧ c.ncol = s.ncol ∧ c.symmetric = (if s.symmetric = .no then Sym.no else handling.kind) ∧
      c.asDense = ok a ∧
      IsDense a s.nrow s.ncol (denseOf s.symmetric ((colEntries col s.ncol).filter fun e => decide (|e.2.2| > tol))) := by
  obtain ⟨t, h1, h2⟩ := writeStd_isFile (w := realWriter tol text) (field := "real") rfl (Or.inl rfl) (goodText_real ht) h.rep
    (fun _ _ => rfl) (fun hs => (h.full hs).1) h.ne_nil
  obtain ⟨c, h3, h4, h5, h6, h7⟩ := readMatrixMarket_real (by split_ifs <;> simp) h2 handling
    (fun hs => ⟨(h.lower (ite_symmetric hs)).1, (h.lower (ite_symmetric hs)).2.1⟩)
    (fun hs hm => lt_of_le_of_lt (h.lower (ite_symmetric hs)).2.2 (h.size (ite_symmetric hs) hm))
  obtain ⟨h8, a, h9, h10⟩ := roundtrip_dense h4 h7 (fun hs => (h.full hs).2)
  exact ⟨t, c, a, h1, h3, h5, h6, h8, h9, by rw [h5, h6] at h10; exact h10⟩

/-- C14: if the stored values that are not above the tolerance are zero, the matrix read has the same dense form. -/
theorem C14_roundtrip_real_exact [LinearOrder ρ] [AddGroup ρ] {tol : ρ} {text : ρ → List Char} {parse : List Char → Option ρ}
    (ht : Faithful text parse) {s : Csc ρ} {col : Nat → List (Nat × ρ)} {handling : MMsym}
    (h : Writable s col (fun a => decide (|a| > tol)) handling) (hz : ∀ e ∈ colEntries col s.ncol, |e.2.2| ≤ tol → e.2.2 = 0) :
    ∃ t c a, s.writeMatrixMarket (realWriter tol text) false = ok t ∧ readMatrixMarket parse handling t = ok (.real c) ∧
      c.symmetric = (if s.symmetric = .no then Sym.no else handling.kind) ∧ s.asDense = ok a ∧ c.asDense = ok a := by
  obtain ⟨t, c, a, h1, h2, h3, h4, h5, h6, h7⟩ := C14_roundtrip_real ht h
  obtain ⟨b, h8, h9⟩ := Csc.asDense_spec h.rep
  have : b = a := by
    refine (h9.congr ?_).unique h7
    intro r c _ _
    exact (denseOf_filter_zero s.symmetric (colEntries col s.ncol) (fun a => decide (|a| > tol))
      (fun e he hk => hz e he (by simpa using hk)) r c).symm
  subst this
  exact ⟨t, c, b, h1, h2, h5, h8, h6⟩

/-- C57 (partial): a complex matrix written in the standard format and read back, under the hypothesis that, for every stored
value, the test in the loop that writes (`|re| > tol` or `|im| < tol`) agrees with the test in the loop that counts (`|re| > tol` or
`|im| > tol`). Without it see `C57_complex_counterexample`. -/
theorem C57_roundtrip_complex_partial [LinearOrder ρ] [AddGroup ρ] {tol : ρ} {norm : ρ × ρ → ρ} {text : ρ → List Char}
    {parse : List Char → Option ρ} (ht : Faithful text parse) {s : Csc (ρ × ρ)} {col : Nat → List (Nat × (ρ × ρ))} {handling : MMsym}
    (h : Writable s col (fun a => decide (|a.1| > tol) || decide (|a.2| > tol)) handling)
    (hagree : ∀ e ∈ colEntries col s.ncol, (|e.2.2.1| > tol ∨ |e.2.2.2| < tol) ↔ (|e.2.2.1| > tol ∨ |e.2.2.2| > tol)) :
    ∃ t c a, s.writeMatrixMarket (complexWriter tol norm text) false = ok t ∧ readMatrixMarket parse handling t = ok (.complex c) ∧
      c.nrow = s.nrow ∧ c.ncol = s.ncol ∧ c.symmetric = (if s.symmetric = .no then Sym.no else handling.kind) ∧
      c.asDense = ok a ∧ IsDense a s.nrow s.ncol
        (denseOf s.symmetric ((colEntries col s.ncol).filter fun e => decide (|e.2.2.1| > tol) || decide (|e.2.2.2| > tol))) := by
  obtain ⟨t, h1, h2⟩ := writeStd_isFile (w := complexWriter tol norm text) (field := "complex") rfl (Or.inr rfl) (goodText_complex ht) h.rep
    (fun e he => by
      have := hagree e he
      show (decide (|e.2.2.1| > tol) || decide (|e.2.2.2| < tol)) = (decide (|e.2.2.1| > tol) || decide (|e.2.2.2| > tol))
      rw [← Bool.decide_or, ← Bool.decide_or]
      exact decide_eq_decide.2 this) (fun hs => (h.full hs).1) h.ne_nil
  obtain ⟨c, h3, h4, h5, h6, h7⟩ := readMatrixMarket_complex (by split_ifs <;> simp) h2 handling
    (fun hs => ⟨(h.lower (ite_symmetric hs)).1, (h.lower (ite_symmetric hs)).2.1⟩)
    (fun hs hm => lt_of_le_of_lt (h.lower (ite_symmetric hs)).2.2 (h.size (ite_symmetric hs) hm))
  obtain ⟨h8, a, h9, h10⟩ := roundtrip_dense h4 h7 (fun hs => (h.full hs).2)
  exact ⟨t, c, a, h1, h3, h5, h6, h8, h9, by rw [h5, h6] at h10; exact h10⟩

/-! ## C15 -/

/-- C15: every well-formed real symmetric file gives, with the three options, the same dense matrix, namely the full symmetric
matrix; only the storage differs. -/
theorem C15_symmetric_real [Zero ρ] [Add ρ] {parse : List Char → Option ρ} {m : Nat} {es : List (Entry ρ)} {text : List Char}
    (h : IsFile (realValue parse) "real" "symmetric" m m es text) (hl : ∀ e ∈ es, e.2.1 ≤ e.1) (hsize : es.length < 1073741824) :
    ∃ a, IsDense a m m (denseOf .yesLower es) ∧ ∀ handling, ∃ c, readMatrixMarket parse handling text = ok (.real c) ∧
      c.symmetric = handling.kind ∧ c.nrow = m ∧ c.ncol = m ∧ c.asDense = ok a := by
  have key : ∀ handling, ∃ c b, readMatrixMarket parse handling text = ok (.real c) ∧
      c.symmetric = handling.kind ∧ c.nrow = m ∧ c.ncol = m ∧ c.asDense = ok b ∧ IsDense b m m (denseOf .yesLower es) := by
    intro handling
    obtain ⟨c, h1, h2, h3, h4, h5⟩ := readMatrixMarket_real (Or.inr rfl) h handling (fun _ => ⟨rfl, hl⟩) (fun _ _ => hsize)
    rw [if_pos rfl] at h5
    obtain ⟨b, h6, h7⟩ := Coo.asDense_spec h2
    refine ⟨c, b, h1, h5, h3, h4, h6, ?_⟩
    rw [h3, h4] at h7
    refine h7.congr ?_
    intro p q _ _
    rw [h5]
    exact denseOf_handled handling es p q
  obtain ⟨c, b, h1, h2, h3, h4, h5, h6⟩ := key .leaveAsLower
  refine ⟨b, h6, fun handling => ?_⟩
  obtain ⟨c', b', k1, k2, k3, k4, k5, k6⟩ := key handling
  exact ⟨c', k1, k2, k3, k4, by rw [k5, k6.unique h6]⟩

/-- C15: the same for complex files. -/
theorem C15_symmetric_complex [Zero ρ] [Add ρ] {parse : List Char → Option ρ} {m : Nat} {es : List (Entry (ρ × ρ))} {text : List Char}
    (h : IsFile (complexValue parse) "complex" "symmetric" m m es text) (hl : ∀ e ∈ es, e.2.1 ≤ e.1) (hsize : es.length < 1073741824) :
    ∃ a, IsDense a m m (denseOf .yesLower es) ∧ ∀ handling, ∃ c, readMatrixMarket parse handling text = ok (.complex c) ∧
      c.symmetric = handling.kind ∧ c.nrow = m ∧ c.ncol = m ∧ c.asDense = ok a := by
  have key : ∀ handling, ∃ c b, readMatrixMarket parse handling text = ok (.complex c) ∧
      c.symmetric = handling.kind ∧ c.nrow = m ∧ c.ncol = m ∧ c.asDense = ok b ∧ IsDense b m m (denseOf .yesLower es) := by
    intro handling
    obtain ⟨c, h1, h2, h3, h4, h5⟩ := readMatrixMarket_complex (Or.inr rfl) h handling (fun _ => ⟨rfl, hl⟩) (fun _ _ => hsize)
    rw [if_pos rfl] at h5
    obtain ⟨b, h6, h7⟩ := Coo.asDense_spec h2
    refine ⟨c, b, h1, h5, h3, h4, h6, ?_⟩
    rw [h3, h4] at h7
    refine h7.congr ?_
    intro p q _ _
    rw [h5]
    exact denseOf_handled handling es p q
  obtain ⟨c, b, h1, h2, h3, h4, h5, h6⟩ := key .leaveAsLower
  refine ⟨b, h6, fun handling => ?_⟩
  obtain ⟨c', b', k1, k2, k3, k4, k5, k6⟩ := key handling
  exact ⟨c', k1, k2, k3, k4, by rw [k5, k6.unique h6]⟩

/-- C15: every well-formed general file gives the general matrix with exactly the entries of the file, whatever the option. -/
theorem C15_general_real [Zero ρ] [Add ρ] {parse : List Char → Option ρ} {m n : Nat} {es : List (Entry ρ)} {text : List Char}
    (h : IsFile (realValue parse) "real" "general" m n es text) (handling : MMsym) :
    ∃ c, readMatrixMarket parse handling text = ok (.real c) ∧ c.symmetric = .no ∧ c.nrow = m ∧ c.ncol = n ∧ c.Rep es := by
  obtain ⟨c, h1, h2, h3, h4, h5⟩ := readMatrixMarket_real (Or.inl rfl) h handling (fun h => absurd h (by decide))
    (fun h => absurd h (by decide))
  refine ⟨c, h1, h5, h3, h4, ?_⟩
  have : es.flatMap (handled (decide ("general" = "symmetric")) handling) = es := by
    show es.flatMap (fun e => handled false handling e) = es
    simp [handled]
  rw [this] at h2
  exact h2

end Russell.Sparse
