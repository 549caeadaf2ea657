import Verif.Sparse.Group

/-!
# Merging duplicates: closed form of the in-place duplicate summation
-/

namespace Russell.Sparse

open Russell Russell.Res Russell.Lab

variable {α : Type}

/-- add `x` to the entry with key `j`, or append a new entry -/
def addKey [Add α] (j : Nat) (x : α) : List (Nat × α) → List (Nat × α)
  | [] => [(j, x)]
  | (k, y) :: D => if k = j then (k, y + x) :: D else (k, y) :: addKey j x D

/-- duplicates merged in order of first occurrence, values added in order -/
def mergeDup [Add α] (row : List (Nat × α)) : List (Nat × α) := row.foldl (fun D e => addKey e.1 e.2 D) []

theorem addKey_new [Add α] {j : Nat} {x : α} {D : List (Nat × α)} (h : j ∉ D.map Prod.fst) :
    addKey j x D = D ++ [(j, x)] := by
  induction D with
  | nil => rfl
  | cons d D ih =>
    obtain ⟨k, y⟩ := d
    simp only [List.map_cons, List.mem_cons, not_or] at h
    rw [addKey, if_neg (Ne.symm h.1), ih h.2]; rfl

theorem addKey_old [Add α] {j : Nat} {x y : α} {D : List (Nat × α)} (hn : (D.map Prod.fst).Nodup) {idx : Nat}
    (h : D[idx]? = some (j, y)) : addKey j x D = D.set idx (j, y + x) := by
  induction D generalizing idx with
  | nil => simp at h
  | cons d D ih =>
    obtain ⟨k, z⟩ := d
    simp only [List.map_cons, List.nodup_cons] at hn
    cases idx with
    | zero => simp at h; simp [addKey, h]
    | succ idx =>
      simp at h
      have hne : ¬ k = j := by
        rintro rfl
        apply hn.1
        exact List.mem_map.2 ⟨(k, y), List.mem_of_getElem? h, rfl⟩
      rw [addKey, if_neg hne, ih hn.2 h]; rfl

theorem addKey_keys [Add α] (j : Nat) (x : α) (D : List (Nat × α)) :
    (addKey j x D).map Prod.fst = if j ∈ D.map Prod.fst then D.map Prod.fst else D.map Prod.fst ++ [j] := by
  induction D with
  | nil => simp [addKey]
  | cons d D ih =>
    obtain ⟨k, z⟩ := d
    rw [addKey]
    by_cases h : k = j
    · subst h; simp
    · rw [if_neg h]
      simp only [List.map_cons, ih, List.mem_cons]
      have h' : ¬ j = k := fun hh => h hh.symm
      by_cases h2 : j ∈ D.map Prod.fst
      · simp [h2]
      · rw [if_neg h2, if_neg (by simp only [not_or]; exact ⟨h', h2⟩)]; rfl

theorem addKey_nodup [Add α] (j : Nat) (x : α) {D : List (Nat × α)} (h : (D.map Prod.fst).Nodup) :
    ((addKey j x D).map Prod.fst).Nodup := by
  rw [addKey_keys]
  split
  · exact h
  · rename_i hj
    rw [List.nodup_append]
    refine ⟨h, by simp, ?_⟩
    intro a ha b hb
    simp at hb; subst hb
    rintro rfl; exact hj ha

theorem mergeDup_snoc [Add α] (row : List (Nat × α)) (e : Nat × α) :
    mergeDup (row ++ [e]) = addKey e.1 e.2 (mergeDup row) := by simp [mergeDup]

@[simp] theorem mergeDup_nil [Add α] : mergeDup ([] : List (Nat × α)) = [] := rfl

theorem mergeDup_nodup [Add α] (row : List (Nat × α)) : ((mergeDup row).map Prod.fst).Nodup := by
  induction row using List.reverseRecOn with
  | nil => simp
  | append_singleton row e ih => rw [mergeDup_snoc]; exact addKey_nodup _ _ ih

theorem mergeDup_keys [Add α] (row : List (Nat × α)) (j : Nat) :
    j ∈ (mergeDup row).map Prod.fst ↔ j ∈ row.map Prod.fst := by
  induction row using List.reverseRecOn generalizing j with
  | nil => simp
  | append_singleton row e ih =>
    rw [mergeDup_snoc, addKey_keys]
    split
    · rename_i h
      rw [ih] at h ⊢
      simp only [List.map_append, List.mem_append, List.map_cons, List.map_nil, List.mem_singleton]
      constructor
      · exact Or.inl
      · rintro (h' | rfl)
        · exact h'
        · exact h
    · simp only [List.map_append, List.mem_append, List.map_cons, List.map_nil, ih]

theorem mergeDup_length_le [Add α] (row : List (Nat × α)) : (mergeDup row).length ≤ row.length := by
  induction row using List.reverseRecOn with
  | nil => simp
  | append_singleton row e ih =>
    rw [mergeDup_snoc]
    have := congrArg List.length (addKey_keys e.1 e.2 (mergeDup row))
    simp only [List.length_map] at this
    rw [this]
    split <;> simp <;> omega

theorem addKey_grp [Add α] (a : Nat) (x : α) (D : List (Nat × α)) (hn : (D.map Prod.fst).Nodup) (j : Nat) :
    grp (addKey a x D) j = if a = j then (match grp D j with | [] => [x] | y :: ys => (y + x) :: ys) else grp D j := by
  induction D with
  | nil => simp only [addKey, grp_cons, grp_nil]
  | cons d D ih =>
    obtain ⟨k, z⟩ := d
    simp only [List.map_cons, List.nodup_cons] at hn
    rw [addKey]
    by_cases h : k = a
    · subst h
      rw [if_pos rfl]
      simp only [grp_cons]
      by_cases hkj : k = j
      · subst hkj; simp
      · simp [hkj]
    · rw [if_neg h]
      simp only [grp_cons]
      rw [ih hn.2]
      by_cases hkj : k = j
      · subst hkj; simp [Ne.symm h]
      · simp [hkj]

theorem mergeDup_grp [Add α] (row : List (Nat × α)) (j : Nat) :
    grp (mergeDup row) j = match grp row j with | [] => [] | x :: xs => [xs.foldl (· + ·) x] := by
  induction row using List.reverseRecOn with
  | nil => simp
  | append_singleton row e ih =>
    rw [mergeDup_snoc, addKey_grp _ _ _ (mergeDup_nodup row), ih, grp_append, grp_cons]
    by_cases h : e.1 = j
    · simp only [h, if_true, grp_nil]
      cases grp row j with
      | nil => simp
      | cons x xs => simp
    · simp only [h, if_false, grp_nil, List.append_nil]

/-- encoding of a row entry in the arrays: the column as `i32` -/
def enc (e : Nat × α) : Int × α := ((e.1 : Int), e.2)

theorem segAt_set {β : Type} {l : List β} {p : Nat} {xs : List β} (h : SegAt l p xs) {t : Nat} (ht : t < xs.length) (x : β) :
    SegAt (l.set (p + t) x) p (xs.set t x) := by
  intro s hs
  rw [List.length_set] at hs
  have hlt : p + t < l.length := (List.getElem?_eq_some_iff.1 (h t ht)).1
  rw [List.getElem?_set, List.getElem_set]
  by_cases hst : t = s
  · subst hst; simp [hlt]
  · rw [if_neg (by omega), if_neg hst]; exact h s hs

theorem segAt_snoc {β : Type} {l : List β} {p : Nat} {xs : List β} (h : SegAt l p xs) {x : β}
    (hx : l[p + xs.length]? = some x) : SegAt l p (xs ++ [x]) := by
  intro s hs
  by_cases hsl : s < xs.length
  · rw [List.getElem_append_left hsl]; exact h s hsl
  · have : s = xs.length := by simp at hs; omega
    subst this; rw [hx]; simp

theorem segAt_set_out {β : Type} {l : List β} {p : Nat} {xs : List β} (h : SegAt l p xs) {q : Nat}
    (hq : q < p ∨ p + xs.length ≤ q) (x : β) : SegAt (l.set q x) p xs := by
  intro s hs
  rw [List.getElem?_set, if_neg (by omega)]; exact h s hs

/-- the workspace knows, for each column, whether it occurs in `D` and where -/
def WsInv (ncol p1 : Nat) (D : List (Nat × α)) (w : List Int) : Prop :=
  ∀ j, j < ncol → ∃ v : Int, w[j]? = some v ∧
    ((v < p1 ∧ j ∉ D.map Prod.fst) ∨ ∃ idx y, v = ((p1 + idx : Nat) : Int) ∧ D[idx]? = some (j, y))

/-- The in-place duplicate summation of one row. -/
theorem Csr.dedupRow_spec [Add α] {p1 ncol : Nat} {row : List (Nat × α)} {rjx : List (Int × α)} {w : List Int}
    (hseg : SegAt rjx p1 (row.map enc)) (hcol : ∀ e ∈ row, e.1 < ncol) (hn : ncol < 2147483648)
    (hp : p1 + row.length < 2147483648)
    (hw : ∀ j, j < ncol → ∃ v : Int, w[j]? = some v ∧ v < p1) :
    ∃ rjx' w', Csr.dedupRow p1 (p1 + row.length) rjx w = ok (rjx', w', p1 + (mergeDup row).length) ∧
      rjx'.length = rjx.length ∧ SegAt rjx' p1 ((mergeDup row).map enc) ∧
      (∀ q, q < p1 ∨ p1 + row.length ≤ q → rjx'[q]? = rjx[q]?) ∧ w'.length = w.length ∧
      (∀ j, j < ncol → ∃ v : Int, w'[j]? = some v ∧ v < (p1 + row.length : Nat)) := by
  have hA : ∀ m : Nat, m ≤ p1 + row.length → asI32 m = (m : Int) ∧ asUsize (m : Int) = m :=
    fun m hm => ⟨asI32_natCast (by omega), asUsize_natCast (by omega)⟩
  have hB : ∀ m : Nat, m < ncol → asI32 m = (m : Int) ∧ asUsize (m : Int) = m :=
    fun m hm => ⟨asI32_natCast (by omega), asUsize_natCast (by omega)⟩
  clear hp hn
  have main := forRange_spec
    (f := fun p (s : List (Int × α) × List Int × Nat) => do
      let (rjx, w, dest) := s
      let (jj, x) ← vget rjx p
      let j := asUsize jj
      let wj ← vget w j
      if wj ≥ asI32 p1 then do
        let pj := asUsize wj
        let (j0, x0) ← vget rjx pj
        let rjx ← vset rjx pj (j0, x0 + x)
        ok (rjx, w, dest)
      else do
        let w ← vset w j (asI32 dest)
        if dest ≠ p then do
          let rjx ← vset rjx dest (asI32 j, x)
          ok (rjx, w, dest + 1)
        else ok (rjx, w, dest + 1))
    (fun p s => s.1.length = rjx.length ∧ s.2.1.length = w.length ∧
      s.2.2 = p1 + (mergeDup (row.take (p - p1))).length ∧
      SegAt s.1 p1 ((mergeDup (row.take (p - p1))).map enc) ∧
      (∀ q, q < p1 ∨ p ≤ q → s.1[q]? = rjx[q]?) ∧
      WsInv ncol p1 (mergeDup (row.take (p - p1))) s.2.1)
    (Nat.le_add_right p1 row.length) (s := (rjx, w, p1)) ?_ ?_
  · obtain ⟨⟨rjx', w', dest⟩, h1, h2, h3, h4, h5, h6, h7⟩ := main
    simp only [Nat.add_sub_cancel_left, List.take_length] at h4 h5 h7
    subst h4
    refine ⟨rjx', w', h1, h2, h5, h6, h3, ?_⟩
    intro j hj
    obtain ⟨v, hv, hc⟩ := h7 j hj
    refine ⟨v, hv, ?_⟩
    rcases hc with ⟨hc, -⟩ | ⟨idx, y, hc, hd⟩
    · omega
    · have := (List.getElem?_eq_some_iff.1 hd).1
      have := mergeDup_length_le row
      omega
  · simp only [Nat.sub_self, List.take_zero, mergeDup_nil, List.length_nil, Nat.add_zero, List.map_nil, true_and]
    refine ⟨fun t ht => absurd ht (by simp), fun _ _ => trivial, ?_⟩
    intro j hj
    obtain ⟨v, hv, hc⟩ := hw j hj
    exact ⟨v, hv, Or.inl ⟨hc, by simp⟩⟩
  · rintro p ⟨rjx1, w1, dest⟩ hp1 hp2 ⟨i1, i2, i3, i4, i5, i6⟩
    simp only at i1 i2 i3 i4 i5 i6
    obtain ⟨t, rfl⟩ := Nat.exists_eq_add_of_le hp1
    have ht : t < row.length := by omega
    have et : p1 + t - p1 = t := by omega
    have et1 : p1 + t + 1 - p1 = t + 1 := by omega
    rw [et] at i3 i4 i6
    simp only [et1]
    rw [take_succ_eq ht, mergeDup_snoc]
    have hDl : (mergeDup (row.take t)).length ≤ t := by
      have := mergeDup_length_le (row.take t); simp at this; omega
    have hnd := mergeDup_nodup (row.take t)
    generalize mergeDup (row.take t) = D at *
    have hmem : row[t] ∈ row := List.getElem_mem ht
    have hj := hcol _ hmem
    have hread : rjx1[p1 + t]? = some ((row[t].1 : Int), row[t].2) := by
      rw [i5 _ (Or.inr (Nat.le_refl _))]
      have := hseg t (by simpa using ht)
      simpa [enc] using this
    generalize row[t] = e at *
    obtain ⟨j, x⟩ := e
    simp only at hj hread ⊢
    obtain ⟨v, hv, hc⟩ := i6 j hj
    have hjw : j < w1.length := (List.getElem?_eq_some_iff.1 hv).1
    simp only [vget_of hread, ok_bind, (hB j hj).2, vget_of hv, (hA p1 (by omega)).1]
    rcases hc with ⟨hc, hnew⟩ | ⟨idx, y, hc, hd⟩
    · rw [if_neg (by omega), addKey_new hnew]
      rw [(hA dest (by omega)).1, (hB j hj).1]
      rw [vset_lt _ hjw, ok_bind]
      -- common facts about the new workspace
      have hws : WsInv ncol p1 (D ++ [(j, x)]) (w1.set j (dest : Int)) := by
        intro j' hj'
        by_cases hjj' : j = j'
        · subst hjj'
          refine ⟨(dest : Int), by simp [hjw], Or.inr ⟨D.length, x, by rw [i3], by simp⟩⟩
        · obtain ⟨v', hv', hc'⟩ := i6 j' hj'
          refine ⟨v', by rw [List.getElem?_set, if_neg hjj']; exact hv', ?_⟩
          rcases hc' with ⟨a, b⟩ | ⟨idx, y, a, b⟩
          · left
            refine ⟨a, ?_⟩
            simp only [List.map_append, List.map_cons, List.map_nil, List.mem_append, List.mem_singleton, not_or]
            exact ⟨b, fun hh => hjj' hh.symm⟩
          · right
            refine ⟨idx, y, a, ?_⟩
            rw [List.getElem?_append_left (List.getElem?_eq_some_iff.1 b).1]; exact b
      have hplt : p1 + t < rjx1.length := (List.getElem?_eq_some_iff.1 hread).1
      by_cases hdp : dest ≠ p1 + t
      · rw [if_pos hdp]
        have hdl : dest < rjx1.length := by omega
        rw [vset_lt _ hdl, ok_bind]
        refine ⟨_, rfl, by simp [i1], by simp [i2], by simp only [List.length_append, List.length_singleton, i3]; omega, ?_,
          ?_, hws⟩
        · rw [List.map_append, List.map_cons, List.map_nil]
          apply segAt_snoc
          · apply segAt_set_out i4
            right; simp [i3]
          · rw [List.length_map, ← i3, List.getElem?_set]
            simp [hdl, enc]
        · intro q hq
          simp only
          rw [List.getElem?_set, if_neg (by omega)]
          exact i5 q (by omega)
      · rw [if_neg hdp]
        have hdp := not_not.1 hdp
        refine ⟨_, rfl, i1, by simp [i2], by simp only [List.length_append, List.length_singleton, i3]; omega, ?_, ?_, hws⟩
        · rw [List.map_append, List.map_cons, List.map_nil]
          apply segAt_snoc i4
          rw [List.length_map, ← i3, hdp, hread]; rfl
        · intro q hq; exact i5 q (by omega)
    · have hidx : idx < D.length := (List.getElem?_eq_some_iff.1 hd).1
      rw [if_pos (by omega), addKey_old hnd hd]
      subst hc
      have hrd : rjx1[p1 + idx]? = some ((j : Int), y) := by
        have := i4 idx (by simpa using hidx)
        rw [this]
        have hdd := (List.getElem?_eq_some_iff.1 hd).2
        simp [hdd, enc]
      have hlt : p1 + idx < rjx1.length := (List.getElem?_eq_some_iff.1 hrd).1
      simp only [(hA (p1 + idx) (by omega)).2, vget_of hrd, ok_bind, vset_lt _ hlt]
      refine ⟨_, rfl, by simp [i1], i2, by simp [i3], ?_, ?_, ?_⟩
      · have := segAt_set i4 (t := idx) (by simpa using hidx) ((j : Int), y + x)
        rw [List.map_set]; exact this
      · intro q hq
        simp only
        rw [List.getElem?_set, if_neg (by omega)]
        exact i5 q (by omega)
      · intro j' hj'
        obtain ⟨v', hv', hc'⟩ := i6 j' hj'
        refine ⟨v', hv', ?_⟩
        have hkeys : (D.set idx (j, y + x)).map Prod.fst = D.map Prod.fst := by
          rw [List.map_set]
          apply List.ext_getElem?
          intro k
          rw [List.getElem?_set]
          split
          · rename_i hk; subst hk; simp [hidx, (List.getElem?_eq_some_iff.1 hd).2]
          · rfl
        rcases hc' with ⟨a, b⟩ | ⟨idx', y', a, b⟩
        · left; rw [hkeys]; exact ⟨a, b⟩
        · right
          by_cases hii : idx = idx'
          · subst hii
            rw [hd] at b
            simp at b
            exact ⟨idx, y + x, a, by simp [hidx, b.1]⟩
          · exact ⟨idx', y', a, by rw [List.getElem?_set, if_neg hii]; exact b⟩

end Russell.Sparse
