import Verif.Sparse.Merge

/-!
# Closed form of the COO to CSR conversion
-/

namespace Russell.Sparse

open Russell Russell.Res Russell.Lab

variable {α : Type}

theorem grp_map {β γ : Type} (f : β → γ) (F : List (Nat × β)) (i : Nat) :
    grp (F.map fun e => (e.1, f e.2)) i = (grp F i).map f := by
  induction F with
  | nil => rfl
  | cons e F ih => rw [List.map_cons, grp_cons, grp_cons, ih]; split <;> rfl

theorem fillFirst_spec {n : Nat} {v : Int} {w : List Int} (h : n ≤ w.length) :
    ∃ w', fillFirst n v w = ok w' ∧ (∀ j, j < n → w'[j]? = some v) ∧ w'.length = w.length := by
  have := forRange_spec (f := fun j w => vset w j v)
    (fun k w' => (∀ j, j < k → w'[j]? = some v) ∧ w'.length = w.length) (Nat.zero_le n) (s := w)
    ⟨fun j hj => absurd hj (by omega), rfl⟩ (by
      rintro k w' _ hk ⟨h1, h2⟩
      refine ⟨_, vset_lt v (by omega), ?_, by simp [h2]⟩
      intro j hj
      rw [List.getElem?_set]
      by_cases hkj : k = j
      · subst hkj; simp [show k < w'.length by omega]
      · rw [if_neg hkj]; exact h1 j (by omega))
  exact this

theorem countRows_spec {c : Coo α} {es : List (Entry α)} (h : c.Rep es) (hlen : es.length < 2147483648) {w : List Int}
    (hw : ∀ i, i < c.nrow → w[i]? = some 0) :
    ∃ w', countRows c.nnz c.indicesI w = ok w' ∧
      (∀ i, i < c.nrow → w'[i]? = some (((grp es i).length : Nat) : Int)) ∧ w'.length = w.length := by
  rw [h.nnz]
  have := forRange_spec (f := fun k w => do
      let i ← vget c.indicesI k
      let x ← vget w (asUsize i)
      let y ← addI32 x 1
      vset w (asUsize i) y)
    (fun k w' => CntInv es c.nrow k w' ∧ w'.length = w.length) (Nat.zero_le es.length) (s := w)
    ⟨fun i hi => by simpa using hw i hi, rfl⟩ (by
      rintro k w' _ hk ⟨h1, h2⟩
      obtain ⟨x, e1, y, e2, w'', e3, h3, h4, -⟩ := h1.step hk h.rangeI hlen
      refine ⟨w'', ?_, h3, by omega⟩
      simp only [h.readI hk, ok_bind, h.usizeI hk, e1, e2, e3])
  obtain ⟨w', h1, h2, h3⟩ := this
  exact ⟨w', h1, fun i hi => by simpa using h2 i hi, h3⟩

theorem rowPtrs_spec {β : Type} {row : Nat → List β} {n : Nat} {rp w : List Int} (hrp : rp.length = n + 1)
    (hw : ∀ i, i < n → w[i]? = some (((row i).length : Nat) : Int)) (hlen : off row n < 2147483648) :
    ∃ rp' w', rowPtrs n rp w = ok (rp', w') ∧ rp'.length = n + 1 ∧
      (∀ i, i ≤ n → rp'[i]? = some ((off row i : Nat) : Int)) ∧
      (∀ i, i < n → w'[i]? = some ((off row i : Nat) : Int)) ∧ w'.length = w.length := by
  have h0 : vset rp 0 0 = ok (rp.set 0 0) := vset_lt _ (by omega)
  have := forRange_spec (f := fun i (s : List Int × List Int) => do
      let (rp, w) := s
      let r ← vget rp i
      let x ← vget w i
      let s ← addI32 r x
      let rp ← vset rp (i + 1) s
      let r ← vget rp i
      let w ← vset w i r
      ok (rp, w))
    (fun k s => s.1.length = n + 1 ∧ s.2.length = w.length ∧ (∀ i, i ≤ k → s.1[i]? = some ((off row i : Nat) : Int)) ∧
      (∀ i, i < k → s.2[i]? = some ((off row i : Nat) : Int)) ∧
      (∀ i, k ≤ i → i < n → s.2[i]? = some (((row i).length : Nat) : Int)))
    (Nat.zero_le n) (s := (rp.set 0 0, w)) ⟨by simp [hrp], rfl, by
      intro i hi
      have : i = 0 := by omega
      subst this; simp [hrp], fun i hi => absurd hi (by omega), fun i _ hi => hw i hi⟩ (by
      rintro k ⟨rp1, w1⟩ _ hk ⟨h1, h2, h3, h4, h5⟩
      simp only at h1 h2 h3 h4 h5
      have e1 := vget_of (h3 k (Nat.le_refl _))
      have e2 := vget_of (h5 k (Nat.le_refl _) hk)
      have hle := off_le row (show k + 1 ≤ n from hk)
      rw [off_succ] at hle
      have e3 := addI32_nat (show off row k + (row k).length < 2147483648 by omega)
      have e4 := vset_lt (l := rp1) ((off row k + (row k).length : Nat) : Int) (show k + 1 < rp1.length by omega)
      have e5 : vget (rp1.set (k + 1) ((off row k + (row k).length : Nat) : Int)) k = ok ((off row k : Nat) : Int) := by
        apply vget_of
        rw [List.getElem?_set, if_neg (by omega)]
        exact h3 k (Nat.le_refl _)
      have hkw : k < w1.length := (List.getElem?_eq_some_iff.1 (h5 k (Nat.le_refl _) hk)).1
      refine ⟨(rp1.set (k + 1) ((off row k + (row k).length : Nat) : Int), w1.set k ((off row k : Nat) : Int)), ?_, ?_⟩
      · simp only [e1, e2, e3, e4, e5, ok_bind, vset_lt _ hkw]
      · refine ⟨by simp [h1], by simp [h2], ?_, ?_, ?_⟩
        · intro i hi
          simp only
          rw [List.getElem?_set]
          by_cases hik : k + 1 = i
          · subst hik; simp [h1, hk, off_succ]
          · rw [if_neg hik]; exact h3 i (by omega)
        · intro i hi
          simp only
          rw [List.getElem?_set]
          by_cases hik : k = i
          · subst hik; simp [hkw]
          · rw [if_neg hik]; exact h4 i (by omega)
        · intro i hi hi'
          simp only
          rw [List.getElem?_set, if_neg (by omega)]
          exact h5 i (by omega) hi')
  obtain ⟨⟨rp', w'⟩, h1, h2, h3, h4, h5, -⟩ := this
  refine ⟨rp', w', ?_, h2, h4, h5, h3⟩
  rw [rowPtrs, h0, ok_bind]
  exact h1

theorem Csr.scatter_spec {c : Coo α} {es : List (Entry α)} (h : c.Rep es) (hlen : es.length < 2147483648)
    {rjx : List (Int × α)} {w : List Int} (hr : rjx.length = es.length)
    (hw : ∀ i, i < c.nrow → w[i]? = some ((off (grp es) i : Nat) : Int)) :
    ∃ rjx' w', Csr.scatter c.nnz c.indicesI c.indicesJ c.values rjx w = ok (rjx', w') ∧ rjx'.length = es.length ∧
      (∀ i, i < c.nrow → SegAt rjx' (off (grp es) i) ((grp es i).map enc)) ∧ w'.length = w.length := by
  let F : List (Nat × (Int × α)) := es.map fun e => (e.1, enc e.2)
  have hFl : F.length = es.length := by simp [F]
  have hF : ∀ e ∈ F, e.1 < c.nrow := by
    intro e he
    obtain ⟨e', he', rfl⟩ := List.mem_map.1 he
    exact h.rangeI e' he'
  have hg : ∀ i, grp F i = (grp es i).map enc := fun i => grp_map enc es i
  have hoff : ∀ i, off (grp F) i = off (grp es) i := by
    intro i
    have : grp F = fun i => (grp es i).map enc := funext hg
    rw [this]; exact off_map (fun _ => enc) (grp es) i
  have := forRange_spec (f := fun k (s : List (Int × α) × List Int) => do
      let (rjx, w) := s
      let i ← vget c.indicesI k
      let p ← vget w (asUsize i)
      let j ← vget c.indicesJ k
      let x ← vget c.values k
      let rjx ← vset rjx (asUsize p) (j, x)
      let p' ← addI32 p 1
      let w ← vset w (asUsize i) p'
      ok (rjx, w))
    (fun k s => s.1.length = es.length ∧ s.2.length = w.length ∧ ScatInv F c.nrow k s.2 (fun p => s.1[p]?))
    (Nat.zero_le es.length) (s := (rjx, w)) ⟨hr, rfl, by
      refine ⟨fun i hi => ?_, fun i hi t ht => absurd ht (by simp)⟩
      simp only [List.take_zero, grp_nil, List.length_nil, Nat.add_zero, hoff]
      exact hw i hi⟩ (by
      rintro k ⟨rjx1, w1⟩ _ hk ⟨h1, h2, h3⟩
      simp only at h1 h2 h3
      have hk' : k < F.length := by omega
      obtain ⟨p, e1, e2, e3, e4, e5, e6⟩ := h3.step hk' hF (by omega)
      have eF : F[k] = (es[k].1, enc es[k].2) := by simp [F]
      simp only [eF] at e1 e5 e6
      have hp : p < rjx1.length := by omega
      refine ⟨(rjx1.set p ((es[k].2.1 : Nat), es[k].2.2), w1.set es[k].1 ((p + 1 : Nat) : Int)), ?_, by simp [h1], by simp [h2], ?_⟩
      · simp only [h.readI hk, h.readJ hk, h.readX hk, ok_bind, h.usizeI hk, e1, e3, vset_lt _ hp, e4, e5]
      · apply e6
        · simp [hp, enc]
        · intro q hq
          simp only
          rw [List.getElem?_set, if_neg (fun hh => hq hh.symm)])
  obtain ⟨⟨rjx', w'⟩, h1, h2, h3, h4⟩ := this
  refine ⟨rjx', w', by rw [h.nnz]; exact h1, h2, ?_, h3⟩
  intro i hi t ht
  have := h4.2 i hi t (by rw [← hFl, List.take_length, hg]; exact ht)
  simp only [hoff] at this
  rw [this]
  simp only [← hFl, List.take_length, hg]

/-- the row pointers of the unmerged rows -/
theorem Csr.dedup_spec [Add α] {row : Nat → List (Nat × α)} {n ncol : Nat} {rp : List Int} {rjx : List (Int × α)}
    {rc : List Nat} {w : List Int} (hrp : ∀ i, i ≤ n → rp[i]? = some ((off row i : Nat) : Int))
    (hseg : ∀ i, i < n → SegAt rjx (off row i) ((row i).map enc)) (hcol : ∀ i, i < n → ∀ e ∈ row i, e.1 < ncol)
    (hn : ncol < 2147483648) (hoff : off row n < 2147483648) (hrc : rc.length = n)
    (hw : ∀ j, j < ncol → w[j]? = some (-1)) :
    ∃ rjx' rc' w', Csr.dedup n rp rjx rc w = ok (rjx', rc', w') ∧ rjx'.length = rjx.length ∧ rc'.length = n ∧
      w'.length = w.length ∧
      (∀ i, i < n → SegAt rjx' (off row i) ((mergeDup (row i)).map enc)) ∧
      (∀ i, i < n → rc'[i]? = some (mergeDup (row i)).length) := by
  have hU : ∀ i, i ≤ n → asUsize ((off row i : Nat) : Int) = off row i := fun i hi =>
    asUsize_natCast (lt_of_le_of_lt (off_le row hi) hoff)
  have := forRange_spec (f := fun i (s : List (Int × α) × List Nat × List Int) => do
      let (rjx, rc, w) := s
      let a ← vget rp i
      let b ← vget rp (i + 1)
      let p1 := asUsize a
      let (rjx, w, dest) ← Csr.dedupRow p1 (asUsize b) rjx w
      let cnt ← subUsize dest p1
      let rc ← vset rc i cnt
      ok (rjx, rc, w))
    (fun k s => s.1.length = rjx.length ∧ s.2.1.length = n ∧ s.2.2.length = w.length ∧
      (∀ i, i < k → SegAt s.1 (off row i) ((mergeDup (row i)).map enc)) ∧
      (∀ i, k ≤ i → i < n → SegAt s.1 (off row i) ((row i).map enc)) ∧
      (∀ i, i < k → s.2.1[i]? = some (mergeDup (row i)).length) ∧
      (∀ j, j < ncol → ∃ v : Int, s.2.2[j]? = some v ∧ v < (off row k : Nat)))
    (Nat.zero_le n) (s := (rjx, rc, w)) ⟨rfl, hrc, rfl, fun i hi => absurd hi (by omega), fun i _ hi => hseg i hi,
      fun i hi => absurd hi (by omega), fun j hj => ⟨-1, hw j hj, by simp⟩⟩ (by
      rintro k ⟨rjx1, rc1, w1⟩ _ hk ⟨h1, h2, h3, h4, h5, h6, h7⟩
      simp only at h1 h2 h3 h4 h5 h6 h7
      have e1 := vget_of (hrp k (by omega))
      have e2 := vget_of (hrp (k + 1) hk)
      have hle := off_le row (show k + 1 ≤ n from hk)
      obtain ⟨rjx2, w2, d1, d2, d3, d4, d5, d6⟩ := Csr.dedupRow_spec (h5 k (Nat.le_refl _) hk) (hcol k hk) hn
        (by rw [← off_succ]; omega) h7
      rw [← off_succ] at d1 d4 d6
      have hsub : subUsize (off row k + (mergeDup (row k)).length) (off row k) = ok (mergeDup (row k)).length := by
        simp [subUsize]
      have hkrc : k < rc1.length := by omega
      refine ⟨(rjx2, rc1.set k (mergeDup (row k)).length, w2), ?_, by simp only; omega, by simp [h2], by simp only; omega, ?_, ?_, ?_, d6⟩
      · simp only [e1, e2, ok_bind, hU k (by omega), hU (k + 1) hk, d1, hsub, vset_lt _ hkrc]
      · intro i hi t ht
        simp only at ht ⊢
        by_cases hik : i = k
        · subst hik; exact d3 t ht
        · have hlt : off row i + t < off row k := by
            have hm := mergeDup_length_le (row i)
            rw [List.length_map] at ht
            exact off_add_lt row (by omega) (by omega)
          rw [d4 _ (Or.inl hlt)]
          exact h4 i (by omega) t ht
      · intro i hi hi' t ht
        have : off row (k + 1) ≤ off row i := off_le row hi
        simp only
        rw [d4 _ (Or.inr (by omega))]
        exact h5 i (by omega) hi' t ht
      · intro i hi
        simp only
        rw [List.getElem?_set]
        by_cases hik : k = i
        · subst hik; simp [hkrc]
        · rw [if_neg hik]; exact h6 i (by omega))
  obtain ⟨⟨rjx', rc', w'⟩, h1, h2, h3, h4, h5, -, h6, -⟩ := this
  exact ⟨rjx', rc', w', h1, h2, h3, h4, h5, h6⟩

theorem Csr.fixPtrs_spec {β : Type} {row : Nat → List β} {n : Nat} {rc : List Nat} {bp : List Int}
    (hbp : bp.length = n + 1) (hrc : ∀ i, i < n → rc[i]? = some (row i).length) (hlen : off row n < 2147483648) :
    ∃ bp', Csr.fixPtrs n rc bp = ok bp' ∧ bp'.length = n + 1 ∧ (∀ i, i ≤ n → bp'[i]? = some ((off row i : Nat) : Int)) := by
  have h0 : vset bp 0 0 = ok (bp.set 0 0) := vset_lt _ (by omega)
  have := forRange_spec (f := fun i (bp : List Int) => do
      let b ← vget bp i
      let c ← vget rc i
      let s ← addI32 b (asI32 c)
      vset bp (i + 1) s)
    (fun k s => s.length = n + 1 ∧ (∀ i, i ≤ k → s[i]? = some ((off row i : Nat) : Int)))
    (Nat.zero_le n) (s := bp.set 0 0) ⟨by simp [hbp], by
      intro i hi
      have : i = 0 := by omega
      subst this; simp [hbp]⟩ (by
      rintro k bp1 _ hk ⟨h1, h2⟩
      have hle := off_le row (show k + 1 ≤ n from hk)
      rw [off_succ] at hle
      have e3 := addI32_nat (show off row k + (row k).length < 2147483648 by omega)
      refine ⟨bp1.set (k + 1) ((off row k + (row k).length : Nat) : Int), ?_, by simp [h1], ?_⟩
      · simp only [vget_of (h2 k (Nat.le_refl _)), vget_of (hrc k hk), ok_bind,
          asI32_natCast (show (row k).length < 2147483648 by omega), e3]
        exact vset_lt _ (by omega)
      · intro i hi
        rw [List.getElem?_set]
        by_cases hik : k + 1 = i
        · subst hik; simp [h1, hk, off_succ]
        · rw [if_neg hik]; exact h2 i (by omega))
  obtain ⟨bp', h1, h2, h3⟩ := this
  exact ⟨bp', by rw [Csr.fixPtrs, h0, ok_bind]; exact h1, h2, h3⟩

/-- a row sorted by column (stable) -/
def sortRow (row : List (Nat × α)) : List (Nat × α) := row.mergeSort fun a b => decide (a.1 ≤ b.1)

theorem sortRow_length (row : List (Nat × α)) : (sortRow row).length = row.length := by simp [sortRow]

theorem segAt_slice {β : Type} {l : List β} {p : Nat} {xs : List β} (h : SegAt l p xs) (hp : p + xs.length ≤ l.length) :
    (l.drop p).take xs.length = xs := by
  apply List.ext_getElem
  · simp; omega
  · intro k h1 h2
    have := h k h2
    rw [List.getElem_take, List.getElem_drop]
    exact (List.getElem?_eq_some_iff.1 this).2

theorem segAt_le {β : Type} {l : List β} {p : Nat} {xs : List β} (h : SegAt l p xs) (hp : p ≤ l.length) :
    p + xs.length ≤ l.length := by
  rcases Nat.eq_zero_or_pos xs.length with h0 | h0
  · omega
  · have := (List.getElem?_eq_some_iff.1 (h (xs.length - 1) (by omega))).1
    omega

theorem Csr.sortSlice_spec {l : List (Int × α)} {p : Nat} {xs : List (Nat × α)} (h : SegAt l p (xs.map enc))
    (hp : p ≤ l.length) :
    ∃ l', Csr.sortSlice l p (p + xs.length) = ok l' ∧ l'.length = l.length ∧
      SegAt l' p ((sortRow xs).map enc) ∧ (∀ q, q < p ∨ p + xs.length ≤ q → l'[q]? = l[q]?) := by
  have hle := segAt_le h hp
  rw [List.length_map] at hle
  have hs := segAt_slice h (by rw [List.length_map]; exact hle)
  rw [List.length_map] at hs
  have hms : ((xs.map enc).mergeSort fun a b => decide (a.1 ≤ b.1)) = (sortRow xs).map enc := by
    rw [sortRow]
    symm
    apply List.map_mergeSort
    intro a _ b _
    simp [enc]
  refine ⟨l.take p ++ (sortRow xs).map enc ++ l.drop (p + xs.length), ?_, ?_, ?_, ?_⟩
  · rw [Csr.sortSlice, if_pos ⟨by omega, hle⟩, Nat.add_sub_cancel_left, hs, hms]
  · simp [sortRow_length]; omega
  · intro t ht
    rw [List.length_map, sortRow_length] at ht
    rw [List.append_assoc, List.getElem?_append_right (by simp)]
    have e : p + t - (l.take p).length = t := by simp; omega
    rw [e, List.getElem?_append_left (by simp [sortRow_length, ht])]
    simp [sortRow_length, ht]
  · intro q hq
    rcases hq with hq | hq
    · rw [List.append_assoc, List.getElem?_append_left (by simp; omega), List.getElem?_take, if_pos hq]
    · rw [List.getElem?_append_right (by simp [sortRow_length]; omega), List.getElem?_drop]
      congr 1
      simp [sortRow_length]; omega

theorem segAt_vslice {β : Type} {l : List β} {p : Nat} {xs : List β} (h : SegAt l p xs) (hp : p ≤ l.length) :
    vslice l p (p + xs.length) = ok xs := by
  have hle := segAt_le h hp
  rw [vslice, if_pos ⟨by omega, hle⟩, Nat.add_sub_cancel_left, segAt_slice h hle]

/-- copying a slice behind what has been written so far -/
theorem write_spec {sl A : List (Int × α)} {bj : List Int} {bx : List α}
    (h1 : SegAt bj 0 (A.map Prod.fst)) (h2 : SegAt bx 0 (A.map Prod.snd))
    (h3 : A.length + sl.length ≤ bj.length) (h4 : A.length + sl.length ≤ bx.length) :
    ∃ bj' bx', (forList sl (bj, bx, A.length) fun (j, x) (bj, bx, k) => do
        let bj ← vset bj k j
        let bx ← vset bx k x
        ok (bj, bx, k + 1)) = ok (bj', bx', A.length + sl.length) ∧ bj'.length = bj.length ∧ bx'.length = bx.length ∧
      SegAt bj' 0 ((A ++ sl).map Prod.fst) ∧ SegAt bx' 0 ((A ++ sl).map Prod.snd) := by
  induction sl generalizing A bj bx with
  | nil => exact ⟨bj, bx, rfl, rfl, rfl, by simpa using h1, by simpa using h2⟩
  | cons e sl ih =>
    obtain ⟨j, x⟩ := e
    simp only [List.length_cons] at h3 h4
    have e1 := vset_lt (l := bj) j (show A.length < bj.length by omega)
    have e2 := vset_lt (l := bx) x (show A.length < bx.length by omega)
    obtain ⟨bj', bx', f1, f2, f3, f4, f5⟩ := ih (A := A ++ [(j, x)]) (bj := bj.set A.length j) (bx := bx.set A.length x)
      (by
        rw [List.map_append, List.map_cons, List.map_nil]
        apply segAt_snoc
        · exact segAt_set_out h1 (by simp) _
        · simp [show A.length < bj.length by omega])
      (by
        rw [List.map_append, List.map_cons, List.map_nil]
        apply segAt_snoc
        · exact segAt_set_out h2 (by simp) _
        · simp [show A.length < bx.length by omega])
      (by simp; omega) (by simp; omega)
    refine ⟨bj', bx', ?_, by simpa using f2, by simpa using f3, by simpa using f4, by simpa using f5⟩
    simp only [forList, e1, e2, ok_bind, List.length_cons]
    simp only [List.length_append, List.length_cons, List.length_nil] at f1
    rw [show A.length + (sl.length + 1) = A.length + (0 + 1) + sl.length by omega]
    exact f1

theorem Csr.compress_spec {row mrow : Nat → List (Nat × α)} {n : Nat} {rp : List Int} {rc : List Nat}
    {rjx : List (Int × α)} {bj : List Int} {bx : List α}
    (hrp : ∀ i, i ≤ n → rp[i]? = some ((off row i : Nat) : Int)) (hm : ∀ i, i < n → (mrow i).length ≤ (row i).length)
    (hrc : ∀ i, i < n → rc[i]? = some (mrow i).length)
    (hseg : ∀ i, i < n → SegAt rjx (off row i) ((mrow i).map enc)) (hr : off row n ≤ rjx.length)
    (hoff : off row n < 2147483648) (hbj : off mrow n ≤ bj.length) (hbx : off mrow n ≤ bx.length) :
    ∃ rjx' bj' bx' k, Csr.compress n rp rc rjx bj bx = ok (rjx', bj', bx', k) ∧ rjx'.length = rjx.length ∧
      bj'.length = bj.length ∧ bx'.length = bx.length ∧
      SegAt bj' 0 (((flat (fun i => sortRow (mrow i)) n).map enc).map Prod.fst) ∧
      SegAt bx' 0 (((flat (fun i => sortRow (mrow i)) n).map enc).map Prod.snd) := by
  have hU : ∀ i, i ≤ n → asUsize ((off row i : Nat) : Int) = off row i := fun i hi =>
    asUsize_natCast (lt_of_le_of_lt (off_le row hi) hoff)
  clear hoff
  have hofs : ∀ i, off (fun i => sortRow (mrow i)) i = off mrow i := by
    intro i
    induction i with
    | zero => rfl
    | succ i ih => rw [off_succ, off_succ, ih, sortRow_length]
  have := forRange_spec (f := fun i (s : List (Int × α) × List Int × List α × Nat) => do
      let (rjx, bj, bx, k) := s
      let a ← vget rp i
      let c ← vget rc i
      let p1 := asUsize a
      let p2 := p1 + c
      let rjx ← Csr.sortSlice rjx p1 p2
      let sl ← vslice rjx p1 p2
      let (bj, bx, k) ← forList sl (bj, bx, k) fun (j, x) (bj, bx, k) => do
        let bj ← vset bj k j
        let bx ← vset bx k x
        ok (bj, bx, k + 1)
      ok (rjx, bj, bx, k))
    (fun k s => s.1.length = rjx.length ∧ s.2.1.length = bj.length ∧ s.2.2.1.length = bx.length ∧
      s.2.2.2 = off mrow k ∧
      (∀ i, k ≤ i → i < n → SegAt s.1 (off row i) ((mrow i).map enc)) ∧
      SegAt s.2.1 0 (((flat (fun i => sortRow (mrow i)) k).map enc).map Prod.fst) ∧
      SegAt s.2.2.1 0 (((flat (fun i => sortRow (mrow i)) k).map enc).map Prod.snd))
    (Nat.zero_le n) (s := (rjx, bj, bx, 0)) ⟨rfl, rfl, rfl, rfl, fun i _ hi => hseg i hi,
      fun t ht => absurd ht (by simp), fun t ht => absurd ht (by simp)⟩ (by
      rintro k ⟨rjx1, bj1, bx1, kk⟩ _ hk ⟨h1, h2, h3, h4, h5, h6, h7⟩
      simp only at h1 h2 h3 h4 h5 h6 h7
      have e1 := vget_of (hrp k (by omega))
      have e2 := vget_of (hrc k hk)
      have hle := off_le row (show k + 1 ≤ n from hk)
      rw [off_succ] at hle
      have hmle := off_le mrow (show k + 1 ≤ n from hk)
      rw [off_succ] at hmle
      have hmk := hm k hk
      obtain ⟨rjx2, s1, s2, s3, s4⟩ := Csr.sortSlice_spec (h5 k (Nat.le_refl _) hk) (show off row k ≤ rjx1.length by omega)
      have s5 := segAt_vslice s3 (show off row k ≤ rjx2.length by omega)
      rw [List.length_map, sortRow_length] at s5
      have hA : ((flat (fun i => sortRow (mrow i)) k).map enc).length = off mrow k := by
        rw [List.length_map]; exact hofs k
      obtain ⟨bj2, bx2, w1, w2, w3, w4, w5⟩ := write_spec (sl := (sortRow (mrow k)).map enc) h6 h7
        (by rw [hA, List.length_map, sortRow_length]; omega) (by rw [hA, List.length_map, sortRow_length]; omega)
      rw [hA, List.length_map, sortRow_length] at w1
      refine ⟨(rjx2, bj2, bx2, off mrow k + (mrow k).length), ?_, by simp only; omega, by simp only; omega,
        by simp only; omega, by rw [off_succ], ?_, ?_, ?_⟩
      · subst h4
        simp only [e1, e2, ok_bind, hU k (by omega), s1, s5, w1]
      · intro i hi hi' t ht
        have : off row (k + 1) ≤ off row i := off_le row hi
        rw [off_succ] at this
        simp only
        rw [s4 _ (Or.inr (by omega))]
        exact h5 i (by omega) hi' t ht
      · rw [flat_succ, List.map_append]; exact w4
      · rw [flat_succ, List.map_append]; exact w5)
  obtain ⟨⟨rjx', bj', bx', k⟩, h1, h2, h3, h4, -, -, h5, h6⟩ := this
  exact ⟨rjx', bj', bx', k, h1, h2, h3, h4, h5, h6⟩

end Russell.Sparse
