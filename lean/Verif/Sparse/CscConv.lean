import Verif.Sparse.CsrRep

/-!
# Closed form of the COO to CSC conversion and of the counting transposition
-/

namespace Russell.Sparse

open Russell Russell.Res Russell.Lab

variable {α : Type}

/-! ## Simulation of the first phases -/

theorem forRange_sim {σ τ : Type} (R : σ → τ → Prop) {f : Nat → σ → Res σ} {g : Nat → τ → Res τ} {lo hi : Nat}
    (h : ∀ k s t s', lo ≤ k → k < hi → R s t → f k s = ok s' → ∃ t', g k t = ok t' ∧ R s' t') {s s' : σ} {t : τ}
    (hR : R s t) (hle : lo ≤ hi) (hf : forRange lo hi s f = ok s') : ∃ t', forRange lo hi t g = ok t' ∧ R s' t' := by
  obtain ⟨n, rfl⟩ := Nat.exists_eq_add_of_le hle
  clear hle
  induction n generalizing lo s t with
  | zero =>
    rw [forRange_empty (by omega)] at hf
    cases hf
    exact ⟨t, forRange_empty (by omega), hR⟩
  | succ n ih =>
    rw [forRange_step (by omega)] at hf
    obtain ⟨s1, e1, e2⟩ := Res.bind_eq_ok.1 hf
    obtain ⟨t1, e3, hR1⟩ := h lo s t s1 (by omega) (by omega) hR e1
    obtain ⟨t', e4, hR'⟩ := ih (lo := lo + 1) (s := s1) (t := t1) hR1
      (fun k s t s' a b => h k s t s' (by omega) (by omega))
      (by rw [show lo + 1 + n = lo + (n + 1) by omega]; exact e2)
    refine ⟨t', ?_, hR'⟩
    rw [forRange_step (by omega), e3, ok_bind, show lo + (n + 1) = lo + 1 + n by omega]
    exact e4

theorem vget_unzip {rjx : List (Int × α)} {p : Nat} {y : Int × α} (h : vget rjx p = ok y) :
    vget (rjx.map Prod.fst) p = ok y.1 ∧ vget (rjx.map Prod.snd) p = ok y.2 := by
  rw [vget_eq_ok] at h
  constructor <;> exact vget_of (by simp [h])

theorem vset_unzip {rjx rjx' : List (Int × α)} {p : Nat} {y : Int × α} (h : vset rjx p y = ok rjx') :
    vset (rjx.map Prod.fst) p y.1 = ok (rjx'.map Prod.fst) ∧ vset (rjx.map Prod.snd) p y.2 = ok (rjx'.map Prod.snd) := by
  by_cases hp : p < rjx.length
  · rw [vset_lt _ hp] at h
    cases h
    constructor
    · rw [vset_lt _ (by simpa using hp), List.map_set]
    · rw [vset_lt _ (by simpa using hp), List.map_set]
  · rw [vset_ge _ (by omega)] at h
    cases h

theorem Csc.scatter_sim {nnz : Nat} {ai aj : List Int} {ax : List α} {rjx rjx' : List (Int × α)} {w w' : List Int}
    (h : Csr.scatter nnz ai aj ax rjx w = ok (rjx', w')) :
    Csc.scatter nnz ai aj ax (rjx.map Prod.fst) (rjx.map Prod.snd) w = ok (rjx'.map Prod.fst, rjx'.map Prod.snd, w') := by
  obtain ⟨t', h1, h2⟩ := forRange_sim
    (fun (s : List (Int × α) × List Int) (t : List Int × List α × List Int) => t = (s.1.map Prod.fst, s.1.map Prod.snd, s.2))
    (g := fun k (s : List Int × List α × List Int) => do
      let (rj, rx, w) := s
      let i ← vget ai k
      let p ← vget w (asUsize i)
      let j ← vget aj k
      let rj ← vset rj (asUsize p) j
      let x ← vget ax k
      let rx ← vset rx (asUsize p) x
      let p' ← addI32 p 1
      let w ← vset w (asUsize i) p'
      ok (rj, rx, w)) (t := (rjx.map Prod.fst, rjx.map Prod.snd, w))
    (by
      rintro k ⟨rjx, w⟩ t ⟨s1, s2⟩ _ _ rfl hf
      obtain ⟨i, e1, hf⟩ := Res.bind_eq_ok.1 hf
      obtain ⟨p, e2, hf⟩ := Res.bind_eq_ok.1 hf
      obtain ⟨j, e3, hf⟩ := Res.bind_eq_ok.1 hf
      obtain ⟨x, e4, hf⟩ := Res.bind_eq_ok.1 hf
      obtain ⟨rjx1, e5, hf⟩ := Res.bind_eq_ok.1 hf
      obtain ⟨p', e6, hf⟩ := Res.bind_eq_ok.1 hf
      obtain ⟨w1, e7, hf⟩ := Res.bind_eq_ok.1 hf
      cases hf
      obtain ⟨e8, e9⟩ := vset_unzip e5
      refine ⟨_, ?_, rfl⟩
      simp only [e1, e2, e3, e4, e6, e7, e8, e9, ok_bind]) rfl (Nat.zero_le _) h
  rw [h2] at h1
  exact h1

theorem Csc.dedupRow_sim [Add α] {p1 p2 : Nat} (hle : p1 ≤ p2) {rjx rjx' : List (Int × α)} {w w' : List Int} {d : Nat}
    (h : Csr.dedupRow p1 p2 rjx w = ok (rjx', w', d)) :
    Csc.dedupRow p1 p2 (rjx.map Prod.fst) (rjx.map Prod.snd) w = ok (rjx'.map Prod.fst, rjx'.map Prod.snd, w', d) := by
  obtain ⟨t', h1, h2⟩ := forRange_sim
    (fun (s : List (Int × α) × List Int × Nat) (t : List Int × List α × List Int × Nat) =>
      t = (s.1.map Prod.fst, s.1.map Prod.snd, s.2.1, s.2.2))
    (g := fun p (s : List Int × List α × List Int × Nat) => do
      let (rj, rx, w, dest) := s
      let jj ← vget rj p
      let j := asUsize jj
      let wj ← vget w j
      if wj ≥ asI32 p1 then do
        let pj := asUsize wj
        let x ← vget rx p
        let x0 ← vget rx pj
        let rx ← vset rx pj (x0 + x)
        ok (rj, rx, w, dest)
      else do
        let w ← vset w j (asI32 dest)
        if dest ≠ p then do
          let rj ← vset rj dest (asI32 j)
          let x ← vget rx p
          let rx ← vset rx dest x
          ok (rj, rx, w, dest + 1)
        else ok (rj, rx, w, dest + 1)) (t := (rjx.map Prod.fst, rjx.map Prod.snd, w, p1))
    (by
      rintro k ⟨rjx, w, dest⟩ t ⟨s1, s2, s3⟩ _ _ rfl hf
      obtain ⟨⟨jj, x⟩, e1, hf⟩ := Res.bind_eq_ok.1 hf
      obtain ⟨wj, e2, hf⟩ := Res.bind_eq_ok.1 hf
      obtain ⟨f1, f2⟩ := vget_unzip e1
      simp only at f1 f2 hf
      by_cases hc : wj ≥ asI32 p1
      · rw [if_pos hc] at hf
        obtain ⟨⟨j0, x0⟩, e3, hf⟩ := Res.bind_eq_ok.1 hf
        obtain ⟨rjx1, e4, hf⟩ := Res.bind_eq_ok.1 hf
        cases hf
        obtain ⟨g1, g2⟩ := vget_unzip e3
        obtain ⟨g3, g4⟩ := vset_unzip e4
        simp only at g1 g2 g3 g4
        refine ⟨_, ?_, rfl⟩
        simp only [f1, f2, e2, ok_bind, if_pos hc, g2, g4]
        -- the index array is unchanged
        have hp : asUsize wj < (rjx.map Prod.fst).length := by
          by_contra hcon
          rw [vset_ge _ (by omega)] at g3; cases g3
        rw [vset_lt _ hp] at g3
        rw [vget_eq_ok] at g1
        have h3 : (rjx.map Prod.fst).set (asUsize wj) j0 = s1.map Prod.fst := Res.ok.inj g3
        rw [← h3]
        have : (rjx.map Prod.fst).set (asUsize wj) j0 = rjx.map Prod.fst := by
          apply List.ext_getElem?
          intro q
          rw [List.getElem?_set]
          by_cases hq : asUsize wj = q
          · subst hq; rw [if_pos rfl, if_pos hp, g1]
          · rw [if_neg hq]
        rw [this]
      · rw [if_neg hc] at hf
        obtain ⟨w1, e3, hf⟩ := Res.bind_eq_ok.1 hf
        by_cases hd : dest ≠ k
        · rw [if_pos hd] at hf
          obtain ⟨rjx1, e4, hf⟩ := Res.bind_eq_ok.1 hf
          cases hf
          obtain ⟨g3, g4⟩ := vset_unzip e4
          simp only at g3 g4
          refine ⟨_, ?_, rfl⟩
          simp only [f1, f2, e2, ok_bind, if_neg hc, e3, if_pos hd, g3, g4]
        · rw [if_neg hd] at hf
          cases hf
          refine ⟨_, ?_, rfl⟩
          simp only [f1, e2, ok_bind, if_neg hc, e3, if_neg hd]) rfl hle h
  rw [h2] at h1
  exact h1

theorem Csc.dedup_sim [Add α] {row : Nat → List (Nat × α)} {n : Nat} {rp : List Int}
    (hrp : ∀ i, i ≤ n → rp[i]? = some ((off row i : Nat) : Int)) (hoff : off row n < 2147483648)
    {rjx rjx' : List (Int × α)} {rc rc' : List Nat} {w w' : List Int}
    (h : Csr.dedup n rp rjx rc w = ok (rjx', rc', w')) :
    Csc.dedup n rp (rjx.map Prod.fst) (rjx.map Prod.snd) rc w = ok (rjx'.map Prod.fst, rjx'.map Prod.snd, rc', w') := by
  obtain ⟨t', h1, h2⟩ := forRange_sim
    (fun (s : List (Int × α) × List Nat × List Int) (t : List Int × List α × List Nat × List Int) =>
      t = (s.1.map Prod.fst, s.1.map Prod.snd, s.2.1, s.2.2))
    (g := fun i (s : List Int × List α × List Nat × List Int) => do
      let (rj, rx, rc, w) := s
      let a ← vget rp i
      let b ← vget rp (i + 1)
      let p1 := asUsize a
      let (rj, rx, w, dest) ← Csc.dedupRow p1 (asUsize b) rj rx w
      let cnt ← subUsize dest p1
      let rc ← vset rc i cnt
      ok (rj, rx, rc, w)) (t := (rjx.map Prod.fst, rjx.map Prod.snd, rc, w))
    (by
      rintro k ⟨rjx, rc, w⟩ t ⟨s1, s2, s3⟩ _ hk rfl hf
      have ea := vget_of (hrp k (by omega))
      have eb := vget_of (hrp (k + 1) hk)
      have hU : ∀ i, i ≤ n → asUsize ((off row i : Nat) : Int) = off row i := fun i hi =>
        asUsize_natCast (lt_of_le_of_lt (off_le row hi) hoff)
      simp only [ea, eb, ok_bind, hU k (by omega), hU (k + 1) hk] at hf
      obtain ⟨⟨r1, w1, d1⟩, e1, hf⟩ := Res.bind_eq_ok.1 hf
      obtain ⟨cnt, e2, hf⟩ := Res.bind_eq_ok.1 hf
      obtain ⟨rc1, e3, hf⟩ := Res.bind_eq_ok.1 hf
      cases hf
      have := Csc.dedupRow_sim (off_le row (Nat.le_succ k)) e1
      simp only at e2 e3
      refine ⟨_, ?_, rfl⟩
      simp only [ea, eb, ok_bind, hU k (by omega), hU (k + 1) hk, this, e2, e3]) rfl (Nat.zero_le _) h
  rw [h2] at h1
  exact h1

/-! ## Transposed rows -/

/-- entries of the rows tagged with their column: (column, (row, value)), in row order -/
def swapTag (row : Nat → List (Nat × α)) (n : Nat) : List (Nat × (Nat × α)) :=
  flat (fun i => (row i).map fun e => (e.1, (i, e.2))) n

/-- column `j` of the matrix with rows `row 0 .. row (n-1)`: (row, value) pairs in row order -/
def transp (row : Nat → List (Nat × α)) (n j : Nat) : List (Nat × α) := grp (swapTag row n) j

theorem swapTag_length (row : Nat → List (Nat × α)) (n : Nat) : (swapTag row n).length = off row n :=
  off_map (fun i (e : Nat × α) => (e.1, (i, e.2))) row n

theorem swapTag_get (row : Nat → List (Nat × α)) {n i t : Nat} (hi : i < n) (ht : t < (row i).length)
    (h : off row i + t < (swapTag row n).length) :
    (swapTag row n)[off row i + t] = ((row i)[t].1, (i, (row i)[t].2)) := by
  have := flat_get (fun i => (row i).map fun e => (e.1, (i, e.2))) hi (t := t) (by simpa using ht)
  have e : off (fun i => (row i).map fun e => (e.1, (i, e.2))) i = off row i :=
    off_map (fun i (e : Nat × α) => (e.1, (i, e.2))) row i
  rw [e] at this
  rw [List.getElem_map] at this
  have h2 : (swapTag row n)[off row i + t]? = some (swapTag row n)[off row i + t] := List.getElem?_eq_getElem h
  have h3 : (swapTag row n)[off row i + t]? = some ((row i)[t].1, (i, (row i)[t].2)) := this
  rw [h2] at h3
  exact Option.some.inj h3

theorem swapTag_mem {row : Nat → List (Nat × α)} {n : Nat} {e : Nat × (Nat × α)} :
    e ∈ swapTag row n ↔ e.2.1 < n ∧ (e.1, e.2.2) ∈ row e.2.1 := by
  unfold swapTag
  rw [mem_flat]
  constructor
  · rintro ⟨i, hi, h⟩
    obtain ⟨e', he', rfl⟩ := List.mem_map.1 h
    exact ⟨hi, he'⟩
  · rintro ⟨h1, h2⟩
    exact ⟨e.2.1, h1, List.mem_map.2 ⟨_, h2, rfl⟩⟩

theorem transp_mem {row : Nat → List (Nat × α)} {n j : Nat} {e : Nat × α} :
    e ∈ transp row n j ↔ e.1 < n ∧ (j, e.2) ∈ row e.1 := by
  rw [transp, mem_grp, swapTag_mem]

theorem off_transp {row : Nat → List (Nat × α)} {n m : Nat} (h : ∀ i, i < n → ∀ e ∈ row i, e.1 < m) :
    off (transp row n) m = off row n := by
  have : off (transp row n) m = (swapTag row n).length := off_grp_total (by
    intro e he
    obtain ⟨h1, h2⟩ := swapTag_mem.1 he
    exact h _ h1 _ h2)
  rw [this, swapTag_length]

/-- pair of arrays seen as an array of pairs -/
def view2 (bi : List Int) (bx : List α) (p : Nat) : Option (Int × α) :=
  match bi[p]?, bx[p]? with
  | some a, some b => some (a, b)
  | _, _ => none

theorem view2_set {bi : List Int} {bx : List α} {p : Nat} {a : Int} {b : α} (h1 : p < bi.length) (h2 : p < bx.length) :
    view2 (bi.set p a) (bx.set p b) p = some (a, b) := by
  simp [view2, h1, h2]

theorem view2_set_ne {bi : List Int} {bx : List α} {p q : Nat} {a : Int} {b : α} (h : q ≠ p) :
    view2 (bi.set p a) (bx.set p b) q = view2 bi bx q := by
  simp [view2, Ne.symm h]

theorem view2_some {bi : List Int} {bx : List α} {p : Nat} {y : Int × α} (h : view2 bi bx p = some y) :
    bi[p]? = some y.1 ∧ bx[p]? = some y.2 := by
  unfold view2 at h
  split at h
  · next h1 h2 => cases h; exact ⟨h1, h2⟩
  · cases h

section

variable {mrow : Nat → List (Nat × α)} {n m : Nat}

/-- keys with encoded payloads -/
def encTag (mrow : Nat → List (Nat × α)) (n : Nat) : List (Nat × (Int × α)) :=
  (swapTag mrow n).map fun e => (e.1, enc e.2)

theorem encTag_length : (encTag mrow n).length = off mrow n := by rw [encTag, List.length_map, swapTag_length]

theorem encTag_get {i t : Nat} (hi : i < n) (ht : t < (mrow i).length) (h : off mrow i + t < (encTag mrow n).length) :
    (encTag mrow n)[off mrow i + t] = ((mrow i)[t].1, ((i : Int), (mrow i)[t].2)) := by
  have h2 : off mrow i + t < (swapTag mrow n).length := by rw [swapTag_length, ← encTag_length (n := n)]; exact h
  rw [← Option.some_inj, ← List.getElem?_eq_getElem h, encTag, List.getElem?_map, List.getElem?_eq_getElem h2,
    swapTag_get mrow hi ht]
  rfl

theorem encTag_lt (hcol : ∀ i, i < n → ∀ e ∈ mrow i, e.1 < m) : ∀ e ∈ encTag mrow n, e.1 < m := by
  intro e he
  obtain ⟨e', he', rfl⟩ := List.mem_map.1 he
  obtain ⟨h1, h2⟩ := swapTag_mem.1 he'
  exact hcol _ h1 _ h2

theorem grp_encTag (j : Nat) : grp (encTag mrow n) j = (transp mrow n j).map enc := grp_map enc _ j

theorem off_encTag (j : Nat) : off (grp (encTag mrow n)) j = off (transp mrow n) j := by
  have : grp (encTag mrow n) = fun i => (transp mrow n i).map enc := funext grp_encTag
  rw [this]; exact off_map (fun _ => enc) (transp mrow n) j

/-- A nested loop over the stored entries. -/
theorem nested_spec {σ β : Type} {row : Nat → List β} {f : Nat → σ → Res σ} (I : Nat → σ → Prop) {s : σ} (h0 : I 0 s)
    (h : ∀ i s, i < n → I (off row i) s → ∃ s', f i s = ok s' ∧ I (off row i + (row i).length) s') :
    ∃ s', forRange 0 n s f = ok s' ∧ I (off row n) s' := by
  apply forRange_spec (fun i s => I (off row i) s) (Nat.zero_le n) h0
  intro k s _ hk hI
  rw [off_succ]
  exact h k s hk hI

/-- the counting pass of the CSC conversion -/
theorem Csc.countCols_spec {row : Nat → List (Nat × α)} {rp : List Int} {rc : List Nat} {rj w : List Int}
    (hrp : ∀ i, i ≤ n → rp[i]? = some ((off row i : Nat) : Int)) (hm : ∀ i, i < n → (mrow i).length ≤ (row i).length)
    (hrc : ∀ i, i < n → rc[i]? = some (mrow i).length) (hoff : off row n < 2147483648)
    (hseg : ∀ i, i < n → SegAt rj (off row i) ((mrow i).map fun e => ((e.1 : Nat) : Int)))
    (hcol : ∀ i, i < n → ∀ e ∈ mrow i, e.1 < m) (hfm : m < 2147483648) (hw : ∀ j, j < m → w[j]? = some 0) :
    ∃ w', Csc.countCols n rp rc rj w = ok w' ∧ w'.length = w.length ∧
      ∀ j, j < m → w'[j]? = some (((transp mrow n j).length : Nat) : Int) := by
  have hoffm : off mrow n < 2147483648 := lt_of_le_of_lt (off_mono_rows hm) hoff
  have hU : ∀ i, i ≤ n → asUsize ((off row i : Nat) : Int) = off row i := fun i hi =>
    asUsize_natCast (lt_of_le_of_lt (off_le row hi) hoff)
  have hV : ∀ j, j < m → asUsize ((j : Nat) : Int) = j := fun j hj => asUsize_natCast (lt_trans hj hfm)
  have := nested_spec (row := mrow) (n := n) (f := fun i (w : List Int) => do
      let a ← vget rp i
      let c ← vget rc i
      let p1 := asUsize a
      forRange p1 (p1 + c) w fun p w => do
        let j ← vget rj p
        let x ← vget w (asUsize j)
        let y ← addI32 x 1
        vset w (asUsize j) y)
    (fun k w' => CntInv (encTag mrow n) m k w' ∧ w'.length = w.length) (s := w)
    ⟨fun i hi => by simpa using hw i hi, rfl⟩ (by
      intro i w1 hi hI
      simp only [vget_of (hrp i (by omega)), vget_of (hrc i hi), ok_bind, hU i (by omega)]
      have := forRange_spec (f := fun p (w : List Int) => do
          let j ← vget rj p
          let x ← vget w (asUsize j)
          let y ← addI32 x 1
          vset w (asUsize j) y)
        (fun p w' => CntInv (encTag mrow n) m (off mrow i + (p - off row i)) w' ∧ w'.length = w.length)
        (lo := off row i) (hi := off row i + (mrow i).length) (s := w1) (by omega) (by simpa using hI) (by
          rintro p w2 hp1 hp2 ⟨h1, h2⟩
          obtain ⟨t, rfl⟩ := Nat.exists_eq_add_of_le hp1
          have ht : t < (mrow i).length := by omega
          rw [Nat.add_sub_cancel_left] at h1
          have hk : off mrow i + t < (encTag mrow n).length := by
            rw [encTag_length]; exact off_add_lt mrow hi ht
          obtain ⟨x, e1, y, e2, w3, e3, h3, h4, -⟩ := h1.step hk (encTag_lt hcol) (by rw [encTag_length]; exact hoffm)
          rw [encTag_get hi ht] at e1 e3
          refine ⟨w3, ?_, ?_, by omega⟩
          · have hg := hseg i hi t (by simpa using ht)
            rw [List.getElem_map] at hg
            simp only [vget_of hg, ok_bind, hV _ (hcol i hi _ (List.getElem_mem ht)), e1, e2, e3]
          · rw [show off row i + t + 1 - off row i = t + 1 by omega]
            exact h3)
      obtain ⟨w', h1, h2, h3⟩ := this
      rw [Nat.add_sub_cancel_left] at h2
      exact ⟨w', h1, h2, h3⟩)
  obtain ⟨w', h1, h2, h3⟩ := this
  refine ⟨w', h1, h3, ?_⟩
  intro j hj
  have := h2 j hj
  rw [← encTag_length, List.take_length, grp_encTag, List.length_map] at this
  exact this

theorem Csc.colPtrs_spec {β : Type} {row : Nat → List β} {bp w : List Int} (hbp : bp.length = m + 1)
    (hw : ∀ i, i < m → w[i]? = some (((row i).length : Nat) : Int)) (hlen : off row m < 2147483648) :
    ∃ bp' w', Csc.colPtrs m bp w = ok (bp', w') ∧ bp'.length = m + 1 ∧
      (∀ i, i ≤ m → bp'[i]? = some ((off row i : Nat) : Int)) ∧
      (∀ i, i < m → w'[i]? = some ((off row i : Nat) : Int)) ∧ w'.length = w.length := by
  have h0 : vset bp 0 0 = ok (bp.set 0 0) := vset_lt _ (by omega)
  have := forRange_spec (f := fun j (bp : List Int) => do
      let b ← vget bp j
      let x ← vget w j
      let s ← addI32 b x
      vset bp (j + 1) s)
    (fun k bp' => bp'.length = m + 1 ∧ ∀ i, i ≤ k → bp'[i]? = some ((off row i : Nat) : Int)) (Nat.zero_le m)
    (s := bp.set 0 0) ⟨by simp [hbp], fun i hi => by
      obtain rfl : i = 0 := by omega
      simp [hbp]⟩ (by
      rintro k bp' _ hk ⟨h1, h2⟩
      have hle := off_le row (show k + 1 ≤ m from hk)
      have hs := off_succ row k
      refine ⟨bp'.set (k + 1) ((off row (k + 1) : Nat) : Int), ?_, by simp [h1], ?_⟩
      · simp only [vget_of (h2 k (Nat.le_refl _)), vget_of (hw k hk), ok_bind]
        rw [addI32_nat (by omega), ok_bind, vset_lt _ (by omega), hs]
      · intro i hi
        rw [List.getElem?_set]
        by_cases hki : k + 1 = i
        · subst hki; simp [h1]; omega
        · rw [if_neg hki]; exact h2 i (by omega))
  obtain ⟨bp1, e1, l1, h1⟩ := this
  have := forRange_spec (f := fun j (w : List Int) => do
      let b ← vget bp1 j
      vset w j b)
    (fun k w' => w'.length = w.length ∧ ∀ i, i < k → w'[i]? = some ((off row i : Nat) : Int)) (Nat.zero_le m)
    (s := w) ⟨rfl, fun i hi => by omega⟩ (by
      rintro k w' _ hk ⟨h2, h3⟩
      have hlt : k < w.length := (List.getElem?_eq_some_iff.1 (hw k hk)).1
      refine ⟨w'.set k ((off row k : Nat) : Int), ?_, by simp [h2], ?_⟩
      · simp only [vget_of (h1 k (by omega)), ok_bind]
        rw [vset_lt _ (by omega)]
      · intro i hi
        rw [List.getElem?_set]
        by_cases hki : k = i
        · subst hki; simp [h2, hlt]
        · rw [if_neg hki]; exact h3 i (by omega))
  obtain ⟨w1, e2, l2, h2⟩ := this
  refine ⟨bp1, w1, ?_, l1, h1, h2, l2⟩
  simp only [Csc.colPtrs, h0, ok_bind, e1, e2]

/-- what the scattering pass leaves, read off the invariant -/
theorem scat_done {w : List Int} {bi : List Int} {bx : List α}
    (h : ScatInv (encTag mrow n) m (off mrow n) w (view2 bi bx)) {j : Nat} (hj : j < m) :
    SegAt bi (off (transp mrow n) j) ((transp mrow n j).map fun e => ((e.1 : Nat) : Int)) ∧
    SegAt bx (off (transp mrow n) j) ((transp mrow n j).map Prod.snd) := by
  have key : ∀ t (ht : t < (transp mrow n j).length), view2 bi bx (off (transp mrow n) j + t) =
      some (enc (transp mrow n j)[t]) := by
    intro t ht
    have := h.2 j hj t (by rw [← encTag_length, List.take_length, grp_encTag, List.length_map]; exact ht)
    rw [off_encTag] at this
    rw [this]
    simp only [← encTag_length (mrow := mrow) (n := n), List.take_length, grp_encTag, List.getElem_map]
  constructor
  · intro t ht
    have ht' : t < (transp mrow n j).length := by simpa using ht
    rw [(view2_some (key t ht')).1]
    simp [enc]
  · intro t ht
    have ht' : t < (transp mrow n j).length := by simpa using ht
    rw [(view2_some (key t ht')).2]
    simp [enc]

theorem Csc.columnForm_spec {row : Nat → List (Nat × α)} {rp : List Int} {rc : List Nat} {rj : List Int} {rx : List α}
    {bi : List Int} {bx : List α} {w : List Int}
    (hrp : ∀ i, i ≤ n → rp[i]? = some ((off row i : Nat) : Int)) (hm : ∀ i, i < n → (mrow i).length ≤ (row i).length)
    (hrc : ∀ i, i < n → rc[i]? = some (mrow i).length) (hoff : off row n < 2147483648) (hn : n < 2147483648)
    (hseg : ∀ i, i < n → SegAt rj (off row i) ((mrow i).map fun e => ((e.1 : Nat) : Int)))
    (hsegx : ∀ i, i < n → SegAt rx (off row i) ((mrow i).map Prod.snd))
    (hcol : ∀ i, i < n → ∀ e ∈ mrow i, e.1 < m) (hfm : m < 2147483648)
    (hw : ∀ j, j < m → w[j]? = some ((off (transp mrow n) j : Nat) : Int))
    (hbi : off mrow n ≤ bi.length) (hbx : off mrow n ≤ bx.length) :
    ∃ bi' bx' w', Csc.columnForm n rp rc rj rx bi bx w = ok (bi', bx', w') ∧ bi'.length = bi.length ∧
      bx'.length = bx.length ∧ w'.length = w.length ∧
      ∀ j, j < m → SegAt bi' (off (transp mrow n) j) ((transp mrow n j).map fun e => ((e.1 : Nat) : Int)) ∧
        SegAt bx' (off (transp mrow n) j) ((transp mrow n j).map Prod.snd) := by
  have hoffm : off mrow n < 2147483648 := lt_of_le_of_lt (off_mono_rows hm) hoff
  have hU : ∀ i, i ≤ n → asUsize ((off row i : Nat) : Int) = off row i := fun i hi =>
    asUsize_natCast (lt_of_le_of_lt (off_le row hi) hoff)
  have hA : ∀ i, i < n → asI32 i = (i : Int) := fun i hi => asI32_natCast (lt_trans hi hn)
  have hV : ∀ j, j < m → asUsize ((j : Nat) : Int) = j := fun j hj => asUsize_natCast (lt_trans hj hfm)
  have := nested_spec (row := mrow) (n := n) (f := fun i (s : List Int × List α × List Int) => do
      let (bi, bx, w) := s
      let a ← vget rp i
      let c ← vget rc i
      let p1 := asUsize a
      forRange p1 (p1 + c) (bi, bx, w) fun p (s : List Int × List α × List Int) => do
        let (bi, bx, w) := s
        let j ← vget rj p
        let cp ← vget w (asUsize j)
        let bi ← vset bi (asUsize cp) (asI32 i)
        let x ← vget rx p
        let bx ← vset bx (asUsize cp) x
        let cp' ← addI32 cp 1
        let w ← vset w (asUsize j) cp'
        ok (bi, bx, w))
    (fun k s => s.1.length = bi.length ∧ s.2.1.length = bx.length ∧ s.2.2.length = w.length ∧
      ScatInv (encTag mrow n) m k s.2.2 (view2 s.1 s.2.1)) (s := (bi, bx, w))
    ⟨rfl, rfl, rfl, by
      refine ⟨fun i hi => ?_, fun i hi t ht => absurd ht (by simp)⟩
      simp only [List.take_zero, grp_nil, List.length_nil, Nat.add_zero, off_encTag]
      exact hw i hi⟩ (by
      rintro i ⟨bi1, bx1, w1⟩ hi hI
      simp only [vget_of (hrp i (by omega)), vget_of (hrc i hi), ok_bind, hU i (by omega)]
      have := forRange_spec (f := fun p (s : List Int × List α × List Int) => do
          let (bi, bx, w) := s
          let j ← vget rj p
          let cp ← vget w (asUsize j)
          let bi ← vset bi (asUsize cp) (asI32 i)
          let x ← vget rx p
          let bx ← vset bx (asUsize cp) x
          let cp' ← addI32 cp 1
          let w ← vset w (asUsize j) cp'
          ok (bi, bx, w))
        (fun p s => s.1.length = bi.length ∧ s.2.1.length = bx.length ∧ s.2.2.length = w.length ∧
          ScatInv (encTag mrow n) m (off mrow i + (p - off row i)) s.2.2 (view2 s.1 s.2.1))
        (lo := off row i) (hi := off row i + (mrow i).length) (s := (bi1, bx1, w1)) (by omega) (by simpa using hI) (by
          rintro p ⟨bi2, bx2, w2⟩ hp1 hp2 ⟨h1, h2, h3, h4⟩
          obtain ⟨t, rfl⟩ := Nat.exists_eq_add_of_le hp1
          have ht : t < (mrow i).length := by omega
          simp only at h1 h2 h3 h4
          rw [Nat.add_sub_cancel_left] at h4
          have hk : off mrow i + t < (encTag mrow n).length := by
            rw [encTag_length]; exact off_add_lt mrow hi ht
          obtain ⟨q, e1, e2, e3, e4, e5, e6⟩ := h4.step hk (encTag_lt hcol) (by rw [encTag_length]; exact hoffm)
          rw [encTag_get hi ht] at e1 e5 e6
          rw [encTag_length] at e2
          have hg := hseg i hi t (by simpa using ht)
          have hgx := hsegx i hi t (by simpa using ht)
          rw [List.getElem_map] at hg hgx
          have hq1 : q < bi2.length := by omega
          have hq2 : q < bx2.length := by omega
          refine ⟨(bi2.set q (i : Int), bx2.set q (mrow i)[t].2, w2.set (mrow i)[t].1 ((q + 1 : Nat) : Int)), ?_, by simp [h1],
            by simp [h2], by simp [h3], ?_⟩
          · simp only [vget_of hg, vget_of hgx, ok_bind, hV _ (hcol i hi _ (List.getElem_mem ht)), e1, e3, hA i hi,
              vset_lt _ hq1, vset_lt _ hq2, e4, e5]
          · rw [show off row i + t + 1 - off row i = t + 1 by omega]
            apply e6
            · exact view2_set hq1 hq2
            · intro r hr; exact view2_set_ne hr)
      obtain ⟨s', h1, h2, h3, h4, h5⟩ := this
      rw [Nat.add_sub_cancel_left] at h5
      exact ⟨s', h1, h2, h3, h4, h5⟩)
  obtain ⟨⟨bi', bx', w'⟩, h1, h2, h3, h4, h5⟩ := this
  exact ⟨bi', bx', w', h1, h2, h3, h4, fun j hj => scat_done h5 hj⟩

end

/-! ## The update -/

/-- see `Csr.Ready` -/
structure Csc.Ready (s : Csc α) (nrow ncol nnz : Nat) : Prop where
  lenP : s.colPointers.length = ncol + 1
  lenI : s.rowIndices.length = nnz
  lenX : s.values.length = nnz
  ws : s.tempW.length = 0 ∨ (s.tempRp.length = nrow + 1 ∧ s.tempRj.length = nnz ∧ s.tempRx.length = nnz ∧
    s.tempRc.length = nrow ∧ s.tempW.length = Nat.max nrow ncol)

/-- the columns stored by a conversion -/
def convCol [Add α] (es : List (Entry α)) (nrow j : Nat) : List (Nat × α) := transp (fun i => mergeDup (grp es i)) nrow j

theorem segAt_map {β γ : Type} {l : List β} {p : Nat} {xs : List β} (f : β → γ) (h : SegAt l p xs) :
    SegAt (l.map f) p (xs.map f) := by
  intro t ht
  rw [List.getElem?_map, h t (by simpa using ht)]
  simp

theorem Csc.updateCore_spec [Zero α] [Add α] {s : Csc α} {c : Coo α} {es : List (Entry α)} (h : c.Rep es)
    (hlen : es.length < 2147483648) (hs : s.Ready c.nrow c.ncol es.length) :
    ∃ s', s.updateCore c = ok s' ∧ s'.Ready c.nrow c.ncol es.length ∧ s'.symmetric = s.symmetric ∧ s'.nrow = s.nrow ∧
      s'.ncol = s.ncol ∧
      Compressed c.ncol c.nrow s'.colPointers s'.rowIndices s'.values (convCol es c.nrow) := by
  -- workspaces
  have hws : ∃ (rp : List Int) (rjx : List (Int × α)) (rc : List Nat) (w : List Int), s.workspaces c.nrow c.ncol c.nnz = ok (rp, rjx.map Prod.fst, rjx.map Prod.snd, rc, w) ∧
      rp.length = c.nrow + 1 ∧ rjx.length = es.length ∧
      rc.length = c.nrow ∧ w.length = Nat.max c.nrow c.ncol ∧ ∀ i, i < c.nrow → w[i]? = some 0 := by
    unfold Csc.workspaces
    by_cases h0 : s.tempW.length = 0
    · rw [if_pos h0]
      refine ⟨_, List.replicate c.nnz ((0 : Int), (0 : α)), _, _, by simp only [List.map_replicate]; rfl, by simp, by simp [h.nnz], by simp, by simp, ?_⟩
      intro i hi
      rw [List.getElem?_replicate, if_pos (lt_of_lt_of_le hi (Nat.le_max_left _ _))]
    · rw [if_neg h0]
      rcases hs.ws with hw | ⟨h1, h2, h3, h4, h5⟩
      · exact absurd hw h0
      · obtain ⟨w, e, hw, hl⟩ := fillFirst_spec (n := c.nrow) (v := 0) (w := s.tempW)
          (by rw [h5]; exact Nat.le_max_left _ _)
        refine ⟨s.tempRp, s.tempRj.zip s.tempRx, s.tempRc, w, ?_, h1, by simp [h2, h3], h4, by omega, hw⟩
        rw [e, ok_bind, List.map_fst_zip (by omega), List.map_snd_zip (by omega)]
  obtain ⟨rp, rjx, rc, w, e0, l1, l2, l3, l4, hw0⟩ := hws
  obtain ⟨w1, e1, hw1, lw1⟩ := countRows_spec h hlen hw0
  have htot : off (grp es) c.nrow = es.length := off_grp_total h.rangeI
  obtain ⟨rp2, w2, e2, lrp2, hrp2, hw2, lw2⟩ := rowPtrs_spec l1 hw1 (by omega)
  obtain ⟨rjx3, w3, e3, lr3, hseg3, lw3⟩ := Csr.scatter_spec h hlen l2 hw2
  have e3' := Csc.scatter_sim e3
  have hmx : c.ncol ≤ Nat.max c.nrow c.ncol := Nat.le_max_right _ _
  obtain ⟨w4, e4, hw4, lw4⟩ := fillFirst_spec (n := c.ncol) (v := -1) (w := w3) (by omega)
  have hcol : ∀ i, i < c.nrow → ∀ e ∈ grp es i, e.1 < c.ncol := fun i _ e he => h.rangeJ _ (mem_grp.1 he)
  obtain ⟨rjx5, rc5, w5, e5, lr5, lrc5, lw5, hseg5, hrc5⟩ := Csr.dedup_spec hrp2 hseg3 hcol h.fitsJ (by omega) l3 hw4
  have e5' := Csc.dedup_sim hrp2 (by omega) e5
  have hm : ∀ i, i < c.nrow → (mergeDup (grp es i)).length ≤ (grp es i).length := fun i _ => mergeDup_length_le _
  have hmle : off (fun i => mergeDup (grp es i)) c.nrow ≤ off (grp es) c.nrow := off_mono_rows hm
  have hmcol : ∀ i, i < c.nrow → ∀ e ∈ mergeDup (grp es i), e.1 < c.ncol := by
    intro i hi e he
    have h1 : e.1 ∈ (mergeDup (grp es i)).map Prod.fst := List.mem_map_of_mem he
    rw [mergeDup_keys] at h1
    obtain ⟨e', he', h2⟩ := List.mem_map.1 h1
    rw [← h2]; exact hcol i hi e' he'
  obtain ⟨w6, e6, hw6, lw6⟩ := fillFirst_spec (n := c.ncol) (v := 0) (w := w5) (by omega)
  have hs1 : ∀ i, i < c.nrow → SegAt (rjx5.map Prod.fst) (off (grp es) i)
      ((mergeDup (grp es i)).map fun e => ((e.1 : Nat) : Int)) := by
    intro i hi
    have := segAt_map Prod.fst (hseg5 i hi)
    rw [List.map_map] at this; exact this
  have hs2 : ∀ i, i < c.nrow → SegAt (rjx5.map Prod.snd) (off (grp es) i) ((mergeDup (grp es i)).map Prod.snd) := by
    intro i hi
    have := segAt_map Prod.snd (hseg5 i hi)
    rw [List.map_map] at this; exact this
  obtain ⟨w7, e7, lw7, hw7⟩ := Csc.countCols_spec (mrow := fun i => mergeDup (grp es i)) (m := c.ncol) hrp2 hm hrc5
    (by omega) hs1 hmcol h.fitsJ hw6
  have hot : off (transp (fun i => mergeDup (grp es i)) c.nrow) c.ncol = off (fun i => mergeDup (grp es i)) c.nrow :=
    off_transp hmcol
  obtain ⟨bp8, w8, e8, lbp8, hbp8, hw8, lw8⟩ := Csc.colPtrs_spec (row := transp (fun i => mergeDup (grp es i)) c.nrow)
    hs.lenP hw7 (by omega)
  obtain ⟨bi9, bx9, w9, e9, lbi9, lbx9, lw9, hb9⟩ := Csc.columnForm_spec (mrow := fun i => mergeDup (grp es i))
    (m := c.ncol) (bi := s.rowIndices) (bx := s.values) hrp2 hm hrc5 (by omega) h.fitsI hs1 hs2 hmcol h.fitsJ hw8
    (by rw [hs.lenI]; omega) (by rw [hs.lenX]; omega)
  refine ⟨{ s with colPointers := bp8, rowIndices := bi9, values := bx9, tempRp := rp2, tempRj := rjx5.map Prod.fst,
                   tempRx := rjx5.map Prod.snd, tempRc := rc5, tempW := w9 }, ?_, ?_, rfl, rfl, rfl, ?_⟩
  · simp only [Csc.updateCore, e0, e1, e2, e3', e4, e5', e6, e7, e8, e9, ok_bind]
  · refine ⟨lbp8, by simp only; rw [lbi9, hs.lenI], by simp only; rw [lbx9, hs.lenX], Or.inr ⟨lrp2, ?_, ?_, lrc5, ?_⟩⟩
    · simp only [List.length_map]; omega
    · simp only [List.length_map]; omega
    · simp only; omega
  · refine ⟨lbp8, hbp8, ?_, ?_, ?_, ?_, h.fitsJ, h.fitsI⟩
    · have := segAt_flat (l := bi9) (n := c.ncol)
        (row := fun j => (convCol es c.nrow j).map fun e => ((e.1 : Nat) : Int)) (by
          intro j hj
          rw [off_map (fun _ (e : Nat × α) => ((e.1 : Nat) : Int)) (convCol es c.nrow) j]
          exact (hb9 j hj).1)
      rw [flat_map (fun _ (e : Nat × α) => ((e.1 : Nat) : Int)) (convCol es c.nrow) (fun e => ((e.1 : Nat) : Int))
        (fun _ _ => rfl)] at this
      exact this
    · have := segAt_flat (l := bx9) (n := c.ncol) (row := fun j => (convCol es c.nrow j).map Prod.snd) (by
          intro j hj
          rw [off_map (fun _ => Prod.snd) (convCol es c.nrow) j]
          exact (hb9 j hj).2)
      rw [flat_map (fun _ => Prod.snd) (convCol es c.nrow) Prod.snd (fun _ _ => rfl)] at this
      exact this
    · intro j hj e he
      exact (transp_mem.1 he).1
    · have : off (convCol es c.nrow) c.ncol = off (fun i => mergeDup (grp es i)) c.nrow := hot
      rw [this]; omega

end Russell.Sparse
