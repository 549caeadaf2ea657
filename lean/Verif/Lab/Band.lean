import Verif.Lab.Dense
import Mathlib.Order.Defs.LinearOrder
import Mathlib.Logic.Equiv.Basic
import Mathlib.Algebra.Order.Group.Int

/-!
# BLAS band storage (C25) and sorting of eigenpairs (C28)

Models of /repo/russell_lab/src/matrix/mat_convert_to_blas_band.rs and /repo/russell_lab/src/matvec/sort_vec_mat.rs.
-/

namespace Russell.Lab

open Russell Russell.Res Russell.Sparse

variable {α : Type}

/-- the first row of column `j` in the band (/repo/russell_lab/src/matrix/mat_convert_to_blas_band.rs:97) -/
def bandLo (mu j : Nat) : Nat := if j > mu then j - mu else 0

/-- one past the last row of column `j` in the band (/repo/russell_lab/src/matrix/mat_convert_to_blas_band.rs:98) -/
def bandHi (m ml j : Nat) : Nat := if j + ml + 1 < m then j + ml + 1 else m

/-- `mat_convert_to_blas_band` (/repo/russell_lab/src/matrix/mat_convert_to_blas_band.rs:90-104); additions of `usize` are
not checked for overflow in the model. -/
def matConvertToBlasBand (band dense : NumMatrix α) (ml mu : Nat) : Res (NumMatrix α) :=
  if band.nrow ≠ ml + mu + 1 ∨ band.ncol ≠ dense.ncol then err "the resulting matrix must be ml + mu + 1 by n"
  else
    forRange 0 dense.ncol band fun j band =>
      forRange (bandLo mu j) (bandHi dense.nrow ml j) band fun i band => do
        let x ← dense.get i j
        let r ← subUsize (i + mu) j
        band.set r j x

/-- **C25** For every `m × n` matrix `D` and band array `B` of the right dimensions, the conversion succeeds; entry `(r,c)` of
the band array becomes `D(r+c-mu, c)` if that row exists in the matrix and keeps its old value otherwise. -/
theorem C25_blas_band {band dense : NumMatrix α} {m n ml mu : Nat} {D B : Nat → Nat → α} (hD : IsDense dense m n D)
    (hB : IsDense band (ml + mu + 1) n B) :
    ∃ band', matConvertToBlasBand band dense ml mu = ok band' ∧
      IsDense band' (ml + mu + 1) n (fun r c => if mu ≤ r + c ∧ r + c - mu < m then D (r + c - mu) c else B r c) := by
  have hrange : ∀ k l, bandLo mu k ≤ l → l < bandHi m ml k → k ≤ l + mu ∧ l ≤ k + ml ∧ l < m := by
    intro k l h1 h2
    unfold bandLo at h1; unfold bandHi at h2
    split at h1 <;> split at h2 <;> omega
  obtain ⟨a, e, hd⟩ := setLoop (M := n) (m := ml + mu + 1) (n := n) (lo := bandLo mu)
    (hi := bandHi m ml) (ρ := fun j i => i + mu - j) (κ := fun j _ => j) (h := fun r c => D (r + c - mu) c) (f := B)
    (body := fun j i band => do
        let x ← dense.get i j
        let r ← subUsize (i + mu) j
        band.set r j x)
    (by
      intro k l a hk h1 h2
      obtain ⟨h3, h4, h5⟩ := hrange k l h1 h2
      simp [hD.get l k h5 hk, subUsize, h3])
    (by
      intro k l _ h1 h2
      have := hrange k l h1 h2
      omega)
    (fun k _ hk _ _ => hk) hB
  refine ⟨a, ?_, hd.congr ?_⟩
  · simp only [matConvertToBlasBand, hB.nrow, hB.ncol, hD.nrow, hD.ncol]
    rw [if_neg (by omega)]
    exact e
  · intro r c hr hc
    by_cases h1 : mu ≤ r + c ∧ r + c - mu < m
    · rw [if_pos h1, if_pos]
      refine ⟨c, r + c - mu, hc, ?_, ?_, by omega, rfl⟩
      · unfold bandLo; split <;> omega
      · unfold bandHi; split <;> omega
    · rw [if_neg h1, if_neg]
      rintro ⟨k, l, hk, h2, h3, h4, h5⟩
      have := hrange k l h2 h3
      omega

/-- **C25** The same result seen from the matrix: every entry inside the band (`j - mu ≤ i ≤ j + ml`) is found at
`(i + mu - j, j)`, a position inside the band array. -/
theorem C25_band_entries {band dense : NumMatrix α} {m n ml mu : Nat} {D B : Nat → Nat → α} (hD : IsDense dense m n D)
    (hB : IsDense band (ml + mu + 1) n B) {i j : Nat} (hi : i < m) (hj : j < n) (h1 : j ≤ i + mu) (h2 : i ≤ j + ml) :
    i + mu - j < ml + mu + 1 ∧
    ∃ band', matConvertToBlasBand band dense ml mu = ok band' ∧ band'.get (i + mu - j) j = dense.get i j := by
  refine ⟨by omega, ?_⟩
  obtain ⟨b, e, hd⟩ := C25_blas_band hD hB
  refine ⟨b, e, ?_⟩
  have e1 : i + mu - j + j - mu = i := by omega
  rw [hd.get _ _ (by omega) hj, hD.get i j hi hj, if_pos (by omega), e1]

/-- **C25** The conversion returns an error exactly when the dimensions of the band array are wrong. -/
theorem C25_band_err {band dense : NumMatrix α} {m n ml mu : Nat} {D B : Nat → Nat → α} (hD : IsDense dense m n D)
    {mb nb : Nat} (hB : IsDense band mb nb B) :
    ((∃ msg, matConvertToBlasBand band dense ml mu = err msg) ↔ (mb ≠ ml + mu + 1 ∨ nb ≠ n)) ∧
    matConvertToBlasBand band dense ml mu ≠ panic := by
  by_cases h : mb ≠ ml + mu + 1 ∨ nb ≠ n
  · have e : matConvertToBlasBand band dense ml mu = err "the resulting matrix must be ml + mu + 1 by n" := by
      simp only [matConvertToBlasBand, hB.nrow, hB.ncol, hD.ncol]
      rw [if_pos h]
    rw [e]; simp [h]
  · obtain ⟨rfl, rfl⟩ : mb = ml + mu + 1 ∧ nb = n := by omega
    obtain ⟨b, e, _⟩ := C25_blas_band hD hB
    rw [e]; simp

/-- the 3×3 tridiagonal matrix: the unused corners keep the old value 99 -/
example : matConvertToBlasBand (⟨3, 3, [99, 99, 99, 99, 99, 99, 99, 99, 99]⟩ : NumMatrix Int)
    ⟨3, 3, [1, 4, 0, 2, 5, 7, 0, 6, 8]⟩ 1 1 = ok ⟨3, 3, [99, 1, 4, 2, 5, 7, 6, 8, 99]⟩ := by decide

/-! ## sort_vec_mat -/

section SortVecMat

variable [LinearOrder α]

/-- search of the largest remaining value (/repo/russell_lab/src/matvec/sort_vec_mat.rs:31-36), state `(p, k)` -/
def maxStep (l : List α) (j : Nat) (s : α × Nat) : Res (α × Nat) := do
  let lj ← vget l j
  ok (if lj ≥ s.1 then (lj, j) else s)

/-- exchange of columns `i` and `k` (/repo/russell_lab/src/matvec/sort_vec_mat.rs:40-44) -/
def swapCols (n i k : Nat) (v : NumMatrix α) : Res (NumMatrix α) :=
  forRange 0 n v fun j v => do
    let p ← v.get j i
    let x ← v.get j k
    let v ← v.set j i x
    v.set j k p

/-- body of the outer loop (/repo/russell_lab/src/matvec/sort_vec_mat.rs:29-45) -/
def sortStep (n i : Nat) (s : List α × NumMatrix α) : Res (List α × NumMatrix α) := do
  let li ← vget s.1 i
  let (p, k) ← forRange i n (li, i) (maxStep s.1)
  if k ≠ i then do
    let li ← vget s.1 i
    let l ← vset s.1 k li
    let l ← vset l i p
    let v ← swapCols n i k s.2
    ok (l, v)
  else ok s

/-- `sort_vec_mat` (/repo/russell_lab/src/matvec/sort_vec_mat.rs:20-48); the values are those of a linear order (no NaN). -/
def sortVecMat (l : List α) (v : NumMatrix α) : Res (List α × NumMatrix α) :=
  if v.nrow ≠ v.ncol then err "matrix must be square"
  else if l.length ≠ v.ncol then err "vector must have the same dimension as matrix"
  else do
    let n1 ← subUsize v.ncol 1
    forRange 0 n1 (l, v) (sortStep v.ncol)

omit [LinearOrder α] in
theorem swapCols_spec {v : NumMatrix α} {n i k : Nat} {V : Nat → Nat → α} (h : IsDense v n n V) (hi : i < n) (hk : k < n) :
    ∃ v', swapCols n i k v = ok v' ∧ IsDense v' n n (fun r c => V r (Equiv.swap i k c)) := by
  obtain ⟨v', e, hd⟩ := forRange_spec (f := fun j v => do
      let p ← NumMatrix.get v j i
      let x ← v.get j k
      let v ← v.set j i x
      v.set j k p)
    (fun t v => IsDense v n n (fun r c => if r < t then V r (Equiv.swap i k c) else V r c)) (Nat.zero_le n) (s := v)
    (h.congr (fun r c _ _ => by simp))
    (by
      intro t v _ ht hI
      obtain ⟨v1, e1, d1⟩ := hI.set ht hi (V t k)
      obtain ⟨v2, e2, d2⟩ := d1.set ht hk (V t i)
      refine ⟨v2, ?_, d2.congr ?_⟩
      · simp [hI.get t i ht hi, hI.get t k ht hk, e1, e2]
      · intro r c _ _
        by_cases hr : r = t
        · subst hr
          by_cases hck : c = k
          · subst hck; simp
          · by_cases hci : c = i
            · subst hci; simp [hck]
            · simp [hck, hci, Equiv.swap_apply_of_ne_of_ne hci hck]
        · by_cases h1 : r < t
          · rw [if_neg (by omega), if_neg (by omega), if_pos h1, if_pos (by omega)]
          · rw [if_neg (by omega), if_neg (by omega), if_neg h1, if_neg (by omega)])
  exact ⟨v', e, hd.congr (fun r c hr _ => by simp [hr])⟩

theorem maxSearch_spec {l : List α} {n i : Nat} {L : Nat → α} (h : IsVec l n L) (hi : i < n) :
    ∃ k, forRange i n (L i, i) (maxStep l) = ok (L k, k) ∧ i ≤ k ∧ k < n ∧ ∀ t, i ≤ t → t < n → L t ≤ L k := by
  obtain ⟨s, e, k, hs, h1, h2, h3⟩ := forRange_spec (f := maxStep l)
    (fun j s => ∃ k, s = (L k, k) ∧ i ≤ k ∧ k < n ∧ ∀ t, i ≤ t → t < j → L t ≤ L k) (Nat.le_of_lt hi)
    (s := (L i, i)) ⟨i, rfl, Nat.le_refl _, hi, fun t _ _ => by omega⟩
    (by
      rintro j s hj hj' ⟨k, rfl, h1, h2, h3⟩
      simp only [maxStep, h.vget hj', ok_bind]
      by_cases hge : L j ≥ L k
      · refine ⟨_, rfl, j, by rw [if_pos hge], hj, hj', ?_⟩
        intro t ht ht'
        by_cases htj : t = j
        · subst htj; exact le_refl _
        · exact le_trans (h3 t ht (by omega)) hge
      · refine ⟨_, rfl, k, by rw [if_neg hge], h1, h2, ?_⟩
        intro t ht ht'
        by_cases htj : t = j
        · subst htj; exact le_of_not_ge hge
        · exact h3 t ht (by omega))
  exact ⟨k, by rw [e, hs], h1, h2, h3⟩

/-- **C28** For every `n ≥ 1`, vector `L` of length `n` and `n × n` matrix `V`: `sort_vec_mat` succeeds and there is one
permutation `σ` of the indices such that the new vector is `L ∘ σ`, in descending order, and column `c` of the new matrix
is column `σ c` of the old one. -/
theorem C28_sort_vec_mat {l : List α} {v : NumMatrix α} {n : Nat} {L : Nat → α} {V : Nat → Nat → α} (hn : 0 < n)
    (hl : IsVec l n L) (hv : IsDense v n n V) :
    ∃ l' v', sortVecMat l v = ok (l', v') ∧ ∃ σ : Equiv.Perm Nat, (∀ k, k < n ↔ σ k < n) ∧
      IsVec l' n (fun k => L (σ k)) ∧ IsDense v' n n (fun r c => V r (σ c)) ∧
      (∀ a b, a ≤ b → b < n → L (σ b) ≤ L (σ a)) := by
  obtain ⟨⟨l', v'⟩, e, σ, h1, h2, h3, h4⟩ := forRange_spec (f := sortStep n)
    (fun i s => ∃ σ : Equiv.Perm Nat, (∀ k, k < n ↔ σ k < n) ∧
      IsVec s.1 n (fun k => L (σ k)) ∧ IsDense s.2 n n (fun r c => V r (σ c)) ∧
      (∀ a b, a < i → a ≤ b → b < n → L (σ b) ≤ L (σ a))) (Nat.zero_le (n - 1)) (s := (l, v))
    ⟨Equiv.refl _, fun k => Iff.rfl, hl, hv, fun a b h => by omega⟩
    (by
      rintro i ⟨l, v⟩ _ hi ⟨σ, h1, h2, h3, h4⟩
      have hin : i < n := by omega
      obtain ⟨k, e, hk1, hk2, hk3⟩ := maxSearch_spec h2 hin
      by_cases hki : k = i
      · subst hki
        refine ⟨(l, v), by simp [sortStep, h2.vget hin, e], σ, h1, h2, h3, ?_⟩
        intro a b ha hab hb
        by_cases hak : a = k
        · subst hak; exact hk3 b hab hb
        · exact h4 a b (by omega) hab hb
      · obtain ⟨l1, e1, hv1⟩ := h2.vset hk2 (L (σ i))
        obtain ⟨l2, e2, hv2⟩ := hv1.vset hin (L (σ k))
        obtain ⟨v', e3, hd⟩ := swapCols_spec h3 hin hk2
        refine ⟨(l2, v'), by simp [sortStep, h2.vget hin, e, hki, e1, e2, e3], (Equiv.swap i k).trans σ, ?_, ?_, ?_, ?_⟩
        · intro t
          rw [Equiv.trans_apply, ← h1]
          rcases eq_or_ne t i with rfl | hti
          · simp [hin, hk2]
          · rcases eq_or_ne t k with rfl | htk
            · simp [hin, hk2]
            · rw [Equiv.swap_apply_of_ne_of_ne hti htk]
        · refine hv2.congr ?_
          intro t _
          rw [Equiv.trans_apply]
          rcases eq_or_ne t i with rfl | hti
          · simp
          · rcases eq_or_ne t k with rfl | htk
            · simp [hti]
            · rw [if_neg hti, if_neg htk, Equiv.swap_apply_of_ne_of_ne hti htk]
        · exact hd
        · intro a b ha hab hb
          rw [Equiv.trans_apply, Equiv.trans_apply]
          by_cases hai : a = i
          · subst hai
            rw [Equiv.swap_apply_left]
            rcases eq_or_ne b a with rfl | hba
            · simp
            · rcases eq_or_ne b k with rfl | hbk
              · rw [Equiv.swap_apply_right]; exact hk3 a (Nat.le_refl _) hin
              · rw [Equiv.swap_apply_of_ne_of_ne hba hbk]; exact hk3 b hab hb
          · have hal : a < i := by omega
            rw [Equiv.swap_apply_of_ne_of_ne (x := a) (a := i) (b := k) (by omega) (by omega)]
            rcases eq_or_ne b i with rfl | hbi
            · rw [Equiv.swap_apply_left]; exact h4 a k hal (by omega) hk2
            · rcases eq_or_ne b k with rfl | hbk
              · rw [Equiv.swap_apply_right]; exact h4 a i hal (by omega) hin
              · rw [Equiv.swap_apply_of_ne_of_ne hbi hbk]; exact h4 a b hal hab hb)
  refine ⟨l', v', ?_, σ, h1, h2, h3, ?_⟩
  · simp only [sortVecMat, hv.nrow, hv.ncol, hl.len]
    rw [if_neg (by simp), if_neg (by simp)]
    have h1n : 1 ≤ n := hn
    simpa [subUsize, h1n] using e
  · intro a b hab hb
    by_cases hba : b = a
    · subst hba; exact le_refl _
    · exact h4 a b (by omega) hab hb

/-- **C28** The dimension errors, and the empty case: for `n = 0` the loop bound `n - 1` underflows and the function panics
although the input is valid. -/
theorem C28_empty_counterexample (l : List α) (v : NumMatrix α) :
    (v.nrow ≠ v.ncol → sortVecMat l v = err "matrix must be square") ∧
    (v.nrow = v.ncol → l.length ≠ v.ncol → sortVecMat l v = err "vector must have the same dimension as matrix") ∧
    (v.nrow = 0 → v.ncol = 0 → l = [] → sortVecMat l v = panic) := by
  refine ⟨fun h => by simp [sortVecMat, h], fun h h2 => by simp [sortVecMat, h, h2], ?_⟩
  rintro h1 h2 rfl
  simp [sortVecMat, h1, h2, subUsize]

end SortVecMat

/-- columns follow the values: (1,3,2) with identity-like columns -/
example : sortVecMat [1, 3, 2] (⟨3, 3, [10, 11, 12, 30, 31, 32, 20, 21, 22]⟩ : NumMatrix Int) =
    ok ([3, 2, 1], ⟨3, 3, [30, 31, 32, 20, 21, 22, 10, 11, 12]⟩) := by decide

end Russell.Lab
