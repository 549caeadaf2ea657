import Verif.Lab.LapackMore
import Mathlib.LinearAlgebra.Matrix.ConjTranspose
import Mathlib.Data.Matrix.Mul
import Mathlib.LinearAlgebra.Matrix.Trace
import Mathlib.Algebra.BigOperators.Field
import Mathlib.Data.Matrix.Diagonal
import Mathlib.Tactic.Positivity
import Mathlib.Tactic.NormNum
import Mathlib.Data.Rat.Defs
import Mathlib.Algebra.Order.Field.Rat
import Mathlib.LinearAlgebra.Matrix.Notation

/-!
# The pseudo-inverse (property C102)
-/

namespace Russell.Lab

open Russell Russell.Res Russell.Sparse

variable {α : Type} [Field α] [LinearOrder α]

/-- `SINGLE_VALUE_RCOND` (/repo/russell_lab/src/matrix/mat_pseudo_inverse.rs:6) -/
def pinvRcond : α := 1 / 10 ^ 15

/-- one singular value (/repo/russell_lab/src/matrix/mat_pseudo_inverse.rs:112-114) -/
def pinvTerm (s : List α) (u vt : NumMatrix α) (tol : α) (i j k : Nat) (ai : NumMatrix α) : Res (NumMatrix α) := do
  let sk ← vget s k
  if sk > tol then do
    let x ← vt.get k i
    let y ← u.get j k
    ai.add i j (x * y / sk)
  else ok ai

/-- one entry (/repo/russell_lab/src/matrix/mat_pseudo_inverse.rs:110-115) -/
def pinvEntry (s : List α) (u vt : NumMatrix α) (tol : α) (r i j : Nat) (ai : NumMatrix α) : Res (NumMatrix α) := do
  let ai ← ai.set i j 0
  forRange 0 r ai fun k ai => pinvTerm s u vt tol i j k ai

/-- the part after the decomposition (/repo/russell_lab/src/matrix/mat_pseudo_inverse.rs:102-117) -/
def pinvFill (m n : Nat) (ai : NumMatrix α) (o : List α × NumMatrix α × NumMatrix α) : Res (NumMatrix α) := do
  let idx ← findIndexAbsMax o.1
  let largest ← vget o.1 idx
  let tol := pinvRcond * largest
  forRange 0 n ai fun i ai => forRange 0 m ai fun j ai => pinvEntry o.1 o.2.1 o.2.2 tol (if m < n then m else n) i j ai

/-- `mat_pseudo_inverse` (/repo/russell_lab/src/matrix/mat_pseudo_inverse.rs:84-121) -/
def matPseudoInverse (svd : Svd α α) (best : Nat → Nat → Int) (ai a : NumMatrix α) : Res (NumMatrix α) :=
  let m := a.nrow
  let n := a.ncol
  if ai.nrow ≠ n ∨ ai.ncol ≠ m then err "matrices are incompatible"
  else if m = 0 ∧ n = 0 then ok ai
  else do
    let min_mn := if m < n then m else n
    let s := List.replicate min_mn 0
    let u : NumMatrix α := ⟨m, m, List.replicate (m * m) 0⟩
    let vt : NumMatrix α := ⟨n, n, List.replicate (n * n) 0⟩
    let o ← matSvd svd best s u vt a
    pinvFill m n ai o

/-! ## The loops -/

theorem pinvEntry_spec {m n r : Nat} (hr : r = min m n) {s : List α} {S : Nat → α} {u vt ai : NumMatrix α} {U V F : Nat → Nat → α}
    (hs : IsVec s r S) (hu : IsDense u m m U) (hv : IsDense vt n n V) (ha : IsDense ai n m F) (tol : α) {i j : Nat} (hi : i < n) (hj : j < m) :
    ∃ ai', pinvEntry s u vt tol r i j ai = ok ai' ∧ IsDense ai' n m (fun p q => if p = i ∧ q = j then
      ∑ k ∈ Finset.range r, (if tol < S k then V k i * U j k / S k else 0) else F p q) := by
  unfold pinvEntry
  obtain ⟨a1, e1, h1⟩ := ha.set hi hj 0
  rw [e1, ok_bind]
  obtain ⟨a2, e2, h2⟩ := forRange_spec (f := fun k ai => pinvTerm s u vt tol i j k ai)
    (fun t ai => IsDense ai n m (fun p q => if p = i ∧ q = j then
      ∑ k ∈ Finset.range t, (if tol < S k then V k i * U j k / S k else 0) else F p q)) (Nat.zero_le r) (s := a1)
    (by simpa using h1) (by
      intro t ai' _ ht hI
      unfold pinvTerm
      rw [hs.vget ht, ok_bind]
      by_cases hc : S t > tol
      · rw [if_pos hc, hv.get t i (by omega) hi, ok_bind, hu.get j t hj (by omega), ok_bind]
        obtain ⟨a3, e3, h3⟩ := hI.add hi hj (V t i * U j t / S t)
        refine ⟨a3, e3, dense_congr h3 fun p q _ _ => ?_⟩
        by_cases hpq : p = i ∧ q = j
        · rw [if_pos hpq, if_pos hpq, if_pos hpq, Finset.sum_range_succ, if_pos hc]
        · rw [if_neg hpq, if_neg hpq, if_neg hpq]
      · rw [if_neg hc]
        refine ⟨ai', rfl, dense_congr hI fun p q _ _ => ?_⟩
        rw [Finset.sum_range_succ, if_neg hc, add_zero])
  exact ⟨a2, e2, h2⟩

theorem pinvFill_spec {m n : Nat} (hm0 : 0 < m) (hn0 : 0 < n) (hmn : min m n < 2147483648) {s : List α} {S : Nat → α} {u vt ai : NumMatrix α}
    {U V F : Nat → Nat → α} (hs : IsVec s (min m n) S) (hu : IsDense u m m U) (hv : IsDense vt n n V) (ha : IsDense ai n m F) :
    ∃ ai' q, pinvFill m n ai (s, u, vt) = ok ai' ∧ q < min m n ∧ (∀ k, k < min m n → |S k| ≤ |S q|) ∧
      IsDense ai' n m (fun i j => ∑ k ∈ Finset.range (min m n), (if pinvRcond * S q < S k then V k i * U j k / S k else 0)) := by
  have hne : s ≠ [] := by
    intro h
    have := hs.len
    rw [h] at this
    simp only [List.length_nil] at this
    omega
  obtain ⟨h1, h2, -⟩ := idamax_spec hne
  rw [hs.len] at h1
  unfold pinvFill findIndexAbsMax
  dsimp only
  rw [hs.len, toI32_lt hmn]
  simp only [ok_bind]
  rw [hs.vget h1, ok_bind]
  have er : (if m < n then m else n) = min m n := by
    by_cases h : m < n
    · rw [if_pos h, min_eq_left h.le]
    · rw [if_neg h, min_eq_right (not_lt.1 h)]
  rw [er]
  set T : Nat → Nat → α := fun i j => ∑ k ∈ Finset.range (min m n), (if pinvRcond * S (idamax s) < S k then V k i * U j k / S k else 0)
    with hT
  obtain ⟨ai', e, hA⟩ := forRange_spec (f := fun i ai => forRange 0 m ai fun j ai =>
      pinvEntry s u vt (pinvRcond * S (idamax s)) (min m n) i j ai)
    (fun t ai => IsDense ai n m (fun i j => if i < t then T i j else F i j)) (Nat.zero_le n) (s := ai) (dense_congr ha fun i j _ _ => by simp) (by
      intro t ai _ ht hI
      obtain ⟨ai', e, hA⟩ := forRange_spec (f := fun j ai => pinvEntry s u vt (pinvRcond * S (idamax s)) (min m n) t j ai)
        (fun c ai => IsDense ai n m (fun i j => if i < t ∨ i = t ∧ j < c then T i j else F i j)) (Nat.zero_le m) (s := ai)
        (dense_congr hI fun i j _ _ => by simp) (by
          intro c ai _ hc hI
          obtain ⟨a3, e3, h3⟩ := pinvEntry_spec rfl hs hu hv hI (pinvRcond * S (idamax s)) ht hc
          refine ⟨a3, e3, dense_congr h3 fun i j _ _ => ?_⟩
          by_cases hpq : i = t ∧ j = c
          · obtain ⟨rfl, rfl⟩ := hpq
            rw [if_pos ⟨rfl, rfl⟩, if_pos (Or.inr ⟨rfl, by omega⟩)]
          · rw [if_neg hpq]
            by_cases h : i < t ∨ i = t ∧ j < c
            · rw [if_pos h, if_pos (by omega)]
            · rw [if_neg h, if_neg (by omega)])
      refine ⟨ai', e, dense_congr hA fun i j _ hj => ?_⟩
      by_cases h : i < t + 1
      · rw [if_pos h, if_pos (by omega)]
      · rw [if_neg h, if_neg (by omega)])
  refine ⟨ai', idamax s, e, h1, fun k hk => ?_, dense_congr hA fun i j hi _ => by rw [if_pos hi]⟩
  have := h2 k (by rw [hs.len]; exact hk)
  rwa [hs.getD' hk, hs.getD' h1] at this

/-! ## The Moore–Penrose inverse -/

/-- the four equations of Penrose -/
structure IsMoorePenrose {m n : Type} [Fintype m] [Fintype n] (A : Matrix m n α) (P : Matrix n m α) : Prop where
  apa : A * P * A = A
  pap : P * A * P = P
  symL : (A * P).transpose = A * P
  symR : (P * A).transpose = P * A

omit [LinearOrder α] in
/-- the pseudo-inverse is unique -/
theorem IsMoorePenrose.unique {m n : Type} [Fintype m] [Fintype n] {A : Matrix m n α} {P Q : Matrix n m α} (h : IsMoorePenrose A P)
    (h' : IsMoorePenrose A Q) : P = Q := by
  have e1 : A * P = A * Q := by
    calc A * P = (A * Q * A) * P := by rw [h'.apa]
      _ = (A * Q) * (A * P) := by rw [Matrix.mul_assoc (A * Q)]
      _ = (A * Q).transpose * (A * P).transpose := by rw [h'.symL, h.symL]
      _ = ((A * P) * (A * Q)).transpose := (Matrix.transpose_mul _ _).symm
      _ = (A * Q).transpose := by rw [← Matrix.mul_assoc (A * P), h.apa]
      _ = A * Q := h'.symL
  have e2 : P * A = Q * A := by
    calc P * A = P * (A * Q * A) := by rw [h'.apa]
      _ = (P * A) * (Q * A) := by rw [Matrix.mul_assoc A, ← Matrix.mul_assoc P]
      _ = (P * A).transpose * (Q * A).transpose := by rw [h'.symR, h.symR]
      _ = ((Q * A) * (P * A)).transpose := (Matrix.transpose_mul _ _).symm
      _ = (Q * A).transpose := by rw [Matrix.mul_assoc Q, ← Matrix.mul_assoc A, h.apa]
      _ = Q * A := h'.symR
  calc P = P * A * P := h.pap.symm
    _ = Q * A * Q := by rw [e2, Matrix.mul_assoc, e1, Matrix.mul_assoc]
    _ = Q := h'.pap

omit [LinearOrder α] in
theorem isMoorePenrose_inverse {m : Type} [Fintype m] [DecidableEq m] {A B : Matrix m m α} (h1 : A * B = 1) (h2 : B * A = 1) :
    IsMoorePenrose A B := by
  refine ⟨?_, ?_, ?_, ?_⟩
  · rw [h1, Matrix.one_mul]
  · rw [h2, Matrix.one_mul]
  · rw [h1, Matrix.transpose_one]
  · rw [h2, Matrix.transpose_one]

omit [LinearOrder α] in
/-- the pseudo-inverse of `U s W` with orthonormal columns of `U` and rows of `W` -/
theorem isMoorePenrose_svd {m n r : Type} [Fintype m] [Fintype n] [Fintype r] [DecidableEq r] {U : Matrix m r α} {W : Matrix r n α}
    (hU : U.transpose * U = 1) (hW : W * W.transpose = 1) {s d : r → α} (h1 : ∀ k, s k * d k * s k = s k) (h2 : ∀ k, d k * s k * d k = d k) :
    IsMoorePenrose (U * Matrix.diagonal s * W) (W.transpose * Matrix.diagonal d * U.transpose) := by
  have c1 : (U * Matrix.diagonal s * W) * (W.transpose * Matrix.diagonal d * U.transpose) =
      U * Matrix.diagonal (fun k => s k * d k) * U.transpose := by
    rw [← Matrix.diagonal_mul_diagonal]
    simp only [Matrix.mul_assoc]
    rw [← Matrix.mul_assoc W, hW, Matrix.one_mul]
  have c2 : (W.transpose * Matrix.diagonal d * U.transpose) * (U * Matrix.diagonal s * W) =
      W.transpose * Matrix.diagonal (fun k => d k * s k) * W := by
    rw [← Matrix.diagonal_mul_diagonal]
    simp only [Matrix.mul_assoc]
    rw [← Matrix.mul_assoc U.transpose, hU, Matrix.one_mul]
  refine ⟨?_, ?_, ?_, ?_⟩
  · rw [c1]
    have : Matrix.diagonal s = Matrix.diagonal (fun k => s k * d k) * Matrix.diagonal s := by
      rw [Matrix.diagonal_mul_diagonal]; congr 1; funext k; exact (h1 k).symm
    conv_rhs => rw [this]
    simp only [Matrix.mul_assoc]
    rw [← Matrix.mul_assoc U.transpose, hU, Matrix.one_mul]
  · rw [c2]
    have : Matrix.diagonal d = Matrix.diagonal (fun k => d k * s k) * Matrix.diagonal d := by
      rw [Matrix.diagonal_mul_diagonal]; congr 1; funext k; exact (h2 k).symm
    conv_rhs => rw [this]
    simp only [Matrix.mul_assoc]
    rw [← Matrix.mul_assoc W, hW, Matrix.one_mul]
  · rw [c1]
    simp only [Matrix.transpose_mul, Matrix.transpose_transpose, Matrix.diagonal_transpose, Matrix.mul_assoc]
  · rw [c2]
    simp only [Matrix.transpose_mul, Matrix.transpose_transpose, Matrix.diagonal_transpose, Matrix.mul_assoc]

/-- the matrix of the entries -/
def toM (m n : Nat) (A : Nat → Nat → α) : Matrix (Fin m) (Fin n) α := Matrix.of fun i j => A i j

section

variable [IsStrictOrderedRing α]

omit [LinearOrder α] [IsStrictOrderedRing α] in
/-- the sum of the squares of the entries is the sum of the squares of the singular values -/
theorem svd_frobenius {m n r : Nat} {U : Matrix (Fin m) (Fin r) α} {W : Matrix (Fin r) (Fin n) α} (hU : U.transpose * U = 1)
    (hW : W * W.transpose = 1) (s : Fin r → α) :
    ∑ i, ∑ j, (U * Matrix.diagonal s * W) i j * (U * Matrix.diagonal s * W) i j = ∑ k, s k * s k := by
  set A := U * Matrix.diagonal s * W with hA
  have e1 : ∑ i, ∑ j, A i j * A i j = Matrix.trace (A * A.transpose) := by
    simp only [Matrix.trace, Matrix.diag, Matrix.mul_apply, Matrix.transpose_apply]
  have e2 : A * A.transpose = U * (Matrix.diagonal (fun k => s k * s k) * U.transpose) := by
    rw [hA, ← Matrix.diagonal_mul_diagonal]
    simp only [Matrix.transpose_mul, Matrix.diagonal_transpose, Matrix.mul_assoc]
    rw [← Matrix.mul_assoc W, hW, Matrix.one_mul]
  rw [e1, e2, Matrix.trace_mul_comm, Matrix.mul_assoc, hU, Matrix.mul_one, Matrix.trace_diagonal]

/-- dropping singular values of at most `tol` changes no entry by more than `tol` -/
theorem svd_drop {m n r : Nat} {U : Matrix (Fin m) (Fin r) α} {W : Matrix (Fin r) (Fin n) α} (hU : ∀ i, ∑ k, U i k * U i k ≤ 1)
    (hW : ∀ j, ∑ k, W k j * W k j ≤ 1) {s t : Fin r → α} {tol : α} (hst : ∀ k, |s k - t k| ≤ tol) (ht : 0 ≤ tol) (i : Fin m) (j : Fin n) :
    |(U * Matrix.diagonal s * W) i j - (U * Matrix.diagonal t * W) i j| ≤ tol := by
  have e : ∀ z : Fin r → α, (U * Matrix.diagonal z * W) i j = ∑ k, U i k * z k * W k j := by
    intro z
    rw [Matrix.mul_apply]
    exact Finset.sum_congr rfl fun k _ => by rw [Matrix.mul_diagonal]
  rw [e, e, ← Finset.sum_sub_distrib]
  calc |∑ k, (U i k * s k * W k j - U i k * t k * W k j)| ≤ ∑ k, |U i k * s k * W k j - U i k * t k * W k j| := Finset.abs_sum_le_sum_abs _ _
    _ ≤ ∑ k, tol * ((U i k * U i k + W k j * W k j) / 2) := by
        refine Finset.sum_le_sum fun k _ => ?_
        rw [show U i k * s k * W k j - U i k * t k * W k j = (s k - t k) * (U i k * W k j) by ring, abs_mul]
        have h1 : |U i k * W k j| ≤ (U i k * U i k + W k j * W k j) / 2 := by
          rw [abs_le]
          constructor
          · nlinarith [mul_self_nonneg (U i k + W k j)]
          · nlinarith [mul_self_nonneg (U i k - W k j)]
        exact mul_le_mul (hst k) h1 (abs_nonneg _) ht
    _ = tol * ((∑ k, U i k * U i k + ∑ k, W k j * W k j) / 2) := by
        rw [← Finset.mul_sum, ← Finset.sum_div, Finset.sum_add_distrib]
    _ ≤ tol * 1 := by
        apply mul_le_mul_of_nonneg_left _ ht
        linarith [hU i, hW j]
    _ = tol := mul_one _

/-- the singular value decomposition as a product of matrices -/
theorem svd_matrix {m n : Nat} {A U V : Nat → Nat → α} {S : Nat → α} (h : IsSvd id id m n A S U V) :
    let Ur : Matrix (Fin m) (Fin (min m n)) α := Matrix.of fun i k => U i k
    let Wr : Matrix (Fin (min m n)) (Fin n) α := Matrix.of fun k j => V k j
    Ur.transpose * Ur = 1 ∧ Wr * Wr.transpose = 1 ∧ (∀ i, ∑ k, Ur i k * Ur i k ≤ 1) ∧ (∀ j, ∑ k, Wr k j * Wr k j ≤ 1) ∧
      toM m n A = Ur * Matrix.diagonal (fun k : Fin (min m n) => S k) * Wr := by
  obtain ⟨-, -, ⟨u1, u2⟩, ⟨v1, v2⟩, h5⟩ := h
  have hm : min m n ≤ m := min_le_left _ _
  have hn : min m n ≤ n := min_le_right _ _
  refine ⟨?_, ?_, ?_, ?_, ?_⟩
  · ext k l
    have := u1 k l (lt_of_lt_of_le k.2 hm) (lt_of_lt_of_le l.2 hm)
    rw [Finset.sum_range] at this
    rw [Matrix.mul_apply, Matrix.one_apply]
    simp only [Fin.ext_iff]
    exact this
  · ext k l
    have := v2 k l (lt_of_lt_of_le k.2 hn) (lt_of_lt_of_le l.2 hn)
    rw [Finset.sum_range] at this
    rw [Matrix.mul_apply, Matrix.one_apply]
    simp only [Fin.ext_iff]
    exact this
  · intro i
    have h1 := u2 i i i.2 i.2
    rw [if_pos rfl] at h1
    have h2 : ∑ k ∈ Finset.range (min m n), U i k * U i k ≤ ∑ k ∈ Finset.range m, U i k * U i k :=
      Finset.sum_le_sum_of_subset_of_nonneg (Finset.range_mono hm) fun k _ _ => mul_self_nonneg _
    rw [Finset.sum_range (n := min m n)] at h2
    exact h2.trans (le_of_eq h1)
  · intro j
    have h1 := v1 j j j.2 j.2
    rw [if_pos rfl] at h1
    have h2 : ∑ k ∈ Finset.range (min m n), V k j * V k j ≤ ∑ k ∈ Finset.range n, V k j * V k j :=
      Finset.sum_le_sum_of_subset_of_nonneg (Finset.range_mono hn) fun k _ _ => mul_self_nonneg _
    rw [Finset.sum_range (n := min m n)] at h2
    exact h2.trans (le_of_eq h1)
  · ext i j
    rw [Matrix.mul_apply]
    simp only [Matrix.mul_diagonal]
    show A i j = _
    rw [h5 i j i.2 j.2, Finset.sum_range]
    rfl

/-- **C102** `mat_pseudo_inverse`: the result is the Moore–Penrose inverse (which is unique) of a matrix that differs from `a` in no entry by
more than `1e-15` times the Frobenius norm of `a`; it is the one of `a` itself if no singular value lies between zero and `1e-15` times the
largest one. -/
theorem C102_pseudo_inverse {svd : Svd α α} (hspec : SvdSpec id id svd) {m n : Nat} (hm : m < 2147483648) (hn : n < 2147483648)
    (hm0 : 0 < m) (hn0 : 0 < n) {best : Nat → Nat → Int} (hbest : dgesvdNeed m n ≤ best m n) {a ai : NumMatrix α} {A F : Nat → Nat → α}
    (ha : IsDense a m n A) (hai : IsDense ai n m F) :
    matPseudoInverse svd best ai a = err "LAPACK ERROR (dgesvd): Algorithm did not converge" ∨
    ∃ ai' P At S U V, matPseudoInverse svd best ai a = ok ai' ∧ IsDense ai' n m P ∧ IsSvd id id m n A S U V ∧
      IsMoorePenrose (toM m n At) (toM n m P) ∧
      (∀ i j, i < m → j < n → (A i j - At i j) ^ 2 ≤ pinvRcond ^ 2 * ∑ p ∈ Finset.range m, ∑ q ∈ Finset.range n, A p q * A p q) ∧
      ((∀ k, k < min m n → S k = 0 ∨ pinvRcond * S 0 < S k) → toM m n At = toM m n A) := by
  have er : (if m < n then m else n) = min m n := by
    by_cases h : m < n
    · rw [if_pos h, min_eq_left h.le]
    · rw [if_neg h, min_eq_right (not_lt.1 h)]
  have hs0 : IsVec (List.replicate (min m n) (0 : α)) (min m n) fun _ => 0 :=
    ⟨List.length_replicate, fun i hi => by rw [List.getElem?_replicate, if_pos hi]⟩
  have hu0 := isDense_flat (isFlat_replicate m (0 : α))
  have hv0 := isDense_flat (isFlat_replicate n (0 : α))
  have e0 : matPseudoInverse svd best ai a = matSvd svd best (List.replicate (min m n) 0) ⟨m, m, List.replicate (m * m) 0⟩
      ⟨n, n, List.replicate (n * n) 0⟩ a >>= pinvFill m n ai := by
    unfold matPseudoInverse
    simp only [ha.nrow, ha.ncol, hai.nrow, hai.ncol]
    rw [if_neg (by simp), if_neg (by omega), er]
  rw [e0]
  rcases C102_svd hspec hm hn hm0 hn0 hbest ha hs0 hu0 hv0 with h | ⟨s, u, vt, S, U, V, h, hs, hu, hv, hsvd⟩
  · left; rw [h]; rfl
  right
  rw [h, ok_bind]
  obtain ⟨ai', q, e, hq, hmax, hP⟩ := pinvFill_spec hm0 hn0 (by omega) hs hu hv hai
  obtain ⟨w1, w2, w3, w4, w5⟩ := svd_matrix hsvd
  set Ur : Matrix (Fin m) (Fin (min m n)) α := Matrix.of fun i k => U i k with hUr
  set Wr : Matrix (Fin (min m n)) (Fin n) α := Matrix.of fun k j => V k j with hWr
  set tol := pinvRcond * S q with htol
  have hrc : (0 : α) < pinvRcond := by unfold pinvRcond; positivity
  have hSq : 0 ≤ S q := hsvd.1 q hq
  have htol0 : 0 ≤ tol := mul_nonneg hrc.le hSq
  have hmax' : ∀ k, k < min m n → S k ≤ S q := fun k hk => by
    have := hmax k hk
    rwa [abs_of_nonneg (hsvd.1 k hk), abs_of_nonneg hSq] at this
  -- the decomposition without the small values
  set t : Nat → α := fun k => if tol < S k then S k else 0 with ht
  set d : Nat → α := fun k => if tol < S k then (S k)⁻¹ else 0 with hd
  set At : Nat → Nat → α := fun i j => ∑ k ∈ Finset.range (min m n), U i k * t k * V k j with hAt
  have eAt : toM m n At = Ur * Matrix.diagonal (fun k : Fin (min m n) => t k) * Wr := by
    ext i j
    rw [Matrix.mul_apply]
    simp only [Matrix.mul_diagonal]
    show (∑ k ∈ Finset.range (min m n), U i k * t k * V k j) = _
    rw [Finset.sum_range]
    rfl
  have eP : toM n m (fun i j => ∑ k ∈ Finset.range (min m n), (if tol < S k then V k i * U j k / S k else 0)) =
      Wr.transpose * Matrix.diagonal (fun k : Fin (min m n) => d k) * Ur.transpose := by
    ext i j
    rw [Matrix.mul_apply]
    simp only [Matrix.mul_diagonal]
    show (∑ k ∈ Finset.range (min m n), (if tol < S k then V k i * U j k / S k else 0)) = _
    rw [Finset.sum_range]
    refine Finset.sum_congr rfl fun k _ => ?_
    show _ = V k i * d k * U j k
    rw [hd]
    by_cases hk : tol < S k
    · simp only [if_pos hk]; rw [div_eq_mul_inv]; ring
    · simp only [if_neg hk]; ring
  refine ⟨ai', _, At, S, U, V, e, hP, hsvd, ?_, ?_, ?_⟩
  · rw [eAt, eP]
    refine isMoorePenrose_svd w1 w2 (fun k => ?_) (fun k => ?_)
    · simp only [ht, hd]
      by_cases hk : tol < S k
      · simp only [if_pos hk]
        rw [mul_inv_cancel₀ (lt_of_le_of_lt htol0 hk).ne', one_mul]
      · simp only [if_neg hk, mul_zero]
    · simp only [ht, hd]
      by_cases hk : tol < S k
      · simp only [if_pos hk]
        rw [inv_mul_cancel₀ (lt_of_le_of_lt htol0 hk).ne', one_mul]
      · simp only [if_neg hk, mul_zero]
  · intro i j hi hj
    have h1 : |A i j - At i j| ≤ tol := by
      have := svd_drop w3 w4 (s := fun k : Fin (min m n) => S k) (t := fun k => t k) (tol := tol) (fun k => by
        simp only [ht]
        by_cases hk : tol < S k
        · rw [if_pos hk, sub_self, abs_zero]; exact htol0
        · rw [if_neg hk, sub_zero, abs_of_nonneg (hsvd.1 k k.2)]; exact not_lt.1 hk) htol0 ⟨i, hi⟩ ⟨j, hj⟩
      rw [← w5, ← eAt] at this
      exact this
    have h2 : S q * S q ≤ ∑ p ∈ Finset.range m, ∑ q ∈ Finset.range n, A p q * A p q := by
      have h3 := svd_frobenius w1 w2 (fun k => S k)
      rw [← w5] at h3
      have h4 : ∑ p ∈ Finset.range m, ∑ q ∈ Finset.range n, A p q * A p q = ∑ k : Fin (min m n), S k * S k := by
        rw [← h3, Finset.sum_range]
        exact Finset.sum_congr rfl fun p _ => by rw [Finset.sum_range]; rfl
      rw [h4]
      exact Finset.single_le_sum (f := fun k : Fin (min m n) => S k * S k) (fun k _ => mul_self_nonneg _) (Finset.mem_univ ⟨q, hq⟩)
    calc (A i j - At i j) ^ 2 = |A i j - At i j| ^ 2 := (sq_abs _).symm
      _ ≤ tol ^ 2 := pow_le_pow_left₀ (abs_nonneg _) h1 2
      _ = pinvRcond ^ 2 * (S q * S q) := by rw [htol]; ring
      _ ≤ _ := mul_le_mul_of_nonneg_left h2 (sq_nonneg _)
  · intro hall
    rw [eAt, w5]
    have hS0 : S q ≤ S 0 := by
      have : ∀ k, k < min m n → S k ≤ S 0 := by
        intro k
        induction k with
        | zero => intro _; exact le_refl _
        | succ k ih => intro hk; exact (hsvd.2.1 k hk).trans (ih (by omega))
      exact this q hq
    have : (fun k : Fin (min m n) => t k) = fun k : Fin (min m n) => S k := by
      funext k
      simp only [ht]
      rcases hall k k.2 with h | h
      · rw [h]; split_ifs <;> rfl
      · rw [if_pos (lt_of_le_of_lt (mul_le_mul_of_nonneg_left hS0 hrc.le) h)]
    rw [this]

/-- **C102** for an invertible matrix without tiny singular values the result is the inverse. -/
theorem C102_pseudo_inverse_invertible {svd : Svd α α} (hspec : SvdSpec id id svd) {m : Nat} (hm : m < 2147483648) (hm0 : 0 < m)
    {best : Nat → Nat → Int} (hbest : dgesvdNeed m m ≤ best m m) {a ai ai' : NumMatrix α} {A B F : Nat → Nat → α} (ha : IsDense a m m A)
    (hai : IsDense ai m m F) (hB1 : toM m m A * toM m m B = 1) (hB2 : toM m m B * toM m m A = 1)
    (hcond : ∀ S U V, IsSvd id id m m A S U V → ∀ k, k < m → pinvRcond * S 0 < S k) (h : matPseudoInverse svd best ai a = ok ai') :
    IsDense ai' m m B := by
  rcases C102_pseudo_inverse hspec hm hm hm0 hm0 hbest ha hai with e | ⟨x, P, At, S, U, V, e, hP, hsvd, hmp, -, hex⟩
  · rw [h] at e; injection e
  · rw [h] at e
    injection e with e
    subst e
    rw [hex fun k hk => Or.inr (hcond S U V hsvd k (by omega))] at hmp
    have := hmp.unique (isMoorePenrose_inverse hB1 hB2)
    refine dense_congr hP fun i j hi hj => ?_
    exact congrFun (congrFun this ⟨i, hi⟩) ⟨j, hj⟩

end

/-- **C102** an empty matrix is accepted only if both dimensions are zero: a `0 × n` or `m × 0` matrix makes LAPACK refuse the call -/
theorem C102_pseudo_inverse_empty (svd : Svd α α) (best : Nat → Nat → Int) :
    matPseudoInverse svd best ⟨0, 0, []⟩ ⟨0, 0, []⟩ = ok ⟨0, 0, []⟩ ∧
    (∀ n, 0 < n → n < 2147483648 → matPseudoInverse svd best ⟨n, 0, []⟩ ⟨0, n, []⟩ = err "LAPACK ERROR (dgesvd): An argument had an illegal value") ∧
    (∀ m, 0 < m → m < 2147483648 → matPseudoInverse svd best ⟨0, m, []⟩ ⟨m, 0, []⟩ = err "LAPACK ERROR (dgesvd): An argument had an illegal value") := by
  refine ⟨rfl, fun n h0 hn => ?_, fun m h0 hm => ?_⟩
  · unfold matPseudoInverse matSvd svdChecks
    simp only [ne_eq, not_true_eq_false, or_self, if_false]
    rw [if_neg (by omega), if_pos h0]
    simp only [List.length_replicate, Nat.zero_min, not_true_eq_false, if_false]
    rw [toI32_lt (by omega), toI32_lt hn]
    simp only [ok_bind]
    unfold gesvd
    rw [if_neg (by decide), if_pos (by right; right; left; decide)]
    simp only [ok_bind]
    rw [if_neg (by decide), if_pos (by right; right; left; decide)]
    rfl
  · unfold matPseudoInverse matSvd svdChecks
    simp only [ne_eq, not_true_eq_false, or_self, if_false]
    rw [if_neg (by omega), if_neg (show ¬ m < 0 by omega)]
    simp only [List.length_replicate, Nat.min_zero, not_true_eq_false, if_false]
    rw [toI32_lt hm, toI32_lt (by omega)]
    simp only [ok_bind]
    unfold gesvd
    rw [if_neg (by decide), if_pos (by right; right; right; right; left; decide)]
    simp only [ok_bind]
    rw [if_neg (by decide), if_pos (by right; right; right; right; left; decide)]
    rfl

/-! ## Examples -/

/-- an oracle that knows one matrix, `diag(1, x)` -/
def svdDiag (x : ℚ) : Svd ℚ ℚ := fun m n A =>
  if m = 2 ∧ n = 2 ∧ A 0 0 = 1 ∧ A 0 1 = 0 ∧ A 1 0 = 0 ∧ A 1 1 = x then
    some (fun k => if k = 0 then 1 else x, fun i j => if i = j then 1 else 0, fun i j => if i = j then 1 else 0)
  else none

theorem svdDiag_spec {x : ℚ} (h0 : 0 ≤ x) (h1 : x ≤ 1) : SvdSpec id id (svdDiag x) := by
  intro m n A r h
  unfold svdDiag at h
  split_ifs at h with hc
  injection h with h
  subst h
  obtain ⟨rfl, rfl, a1, a2, a3, a4⟩ := hc
  have hu : IsUnitary (id : ℚ → ℚ) 2 (fun i j => if i = j then 1 else 0) := by
    constructor <;> intro i j hi hj <;> rw [Finset.sum_range_succ, Finset.sum_range_one] <;>
      (have hi' : i = 0 ∨ i = 1 := by omega) <;> (have hj' : j = 0 ∨ j = 1 := by omega) <;>
      rcases hi' with rfl | rfl <;> rcases hj' with rfl | rfl <;> simp
  refine ⟨fun k hk => ?_, fun k hk => ?_, hu, hu, fun i j hi hj => ?_⟩
  · dsimp only
    split_ifs
    · exact zero_le_one
    · exact h0
  · dsimp only
    have : k = 0 := by simp only [min_self] at hk; omega
    subst this
    simpa using h1
  · rw [min_self, Finset.sum_range_succ, Finset.sum_range_one]
    have hi' : i = 0 ∨ i = 1 := by omega
    have hj' : j = 0 ∨ j = 1 := by omega
    rcases hi' with rfl | rfl <;> rcases hj' with rfl | rfl <;> simp [a1, a2, a3, a4]

/-- **C102** (deviation) the documentation promises `a ai a = a`, and the inverse for an invertible matrix: `diag(1, 1e-16)` is invertible and
`a ai a = diag(1, 0)`, with a correct LAPACK and exact arithmetic. -/
theorem C102_pseudo_inverse_counterexample :
    SvdSpec id id (svdDiag (1 / 10 ^ 16)) ∧
    matPseudoInverse (svdDiag (1 / 10 ^ 16)) (fun _ _ => 10) ⟨2, 2, [7, 7, 7, 7]⟩ ⟨2, 2, [1, 0, 0, 1 / 10 ^ 16]⟩ = ok ⟨2, 2, [1, 0, 0, 0]⟩ ∧
    (!![1, 0; 0, 1 / 10 ^ 16] : Matrix (Fin 2) (Fin 2) ℚ) * !![1, 0; 0, 0] * !![1, 0; 0, 1 / 10 ^ 16] ≠ !![1, 0; 0, 1 / 10 ^ 16] := by
  refine ⟨svdDiag_spec (by norm_num) (by norm_num), by decide +kernel, fun h => ?_⟩
  have := congrFun (congrFun h 1) 1
  simp [Matrix.mul_apply] at this
  norm_num at this

/-- a matrix without tiny singular values -/
example : matPseudoInverse (svdDiag (1 / 2)) (fun _ _ => 10) ⟨2, 2, [7, 7, 7, 7]⟩ ⟨2, 2, [1, 0, 0, 1 / 2]⟩ = ok ⟨2, 2, [1, 0, 0, 2]⟩ := by
  decide +kernel

end Russell.Lab
