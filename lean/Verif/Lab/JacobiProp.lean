import Verif.Lab.Jacobi
import Mathlib.LinearAlgebra.Matrix.NonsingularInverse
import Mathlib.LinearAlgebra.Matrix.Trace
import Mathlib.Analysis.Matrix.Spectrum

/-!
# What the Jacobi rotations compute (C74)
-/

namespace Russell.Lab

open Russell Russell.Res Matrix

/-- Frobenius norm. -/
noncomputable def frob {n : Nat} (M : Matrix (Fin n) (Fin n) ℝ) : ℝ := √(∑ i, ∑ j, M i j ^ 2)

theorem frob_eq_norm {n : Nat} (M : Matrix (Fin n) (Fin n) ℝ) : frob M = ‖WithLp.toLp 2 (fun x : Fin n × Fin n => M x.1 x.2)‖ := by
  rw [EuclideanSpace.norm_eq, frob, Fintype.sum_prod_type]
  simp only [Real.norm_eq_abs, sq_abs]

theorem frob_add {n : Nat} (M N : Matrix (Fin n) (Fin n) ℝ) : frob (M + N) ≤ frob M + frob N := by
  rw [frob_eq_norm, frob_eq_norm, frob_eq_norm]
  exact norm_add_le (WithLp.toLp 2 (fun x : Fin n × Fin n => M x.1 x.2)) (WithLp.toLp 2 (fun x : Fin n × Fin n => N x.1 x.2))

theorem frob_sub {n : Nat} (M N : Matrix (Fin n) (Fin n) ℝ) : frob (M - N) ≤ frob M + frob N := by
  rw [frob_eq_norm, frob_eq_norm, frob_eq_norm]
  exact norm_sub_le (WithLp.toLp 2 (fun x : Fin n × Fin n => M x.1 x.2)) (WithLp.toLp 2 (fun x : Fin n × Fin n => N x.1 x.2))

theorem sum_sq_trace {n : Nat} (M : Matrix (Fin n) (Fin n) ℝ) : ∑ i, ∑ j, M i j ^ 2 = (M * Mᵀ).trace := by
  simp only [Matrix.trace, Matrix.diag, Matrix.mul_apply, Matrix.transpose_apply, pow_two]

/-- Rotations keep the Frobenius norm. -/
theorem frob_conj {n : Nat} (U M : Matrix (Fin n) (Fin n) ℝ) (h : Uᵀ * U = 1) : frob (U * M * Uᵀ) = frob M := by
  rw [frob, frob, sum_sq_trace, sum_sq_trace]
  congr 1
  rw [Matrix.transpose_mul, Matrix.transpose_mul, Matrix.transpose_transpose]
  rw [show U * M * Uᵀ * (U * (Mᵀ * Uᵀ)) = U * (M * (Uᵀ * U) * Mᵀ * Uᵀ) by simp only [Matrix.mul_assoc]]
  rw [h, Matrix.mul_one, Matrix.trace_mul_comm, Matrix.mul_assoc, h, Matrix.mul_one]

theorem frob_le_abs {n : Nat} (M : Matrix (Fin n) (Fin n) ℝ) : frob M ≤ ∑ i, ∑ j, |M i j| := by
  have h0 : ∀ x : Fin n × Fin n, 0 ≤ |M x.1 x.2| := fun x => abs_nonneg _
  have h := Finset.sum_sq_le_sq_sum_of_nonneg (s := Finset.univ) (f := fun x : Fin n × Fin n => |M x.1 x.2|) fun i _ => h0 i
  rw [frob]
  apply Real.sqrt_le_iff.2 ⟨Finset.sum_nonneg fun i _ => Finset.sum_nonneg fun j _ => abs_nonneg _, ?_⟩
  rw [← Fintype.sum_prod_type', ← Fintype.sum_prod_type']
  simpa only [sq_abs] using h

/-! ### The rotation matrix -/

/-- Rotation in the plane of `p` and `q`. -/
def rotM (n : Nat) (p q : Fin n) (c s : ℝ) : Matrix (Fin n) (Fin n) ℝ := fun k j =>
  if j = p then (if k = p then c else 0) + (if k = q then -s else 0)
  else if j = q then (if k = p then s else 0) + (if k = q then c else 0)
  else if k = j then 1 else 0

theorem sum_rotM (n : Nat) (p q : Fin n) (c s : ℝ) (f : Fin n → ℝ) (j : Fin n) :
    ∑ k, f k * rotM n p q c s k j = if j = p then c * f p - s * f q else if j = q then s * f p + c * f q else f j := by
  unfold rotM
  split
  · simp only [mul_add, Finset.sum_add_distrib, mul_ite, mul_zero, Finset.sum_ite_eq', Finset.mem_univ, if_true]
    ring
  · split
    · simp only [mul_add, Finset.sum_add_distrib, mul_ite, mul_zero, Finset.sum_ite_eq', Finset.mem_univ, if_true]
      ring
    · simp only [mul_ite, mul_one, mul_zero, Finset.sum_ite_eq', Finset.mem_univ, if_true]

theorem rotM_orth (n : Nat) (p q : Fin n) (c s : ℝ) (hpq : p ≠ q) (hcs : c * c + s * s = 1) :
    (rotM n p q c s)ᵀ * rotM n p q c s = 1 := by
  ext i j
  rw [Matrix.mul_apply]
  simp only [Matrix.transpose_apply]
  rw [sum_rotM n p q c s (fun k => rotM n p q c s k i) j, Matrix.one_apply]
  unfold rotM
  by_cases hjp : j = p
  · subst hjp
    by_cases hi : i = j
    · subst hi; simp [hpq, hpq.symm]; linarith
    · by_cases hi' : i = q
      · subst hi'; simp [hpq, hpq.symm]; ring
      · simp [hi, hi', Ne.symm hi, Ne.symm hi']
  · by_cases hjq : j = q
    · subst hjq
      by_cases hi : i = p
      · subst hi; simp [hpq, hpq.symm]; ring
      · by_cases hi' : i = j
        · subst hi'; simp [hpq, hpq.symm]; linarith
        · simp [hi, hi', Ne.symm hi, Ne.symm hi', hjp]
    · by_cases hi : i = p
      · subst hi; simp [hjp, hjq, Ne.symm hjp]
      · by_cases hi' : i = q
        · subst hi'; simp [hjp, hjq, Ne.symm hjq, hi]
        · simp [hi, hi', hjp, hjq, eq_comm]

/-- The first `n` rows and columns. -/
def matN (n : Nat) (a : Nat → Nat → ℝ) : Matrix (Fin n) (Fin n) ℝ := fun i j => a i j

/-- The error of one rotation: nothing but in the block of `p` and `q`. -/
def errM (n : Nat) (p q : Fin n) (x y : ℝ) : Matrix (Fin n) (Fin n) ℝ := fun i j =>
  (if i = p then (if j = p then x else 0) + (if j = q then y else 0) else 0) +
  (if i = q then (if j = p then y else 0) + (if j = q then -x else 0) else 0)

theorem frob_errM (n : Nat) (p q : Fin n) (x y : ℝ) (hpq : p ≠ q) : frob (errM n p q x y) = √(2 * (x ^ 2 + y ^ 2)) := by
  rw [frob]
  congr 1
  have : ∀ i j, errM n p q x y i j ^ 2 = (if i = p then (if j = p then x ^ 2 else 0) + (if j = q then y ^ 2 else 0) else 0) +
      (if i = q then (if j = p then y ^ 2 else 0) + (if j = q then x ^ 2 else 0) else 0) := by
    intro i j
    unfold errM
    by_cases h1 : i = p
    · subst h1
      by_cases h2 : j = i
      · subst h2; simp [hpq]
      · by_cases h3 : j = q <;> simp [h2, h3, hpq, hpq.symm]
    · by_cases h1' : i = q
      · subst h1'
        by_cases h2 : j = i
        · subst h2; simp [hpq.symm]
        · by_cases h3 : j = p <;> simp [h2, h3, hpq.symm, hpq]
      · simp [h1, h1']
  simp only [this, Finset.sum_add_distrib]
  have e : ∀ (r : Fin n) (g : Fin n → ℝ), ∑ i, ∑ j, (if i = r then g j else 0) = ∑ j, g j := by
    intro r g
    rw [Finset.sum_comm]
    simp only [Finset.sum_ite_eq', Finset.mem_univ, if_true]
  rw [e p (fun j => (if j = p then x ^ 2 else 0) + (if j = q then y ^ 2 else 0)),
    e q (fun j => (if j = p then y ^ 2 else 0) + (if j = q then x ^ 2 else 0))]
  simp only [Finset.sum_add_distrib, Finset.sum_ite_eq', Finset.mem_univ, if_true]
  ring

theorem jacobiTan_sol (h apq : ℝ) (hh : ¬ |h| ≤ jacobiTol) : apq * (1 - jacobiTan h apq * jacobiTan h apq) = jacobiTan h apq * h := by
  unfold jacobiTan
  rw [if_neg hh]
  split
  · rename_i h0
    rw [h0]; ring
  · rename_i h0
    obtain ⟨th, hth⟩ : ∃ th, th = 0.5 * h / apq := ⟨_, rfl⟩
    have hh2 : h = 2 * th * apq := by rw [hth]; field_simp; ring
    simp only [← hth]
    have hp : 0 < 1 + th * th := by nlinarith [mul_self_nonneg th]
    have hs := Real.mul_self_sqrt hp.le
    have hsp : 0 < √(1 + th * th) := Real.sqrt_pos.2 hp
    generalize √(1 + th * th) = r at hs hsp
    split
    · rename_i hneg
      rw [abs_of_neg hneg, hh2]
      have : (-th + r) ≠ 0 := by linarith
      field_simp
      linear_combination hs
    · rename_i hpos
      rw [abs_of_nonneg (not_lt.1 hpos), hh2]
      have : (th + r) ≠ 0 := by have := not_lt.1 hpos; positivity
      field_simp
      linear_combination hs

/-- A rotation of the iterations is the orthogonal similarity with `rotM`, but for an error not above the tolerance. -/
theorem rotate_mat (n : Nat) (p q : Fin n) (S : JState) (hpq : p.1 < q.1) : ∃ c s : ℝ, c * c + s * s = 1 ∧ ∃ e : Matrix (Fin n) (Fin n) ℝ,
    frob e ≤ jacobiTol ∧
    matN n (jacobiRotate n p q S).sym = (rotM n p q c s)ᵀ * matN n S.sym * rotM n p q c s + e ∧
    matN n (jacobiRotate n p q S).v = matN n S.v * rotM n p q c s := by
  obtain ⟨t, c, s, tau, hr, ht, h1, h2, h3, h4, h5, h6, h7, h8, h9, -⟩ := rotate_sym n p q S hpq q.2
  have hcs : c * c + s * s = 1 := by rw [hr.s_eq]; linear_combination hr.unit
  have hne : p ≠ q := fun e => by rw [e] at hpq; omega
  have hnp : p.1 ≠ q.1 := by omega
  refine ⟨c, s, hcs, ?_⟩
  obtain ⟨D, hD⟩ : ∃ D, D = S.a p q * (1 - t * t) - t * (S.l q - S.l p) := ⟨_, rfl⟩
  refine ⟨errM n p q (t * c * c * D) (-(c * c * D)), ?_, ?_, ?_⟩
  · rw [frob_errM _ _ _ _ _ hne]
    have e1 : 2 * ((t * c * c * D) ^ 2 + (-(c * c * D)) ^ 2) = 2 * (c * c) * D ^ 2 := by
      linear_combination 2 * (c * c) * D ^ 2 * hr.unit
    rw [e1]
    have tpos : 0 < jacobiTol := by unfold jacobiTol; norm_num
    by_cases hh : |S.l q - S.l p| ≤ jacobiTol
    · have t1 : t = 1 := by rw [ht, jacobiTan, if_pos hh]
      have hc2 : c * c = 1 / 2 := by have := hr.unit; rw [t1] at this; linarith
      rw [hc2]
      have : 2 * (1 / 2) * D ^ 2 = |S.l q - S.l p| ^ 2 := by rw [hD, t1, sq_abs]; ring
      rw [this, Real.sqrt_sq (abs_nonneg _)]
      exact hh
    · have := jacobiTan_sol _ (S.a p q) hh
      rw [← ht] at this
      have D0 : D = 0 := by rw [hD, this]; ring
      rw [D0]
      simp [tpos.le]
  · ext i j
    rw [Matrix.add_apply, Matrix.mul_apply, sum_rotM]
    have row : ∀ k, ((rotM n p q c s)ᵀ * matN n S.sym) i k =
        if i = p then c * S.sym p k - s * S.sym q k else if i = q then s * S.sym p k + c * S.sym q k else S.sym i k := by
      intro k
      rw [Matrix.mul_apply, ← sum_rotM n p q c s (fun x => S.sym x k) i]
      exact Finset.sum_congr rfl fun x _ => mul_comm _ _
    rw [row, row, row]
    have spp : S.sym p p = S.l p := if_pos rfl
    have sqq : S.sym q q = S.l q := if_pos rfl
    have spq : S.sym p q = S.a p q := sym_lt S hpq
    have sqp : S.sym q p = S.a p q := sym_gt S hpq
    have hu := hr.unit
    show (jacobiRotate n p q S).sym i j = _
    have val : ∀ x : Fin n, x ≠ p → x.1 ≠ p.1 := fun x hx he => hx (Fin.ext he)
    have val' : ∀ x : Fin n, x ≠ q → x.1 ≠ q.1 := fun x hx he => hx (Fin.ext he)
    by_cases hi : i = p
    · subst hi
      by_cases hj : j = i
      · subst hj
        simp only [if_true, errM, hne, if_false, h1, spp, sqq, spq, sqp, hD, hr.s_eq]
        linear_combination (-(S.l j) + t * S.a j q) * hu
      · by_cases hj' : j = q
        · subst hj'
          simp only [if_true, errM, hne, hj, if_false, h3, spp, sqq, spq, sqp, hD, hr.s_eq]
          ring
        · simp only [if_true, errM, hne, hj, hj', if_false]
          rw [sym_comm, h4 j j.2 (val j hj) (val' j hj'), sym_comm S j, sym_comm S j]
          ring
    · by_cases hi' : i = q
      · subst hi'
        by_cases hj : j = p
        · subst hj
          simp only [if_true, errM, hne, hne.symm, if_false, spp, sqq, spq, sqp, hD, hr.s_eq]
          rw [sym_comm, h3]
          ring
        · by_cases hj' : j = i
          · subst hj'
            simp only [if_true, errM, hj, if_false, h2, spp, sqq, spq, sqp, hD, hr.s_eq]
            linear_combination (-(S.l j) - t * S.a p j) * hu
          · simp only [if_true, errM, hi, hj, hj', if_false]
            rw [sym_comm, h5 j j.2 (val j hj) (val' j hj'), sym_comm S j, sym_comm S j]
            ring
      · by_cases hj : j = p
        · subst hj
          simp only [if_true, errM, hi, hi', if_false]
          rw [h4 i i.2 (val i hi) (val' i hi')]
          ring
        · by_cases hj' : j = q
          · subst hj'
            simp only [if_true, errM, hi, hi', hj, if_false]
            rw [h5 i i.2 (val i hi) (val' i hi')]
            ring
          · simp only [errM, hi, hi', hj, hj', if_false]
            rw [h6 i j i.2 j.2 (val i hi) (val' i hi') (val j hj) (val' j hj')]
            ring
  · ext i j
    rw [Matrix.mul_apply, sum_rotM]
    show (jacobiRotate n p q S).v i j = _
    by_cases hj : j = p
    · subst hj
      rw [if_pos rfl, h7 i i.2]
      rfl
    · rw [if_neg hj]
      by_cases hj' : j = q
      · subst hj'
        rw [if_pos rfl, h8 i i.2]
        rfl
      · rw [if_neg hj', h9 i j (fun he => hj (Fin.ext he)) (fun he => hj' (Fin.ext he))]
        rfl

/-! ### All iterations -/

/-- What holds after `m` rotations. -/
structure JInv (n : Nat) (A : Matrix (Fin n) (Fin n) ℝ) (b : Nat → ℝ) (m : Nat) (S : JState) : Prop where
  orth : (matN n S.v)ᵀ * matN n S.v = 1
  near : frob (A - matN n S.v * matN n S.sym * (matN n S.v)ᵀ) ≤ m * jacobiTol
  lbz : ∀ i, S.l i = b i + S.z i
  tr : ∑ i : Fin n, S.l i = A.trace

theorem JInv.rotate {n : Nat} {A : Matrix (Fin n) (Fin n) ℝ} {b : Nat → ℝ} {m : Nat} {S : JState} (h : JInv n A b m S) (p q : Nat)
    (hpq : p < q) (hq : q < n) : JInv n A b (m + 1) (jacobiRotate n p q S) := by
  obtain ⟨c, s, hcs, e, he, h1, h2⟩ := rotate_mat n ⟨p, by omega⟩ ⟨q, hq⟩ S hpq
  simp only at h1 h2
  have hR := rotM_orth n ⟨p, by omega⟩ ⟨q, hq⟩ c s (by simp; omega) hcs
  generalize rotM n ⟨p, by omega⟩ ⟨q, hq⟩ c s = R at h1 h2 hR
  have hR' : R * Rᵀ = 1 := mul_eq_one_comm.1 hR
  have hV : (matN n S.v * R)ᵀ * (matN n S.v * R) = 1 := by
    rw [Matrix.transpose_mul, Matrix.mul_assoc, ← Matrix.mul_assoc (matN n S.v)ᵀ, h.orth, Matrix.one_mul, hR]
  refine ⟨by rw [h2]; exact hV, ?_, ?_, ?_⟩
  · rw [h1, h2]
    have : A - matN n S.v * R * (Rᵀ * matN n S.sym * R + e) * (matN n S.v * R)ᵀ =
        (A - matN n S.v * matN n S.sym * (matN n S.v)ᵀ) - matN n S.v * R * e * (matN n S.v * R)ᵀ := by
      rw [Matrix.mul_add, Matrix.add_mul, ← sub_sub]
      congr 2
      rw [Matrix.transpose_mul]
      rw [show matN n S.v * R * (Rᵀ * matN n S.sym * R) * (Rᵀ * (matN n S.v)ᵀ) =
        matN n S.v * (R * Rᵀ) * matN n S.sym * (R * Rᵀ) * (matN n S.v)ᵀ by simp only [Matrix.mul_assoc]]
      rw [hR', Matrix.mul_one, Matrix.mul_one]
    rw [this]
    refine (frob_sub _ _).trans ?_
    rw [frob_conj _ _ hV]
    have := h.near
    push_cast
    linarith
  · obtain ⟨_, _, _, _, _, _, _, _, _, _, _, _, _, _, _, h10⟩ := rotate_sym n p q S hpq hq
    intro i
    have := h10 i
    have := h.lbz i
    linarith
  · obtain ⟨t, _, _, _, _, _, d1, d2, _, _, _, d3, _⟩ := rotate_sym n p q S hpq hq
    rw [← h.tr, ← sub_eq_zero, ← Finset.sum_sub_distrib]
    have e : ∀ i, (jacobiRotate n p q S).sym i i = (jacobiRotate n p q S).l i := fun i => if_pos rfl
    rw [e] at d1 d2
    rw [Fintype.sum_eq_add (⟨p, by omega⟩ : Fin n) ⟨q, hq⟩ (by simp; omega)]
    · simp only
      rw [d1, d2]
      ring
    · rintro x ⟨x1, x2⟩
      have x1' : x.1 ≠ p := fun he => x1 (Fin.ext he)
      have x2' : x.1 ≠ q := fun he => x2 (Fin.ext he)
      have := d3 x x x.2 x.2 x1' x2' x1' x2'
      rw [e, JState.sym, if_pos rfl] at this
      rw [this, sub_self]

theorem sweep_inv {n : Nat} {A : Matrix (Fin n) (Fin n) ℝ} {b : Nat → ℝ} {m : Nat} {S : JState} (h : JInv n A b m S) :
    JInv n A b (m + n * (n - 1) / 2) (jacobiSweep n S) := by
  have key := loop_inv (fun p S => JInv n A b (m + ∑ k ∈ Finset.range p, (n - 1 - k)) S) 0 (n - 1) S
    (fun p S => loop (p + 1) n S fun q S => jacobiRotate n p q S) (by omega) (by simpa using h) (by
      intro p S _ hp hS
      have := loop_inv (fun q S => JInv n A b (m + ∑ k ∈ Finset.range p, (n - 1 - k) + (q - (p + 1))) S) (p + 1) n S
        (fun q S => jacobiRotate n p q S) (by omega) (by simpa using hS) (by
          intro q S h1 h2 hS
          rw [show q + 1 - (p + 1) = q - (p + 1) + 1 by omega, ← add_assoc]
          exact hS.rotate p q (by omega) h2)
      rw [Finset.sum_range_succ, ← add_assoc, show n - 1 - p = n - (p + 1) by omega]
      exact this)
  have hsum : ∑ k ∈ Finset.range (n - 1), (n - 1 - k) = n * (n - 1) / 2 := by
    rcases n with _ | n
    · simp
    · have := Finset.sum_range_reflect (fun k => k + 1) n
      have e : ∑ k ∈ Finset.range n, (n - k) = ∑ k ∈ Finset.range n, (n - 1 - k + 1) :=
        Finset.sum_congr rfl fun k hk => by have := Finset.mem_range.1 hk; omega
      rw [show n + 1 - 1 = n by omega, e, this]
      have g := Finset.sum_range_id_mul_two (n + 1)
      rw [Finset.sum_range_succ'] at g
      simp only [add_zero, Nat.add_sub_cancel] at g
      omega
  rw [hsum] at key
  exact key

/-- The end of an iteration leaves `l` and the matrices as they are. -/
theorem flush_inv {n : Nat} {A : Matrix (Fin n) (Fin n) ℝ} {b : Nat → ℝ} {m : Nat} {S : JState} (h : JInv n A b m S) :
    let r := loop 0 n (b, S) fun p r =>
        let b := putv r.1 p (r.1 p + r.2.z p)
        (b, { r.2 with l := putv r.2.l p (b p), z := putv r.2.z p 0 })
    JInv n A r.1 m r.2 ∧ r.2.a = S.a ∧ r.2.v = S.v ∧ r.2.l = S.l := by
  refine loop_inv (fun _ (r : (Nat → ℝ) × JState) => JInv n A r.1 m r.2 ∧ r.2.a = S.a ∧ r.2.v = S.v ∧ r.2.l = S.l) 0 n (b, S) _ (by omega)
    ⟨h, rfl, rfl, rfl⟩ ?_
  rintro p ⟨b, T⟩ - - ⟨hT, ha, hv, hl⟩
  have e : putv T.l p (b p + T.z p) = T.l := by
    funext i
    unfold putv
    split
    · rename_i hi; rw [hi, hT.lbz p]
    · rfl
  have e2 : putv b p (b p + T.z p) p = b p + T.z p := by simp [putv]
  simp only [e2, e]
  refine ⟨⟨hT.orth, hT.near, fun i => ?_, hT.tr⟩, ha, hv, hl⟩
  have := hT.lbz i
  simp only [putv]
  split
  · rename_i hi; rw [hi] at this ⊢; simpa using this
  · exact this

theorem jacobiOff_eq (n : Nat) (a : Arr2 ℝ) : jacobiOff n a = ∑ p ∈ Finset.range (n - 1), ∑ q ∈ Finset.Ico (p + 1) n, |a p q| := by
  refine loop_inv (fun p (sm : ℝ) => sm = ∑ k ∈ Finset.range p, ∑ q ∈ Finset.Ico (k + 1) n, |a k q|) 0 (n - 1) 0
    (fun p sm => loop (p + 1) n sm fun q sm => sm + |a p q|) (by omega) (by simp) ?_
  intro p sm _ hp hs
  rw [Finset.sum_range_succ, ← hs]
  refine loop_inv (fun q (x : ℝ) => x = sm + ∑ q ∈ Finset.Ico (p + 1) q, |a p q|) (p + 1) n sm (fun q sm => sm + |a p q|) (by omega)
    (by simp) ?_
  intro q x h1 h2 hx
  rw [Finset.sum_Ico_succ_top h1, hx]
  ring

/-- The sum of the off-diagonal elements of the symmetric matrix. -/
theorem off_sum (n : Nat) (S : JState) : ∑ i : Fin n, ∑ j : Fin n, |(matN n S.sym - Matrix.diagonal fun i : Fin n => S.l i) i j| = 2 * jacobiOff n S.a := by
  have e : ∀ i j : Fin n, |(matN n S.sym - Matrix.diagonal fun i : Fin n => S.l i) i j| =
      (if i.1 < j.1 then |S.a i j| else 0) + (if j.1 < i.1 then |S.a j i| else 0) := by
    intro i j
    rw [Matrix.sub_apply]
    show |S.sym i j - _| = _
    rcases lt_trichotomy i.1 j.1 with h | h | h
    · rw [sym_lt S h, Matrix.diagonal_apply_ne _ (fun he => by rw [he] at h; omega), if_pos h, if_neg (by omega)]
      simp
    · have : i = j := Fin.ext h
      subst this
      simp [JState.sym]
    · rw [sym_gt S h, Matrix.diagonal_apply_ne _ (fun he => by rw [he] at h; omega), if_pos h, if_neg (by omega)]
      simp
  simp only [e, Finset.sum_add_distrib]
  rw [Finset.sum_comm (f := fun i j : Fin n => if j.1 < i.1 then |S.a j i| else 0), ← two_mul]
  congr 1
  rw [jacobiOff_eq]
  have f : ∀ i : Fin n, ∑ j : Fin n, (if i.1 < j.1 then |S.a i j| else 0) = ∑ q ∈ Finset.Ico (i.1 + 1) n, |S.a i q| := by
    intro i
    rw [Fin.sum_univ_eq_sum_range (fun j => if i.1 < j then |S.a i j| else 0) n, ← Finset.sum_filter]
    refine Finset.sum_congr ?_ fun _ _ => rfl
    ext x
    simp only [Finset.mem_filter, Finset.mem_range, Finset.mem_Ico]
    omega
  simp only [f]
  rw [Fin.sum_univ_eq_sum_range (fun i => ∑ q ∈ Finset.Ico (i + 1) n, |S.a i q|) n]
  rcases n with _ | n
  · simp
  · rw [Finset.sum_range_succ]
    simp

theorem jacobiIter_ok {n : Nat} {A : Matrix (Fin n) (Fin n) ℝ} : ∀ (left it : Nat) (b : Nat → ℝ) (S : JState) (k : Nat) (T : JState),
    JInv n A b (it * (n * (n - 1) / 2)) S → jacobiIter n left it b S = ok (k, T) →
    it < k ∧ k ≤ it + left ∧ (∃ b', JInv n A b' ((k - 1) * (n * (n - 1) / 2)) T) ∧ jacobiOff n T.a < jacobiTol
  | 0, it, b, S, k, T, _, h => by simp [jacobiIter] at h
  | left + 1, it, b, S, k, T, hI, h => by
    rw [jacobiIter] at h
    split at h
    · rename_i hoff
      have := Res.ok.inj h
      obtain ⟨h1, h2⟩ := Prod.ext_iff.1 this
      simp only at h1 h2
      subst h1 h2
      exact ⟨by omega, by omega, ⟨b, by simpa using hI⟩, hoff⟩
    · have hs := sweep_inv hI
      have hf := (flush_inv hs).1
      rw [show it * (n * (n - 1) / 2) + n * (n - 1) / 2 = (it + 1) * (n * (n - 1) / 2) by ring] at hf
      obtain ⟨h1, h2, h3, h4⟩ := jacobiIter_ok left (it + 1) _ _ k T hf h
      exact ⟨by omega, by omega, h3, h4⟩

/-- The symmetric matrix whose upper triangle is that of `a`. -/
def upperSym (n : Nat) (a : Nat → Nat → ℝ) : Matrix (Fin n) (Fin n) ℝ := fun i j => a (min i j) (max i j)

/-- If `mat_eigen_sym_jacobi` returns, it has made no more than 20 iterations, the columns of `v` are orthonormal, and the symmetric matrix that has
the upper triangle of `a` is `v diag(l) vᵀ` but for an error whose Frobenius norm is within one tolerance for each rotation, and two. The sum of `l`
is the trace. -/
theorem C74_decomposition (ldim mm nn m n : Nat) (a : Arr2 ℝ) (k : Nat) (l : Nat → ℝ) (v : Arr2 ℝ)
    (h : matEigenSymJacobi ldim mm nn m n a = ok (k, l, v)) :
    1 ≤ k ∧ k ≤ 20 ∧
    (∀ i j : Fin n, ∑ r : Fin n, v r i * v r j = if i = j then 1 else 0) ∧
    (∀ i j : Fin n, ∑ r : Fin n, v i r * v j r = if i = j then 1 else 0) ∧
    √(∑ i : Fin n, ∑ j : Fin n, (a (min i j) (max i j) - ∑ r : Fin n, l r * v i r * v j r) ^ 2)
      ≤ ((k - 1 : ℝ) * (n * (n - 1) / 2) + 2) * 1e-15 ∧
    ∑ i : Fin n, l i = ∑ i : Fin n, a i i := by
  unfold matEigenSymJacobi at h
  split at h; · cases h
  split at h; · cases h
  split at h; · cases h
  split at h; · cases h
  obtain ⟨⟨k', T⟩, h1, h2⟩ := Res.bind_eq_ok.1 h
  obtain ⟨rfl, h3⟩ := Prod.ext_iff.1 (Res.ok.inj h2)
  obtain ⟨rfl, rfl⟩ := Prod.ext_iff.1 h3
  simp only
  have hone : matN n (fun p q => if p = q then (1 : ℝ) else 0) = 1 := by
    ext i j
    simp [matN, Matrix.one_apply, Fin.ext_iff]
  have hsym : matN n (JState.mk a (fun p q => if p = q then (1 : ℝ) else 0) (fun p => a p p) (fun _ => 0)).sym = upperSym n a := by
    ext i j
    show JState.sym _ _ _ = a (min i j) (max i j)
    rw [JState.sym]
    split
    · rename_i he; rw [he]; simp
    · rfl
  have hinv : JInv n (upperSym n a) (fun p => a p p) (0 * (n * (n - 1) / 2))
      ⟨a, fun p q => if p = q then (1 : ℝ) else 0, fun p => a p p, fun _ => 0⟩ := by
    refine ⟨?_, ?_, ?_, ?_⟩
    · simp only [hone]; simp
    · simp only [hone, hsym]
      simp [frob]
    · simp
    · simp [Matrix.trace, upperSym]
  obtain ⟨g1, g2, ⟨b', g3⟩, g4⟩ := jacobiIter_ok _ _ _ _ _ _ hinv h1
  have horth := g3.orth
  have horth' : matN n T.v * (matN n T.v)ᵀ = 1 := mul_eq_one_comm.1 horth
  refine ⟨g1, by simpa [jacobiMaxIterations] using g2, fun i j => ?_, fun i j => ?_, ?_, ?_⟩
  · have := congrFun (congrFun horth i) j
    rw [Matrix.mul_apply, Matrix.one_apply] at this
    exact this
  · have := congrFun (congrFun horth' i) j
    rw [Matrix.mul_apply, Matrix.one_apply] at this
    exact this
  · have e : √(∑ i : Fin n, ∑ j : Fin n, (a (min i j) (max i j) - ∑ r : Fin n, T.l r * T.v i r * T.v j r) ^ 2) =
        frob (upperSym n a - matN n T.v * (Matrix.diagonal fun i : Fin n => T.l i) * (matN n T.v)ᵀ) := by
      rw [frob]
      congr 1
      refine Finset.sum_congr rfl fun i _ => Finset.sum_congr rfl fun j _ => ?_
      rw [Matrix.sub_apply, Matrix.mul_apply]
      simp only [Matrix.mul_diagonal]
      congr 2
      exact Finset.sum_congr rfl fun r _ => by simp only [matN, Matrix.transpose_apply]; ring
    rw [e]
    have split2 : upperSym n a - matN n T.v * (Matrix.diagonal fun i : Fin n => T.l i) * (matN n T.v)ᵀ =
        (upperSym n a - matN n T.v * matN n T.sym * (matN n T.v)ᵀ) +
        matN n T.v * (matN n T.sym - Matrix.diagonal fun i : Fin n => T.l i) * (matN n T.v)ᵀ := by
      rw [Matrix.mul_sub, Matrix.sub_mul]
      abel
    rw [split2]
    refine (frob_add _ _).trans ?_
    rw [frob_conj _ _ horth]
    have b1 := g3.near
    have b2 := frob_le_abs (matN n T.sym - Matrix.diagonal fun i : Fin n => T.l i)
    rw [off_sum] at b2
    have tol : jacobiTol = 1e-15 := rfl
    have cast : (((k' - 1) * (n * (n - 1) / 2) : ℕ) : ℝ) = (k' - 1 : ℝ) * (n * (n - 1) / 2) := by
      have hk : 1 ≤ k' := g1
      rw [Nat.cast_mul, Nat.cast_sub hk, Nat.cast_div (even_iff_two_dvd.1 (Nat.even_mul_pred_self n)) (by norm_num)]
      have hn : 1 ≤ n := by omega
      rw [Nat.cast_mul, Nat.cast_sub hn]
      norm_num
    rw [cast, tol] at b1
    rw [tol] at g4
    linarith
  · rw [g3.tr]
    simp [Matrix.trace, upperSym]

/-! ### Eigenvalues and eigenvectors -/

theorem mulVec_frob {n : Nat} (M : Matrix (Fin n) (Fin n) ℝ) (x : Fin n → ℝ) : ∑ i, (M *ᵥ x) i ^ 2 ≤ frob M ^ 2 * ∑ i, x i ^ 2 := by
  have h0 : 0 ≤ ∑ i, ∑ j, M i j ^ 2 := Finset.sum_nonneg fun i _ => Finset.sum_nonneg fun j _ => sq_nonneg (M i j)
  rw [frob, Real.sq_sqrt h0, Finset.sum_mul]
  exact Finset.sum_le_sum fun i _ => Finset.sum_mul_sq_le_sq_mul_sq Finset.univ (M i) x

theorem norm_orth {n : Nat} (U : Matrix (Fin n) (Fin n) ℝ) (h : Uᵀ * U = 1) (x : Fin n → ℝ) : ∑ i, (U *ᵥ x) i ^ 2 = ∑ i, x i ^ 2 := by
  have e : ∀ y : Fin n → ℝ, ∑ i, y i ^ 2 = y ⬝ᵥ y := fun y => Finset.sum_congr rfl fun i _ => pow_two _
  rw [e, e, Matrix.dotProduct_mulVec, Matrix.vecMul_mulVec, h, Matrix.vecMul_one]

/-- A vector that a symmetric matrix nearly scales shows an eigenvalue near to the factor. -/
theorem near_eig {n : Nat} (U : Matrix (Fin n) (Fin n) ℝ) (h : Uᵀ * U = 1) (d : Fin n → ℝ) (x : Fin n → ℝ) (hx : x ≠ 0) (mu eps : ℝ)
    (he : 0 ≤ eps) (hb : ∑ i, ((U * Matrix.diagonal d * Uᵀ) *ᵥ x - mu • x) i ^ 2 ≤ eps ^ 2 * ∑ i, x i ^ 2) : ∃ p, |d p - mu| ≤ eps := by
  by_contra hc
  push Not at hc
  have h' : U * Uᵀ = 1 := mul_eq_one_comm.1 h
  have hT : Uᵀᵀ * Uᵀ = 1 := by rw [Matrix.transpose_transpose, h']
  obtain ⟨y, hy⟩ : ∃ y, y = Uᵀ *ᵥ x := ⟨_, rfl⟩
  have e1 : Uᵀ *ᵥ ((U * Matrix.diagonal d * Uᵀ) *ᵥ x - mu • x) = fun i => (d i - mu) * y i := by
    rw [Matrix.mulVec_sub, Matrix.mulVec_smul, ← hy, Matrix.mulVec_mulVec, ← Matrix.mul_assoc, ← Matrix.mul_assoc, h, Matrix.one_mul,
      ← Matrix.mulVec_mulVec, ← hy]
    funext i
    rw [Pi.sub_apply, Matrix.mulVec_diagonal, Pi.smul_apply, smul_eq_mul]
    ring
  rw [← norm_orth Uᵀ hT, e1, ← norm_orth Uᵀ hT x, ← hy, Finset.mul_sum] at hb
  have hy0 : ∃ p, y p ≠ 0 := by
    by_contra hall
    push Not at hall
    have : y = 0 := funext hall
    apply hx
    have : U *ᵥ y = x := by rw [hy, Matrix.mulVec_mulVec, h', Matrix.one_mulVec]
    rw [← this, funext hall]
    exact Matrix.mulVec_zero _
  obtain ⟨p, hp⟩ := hy0
  have sq : ∀ p, eps ^ 2 < (d p - mu) ^ 2 := fun p => by
    rw [← sq_abs (d p - mu)]
    exact pow_lt_pow_left₀ (hc p) he (by norm_num)
  refine absurd hb (not_le.2 (Finset.sum_lt_sum (fun i _ => ?_) ⟨p, Finset.mem_univ p, ?_⟩))
  · rw [mul_pow]
    exact mul_le_mul_of_nonneg_right (sq i).le (sq_nonneg _)
  · rw [mul_pow]
    exact mul_lt_mul_of_pos_right (sq p) (by positivity)

/-- What `C74_decomposition` says, in terms of matrices. -/
theorem C74_decomposition' (ldim mm nn m n : Nat) (a : Arr2 ℝ) (k : Nat) (l : Nat → ℝ) (v : Arr2 ℝ)
    (h : matEigenSymJacobi ldim mm nn m n a = ok (k, l, v)) : (matN n v)ᵀ * matN n v = 1 ∧
    frob (upperSym n a - matN n v * (Matrix.diagonal fun i : Fin n => l i) * (matN n v)ᵀ) ≤ ((k - 1 : ℝ) * (n * (n - 1) / 2) + 2) * 1e-15 := by
  obtain ⟨-, -, h1, -, h2, -⟩ := C74_decomposition ldim mm nn m n a k l v h
  constructor
  · ext i j
    rw [Matrix.mul_apply, Matrix.one_apply]
    exact h1 i j
  · refine le_trans (le_of_eq ?_) h2
    rw [frob]
    congr 1
    refine Finset.sum_congr rfl fun i _ => Finset.sum_congr rfl fun j _ => ?_
    rw [Matrix.sub_apply, Matrix.mul_apply]
    simp only [Matrix.mul_diagonal]
    congr 2
    exact Finset.sum_congr rfl fun r _ => by simp only [matN, Matrix.transpose_apply]; ring

/-- The columns of `v` are nearly eigenvectors, of norm one, with the eigenvalues `l`. -/
theorem C74_eigenvectors (ldim mm nn m n : Nat) (a : Arr2 ℝ) (k : Nat) (l : Nat → ℝ) (v : Arr2 ℝ)
    (h : matEigenSymJacobi ldim mm nn m n a = ok (k, l, v)) (p : Fin n) :
    √(∑ i : Fin n, (∑ j : Fin n, a (min i j) (max i j) * v j p - l p * v i p) ^ 2) ≤ ((k - 1 : ℝ) * (n * (n - 1) / 2) + 2) * 1e-15 := by
  obtain ⟨ho, hf⟩ := C74_decomposition' ldim mm nn m n a k l v h
  obtain ⟨E, hE⟩ : ∃ E, E = upperSym n a - matN n v * (Matrix.diagonal fun i : Fin n => l i) * (matN n v)ᵀ := ⟨_, rfl⟩
  rw [← hE] at hf
  have e : ∀ i : Fin n, ∑ j : Fin n, a (min i j) (max i j) * v j p - l p * v i p = (E *ᵥ (matN n v).col p) i := by
    intro i
    have e1 : (matN n v)ᵀ *ᵥ (matN n v).col p = Pi.single p 1 := by
      funext r
      have := congrFun (congrFun ho r) p
      rw [Matrix.mul_apply, Matrix.one_apply] at this
      rw [Pi.single_apply]
      exact this
    rw [hE, Matrix.sub_mulVec, ← Matrix.mulVec_mulVec, e1, ← Matrix.mulVec_mulVec, Pi.sub_apply]
    congr 1
    rw [Matrix.diagonal_mulVec_single, Matrix.mulVec_single]
    simp only [mul_one, Pi.smul_apply]
    simp [Matrix.col, matN, mul_comm]
  simp only [e]
  refine Real.sqrt_le_iff.2 ⟨le_trans (Real.sqrt_nonneg _) hf, (mulVec_frob _ _).trans ?_⟩
  have e2 : ∑ i, (matN n v).col p i ^ 2 = 1 := by
    have := congrFun (congrFun ho p) p
    rw [Matrix.mul_apply, Matrix.one_apply, if_pos rfl] at this
    rw [← this]
    exact Finset.sum_congr rfl fun i _ => pow_two _
  rw [e2, mul_one]
  exact pow_le_pow_left₀ (Real.sqrt_nonneg _) hf 2

/-- Every eigenvalue is near to one of `l`. -/
theorem C74_all_eigenvalues (ldim mm nn m n : Nat) (a : Arr2 ℝ) (k : Nat) (l : Nat → ℝ) (v : Arr2 ℝ)
    (h : matEigenSymJacobi ldim mm nn m n a = ok (k, l, v)) (mu : ℝ) (x : Fin n → ℝ) (hx : x ≠ 0)
    (hmu : ∀ i : Fin n, ∑ j : Fin n, a (min i j) (max i j) * x j = mu * x i) :
    ∃ p : Fin n, |l p - mu| ≤ ((k - 1 : ℝ) * (n * (n - 1) / 2) + 2) * 1e-15 := by
  obtain ⟨ho, hf⟩ := C74_decomposition' ldim mm nn m n a k l v h
  have h0 := le_trans (Real.sqrt_nonneg _) hf
  refine near_eig (matN n v) ho (fun i : Fin n => l i) x hx mu _ h0 ?_
  have e : (matN n v * (Matrix.diagonal fun i : Fin n => l i) * (matN n v)ᵀ) *ᵥ x - mu • x =
      - ((upperSym n a - matN n v * (Matrix.diagonal fun i : Fin n => l i) * (matN n v)ᵀ) *ᵥ x) := by
    have : mu • x = upperSym n a *ᵥ x := by
      funext i
      rw [Pi.smul_apply, smul_eq_mul, ← hmu i]
      rfl
    rw [this, Matrix.sub_mulVec, neg_sub]
  rw [e]
  simp only [Pi.neg_apply, neg_sq]
  refine (mulVec_frob _ _).trans (mul_le_mul_of_nonneg_right ?_ (Finset.sum_nonneg fun i _ => sq_nonneg _))
  exact pow_le_pow_left₀ (Real.sqrt_nonneg _) hf 2

/-- Each of `l` is near to an eigenvalue. -/
theorem C74_each_eigenvalue (ldim mm nn m n : Nat) (a : Arr2 ℝ) (k : Nat) (l : Nat → ℝ) (v : Arr2 ℝ)
    (h : matEigenSymJacobi ldim mm nn m n a = ok (k, l, v)) (p : Fin n) :
    ∃ mu : ℝ, ∃ x : Fin n → ℝ, x ≠ 0 ∧ (∀ i : Fin n, ∑ j : Fin n, a (min i j) (max i j) * x j = mu * x i) ∧
      |mu - l p| ≤ ((k - 1 : ℝ) * (n * (n - 1) / 2) + 2) * 1e-15 := by
  have hv := C74_eigenvectors ldim mm nn m n a k l v h p
  obtain ⟨ho, -⟩ := C74_decomposition' ldim mm nn m n a k l v h
  have hA : (upperSym n a).IsHermitian := by
    ext i j
    rw [Matrix.conjTranspose_apply, star_trivial]
    show a (min j i) (max j i) = a (min i j) (max i j)
    rw [min_comm, max_comm]
  obtain ⟨U, hU⟩ : ∃ U : Matrix (Fin n) (Fin n) ℝ, U = (hA.eigenvectorUnitary : Matrix (Fin n) (Fin n) ℝ) := ⟨_, rfl⟩
  have hs : Uᵀ = star U := by
    ext i j
    rw [Matrix.star_apply, star_trivial, Matrix.transpose_apply]
  have hUo : Uᵀ * U = 1 := by
    rw [hs, hU]
    exact (Unitary.mem_iff.1 hA.eigenvectorUnitary.2).1
  have hsp : upperSym n a = U * Matrix.diagonal hA.eigenvalues * Uᵀ := by
    rw [hs, hU]
    have := hA.spectral_theorem
    rw [Unitary.conjStarAlgAut_apply] at this
    exact this
  have e2 : ∑ i, (matN n v).col p i ^ 2 = 1 := by
    have := congrFun (congrFun ho p) p
    rw [Matrix.mul_apply, Matrix.one_apply, if_pos rfl] at this
    rw [← this]
    exact Finset.sum_congr rfl fun i _ => pow_two _
  have hne : (matN n v).col p ≠ 0 := by
    intro h0
    rw [h0] at e2
    simp at e2
  obtain ⟨r, hr⟩ := near_eig U hUo hA.eigenvalues ((matN n v).col p) hne (l p) _ (le_trans (Real.sqrt_nonneg _) hv) (by
    rw [← hsp, e2, mul_one]
    exact (Real.sqrt_le_iff.1 hv).2)
  refine ⟨hA.eigenvalues r, U.col r, ?_, ?_, hr⟩
  · intro h0
    have := congrFun (congrFun hUo r) r
    rw [Matrix.mul_apply, Matrix.one_apply, if_pos rfl] at this
    have z : ∀ i, U i r = 0 := fun i => congrFun h0 i
    simp [z] at this
  · intro i
    have e : upperSym n a *ᵥ U.col r = hA.eigenvalues r • U.col r := by
      have e1 : Uᵀ *ᵥ U.col r = Pi.single r 1 := by
        funext t
        have := congrFun (congrFun hUo t) r
        rw [Matrix.mul_apply, Matrix.one_apply] at this
        rw [Pi.single_apply]
        exact this
      refine (congrArg (· *ᵥ U.col r) hsp).trans ?_
      beta_reduce
      rw [← Matrix.mulVec_mulVec, e1, ← Matrix.mulVec_mulVec, Matrix.diagonal_mulVec_single, Matrix.mulVec_single]
      funext t
      simp [mul_comm]
    exact congrFun e i

/-! ### Errors and convergence -/

/-- What is refused before anything is computed. -/
theorem C74_checks (ldim mm nn m n : Nat) (a : Arr2 ℝ) :
    (m ≠ n → matEigenSymJacobi ldim mm nn m n a = err "matrix must be square") ∧
    (m = n → n = 0 → matEigenSymJacobi ldim mm nn m n a = err "matrix dimension must be ≥ 1") ∧
    (m = n → n ≠ 0 → (mm ≠ n ∨ nn ≠ n) → matEigenSymJacobi ldim mm nn m n a = err "v and a matrices must have the same dimensions") ∧
    (m = n → n ≠ 0 → mm = n → nn = n → ldim ≠ n → matEigenSymJacobi ldim mm nn m n a = err "l vector has incompatible dimension") := by
  refine ⟨fun h => ?_, fun h h0 => ?_, fun h h0 h1 => ?_, fun h h0 h1 h2 h3 => ?_⟩
  · simp [matEigenSymJacobi, h]
  · simp [matEigenSymJacobi, h, h0]
  · subst h; simp [matEigenSymJacobi, h0, h1]
  · subst h; simp [matEigenSymJacobi, h0, h1, h2, h3]

theorem jacobiIter_total (n : Nat) : ∀ (left it : Nat) (b : Nat → ℝ) (S : JState),
    jacobiIter n left it b S = err "Jacobi rotation did not converge" ∨ ∃ k T, jacobiIter n left it b S = ok (k, T)
  | 0, _, _, _ => Or.inl rfl
  | left + 1, it, b, S => by
    rw [jacobiIter]
    split
    · exact Or.inr ⟨_, _, rfl⟩
    · exact jacobiIter_total n left _ _ _

/-- For matching dimensions the only error is that of the iterations. -/
theorem C74_total (n : Nat) (a : Arr2 ℝ) (hn : 1 ≤ n) :
    matEigenSymJacobi n n n n n a = err "Jacobi rotation did not converge" ∨ ∃ k l v, matEigenSymJacobi n n n n n a = ok (k, l, v) := by
  have h0 : n ≠ 0 := by omega
  simp only [matEigenSymJacobi, h0, if_false, ne_eq, not_true_eq_false, or_self]
  rcases jacobiIter_total n jacobiMaxIterations 0 (fun p => a p p) ⟨a, fun p q => if p = q then 1 else 0, fun p => a p p, fun _ => 0⟩ with
    h | ⟨k, T, h⟩
  · exact Or.inl (by rw [h]; rfl)
  · exact Or.inr ⟨k, T.l, T.v, by rw [h]; rfl⟩

/-- A matrix whose elements above the diagonal sum to less than the tolerance is taken as diagonal, after one iteration: in particular
diagonal matrices and matrices of one element are. -/
theorem C74_diagonal (n : Nat) (a : Arr2 ℝ) (hn : 1 ≤ n) (hd : ∑ p ∈ Finset.range (n - 1), ∑ q ∈ Finset.Ico (p + 1) n, |a p q| < 1e-15) :
    matEigenSymJacobi n n n n n a = ok (1, fun p => a p p, fun p q => if p = q then 1 else 0) := by
  have h0 : n ≠ 0 := by omega
  simp only [matEigenSymJacobi, h0, if_false, ne_eq, not_true_eq_false, or_self, jacobiMaxIterations]
  rw [jacobiIter, jacobiOff_eq, if_pos (by exact hd)]
  rfl

/-- Two by two matrices always have eigenvalues, after at most two iterations. -/
theorem C74_two (a : Arr2 ℝ) : ∃ k l v, matEigenSymJacobi 2 2 2 2 2 a = ok (k, l, v) ∧ k ≤ 2 := by
  have tpos : (0 : ℝ) < 1e-15 := by norm_num
  simp only [matEigenSymJacobi, OfNat.ofNat_ne_zero, if_false, ne_eq, not_true_eq_false, or_self, jacobiMaxIterations]
  rw [jacobiIter]
  split
  · exact ⟨_, _, _, rfl, by norm_num⟩
  · rw [jacobiIter, if_pos]
    · exact ⟨_, _, _, rfl, by norm_num⟩
    · generalize hS : (JState.mk a (fun p q => if p = q then (1 : ℝ) else 0) (fun p => a p p) (fun _ => 0)) = S
      obtain ⟨_, _, _, _, _, _, _, _, h3, _⟩ := rotate_sym 2 0 1 S (by omega) (by omega)
      have e : jacobiSweep 2 S = jacobiRotate 2 0 1 S := rfl
      rw [sym_lt _ (by omega)] at h3
      rw [jacobiOff_eq, e]
      show _ < (1e-15 : ℝ)
      have l2 : ∀ f : Nat → ((Nat → ℝ) × JState) → ((Nat → ℝ) × JState), (∀ p r, (f p r).2.a = r.2.a) → ∀ r, (loop 0 2 r f).2.a = r.2.a := by
        intro f hf r
        show (f 1 (f 0 r)).2.a = _
        rw [hf, hf]
      have := l2 (fun p r =>
        let b := putv r.1 p (r.1 p + r.2.z p)
        (b, { r.2 with l := putv r.2.l p (b p), z := putv r.2.z p 0 })) (fun p r => rfl) (fun p => a p p, jacobiRotate 2 0 1 S)
      rw [this]
      norm_num [Finset.sum_Ico_succ_top, h3]

/-- The tolerance is absolute: a matrix with tiny elements is returned as it is, though the eigenvalues of `[[0, x], [x, 0]]` are `x` and
`-x`. -/
theorem C74_scale_counterexample : ∃ a : Arr2 ℝ, a 0 1 = 5e-16 ∧ a 1 0 = 5e-16 ∧ a 0 0 = 0 ∧ a 1 1 = 0 ∧
    matEigenSymJacobi 2 2 2 2 2 a = ok (1, fun p => a p p, fun p q => if p = q then 1 else 0) := by
  refine ⟨fun p q => if p = q then 0 else 5e-16, by norm_num, by norm_num, by norm_num, by norm_num, ?_⟩
  refine C74_diagonal 2 _ (by norm_num) ?_
  norm_num [Finset.sum_range_succ, Finset.sum_Ico_succ_top]

/-- A matrix that is not diagonal, `[[2, 1], [1, 2]]`: the eigenvalues are those of the rotation by 45 degrees. -/
example : ∃ k l v, matEigenSymJacobi 2 2 2 2 2 (fun p q => if p = q then 2 else 1) = ok (k, l, v) ∧ k ≤ 2 ∧
    l 0 + l 1 = 4 ∧ ∃ p : Fin 2, |l p - 3| ≤ 3e-15 := by
  obtain ⟨k, l, v, h, hk⟩ := C74_two (fun p q => if p = q then 2 else 1)
  obtain ⟨k1, -, -, -, -, htr⟩ := C74_decomposition 2 2 2 2 2 _ k l v h
  refine ⟨k, l, v, h, hk, ?_, ?_⟩
  · simp only [Fin.sum_univ_two, if_true] at htr
    simpa using htr.trans (by norm_num)
  · obtain ⟨p, hp⟩ := C74_all_eigenvalues 2 2 2 2 2 _ k l v h 3 (fun _ => 1) (fun h0 => by simpa using congrFun h0 0) (by
      intro i
      fin_cases i <;> simp [Fin.sum_univ_two] <;> norm_num)
    refine ⟨p, hp.trans ?_⟩
    have : (k : ℝ) ≤ 2 := by exact_mod_cast hk
    push_cast
    nlinarith

end Russell.Lab
