import Verif.Lab.JacobiProp
import Verif.Tensor.AlgebraProps

/-!
# Spectral representation of symmetric tensors (russell_tensor/src/spectral2.rs)

Model and properties (C75). Numbers are real; the eigenvalues are those of the Jacobi rotations (C74).
-/

namespace Russell.Tensor
open Russell Russell.Res Russell.Lab

/-- `Spectral2` (spectral2.rs:6-15). -/
structure Spectral2 where
  rep : Rep
  lambda : Fin 3 → ℝ
  projectors : Fin 3 → Tensor2

/-- `Spectral2::new` (spectral2.rs:21-28). -/
def Spectral2.new (two_dim : Bool) : Spectral2 :=
  let rep := if two_dim then Rep.Symmetric2D else Rep.Symmetric
  ⟨rep, fun _ => 0, fun _ => Tensor2.new rep⟩

/-- The entries of a square matrix. -/
def entries {n : Nat} (M : Matrix (Fin n) (Fin n) ℝ) : Arr2 ℝ := fun i j => if h : i < n ∧ j < n then M ⟨i, h.1⟩ ⟨j, h.2⟩ else 0

/-- `unwrap` of a result: errors are panics. -/
def unwrap {α : Type} : Res α → Res α
  | ok a => ok a
  | _ => panic

/-- `Spectral2::decompose` (spectral2.rs:35-75); the object left after an error is not modelled. -/
noncomputable def Spectral2.decompose (S : Spectral2) (tt : Tensor2) : Res Spectral2 :=
  if tt.rep ≠ S.rep then err "the representation is incompatible"
  else if tt.dim = 4 then do
    let (t22, a) ← tt.asStdMatrix2d
    let (_, l, v) ← matEigenSymJacobi 2 2 2 2 2 (entries a)
    let u0 : Tensor1 := ![v 0 0, v 1 0, 0]
    let u1 : Tensor1 := ![v 0 1, v 1 1, 0]
    let p0 ← unwrap (t1DyadT1 (S.projectors 0) 1 u0 u0)
    let p1 ← unwrap (t1DyadT1 (S.projectors 1) 1 u1 u1)
    ok ⟨S.rep, ![l 0, l 1, t22], ![p0, p1, (S.projectors 2).clear.set 2 1]⟩
  else do
    let (_, l, v) ← matEigenSymJacobi 3 3 3 3 3 (entries tt.asStdMatrix)
    let u0 : Tensor1 := ![v 0 0, v 1 0, v 2 0]
    let u1 : Tensor1 := ![v 0 1, v 1 1, v 2 1]
    let u2 : Tensor1 := ![v 0 2, v 1 2, v 2 2]
    let p0 ← unwrap (t1DyadT1 (S.projectors 0) 1 u0 u0)
    let p1 ← unwrap (t1DyadT1 (S.projectors 1) 1 u1 u1)
    let p2 ← unwrap (t1DyadT1 (S.projectors 2) 1 u2 u2)
    ok ⟨S.rep, ![l 0, l 1, l 2], ![p0, p1, p2]⟩

/-- `Spectral2::compose` (spectral2.rs:78-95). -/
def Spectral2.compose (S : Spectral2) (composed : Tensor2) (lambda : List ℝ) : Res Tensor2 :=
  if composed.rep ≠ S.rep then err "the representation is incompatible"
  else if lambda.length ≠ 3 then err "lambda.dim must be equal to 3"
  else ok { composed with vec := upto (S.projectors 0).dim (fun m => lambda.getD 0 0 * (S.projectors 0).vec m +
    lambda.getD 1 0 * (S.projectors 1).vec m + lambda.getD 2 0 * (S.projectors 2).vec m) composed.vec }

/-- `Spectral2::octahedral_basis` (spectral2.rs:100-106). -/
noncomputable def Spectral2.octahedralBasis (S : Spectral2) : ℝ × ℝ × ℝ :=
  let (s1, s2, s3) := (S.lambda 0, S.lambda 1, S.lambda 2)
  ((2 * s1 - s2 - s3) / SQRT_6, (s1 + s2 + s3) / SQRT_3, (s3 - s2) / SQRT_2)

/-! ### Properties -/

/-- Objects made by `new` and `decompose`: one symmetric representation for all. -/
structure Spectral2.Good (S : Spectral2) : Prop where
  sym : S.rep ≠ .General
  reps : ∀ i, (S.projectors i).rep = S.rep

theorem C75_new (two_dim : Bool) : (Spectral2.new two_dim).Good ∧
    (Spectral2.new two_dim).rep = if two_dim then .Symmetric2D else .Symmetric := by
  refine ⟨⟨?_, fun i => rfl⟩, rfl⟩
  cases two_dim <;> simp [Spectral2.new]

theorem dyad_self (a : Tensor2) (u : Tensor1) (h2 : a.rep = .Symmetric2D → u 2 = 0) :
    ∃ r, unwrap (t1DyadT1 a 1 u u) = ok r ∧ r.rep = a.rep ∧ r.std = Matrix.vecMulVec u u := by
  obtain ⟨r, h, h1, h3⟩ := (C66_dyad a 1 u u fun h => ⟨h2 h, h2 h⟩).1 (Or.inr (by
    ext i j
    rw [Matrix.transpose_apply, Matrix.vecMulVec_apply, Matrix.vecMulVec_apply, mul_comm]))
  exact ⟨r, by rw [h]; rfl, h1, by rw [h3, one_smul]⟩

/-- What the projectors on the columns of an orthogonal matrix satisfy. -/
theorem projector_facts (V : Matrix (Fin 3) (Fin 3) ℝ) (h : V.transpose * V = 1) (P : Fin 3 → Matrix (Fin 3) (Fin 3) ℝ)
    (hP : ∀ i, P i = Matrix.vecMulVec (V.col i) (V.col i)) :
    (∀ i j, P i * P j = if i = j then P i else 0) ∧ (∀ i, (P i).transpose = P i) ∧ (∀ i, (P i).trace = 1) ∧ P 0 + P 1 + P 2 = 1 := by
  have h' : V * V.transpose = 1 := mul_eq_one_comm.1 h
  have o : ∀ i j, V.col i ⬝ᵥ V.col j = if i = j then 1 else 0 := by
    intro i j
    have := congrFun (congrFun h i) j
    rw [Matrix.mul_apply, Matrix.one_apply] at this
    exact this
  refine ⟨fun i j => ?_, fun i => ?_, fun i => ?_, ?_⟩
  · rw [hP, hP, Matrix.vecMulVec_mul_vecMulVec, o]
    split
    · rename_i hij
      rw [hij, one_smul]
    · simp
  · rw [hP]
    ext r c
    rw [Matrix.transpose_apply, Matrix.vecMulVec_apply, Matrix.vecMulVec_apply, mul_comm]
  · rw [hP, Matrix.trace_vecMulVec, o, if_pos rfl]
  · rw [hP, hP, hP, ← h']
    ext r c
    rw [Matrix.mul_apply, Fin.sum_univ_three]
    simp only [Matrix.add_apply, Matrix.vecMulVec_apply, Matrix.transpose_apply, Matrix.col_apply]

theorem std_transpose_eq (t : Tensor2) (h : t.rep ≠ .General) : t.std.transpose = t.std := by
  obtain ⟨r, v⟩ := t
  rw [std_eq]
  cases r
  · exact absurd rfl h
  all_goals
    ext i j
    fin_cases i <;> fin_cases j <;> simp [mat9, cut]

theorem clear_set_std (a : Tensor2) : (a.clear.set 2 1).std = Matrix.vecMulVec ![0, 0, 1] ![0, 0, 1] := by
  obtain ⟨r, v⟩ := a
  rw [std_eq]
  cases r <;> (ext i j; fin_cases i <;> fin_cases j <;> simp [mat9, cut, Tensor2.clear, Tensor2.set, Matrix.vecMulVec])

theorem entries_eq {n : Nat} (M : Matrix (Fin n) (Fin n) ℝ) (i j : Fin n) : entries M i j = M i j := by
  rw [entries, dif_pos ⟨i.2, j.2⟩]

theorem entries_minmax {n : Nat} (M : Matrix (Fin n) (Fin n) ℝ) (h : M.transpose = M) (i j : Fin n) :
    entries M (min (i : Nat) j) (max (i : Nat) j) = M i j := by
  rcases le_total (i : Nat) j with hij | hij
  · rw [min_eq_left hij, max_eq_right hij, entries_eq]
  · rw [min_eq_right hij, max_eq_left hij, entries_eq]
    exact congrFun (congrFun h i) j

theorem decompose_ok (S : Spectral2) (hS : S.Good) (t : Tensor2) (S' : Spectral2) (h : S.decompose t = ok S') :
    t.rep = S.rep ∧ S'.rep = S.rep ∧ S'.Good ∧ ∃ V : Matrix (Fin 3) (Fin 3) ℝ, V.transpose * V = 1 ∧
    (∀ i, (S'.projectors i).std = Matrix.vecMulVec (V.col i) (V.col i)) ∧
    frob (t.std - ∑ r, S'.lambda r • Matrix.vecMulVec (V.col r) (V.col r)) ≤ (if S.rep = .Symmetric2D then 3e-15 else 59e-15) ∧
    S'.lambda 0 + S'.lambda 1 + S'.lambda 2 = t.std.trace := by
  unfold Spectral2.decompose at h
  split at h
  · cases h
  rename_i hrep
  rw [not_not] at hrep
  have hg : t.rep ≠ .General := by rw [hrep]; exact hS.sym
  have hsym := std_transpose_eq t hg
  split at h
  · rename_i hd
    have h2 : t.rep = .Symmetric2D := by
      revert hd hg
      unfold Tensor2.dim
      cases t.rep <;> simp [Rep.dim]
    rw [C65_as_std_matrix_2d t h2, Res.ok_bind] at h
    simp only at h
    obtain ⟨⟨k, l, v⟩, hj, h⟩ := Res.bind_eq_ok.1 h
    simp only at h
    obtain ⟨p0, e0, r0, s0⟩ := dyad_self (S.projectors 0) ![v 0 0, v 1 0, 0] (fun _ => rfl)
    obtain ⟨p1, e1, r1, s1⟩ := dyad_self (S.projectors 1) ![v 0 1, v 1 1, 0] (fun _ => rfl)
    rw [e0, e1, Res.ok_bind, Res.ok_bind] at h
    have h := (Res.ok.inj h).symm
    subst h
    refine ⟨hrep, rfl, ⟨hS.sym, ?_⟩, ?_⟩
    · intro i
      fin_cases i
      · exact r0.trans (hS.reps 0)
      · exact r1.trans (hS.reps 1)
      · exact hS.reps 2
    · obtain ⟨-, -, ho, -, hE, htr⟩ := C74_decomposition 2 2 2 2 2 _ k l v hj
      have hk : k ≤ 2 := by
        obtain ⟨k', l', v', h', hk'⟩ := C74_two (entries !![t.std 0 0, t.std 0 1; t.std 1 0, t.std 1 1])
        rw [h'] at hj
        have := (Prod.ext_iff.1 (Res.ok.inj hj)).1
        simp only at this
        omega
      have o00 := ho 0 0; have o01 := ho 0 1; have o11 := ho 1 1
      simp [Fin.sum_univ_two] at o00 o01 o11
      obtain ⟨V, hV⟩ : ∃ V : Matrix (Fin 3) (Fin 3) ℝ, V = !![v 0 0, v 0 1, 0; v 1 0, v 1 1, 0; 0, 0, 1] := ⟨_, rfl⟩
      have c0 : V.col 0 = ![v 0 0, v 1 0, 0] := by rw [hV]; funext i; fin_cases i <;> rfl
      have c1 : V.col 1 = ![v 0 1, v 1 1, 0] := by rw [hV]; funext i; fin_cases i <;> rfl
      have c2 : V.col 2 = ![0, 0, 1] := by rw [hV]; funext i; fin_cases i <;> rfl
      refine ⟨V, ?_, ?_, ?_, ?_⟩
      · rw [hV]
        ext i j
        fin_cases i <;> fin_cases j <;> simp [Matrix.mul_apply, Fin.sum_univ_three] <;> linarith
      · intro i
        fin_cases i
        · exact s0.trans (by rw [← c0]; rfl)
        · exact s1.trans (by rw [← c1]; rfl)
        · exact (clear_set_std _).trans (by rw [← c2]; rfl)
      · rw [if_pos (hrep ▸ h2)]
        have hk' : (k : ℝ) ≤ 2 := by exact_mod_cast hk
        refine le_trans (le_of_eq ?_) (hE.trans (by push_cast; nlinarith))
        rw [frob]
        congr 1
        have hs10 : t.std 1 0 = t.std 0 1 := congrFun (congrFun hsym 0) 1
        have z : t.std 0 2 = 0 ∧ t.std 1 2 = 0 ∧ t.std 2 0 = 0 ∧ t.std 2 1 = 0 := by
          rw [std_eq, h2]
          simp [mat9, cut]
        obtain ⟨z1, z2, z3, z4⟩ := z
        simp only [Fin.sum_univ_three, Fin.sum_univ_two, c0, c1, c2, Matrix.sub_apply, Matrix.add_apply, Matrix.smul_apply,
          Matrix.vecMulVec_apply, smul_eq_mul]
        simp [entries, z1, z2, z3, z4, hs10]
        ring
      · simp only [Fin.sum_univ_two] at htr
        simp only [Matrix.trace, Matrix.diag, Fin.sum_univ_three]
        have e0 : entries !![t.std 0 0, t.std 0 1; t.std 1 0, t.std 1 1] 0 0 = t.std 0 0 := by simp [entries]
        have e1 : entries !![t.std 0 0, t.std 0 1; t.std 1 0, t.std 1 1] 1 1 = t.std 1 1 := by simp [entries]
        have : l 0 + l 1 = t.std 0 0 + t.std 1 1 := by rw [← e0, ← e1]; exact htr
        show l 0 + l 1 + t.std 2 2 = _
        rw [this]
  · rename_i hd
    have h3 : t.rep ≠ .Symmetric2D := by
      intro h2
      rw [Tensor2.dim, h2] at hd
      exact hd rfl
    rw [C65_as_std_matrix] at h
    obtain ⟨⟨k, l, v⟩, hj, h⟩ := Res.bind_eq_ok.1 h
    simp only at h
    have n2 : ∀ i, (S.projectors i).rep ≠ .Symmetric2D := fun i => by rw [hS.reps, ← hrep]; exact h3
    obtain ⟨p0, e0, r0, s0⟩ := dyad_self (S.projectors 0) ![v 0 0, v 1 0, v 2 0] (fun e => absurd e (n2 0))
    obtain ⟨p1, e1, r1, s1⟩ := dyad_self (S.projectors 1) ![v 0 1, v 1 1, v 2 1] (fun e => absurd e (n2 1))
    obtain ⟨p2, e2, r2, s2⟩ := dyad_self (S.projectors 2) ![v 0 2, v 1 2, v 2 2] (fun e => absurd e (n2 2))
    rw [e0, e1, e2, Res.ok_bind, Res.ok_bind, Res.ok_bind] at h
    have h := (Res.ok.inj h).symm
    subst h
    refine ⟨hrep, rfl, ⟨hS.sym, ?_⟩, ?_⟩
    · intro i
      fin_cases i
      · exact r0.trans (hS.reps 0)
      · exact r1.trans (hS.reps 1)
      · exact r2.trans (hS.reps 2)
    · obtain ⟨k1, k2, -, -, -, htr⟩ := C74_decomposition 3 3 3 3 3 _ k l v hj
      obtain ⟨ho, hE⟩ := C74_decomposition' 3 3 3 3 3 _ k l v hj
      have c0 : (matN 3 v).col 0 = ![v 0 0, v 1 0, v 2 0] := by funext i; fin_cases i <;> rfl
      have c1 : (matN 3 v).col 1 = ![v 0 1, v 1 1, v 2 1] := by funext i; fin_cases i <;> rfl
      have c2 : (matN 3 v).col 2 = ![v 0 2, v 1 2, v 2 2] := by funext i; fin_cases i <;> rfl
      refine ⟨matN 3 v, ho, ?_, ?_, ?_⟩
      · intro i
        fin_cases i
        · exact s0.trans (by rw [← c0]; rfl)
        · exact s1.trans (by rw [← c1]; rfl)
        · exact s2.trans (by rw [← c2]; rfl)
      · rw [if_neg (hrep ▸ h3)]
        have hk' : (k : ℝ) ≤ 20 := by exact_mod_cast k2
        have hu : upperSym 3 (entries t.std) = t.std := by
          ext i j
          exact entries_minmax t.std hsym i j
        rw [hu] at hE
        refine le_trans (le_of_eq ?_) (hE.trans (by push_cast; nlinarith))
        congr 2
        ext i j
        rw [Matrix.mul_apply]
        simp only [Matrix.mul_diagonal, Fin.sum_univ_three, Matrix.add_apply, Matrix.smul_apply, Matrix.vecMulVec_apply, smul_eq_mul,
          Matrix.col_apply, Matrix.transpose_apply]
        simp only [matN]
        simp
        ring
      · simp only [Fin.sum_univ_three, entries_eq] at htr
        simp only [Matrix.trace, Matrix.diag, Fin.sum_univ_three]
        exact htr

/-- The eigenprojectors are symmetric, of trace one, orthogonal to each other, and sum to the identity; with the eigenvalues they give the tensor
but for the error of the rotations. The sum of the eigenvalues is the trace. The object may be used again. -/
theorem C75_decompose (S : Spectral2) (hS : S.Good) (t : Tensor2) (S' : Spectral2) (h : S.decompose t = ok S') :
    S'.Good ∧ S'.rep = S.rep ∧ t.rep = S.rep ∧
    (∀ i j, (S'.projectors i).std * (S'.projectors j).std = if i = j then (S'.projectors i).std else 0) ∧
    (∀ i, (S'.projectors i).std.transpose = (S'.projectors i).std) ∧
    (∀ i, (S'.projectors i).std.trace = 1) ∧
    (S'.projectors 0).std + (S'.projectors 1).std + (S'.projectors 2).std = 1 ∧
    √(∑ i, ∑ j, (t.std i j - ∑ r, S'.lambda r * (S'.projectors r).std i j) ^ 2) ≤ (if S.rep = .Symmetric2D then 3e-15 else 59e-15) ∧
    S'.lambda 0 + S'.lambda 1 + S'.lambda 2 = t.std.trace := by
  obtain ⟨h1, h2, h3, V, h4, h5, h6, h7⟩ := decompose_ok S hS t S' h
  obtain ⟨g1, g2, g3, g4⟩ := projector_facts V h4 (fun i => (S'.projectors i).std) h5
  refine ⟨h3, h2, h1, g1, g2, g3, g4, ?_, h7⟩
  refine le_trans (le_of_eq ?_) h6
  rw [frob]
  simp only [h5, Matrix.sub_apply, Matrix.sum_apply, Matrix.smul_apply, smul_eq_mul]

/-- Every eigenvalue of the tensor is near to one of `lambda`. -/
theorem C75_eigenvalues (S : Spectral2) (hS : S.Good) (t : Tensor2) (S' : Spectral2) (h : S.decompose t = ok S') (mu : ℝ) (x : Fin 3 → ℝ)
    (hx : x ≠ 0) (hmu : t.std.mulVec x = mu • x) : ∃ p, |S'.lambda p - mu| ≤ 59e-15 := by
  obtain ⟨h1, h2, h3, V, h4, h5, h6, h7⟩ := decompose_ok S hS t S' h
  have hb : frob (t.std - ∑ r, S'.lambda r • Matrix.vecMulVec (V.col r) (V.col r)) ≤ 59e-15 := by
    refine h6.trans ?_
    split <;> norm_num
  have e : ∑ r, S'.lambda r • Matrix.vecMulVec (V.col r) (V.col r) = V * Matrix.diagonal S'.lambda * V.transpose := by
    ext i j
    rw [Matrix.mul_apply]
    simp only [Matrix.mul_diagonal, Matrix.sum_apply, Matrix.smul_apply, Matrix.vecMulVec_apply, smul_eq_mul, Matrix.col_apply,
      Matrix.transpose_apply]
    exact Finset.sum_congr rfl fun r _ => by ring
  rw [e] at hb
  refine near_eig V h4 S'.lambda x hx mu _ (by norm_num) ?_
  have e : (V * Matrix.diagonal S'.lambda * V.transpose).mulVec x - mu • x = - ((t.std - V * Matrix.diagonal S'.lambda * V.transpose).mulVec x) := by
    rw [← hmu, Matrix.sub_mulVec, neg_sub]
  rw [e]
  simp only [Pi.neg_apply, neg_sq]
  refine (mulVec_frob _ _).trans (mul_le_mul_of_nonneg_right ?_ (Finset.sum_nonneg fun i _ => sq_nonneg _))
  exact pow_le_pow_left₀ (Real.sqrt_nonneg _) hb 2

/-- The calls: refused for another representation; otherwise in two dimensions always possible, and in three unless the rotations do not
converge. -/
theorem C75_total (S : Spectral2) (hS : S.Good) (t : Tensor2) :
    (t.rep ≠ S.rep → S.decompose t = err "the representation is incompatible") ∧
    (t.rep = S.rep → S.rep = .Symmetric2D → ∃ S', S.decompose t = ok S') ∧
    (t.rep = S.rep → S.rep = .Symmetric → (∃ S', S.decompose t = ok S') ∨ S.decompose t = err "Jacobi rotation did not converge") := by
  refine ⟨fun h => if_pos h, fun h h2 => ?_, fun h h3 => ?_⟩
  · have hd : t.dim = 4 := by rw [Tensor2.dim, h, h2]; rfl
    rw [Spectral2.decompose, if_neg (not_not.2 h), if_pos hd, C65_as_std_matrix_2d t (h.trans h2), Res.ok_bind]
    simp only
    obtain ⟨k, l, v, hj, -⟩ := C74_two (entries !![t.std 0 0, t.std 0 1; t.std 1 0, t.std 1 1])
    obtain ⟨p0, e0, -⟩ := dyad_self (S.projectors 0) ![v 0 0, v 1 0, 0] (fun _ => rfl)
    obtain ⟨p1, e1, -⟩ := dyad_self (S.projectors 1) ![v 0 1, v 1 1, 0] (fun _ => rfl)
    rw [hj, Res.ok_bind]
    simp only
    rw [e0, e1, Res.ok_bind, Res.ok_bind]
    exact ⟨_, rfl⟩
  · have hd : t.dim ≠ 4 := by rw [Tensor2.dim, h, h3]; decide
    rw [Spectral2.decompose, if_neg (not_not.2 h), if_neg hd]
    have n2 : ∀ i, (S.projectors i).rep ≠ .Symmetric2D := fun i => by rw [hS.reps, h3]; decide
    rcases C74_total 3 (entries t.asStdMatrix) (by norm_num) with hj | ⟨k, l, v, hj⟩
    · rw [hj]
      exact Or.inr rfl
    · obtain ⟨p0, e0, -⟩ := dyad_self (S.projectors 0) ![v 0 0, v 1 0, v 2 0] (fun e => absurd e (n2 0))
      obtain ⟨p1, e1, -⟩ := dyad_self (S.projectors 1) ![v 0 1, v 1 1, v 2 1] (fun e => absurd e (n2 1))
      obtain ⟨p2, e2, -⟩ := dyad_self (S.projectors 2) ![v 0 2, v 1 2, v 2 2] (fun e => absurd e (n2 2))
      rw [hj, Res.ok_bind]
      simp only
      rw [e0, e1, e2, Res.ok_bind, Res.ok_bind, Res.ok_bind]
      exact Or.inl ⟨_, rfl⟩

/-- `compose` gives the tensor with the given eigenvalues and the projectors of the object; wrong calls are refused. -/
theorem C75_compose (S : Spectral2) (hS : S.Good) (c : Tensor2) :
    (∀ lambda, c.rep ≠ S.rep → S.compose c lambda = err "the representation is incompatible") ∧
    (∀ lambda, c.rep = S.rep → lambda.length ≠ 3 → S.compose c lambda = err "lambda.dim must be equal to 3") ∧
    (∀ x y z, c.rep = S.rep → ∃ r, S.compose c [x, y, z] = ok r ∧ r.rep = S.rep ∧
      r.std = x • (S.projectors 0).std + y • (S.projectors 1).std + z • (S.projectors 2).std) := by
  refine ⟨fun _ h => if_pos h, fun _ h h' => by rw [Spectral2.compose, if_neg (not_not.2 h), if_pos h'], fun x y z h => ?_⟩
  rw [Spectral2.compose, if_neg (not_not.2 h), if_neg (by simp)]
  refine ⟨_, rfl, h, ?_⟩
  rw [Tensor2.std, Tensor2.std, Tensor2.std, Tensor2.std]
  simp only [hS.reps, h, Tensor2.dim, Finset.smul_sum, ← Finset.sum_add_distrib]
  refine Finset.sum_congr rfl fun m _ => ?_
  unfold upto
  split
  · simp only [List.getD_cons_zero, List.getD_cons_succ]
    rw [add_smul, add_smul, mul_smul, mul_smul, mul_smul]
  · simp

/-- Composing with the eigenvalues of a decomposition gives the tensor again, but for the error of the rotations. -/
theorem C75_round_trip (S : Spectral2) (hS : S.Good) (t c : Tensor2) (S' : Spectral2) (h : S.decompose t = ok S') (hc : c.rep = S.rep) :
    ∃ r, S'.compose c [S'.lambda 0, S'.lambda 1, S'.lambda 2] = ok r ∧ r.rep = t.rep ∧ ∀ i j, |t.std i j - r.std i j| ≤ 59e-15 := by
  obtain ⟨h1, h2, h3, -, -, -, -, h4, -⟩ := C75_decompose S hS t S' h
  obtain ⟨r, e, hr, hs⟩ := (C75_compose S' h1 c).2.2 (S'.lambda 0) (S'.lambda 1) (S'.lambda 2) (hc.trans h2.symm)
  refine ⟨r, e, hr.trans (h2.trans h3.symm), fun i j => ?_⟩
  have hb : √(∑ i, ∑ j, (t.std i j - ∑ r, S'.lambda r * (S'.projectors r).std i j) ^ 2) ≤ 59e-15 := by
    refine h4.trans ?_
    split <;> norm_num
  refine le_trans ?_ hb
  rw [← Real.sqrt_sq_eq_abs]
  apply Real.sqrt_le_sqrt
  have e : t.std i j - r.std i j = t.std i j - ∑ r, S'.lambda r * (S'.projectors r).std i j := by
    rw [hs, Fin.sum_univ_three]
    simp only [Matrix.add_apply, Matrix.smul_apply, smul_eq_mul]
  rw [e]
  refine le_trans ?_ (Finset.single_le_sum (f := fun i => ∑ j, (t.std i j - ∑ r, S'.lambda r * (S'.projectors r).std i j) ^ 2)
    (fun i _ => Finset.sum_nonneg fun j _ => sq_nonneg _) (Finset.mem_univ i))
  exact Finset.single_le_sum (f := fun j => (t.std i j - ∑ r, S'.lambda r * (S'.projectors r).std i j) ^ 2)
    (fun j _ => sq_nonneg _) (Finset.mem_univ j)

/-- The tensor made of other eigenvalues commutes with functions: products and inverses are those of the eigenvalues. -/
theorem C75_compose_mul (S : Spectral2) (hS : S.Good) (t c : Tensor2) (S' : Spectral2) (h : S.decompose t = ok S') (hc : c.rep = S.rep)
    (x y : Fin 3 → ℝ) : ∃ r s p, S'.compose c [x 0, x 1, x 2] = ok r ∧ S'.compose c [y 0, y 1, y 2] = ok s ∧
      S'.compose c [x 0 * y 0, x 1 * y 1, x 2 * y 2] = ok p ∧ r.std * s.std = p.std := by
  obtain ⟨h1, h2, h3, g, -, -, -, -, -⟩ := C75_decompose S hS t S' h
  obtain ⟨-, -, hcomp⟩ := C75_compose S' h1 c
  obtain ⟨r, e1, -, s1⟩ := hcomp (x 0) (x 1) (x 2) (hc.trans h2.symm)
  obtain ⟨s, e2, -, s2⟩ := hcomp (y 0) (y 1) (y 2) (hc.trans h2.symm)
  obtain ⟨p, e3, -, s3⟩ := hcomp (x 0 * y 0) (x 1 * y 1) (x 2 * y 2) (hc.trans h2.symm)
  refine ⟨r, s, p, e1, e2, e3, ?_⟩
  rw [s1, s2, s3]
  simp only [Matrix.add_mul, Matrix.mul_add, Matrix.smul_mul, Matrix.mul_smul, g]
  simp [smul_smul, mul_comm]

/-- The octahedral coordinates are those of an orthonormal basis: lengths are kept, the second one is along the hydrostatic axis, and the
other two measure the deviator. -/
theorem C75_octahedral (S : Spectral2) : let (a, b, c) := S.octahedralBasis
    a ^ 2 + b ^ 2 + c ^ 2 = S.lambda 0 ^ 2 + S.lambda 1 ^ 2 + S.lambda 2 ^ 2 ∧ b * √3 = S.lambda 0 + S.lambda 1 + S.lambda 2 ∧
    (let m := (S.lambda 0 + S.lambda 1 + S.lambda 2) / 3
     a ^ 2 + c ^ 2 = (S.lambda 0 - m) ^ 2 + (S.lambda 1 - m) ^ 2 + (S.lambda 2 - m) ^ 2 ∧
     S.lambda 0 = m + a * √(2 / 3) ∧ S.lambda 1 = m - a / √6 - c / √2 ∧ S.lambda 2 = m - a / √6 + c / √2) := by
  simp only [Spectral2.octahedralBasis, SQRT_2, SQRT_3, SQRT_6]
  have h2 : √2 ^ 2 = (2 : ℝ) := Real.sq_sqrt (by norm_num)
  have h3 : √3 ^ 2 = (3 : ℝ) := Real.sq_sqrt (by norm_num)
  have h6 : √6 ^ 2 = (6 : ℝ) := Real.sq_sqrt (by norm_num)
  have p2 : (√2 : ℝ) ≠ 0 := by positivity
  have p3 : (√3 : ℝ) ≠ 0 := by positivity
  have p6 : (√6 : ℝ) ≠ 0 := by positivity
  have h26 : √(2 / 3 : ℝ) = 2 / √6 := by
    rw [eq_div_iff p6, ← Real.sqrt_mul (by norm_num)]
    rw [show (2 / 3 * 6 : ℝ) = 2 ^ 2 by norm_num, Real.sqrt_sq (by norm_num)]
  have d6 : ∀ x y : ℝ, x / √6 * (y / √6) = x * y / 6 := fun x y => by rw [div_mul_div_comm, ← pow_two, h6]
  have dd6 : ∀ x : ℝ, x / √6 / √6 = x / 6 := fun x => by rw [div_div, ← pow_two, h6]
  have dd2 : ∀ x : ℝ, x / √2 / √2 = x / 2 := fun x => by rw [div_div, ← pow_two, h2]
  rw [h26]
  refine ⟨?_, ?_, ?_, ?_, ?_, ?_⟩
  · rw [div_pow, div_pow, div_pow, h2, h3, h6]; ring
  · field_simp
  · rw [div_pow, div_pow, h2, h6]; ring
  · rw [d6]; ring
  · rw [dd6, dd2]; ring
  · rw [dd6, dd2]; ring

/-- A plane tensor that is not diagonal. -/
example : ∃ (t : Tensor2) (S' : Spectral2), t.std = !![2, 1, 0; 1, 2, 0; 0, 0, 5] ∧ (Spectral2.new true).decompose t = ok S' ∧
    S'.lambda 0 + S'.lambda 1 + S'.lambda 2 = 9 ∧ ∃ p, |S'.lambda p - 3| ≤ 59e-15 := by
  obtain ⟨hg, -⟩ := C75_new true
  have hstd : (Tensor2.mk .Symmetric2D ![2, 2, 5, SQRT_2, 0, 0, 0, 0, 0]).std = !![2, 1, 0; 1, 2, 0; 0, 0, 5] := by
    rw [std_eq]
    have := sq2_ne
    ext i j
    fin_cases i <;> fin_cases j <;> simp [mat9, cut, div_self this]
  obtain ⟨S', h⟩ := (C75_total (Spectral2.new true) hg ⟨.Symmetric2D, ![2, 2, 5, SQRT_2, 0, 0, 0, 0, 0]⟩).2.1 rfl rfl
  obtain ⟨-, -, -, -, -, -, -, -, htr⟩ := C75_decompose _ hg _ S' h
  refine ⟨_, S', hstd, h, ?_, ?_⟩
  · rw [htr, hstd]
    simp [Matrix.trace, Fin.sum_univ_three]
    norm_num
  · refine C75_eigenvalues _ hg _ S' h 3 ![1, 1, 0] (fun e => by simpa using congrFun e 0) ?_
    rw [hstd]
    funext i
    fin_cases i <;> simp [Matrix.mulVec, dotProduct, Fin.sum_univ_three] <;> norm_num

end Russell.Tensor
