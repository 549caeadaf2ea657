import Verif.Lab.PseudoInverse

/-!
# Instances of the LAPACK theorems (property C102)
-/

namespace Russell.Lab

open Russell Russell.Res Russell.Sparse

theorem two_cases {P : Nat → Prop} (h0 : P 0) (h1 : P 1) : ∀ j, j < 2 → P j := by
  intro j hj
  obtain rfl | rfl : j = 0 ∨ j = 1 := by omega
  · exact h0
  · exact h1

/-- an oracle that knows the matrix with rows `(0, 3/4)`, `(-4/3, 0)`, which has the eigenvalues `±i` -/
def eigRot : Nat → (Nat → Nat → ℚ) → Option (EigR ℚ) := fun n A =>
  if n = 2 ∧ A 0 0 = 0 ∧ A 0 1 = 3 / 4 ∧ A 1 0 = -4 / 3 ∧ A 1 1 = 0 then
    some ⟨fun _ => 0, fun j => if j = 0 then 1 else -1, fun i j => if i ≠ j then 0 else if i = 0 then 4 / 5 else 3 / 5,
      fun i j => if i ≠ j then 0 else if i = 0 then 3 / 5 else 4 / 5⟩
  else none

theorem eigRot_spec : GeevSpec eigRot := by
  intro n A o h
  unfold eigRot at h
  split_ifs at h with hc
  injection h with h
  subst h
  obtain ⟨rfl, a1, a2, a3, a4⟩ := hc
  refine ⟨?_, ?_, ?_, ?_, ?_, ?_⟩
  · exact two_cases (by norm_num) (by norm_num)
  · exact two_cases (by norm_num) (by norm_num)
  · exact two_cases (by norm_num) (by norm_num)
  · refine two_cases (fun _ => ⟨two_cases ?_ ?_, two_cases ?_ ?_, ?_⟩) (by norm_num) <;>
      simp [Finset.sum_range_succ, a1, a2, a3, a4] <;> norm_num
  · exact two_cases (by norm_num) (by norm_num)
  · refine two_cases (fun _ => ⟨two_cases ?_ ?_, two_cases ?_ ?_, ?_⟩) (by norm_num) <;>
      simp [Finset.sum_range_succ, a1, a2, a3, a4] <;> norm_num

/-- a complex pair: the vectors `(3/5, ±4/5 i)` -/
example : matEigen eigRot [7, 7] [7, 7] ⟨2, 2, [7, 7, 7, 7]⟩ ⟨2, 2, [7, 7, 7, 7]⟩ ⟨2, 2, [0, -4 / 3, 3 / 4, 0]⟩ =
    ok ([0, 0], [1, -1], ⟨2, 2, [3 / 5, 0, 3 / 5, 0]⟩, ⟨2, 2, [0, 4 / 5, 0, -4 / 5]⟩) := by decide +kernel

/-- left eigenvectors -/
example : matEigenLr eigRot [7, 7] [7, 7] ⟨2, 2, [7, 7, 7, 7]⟩ ⟨2, 2, [7, 7, 7, 7]⟩ ⟨2, 2, [7, 7, 7, 7]⟩ ⟨2, 2, [7, 7, 7, 7]⟩
    ⟨2, 2, [0, -4 / 3, 3 / 4, 0]⟩ = ok ([0, 0], [1, -1], (⟨2, 2, [4 / 5, 0, 4 / 5, 0]⟩, ⟨2, 2, [0, 3 / 5, 0, -3 / 5]⟩),
      (⟨2, 2, [3 / 5, 0, 3 / 5, 0]⟩, ⟨2, 2, [0, 4 / 5, 0, -4 / 5]⟩)) := by decide +kernel

example : matEigenvalues eigRot [7, 7] [7, 7] ⟨2, 2, [0, -4 / 3, 3 / 4, 0]⟩ = ok ([0, 0], [1, -1]) := by decide +kernel

/-- a failed iteration is reported -/
example : matEigenvalues eigRot [7, 7] [7, 7] ⟨2, 2, [0, 1, 3 / 4, 0]⟩ = err (qrFailed "dgeev") := by decide +kernel

/-- the same matrix with `B = I` as a generalized problem -/
def ggevRot : Nat → (Nat → Nat → ℚ) → (Nat → Nat → ℚ) → Option (EigG ℚ) := fun n A B =>
  if n = 2 ∧ (A 0 0 = 0 ∧ A 0 1 = 3 / 4 ∧ A 1 0 = -4 / 3 ∧ A 1 1 = 0) ∧ B 0 0 = 1 ∧ B 0 1 = 0 ∧ B 1 0 = 0 ∧ B 1 1 = 1 then
    some ⟨fun _ => 0, fun j => if j = 0 then 1 else -1, fun _ => 1, fun i j => if i ≠ j then 0 else if i = 0 then 4 / 5 else 3 / 5,
      fun i j => if i ≠ j then 0 else if i = 0 then 3 / 5 else 4 / 5⟩
  else none

theorem ggevRot_spec : GgevSpec ggevRot := by
  intro n A B o h
  unfold ggevRot at h
  split_ifs at h with hc
  injection h with h
  subst h
  obtain ⟨rfl, ⟨a1, a2, a3, a4⟩, b1, b2, b3, b4⟩ := hc
  refine ⟨?_, ?_, ?_, ?_, ?_, ?_⟩
  · exact two_cases (by norm_num) (by norm_num)
  · exact two_cases (by norm_num) (by norm_num)
  · exact two_cases (by norm_num) (by norm_num)
  · refine two_cases (fun _ => ⟨⟨two_cases ?_ ?_, two_cases ?_ ?_, 0, by norm_num, Or.inl (by norm_num)⟩,
      two_cases ?_ ?_, two_cases ?_ ?_, 0, by norm_num, Or.inl (by norm_num)⟩) (by norm_num) <;>
      simp [a1, a2, a3, a4, b1, b2, b3, b4] <;> norm_num
  · exact two_cases (by norm_num) (by norm_num)
  · refine two_cases (fun _ => ⟨⟨two_cases ?_ ?_, two_cases ?_ ?_, 0, by norm_num, Or.inl (by norm_num)⟩,
      two_cases ?_ ?_, two_cases ?_ ?_, 0, by norm_num, Or.inl (by norm_num)⟩) (by norm_num) <;>
      simp [a1, a2, a3, a4, b1, b2, b3, b4] <;> norm_num

/-- **C102** (deviation) an instance with a correct LAPACK: the eigenvalue of the first column is `i`, and the first column `(3/5, 0)` of `v` is
no eigenvector -/
theorem C102_gen_eigen_counterexample_run :
    GgevSpec ggevRot ∧
    matGenEigen ggevRot [7, 7] [7, 7] [7, 7] ⟨2, 2, [7, 7, 7, 7]⟩ ⟨2, 2, [0, -4 / 3, 3 / 4, 0]⟩ ⟨2, 2, [1, 0, 0, 1]⟩ =
      ok ([0, 0], [1, -1], [1, 1], ⟨2, 2, [3 / 5, 0, 0, 4 / 5]⟩) ∧
    ¬ IsGenPair 2 (fun i j => if i = j then 0 else if i = 0 then 3 / 4 else -4 / 3) (fun i j => if i = j then 1 else 0) 0 1 1
      (fun k => if k = 0 then (3 / 5 : ℚ) else 0) (fun _ => 0) := by
  refine ⟨ggevRot_spec, by decide +kernel, C102_gen_eigen_counterexample one_ne_zero ⟨0, by norm_num, ?_⟩⟩
  simp

/-- an oracle that knows `diag(2, 3)` with `B = I` -/
def zggevDiag : Nat → (Nat → Nat → ℚ) → (Nat → Nat → ℚ) → Option (EigG ℚ) := fun n A B =>
  if n = 2 ∧ (A 0 0 = 2 ∧ A 0 1 = 0 ∧ A 1 0 = 0 ∧ A 1 1 = 3) ∧ B 0 0 = 1 ∧ B 0 1 = 0 ∧ B 1 0 = 0 ∧ B 1 1 = 1 then
    some ⟨fun j => if j = 0 then 2 else 3, fun _ => 0, fun _ => 1, fun i j => if i = j then 1 else 0, fun i j => if i = j then 1 else 0⟩
  else none

theorem zggevDiag_spec : ZggevSpec id zggevDiag := by
  intro n A B o h
  unfold zggevDiag at h
  split_ifs at h with hc
  injection h with h
  subst h
  obtain ⟨rfl, ⟨a1, a2, a3, a4⟩, b1, b2, b3, b4⟩ := hc
  refine two_cases ⟨⟨two_cases ?_ ?_, 0, by norm_num, by norm_num⟩, two_cases ?_ ?_, 0, by norm_num, by norm_num⟩
    ⟨⟨two_cases ?_ ?_, 1, by norm_num, by norm_num⟩, two_cases ?_ ?_, 1, by norm_num, by norm_num⟩ <;>
    simp [a1, a2, a3, a4, b1, b2, b3, b4]

/-- **C102** (deviation) with the zero matrix of the documentation's example given for `u`, a correct LAPACK and exact arithmetic: the "left
eigenvectors" are zero -/
theorem C102_complex_gen_eigen_lr_counterexample_run :
    ZggevSpec id zggevDiag ∧
    complexMatGenEigenLr zggevDiag [0, 0] [0, 0] ⟨2, 2, [0, 0, 0, 0]⟩ ⟨2, 2, [0, 0, 0, 0]⟩ ⟨2, 2, [2, 0, 0, 3]⟩ ⟨2, 2, [1, 0, 0, 1]⟩ =
      ok ([2, 3], [1, 1], ⟨2, 2, [0, 0, 0, 0]⟩, ⟨2, 2, [1, 0, 0, 1]⟩) ∧
    ∀ (A B : Nat → Nat → ℚ) (al be : ℚ), ¬ IsGenLeft id 2 A B al be (fun _ => 0) := by
  refine ⟨zggevDiag_spec, by decide +kernel, ?_⟩
  rintro A B al be ⟨-, k, -, h⟩
  exact h rfl

example : complexMatGenEigen zggevDiag [0, 0] [0, 0] ⟨2, 2, [7, 7, 7, 7]⟩ ⟨2, 2, [2, 0, 0, 3]⟩ ⟨2, 2, [1, 0, 0, 1]⟩ =
    ok ([2, 3], [1, 1], ⟨2, 2, [1, 0, 0, 1]⟩) := by decide +kernel

/-- a symmetric matrix with the eigenvalues `-25` and `25`; the other triangle is arbitrary -/
def syevEx : Nat → (Nat → Nat → ℚ) → Option ((Nat → ℚ) × (Nat → Nat → ℚ)) := fun n H =>
  if n = 2 ∧ H 0 0 = -7 ∧ H 0 1 = 24 ∧ H 1 0 = 24 ∧ H 1 1 = 7 then
    some (fun j => if j = 0 then -25 else 25, fun i j => if i = j then (if i = 0 then 4 / 5 else 4 / 5) else if i = 0 then 3 / 5 else -3 / 5)
  else none

theorem syevEx_spec : SyevSpec id id syevEx := by
  intro n H o h
  unfold syevEx at h
  split_ifs at h with hc
  injection h with h
  subst h
  obtain ⟨rfl, a1, a2, a3, a4⟩ := hc
  refine ⟨fun j hj => ?_, ⟨fun i j hi hj => ?_, fun i j hi hj => ?_⟩, ?_⟩
  · have : j = 0 := by omega
    subst this; norm_num
  · obtain rfl | rfl : i = 0 ∨ i = 1 := by omega
    all_goals obtain rfl | rfl : j = 0 ∨ j = 1 := by omega
    all_goals simp [Finset.sum_range_succ] <;> norm_num
  · obtain rfl | rfl : i = 0 ∨ i = 1 := by omega
    all_goals obtain rfl | rfl : j = 0 ∨ j = 1 := by omega
    all_goals simp [Finset.sum_range_succ] <;> norm_num
  · refine two_cases (two_cases ?_ ?_) (two_cases ?_ ?_) <;> simp [Finset.sum_range_succ, a1, a2, a3, a4] <;> norm_num

example : matEigenSym syevEx [0, 0] ⟨2, 2, [-7, 999, 24, 7]⟩ true = ok ([-25, 25], ⟨2, 2, [4 / 5, -3 / 5, 3 / 5, 4 / 5]⟩) := by decide +kernel

example : complexMatEigenHerm id id syevEx [0, 0] ⟨2, 2, [-7, 24, 999, 7]⟩ false = ok ([-25, 25], ⟨2, 2, [4 / 5, -3 / 5, 3 / 5, 4 / 5]⟩) := by
  decide +kernel

/-- the leading part of the example of the documentation of `mat_cholesky` -/
def cholEx : Char → Nat → (Nat → Nat → ℚ) → Option (Nat → Nat → ℚ) := fun uplo n H =>
  if n = 2 ∧ H 0 0 = 4 ∧ H 0 1 = 12 ∧ H 1 0 = 12 ∧ H 1 1 = 37 then
    some fun i j => if i = j then (if i = 0 then 2 else 1) else if (uplo = 'U') = (i < j) then 6 else 0
  else none

theorem cholEx_spec : CholSpec id (fun x => 0 < x) cholEx := by
  intro uplo n H F h
  unfold cholEx at h
  split_ifs at h with hc
  injection h with h
  subst h
  obtain ⟨rfl, a1, a2, a3, a4⟩ := hc
  refine ⟨two_cases (by norm_num) (by norm_num), fun i j hi hj => ?_⟩
  by_cases hu : uplo = 'U'
  all_goals obtain rfl | rfl : i = 0 ∨ i = 1 := by omega
  all_goals obtain rfl | rfl : j = 0 ∨ j = 1 := by omega
  all_goals simp [Finset.sum_range_succ, a1, a2, a3, a4, hu] <;> norm_num

/-- the upper triangle (here `999`) is left as it was -/
example : matCholesky "dpotrf" id id cholEx ⟨2, 2, [4, 12, 999, 37]⟩ false = ok ⟨2, 2, [2, 6, 999, 1]⟩ := by decide +kernel

example : matCholesky "dpotrf" id id cholEx ⟨2, 2, [4, 999, 12, 37]⟩ true = ok ⟨2, 2, [2, 999, 6, 1]⟩ := by decide +kernel

example : matCholesky "dpotrf" id id cholEx ⟨2, 2, [-4, 999, 12, 37]⟩ true = err (cholFailed "dpotrf") := by decide +kernel

end Russell.Lab
