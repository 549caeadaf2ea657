import Verif.Lab.LapackEigen
import Mathlib.Algebra.Order.BigOperators.Group.Finset
import Mathlib.Algebra.BigOperators.Ring.Finset
import Mathlib.Data.Finset.Max

/-!
# Complex and generalized eigenvalues, Hermitian matrices, Cholesky: proofs (property C102)
-/

namespace Russell.Lab

open Russell Russell.Res Russell.Sparse

variable {α κ β : Type}

theorem entries_dense [Zero κ] {a : NumMatrix κ} {m n : Nat} {A : Nat → Nat → κ} (h : IsDense a m n A) :
    ∀ i j, i < m → j < n → entries a.data m i j = A i j := fun _ _ hi hj => h.getD' hi hj

/-! ## Complex matrices -/

section

variable [CommRing κ]

/-- the promise of the manual of `zgeev` -/
structure IsZgeev (cj : κ → κ) (n : Nat) (A : Nat → Nat → κ) (w : Nat → κ) (vl vr : Nat → Nat → κ) : Prop where
  right : ∀ j, j < n → ∀ i, i < n → ∑ k ∈ Finset.range n, A i k * vr k j = w j * vr i j
  left : ∀ j, j < n → ∀ i, i < n → ∑ k ∈ Finset.range n, cj (vl k j) * A k i = w j * cj (vl i j)
  rnorm : ∀ j, j < n → ∑ k ∈ Finset.range n, cj (vr k j) * vr k j = 1
  lnorm : ∀ j, j < n → ∑ k ∈ Finset.range n, cj (vl k j) * vl k j = 1

def ZgeevSpec (cj : κ → κ) (eig : Nat → (Nat → Nat → κ) → Option (EigC κ)) : Prop :=
  ∀ n A o, eig n A = some o → IsZgeev cj n A o.w o.vl o.vr

/-- **C102** `complex_mat_eigen`: eigenvalues and right eigenvectors of norm one, or the message that the iteration failed. -/
theorem C102_complex_eigen {cj : κ → κ} {eig : Nat → (Nat → Nat → κ) → Option (EigC κ)} (hspec : ZgeevSpec cj eig) {m : Nat}
    (hm : m < 2147483648) (hm0 : 0 < m) {a v : NumMatrix κ} {A F : Nat → Nat → κ} {l : List κ} {P : Nat → κ} (ha : IsDense a m m A)
    (hv : IsDense v m m F) (hl : IsVec l m P) :
    complexMatEigen eig l v a = err (qrFailed "zgeev") ∨
    ∃ l' v' L V, complexMatEigen eig l v a = ok (l', v') ∧ IsVec l' m L ∧ IsDense v' m m V ∧
      ∀ j, j < m → (∀ i, i < m → ∑ k ∈ Finset.range m, A i k * V k j = L j * V i j) ∧ ∑ k ∈ Finset.range m, cj (V k j) * V k j = 1 := by
  unfold complexMatEigen
  simp only [ha.nrow, ha.ncol, hv.nrow, hv.ncol, hl.len]
  rw [if_neg (by simp), if_neg (by simp), if_neg (by simp), toI32_lt hm, ok_bind]
  unfold zgeev
  simp only [jobOf, cFalse, cTrue, Int.reduceEq, Char.reduceEq, reduceIte, false_and, true_and, false_or, Int.toNat_natCast]
  rw [if_neg (by omega), if_neg (by
    rw [not_not]
    exact ⟨ha.inArray, by rw [hl.len], by simp, fun _ => hv.inArray, le_refl _, le_refl _⟩)]
  cases e : eig m (entries a.data m) with
  | none => left; rfl
  | some o =>
    right
    have sp := hspec m _ o e
    have hd := putMat_dense hv o.vr
    rw [hv.nrow, hv.ncol] at hd
    refine ⟨_, _, o.w, o.vr, rfl, putVec_isVec hl _, hd, fun j hj => ⟨fun i hi => ?_, sp.rnorm j hj⟩⟩
    rw [← sp.right j hj i hi]
    exact Finset.sum_congr rfl fun k hk => by rw [entries_dense ha i k hi (Finset.mem_range.1 hk)]

/-- **C102** `complex_mat_eigen_lr`: in addition the left eigenvectors, `uᴴ a = l uᴴ`. -/
theorem C102_complex_eigen_lr {cj : κ → κ} {eig : Nat → (Nat → Nat → κ) → Option (EigC κ)} (hspec : ZgeevSpec cj eig) {m : Nat}
    (hm : m < 2147483648) (hm0 : 0 < m) {a u v : NumMatrix κ} {A F G : Nat → Nat → κ} {l : List κ} {P : Nat → κ} (ha : IsDense a m m A)
    (hu : IsDense u m m G) (hv : IsDense v m m F) (hl : IsVec l m P) :
    complexMatEigenLr eig l u v a = err (qrFailed "zgeev") ∨
    ∃ l' u' v' L U V, complexMatEigenLr eig l u v a = ok (l', u', v') ∧ IsVec l' m L ∧ IsDense u' m m U ∧ IsDense v' m m V ∧
      IsZgeev cj m A L U V := by
  unfold complexMatEigenLr
  simp only [ha.nrow, ha.ncol, hu.nrow, hu.ncol, hv.nrow, hv.ncol, hl.len]
  rw [if_neg (by simp), if_neg (by simp), if_neg (by simp), toI32_lt hm, ok_bind]
  unfold zgeev
  simp only [jobOf, cTrue, reduceIte, true_and, Int.toNat_natCast]
  rw [if_neg (by omega), if_neg (by
    rw [not_not]
    exact ⟨ha.inArray, by rw [hl.len], fun _ => hu.inArray, fun _ => hv.inArray, le_refl _, le_refl _⟩)]
  cases e : eig m (entries a.data m) with
  | none => left; rfl
  | some o =>
    right
    have sp := hspec m _ o e
    have hd := putMat_dense hv o.vr
    rw [hv.nrow, hv.ncol] at hd
    have hd' := putMat_dense hu o.vl
    rw [hu.nrow, hu.ncol] at hd'
    refine ⟨_, _, _, o.w, o.vl, o.vr, rfl, putVec_isVec hl _, hd', hd, fun j hj i hi => ?_, fun j hj i hi => ?_, sp.rnorm, sp.lnorm⟩
    · rw [← sp.right j hj i hi]
      exact Finset.sum_congr rfl fun k hk => by rw [entries_dense ha i k hi (Finset.mem_range.1 hk)]
    · rw [← sp.left j hj i hi]
      exact Finset.sum_congr rfl fun k hk => by rw [entries_dense ha k i (Finset.mem_range.1 hk) hi]

/-! ## Generalized eigenvalues -/

/-- `β A v = α B v`, `v` not zero -/
def IsGenRight (n : Nat) (A B : Nat → Nat → κ) (al be : κ) (v : Nat → κ) : Prop :=
  (∀ i, i < n → be * ∑ k ∈ Finset.range n, A i k * v k = al * ∑ k ∈ Finset.range n, B i k * v k) ∧ ∃ k, k < n ∧ v k ≠ 0

/-- `β uᴴ A = α uᴴ B`, `u` not zero -/
def IsGenLeft (cj : κ → κ) (n : Nat) (A B : Nat → Nat → κ) (al be : κ) (u : Nat → κ) : Prop :=
  (∀ i, i < n → be * ∑ k ∈ Finset.range n, cj (u k) * A k i = al * ∑ k ∈ Finset.range n, cj (u k) * B k i) ∧ ∃ k, k < n ∧ u k ≠ 0

/-- the promise of the manual of `zggev` -/
def ZggevSpec (cj : κ → κ) (eig : Nat → (Nat → Nat → κ) → (Nat → Nat → κ) → Option (EigG κ)) : Prop :=
  ∀ n A B o, eig n A B = some o → ∀ j, j < n → IsGenRight n A B (o.ar j) (o.b j) (fun k => o.vr k j) ∧
    IsGenLeft cj n A B (o.ar j) (o.b j) (fun k => o.vl k j)

theorem isGenRight_congr {n : Nat} {A B A' B' : Nat → Nat → κ} (h1 : ∀ i j, i < n → j < n → A i j = A' i j)
    (h2 : ∀ i j, i < n → j < n → B i j = B' i j) {al be : κ} {v : Nat → κ} (h : IsGenRight n A B al be v) : IsGenRight n A' B' al be v := by
  refine ⟨fun i hi => ?_, h.2⟩
  have := h.1 i hi
  rw [Finset.sum_congr rfl fun k hk => by rw [h1 i k hi (Finset.mem_range.1 hk)], Finset.sum_congr (s₁ := Finset.range n) (f := fun k => B i k * v k)
    rfl fun k hk => by rw [h2 i k hi (Finset.mem_range.1 hk)]] at this
  exact this

/-- the message of failed iterations -/
def ggFailed (routine : String) : String := s!"LAPACK ERROR ({routine}): Iterations failed "

/-- **C102** `complex_mat_gen_eigen`: `β_j a v_j = α_j b v_j` with `v_j` not zero. -/
theorem C102_complex_gen_eigen {cj : κ → κ} {eig : Nat → (Nat → Nat → κ) → (Nat → Nat → κ) → Option (EigG κ)} (hspec : ZggevSpec cj eig)
    {m : Nat} (hm : m < 2147483648) (hm0 : 0 < m) {a b v : NumMatrix κ} {A B F : Nat → Nat → κ} {alpha beta : List κ} {P Q : Nat → κ}
    (ha : IsDense a m m A) (hb : IsDense b m m B) (hv : IsDense v m m F) (hal : IsVec alpha m P) (hbe : IsVec beta m Q) :
    complexMatGenEigen eig alpha beta v a b = err (ggFailed "zggev") ∨
    ∃ al be v' L M V, complexMatGenEigen eig alpha beta v a b = ok (al, be, v') ∧ IsVec al m L ∧ IsVec be m M ∧ IsDense v' m m V ∧
      ∀ j, j < m → IsGenRight m A B (L j) (M j) (fun k => V k j) := by
  unfold complexMatGenEigen
  simp only [ha.nrow, ha.ncol, hb.nrow, hb.ncol, hv.nrow, hv.ncol, hal.len, hbe.len]
  rw [if_neg (by simp), if_neg (by simp), if_neg (by simp), toI32_lt hm, ok_bind]
  unfold ggev
  simp only [jobOf, cFalse, cTrue, Int.reduceEq, Char.reduceEq, reduceIte, false_and, true_and, false_or, Int.toNat_natCast]
  rw [if_neg (by omega), if_neg (by
    rw [not_not]
    exact ⟨ha.inArray, hb.inArray, by rw [hal.len], by simp, by rw [hbe.len], by simp, fun _ => hv.inArray, le_refl _, le_refl _⟩)]
  cases e : eig m (entries a.data m) (entries b.data m) with
  | none => left; rfl
  | some o =>
    right
    have sp := hspec m _ _ o e
    have hd := putMat_dense hv o.vr
    rw [hv.nrow, hv.ncol] at hd
    exact ⟨_, _, _, o.ar, o.b, o.vr, rfl, putVec_isVec hal _, putVec_isVec hbe _, hd, fun j hj =>
      isGenRight_congr (entries_dense ha) (entries_dense hb) (sp j hj).1⟩

/-- **C102** (deviation) `complex_mat_gen_eigen_lr` asks LAPACK for the right eigenvectors only (`C_FALSE` for `calc_vl`): whatever LAPACK
does and whatever the matrices are, `u` comes back as it was given. -/
theorem C102_complex_gen_eigen_lr_counterexample (eig : Nat → (Nat → Nat → κ) → (Nat → Nat → κ) → Option (EigG κ)) (alpha beta : List κ)
    (u v a b : NumMatrix κ) {al be : List κ} {u' v' : NumMatrix κ} (h : complexMatGenEigenLr eig alpha beta u v a b = ok (al, be, u', v')) :
    u' = u := by
  unfold complexMatGenEigenLr at h
  dsimp only at h
  split_ifs at h
  rw [bind_eq_ok] at h
  obtain ⟨i, -, h⟩ := h
  rw [bind_eq_ok] at h
  obtain ⟨o, ho, h⟩ := h
  rw [bind_eq_ok] at h
  obtain ⟨-, -, h⟩ := h
  injection h with h
  injection h with h1 h
  injection h with h2 h
  injection h with h3 h
  rw [← h3]
  unfold ggev at ho
  simp only [jobOf, cFalse, cTrue, Int.reduceEq, Char.reduceEq, reduceIte, false_and, false_or] at ho
  have : o.vl = u.data := by
    split_ifs at ho
    · injection ho with ho; rw [← ho]
    · cases e : eig i.toNat (entries a.data i.toNat) (entries b.data i.toNat) with
      | none => rw [e] at ho; injection ho with ho; rw [← ho]
      | some r => rw [e] at ho; injection ho with ho; rw [← ho]
  rw [this]

/-- **C102** what `complex_mat_gen_eigen_lr` does give: the right eigenvectors; the left ones are missing (see the counterexample). -/
theorem C102_complex_gen_eigen_lr_right {cj : κ → κ} {eig : Nat → (Nat → Nat → κ) → (Nat → Nat → κ) → Option (EigG κ)} (hspec : ZggevSpec cj eig)
    {m : Nat} (hm : m < 2147483648) (hm0 : 0 < m) {a b u v : NumMatrix κ} {A B F G : Nat → Nat → κ} {alpha beta : List κ} {P Q : Nat → κ}
    (ha : IsDense a m m A) (hb : IsDense b m m B) (hu : IsDense u m m G) (hv : IsDense v m m F) (hal : IsVec alpha m P) (hbe : IsVec beta m Q) :
    complexMatGenEigenLr eig alpha beta u v a b = err (ggFailed "zggev") ∨
    ∃ al be v' L M V, complexMatGenEigenLr eig alpha beta u v a b = ok (al, be, u, v') ∧ IsVec al m L ∧ IsVec be m M ∧ IsDense v' m m V ∧
      ∀ j, j < m → IsGenRight m A B (L j) (M j) (fun k => V k j) := by
  have key : complexMatGenEigenLr eig alpha beta u v a b = err (ggFailed "zggev") ∨
    ∃ al be u' v' L M V, complexMatGenEigenLr eig alpha beta u v a b = ok (al, be, u', v') ∧ IsVec al m L ∧ IsVec be m M ∧ IsDense v' m m V ∧
      ∀ j, j < m → IsGenRight m A B (L j) (M j) (fun k => V k j) := by
    unfold complexMatGenEigenLr
    simp only [ha.nrow, ha.ncol, hb.nrow, hb.ncol, hu.nrow, hu.ncol, hv.nrow, hv.ncol, hal.len, hbe.len]
    rw [if_neg (by simp), if_neg (by simp), if_neg (by simp), toI32_lt hm, ok_bind]
    unfold ggev
    simp only [jobOf, cFalse, cTrue, Int.reduceEq, Char.reduceEq, reduceIte, false_and, true_and, false_or, Int.toNat_natCast]
    rw [if_neg (by omega), if_neg (by
      rw [not_not]
      exact ⟨ha.inArray, hb.inArray, by rw [hal.len], by simp, by rw [hbe.len], by simp, fun _ => hv.inArray, le_refl _, le_refl _⟩)]
    cases e : eig m (entries a.data m) (entries b.data m) with
    | none => left; rfl
    | some o =>
      right
      have sp := hspec m _ _ o e
      have hd := putMat_dense hv o.vr
      rw [hv.nrow, hv.ncol] at hd
      exact ⟨_, _, _, _, o.ar, o.b, o.vr, rfl, putVec_isVec hal _, putVec_isVec hbe _, hd, fun j hj =>
        isGenRight_congr (entries_dense ha) (entries_dense hb) (sp j hj).1⟩
  rcases key with h | ⟨al, be, u', v', L, M, V, h, r⟩
  · exact Or.inl h
  · have := C102_complex_gen_eigen_lr_counterexample eig alpha beta u v a b h
    subst this
    exact Or.inr ⟨al, be, v', L, M, V, h, r⟩

end

section

variable [Field α] [LinearOrder α]

/-- real and imaginary part of `b A (x + i y) = (p + i q) B (x + i y)`, not zero -/
def IsGenPair (n : Nat) (A B : Nat → Nat → α) (p q b : α) (x y : Nat → α) : Prop :=
  (∀ i, i < n → b * ∑ k ∈ Finset.range n, A i k * x k =
    p * ∑ k ∈ Finset.range n, B i k * x k - q * ∑ k ∈ Finset.range n, B i k * y k) ∧
  (∀ i, i < n → b * ∑ k ∈ Finset.range n, A i k * y k =
    p * ∑ k ∈ Finset.range n, B i k * y k + q * ∑ k ∈ Finset.range n, B i k * x k) ∧ ∃ k, k < n ∧ (x k ≠ 0 ∨ y k ≠ 0)

/-- the same for `(x + i y)ᴴ` on the left -/
def IsGenPairLeft (n : Nat) (A B : Nat → Nat → α) (p q b : α) (x y : Nat → α) : Prop :=
  (∀ i, i < n → b * ∑ k ∈ Finset.range n, x k * A k i =
    p * ∑ k ∈ Finset.range n, x k * B k i + q * ∑ k ∈ Finset.range n, y k * B k i) ∧
  (∀ i, i < n → b * ∑ k ∈ Finset.range n, y k * A k i =
    p * ∑ k ∈ Finset.range n, y k * B k i - q * ∑ k ∈ Finset.range n, x k * B k i) ∧ ∃ k, k < n ∧ (x k ≠ 0 ∨ y k ≠ 0)

/-- the promise of the manual of `dggev`, as for `dgeev` -/
structure IsGgev (n : Nat) (A B : Nat → Nat → α) (ar ai b : Nat → α) (vl vr : Nat → Nat → α) : Prop where
  up : ∀ j, j < n → 0 < ai j → j + 1 < n ∧ ai (j + 1) < 0
  down : ∀ j, j < n → ai j < 0 → 0 < j ∧ 0 < ai (j - 1)
  rreal : ∀ j, j < n → ai j = 0 → IsGenPair n A B (ar j) 0 (b j) (fun k => vr k j) (fun _ => 0)
  rpair : ∀ j, j < n → 0 < ai j → IsGenPair n A B (ar j) (ai j) (b j) (fun k => vr k j) (fun k => vr k (j + 1)) ∧
    IsGenPair n A B (ar (j + 1)) (ai (j + 1)) (b (j + 1)) (fun k => vr k j) (fun k => -vr k (j + 1))
  lreal : ∀ j, j < n → ai j = 0 → IsGenPairLeft n A B (ar j) 0 (b j) (fun k => vl k j) (fun _ => 0)
  lpair : ∀ j, j < n → 0 < ai j → IsGenPairLeft n A B (ar j) (ai j) (b j) (fun k => vl k j) (fun k => vl k (j + 1)) ∧
    IsGenPairLeft n A B (ar (j + 1)) (ai (j + 1)) (b (j + 1)) (fun k => vl k j) (fun k => -vl k (j + 1))

def GgevSpec (eig : Nat → (Nat → Nat → α) → (Nat → Nat → α) → Option (EigG α)) : Prop :=
  ∀ n A B o, eig n A B = some o → IsGgev n A B o.ar o.ai o.b o.vl o.vr

omit [LinearOrder α] in
theorem isGenPair_congr {n : Nat} {A B A' B' : Nat → Nat → α} (h1 : ∀ i j, i < n → j < n → A i j = A' i j)
    (h2 : ∀ i j, i < n → j < n → B i j = B' i j) {p q b : α} {x y : Nat → α} (h : IsGenPair n A B p q b x y) : IsGenPair n A' B' p q b x y := by
  have e1 : ∀ (z : Nat → α) i, i < n → ∑ k ∈ Finset.range n, A' i k * z k = ∑ k ∈ Finset.range n, A i k * z k := fun z i hi =>
    Finset.sum_congr rfl fun k hk => by rw [h1 i k hi (Finset.mem_range.1 hk)]
  have e2 : ∀ (z : Nat → α) i, i < n → ∑ k ∈ Finset.range n, B' i k * z k = ∑ k ∈ Finset.range n, B i k * z k := fun z i hi =>
    Finset.sum_congr rfl fun k hk => by rw [h2 i k hi (Finset.mem_range.1 hk)]
  refine ⟨fun i hi => ?_, fun i hi => ?_, h.2.2⟩
  · rw [e1 x i hi, e2 x i hi, e2 y i hi]; exact h.1 i hi
  · rw [e1 y i hi, e2 x i hi, e2 y i hi]; exact h.2.1 i hi

omit [LinearOrder α] in
theorem isGenPairLeft_congr {n : Nat} {A B A' B' : Nat → Nat → α} (h1 : ∀ i j, i < n → j < n → A i j = A' i j)
    (h2 : ∀ i j, i < n → j < n → B i j = B' i j) {p q b : α} {x y : Nat → α} (h : IsGenPairLeft n A B p q b x y) :
    IsGenPairLeft n A' B' p q b x y := by
  have e1 : ∀ (z : Nat → α) i, i < n → ∑ k ∈ Finset.range n, z k * A' k i = ∑ k ∈ Finset.range n, z k * A k i := fun z i hi =>
    Finset.sum_congr rfl fun k hk => by rw [h1 k i (Finset.mem_range.1 hk) hi]
  have e2 : ∀ (z : Nat → α) i, i < n → ∑ k ∈ Finset.range n, z k * B' k i = ∑ k ∈ Finset.range n, z k * B k i := fun z i hi =>
    Finset.sum_congr rfl fun k hk => by rw [h2 k i (Finset.mem_range.1 hk) hi]
  refine ⟨fun i hi => ?_, fun i hi => ?_, h.2.2⟩
  · rw [e1 x i hi, e2 x i hi, e2 y i hi]; exact h.1 i hi
  · rw [e1 y i hi, e2 x i hi, e2 y i hi]; exact h.2.1 i hi

theorem isGgev_congr {n : Nat} {A B A' B' : Nat → Nat → α} (h1 : ∀ i j, i < n → j < n → A i j = A' i j)
    (h2 : ∀ i j, i < n → j < n → B i j = B' i j) {ar ai b : Nat → α} {vl vr : Nat → Nat → α} (h : IsGgev n A B ar ai b vl vr) :
    IsGgev n A' B' ar ai b vl vr :=
  ⟨h.up, h.down, fun j hj hz => isGenPair_congr h1 h2 (h.rreal j hj hz),
    fun j hj hz => ⟨isGenPair_congr h1 h2 (h.rpair j hj hz).1, isGenPair_congr h1 h2 (h.rpair j hj hz).2⟩,
    fun j hj hz => isGenPairLeft_congr h1 h2 (h.lreal j hj hz),
    fun j hj hz => ⟨isGenPairLeft_congr h1 h2 (h.lpair j hj hz).1, isGenPairLeft_congr h1 h2 (h.lpair j hj hz).2⟩⟩

/-- **C102** `mat_gen_eigen_lr` returns `α`, `β` and the eigenvectors in the compact form of LAPACK: column `j` belongs to a real eigenvalue,
columns `j` and `j + 1` are the real and the imaginary part for a pair. (The documentation promises that column `j` is the eigenvector; see
the counterexample.) -/
theorem C102_gen_eigen_lr {eig : Nat → (Nat → Nat → α) → (Nat → Nat → α) → Option (EigG α)} (hspec : GgevSpec eig) {m : Nat}
    (hm : m < 2147483648) (hm0 : 0 < m) {a b u v : NumMatrix α} {A B F G : Nat → Nat → α} {ar ai be : List α} {P Q R : Nat → α}
    (ha : IsDense a m m A) (hb : IsDense b m m B) (hu : IsDense u m m G) (hv : IsDense v m m F) (har : IsVec ar m P) (hai : IsVec ai m Q)
    (hbe : IsVec be m R) :
    matGenEigenLr eig ar ai be u v a b = err (ggFailed "dggev") ∨
    ∃ ar' ai' be' u' v' AR AI BE U V, matGenEigenLr eig ar ai be u v a b = ok (ar', ai', be', u', v') ∧ IsVec ar' m AR ∧ IsVec ai' m AI ∧
      IsVec be' m BE ∧ IsDense u' m m U ∧ IsDense v' m m V ∧ IsGgev m A B AR AI BE U V := by
  unfold matGenEigenLr
  simp only [ha.nrow, ha.ncol, hb.nrow, hb.ncol, hu.nrow, hu.ncol, hv.nrow, hv.ncol, har.len, hai.len, hbe.len]
  rw [if_neg (by simp), if_neg (by simp), if_neg (by simp), toI32_lt hm, ok_bind]
  unfold ggev
  simp only [jobOf, cTrue, reduceIte, true_and, Int.toNat_natCast]
  rw [if_neg (by omega), if_neg (by
    rw [not_not]
    exact ⟨ha.inArray, hb.inArray, by rw [har.len], fun _ => by rw [hai.len], by rw [hbe.len], fun _ => hu.inArray, fun _ => hv.inArray,
      le_refl _, le_refl _⟩)]
  cases e : eig m (entries a.data m) (entries b.data m) with
  | none => left; rfl
  | some o =>
    right
    have sp := hspec m _ _ o e
    have hd := putMat_dense hv o.vr
    rw [hv.nrow, hv.ncol] at hd
    have hd' := putMat_dense hu o.vl
    rw [hu.nrow, hu.ncol] at hd'
    exact ⟨_, _, _, _, _, o.ar, o.ai, o.b, o.vl, o.vr, rfl, putVec_isVec har _, putVec_isVec hai _, putVec_isVec hbe _, hd', hd,
      isGgev_congr (entries_dense ha) (entries_dense hb) sp⟩

/-- **C102** `mat_gen_eigen` -/
theorem C102_gen_eigen {eig : Nat → (Nat → Nat → α) → (Nat → Nat → α) → Option (EigG α)} (hspec : GgevSpec eig) {m : Nat}
    (hm : m < 2147483648) (hm0 : 0 < m) {a b v : NumMatrix α} {A B F : Nat → Nat → α} {ar ai be : List α} {P Q R : Nat → α}
    (ha : IsDense a m m A) (hb : IsDense b m m B) (hv : IsDense v m m F) (har : IsVec ar m P) (hai : IsVec ai m Q) (hbe : IsVec be m R) :
    matGenEigen eig ar ai be v a b = err (ggFailed "dggev") ∨
    ∃ ar' ai' be' v' AR AI BE V, matGenEigen eig ar ai be v a b = ok (ar', ai', be', v') ∧ IsVec ar' m AR ∧ IsVec ai' m AI ∧
      IsVec be' m BE ∧ IsDense v' m m V ∧ ∃ U, IsGgev m A B AR AI BE U V := by
  unfold matGenEigen
  simp only [ha.nrow, ha.ncol, hb.nrow, hb.ncol, hv.nrow, hv.ncol, har.len, hai.len, hbe.len]
  rw [if_neg (by simp), if_neg (by simp), if_neg (by simp), toI32_lt hm, ok_bind]
  unfold ggev
  simp only [jobOf, cFalse, cTrue, Int.reduceEq, Char.reduceEq, reduceIte, false_and, true_and, false_or, Int.toNat_natCast]
  rw [if_neg (by omega), if_neg (by
    rw [not_not]
    exact ⟨ha.inArray, hb.inArray, by rw [har.len], fun _ => by rw [hai.len], by rw [hbe.len], by simp, fun _ => hv.inArray,
      le_refl _, le_refl _⟩)]
  cases e : eig m (entries a.data m) (entries b.data m) with
  | none => left; rfl
  | some o =>
    right
    have sp := hspec m _ _ o e
    have hd := putMat_dense hv o.vr
    rw [hv.nrow, hv.ncol] at hd
    exact ⟨_, _, _, _, o.ar, o.ai, o.b, o.vr, rfl, putVec_isVec har _, putVec_isVec hai _, putVec_isVec hbe _, hd, o.vl,
      isGgev_congr (entries_dense ha) (entries_dense hb) sp⟩

omit [LinearOrder α] in
/-- **C102** (deviation) a complex eigenvalue never has the (real) column of `v` as its eigenvector, contrary to the documentation
`a vj = lj b vj`: the imaginary part of the equation fails unless `b vj = 0`. -/
theorem C102_gen_eigen_counterexample {n : Nat} {A B : Nat → Nat → α} {p q b : α} {v : Nat → α} (hq : q ≠ 0)
    (hB : ∃ i, i < n ∧ ∑ k ∈ Finset.range n, B i k * v k ≠ 0) : ¬ IsGenPair n A B p q b v (fun _ => 0) := by
  obtain ⟨i, hi, h⟩ := hB
  rintro ⟨-, h2, -⟩
  have := h2 i hi
  simp only [mul_zero, Finset.sum_const_zero, zero_add] at this
  rcases mul_eq_zero.1 this.symm with e | e
  · exact hq e
  · exact h e

end

/-! ## Symmetric and Hermitian matrices -/

section

variable [CommRing κ]

/-- eigenvalues in ascending order, unitary matrix of eigenvectors -/
structure IsHerEig [LE β] (cj : κ → κ) (emb : β → κ) (n : Nat) (H : Nat → Nat → κ) (w : Nat → β) (V : Nat → Nat → κ) : Prop where
  asc : ∀ j, j + 1 < n → w j ≤ w (j + 1)
  unitary : IsUnitary cj n V
  eig : ∀ j, j < n → ∀ i, i < n → ∑ k ∈ Finset.range n, H i k * V k j = emb (w j) * V i j

def SyevSpec [LE β] (cj : κ → κ) (emb : β → κ) (eig : Nat → (Nat → Nat → κ) → Option ((Nat → β) × (Nat → Nat → κ))) : Prop :=
  ∀ n H o, eig n H = some o → IsHerEig cj emb n H o.1 o.2

omit [CommRing κ] in
theorem herEntry_congr {cj re : κ → κ} {uplo : Char} {n : Nat} {A B : Nat → Nat → κ} (h : ∀ i j, i < n → j < n → A i j = B i j) (i j : Nat)
    (hi : i < n) (hj : j < n) : herEntry cj re uplo A i j = herEntry cj re uplo B i j := by
  unfold herEntry
  rw [h i i hi hi, h i j hi hj, h j i hj hi]

omit [CommRing κ] in
/-- for a Hermitian matrix both triangles give the matrix -/
theorem herEntry_hermitian {cj re : κ → κ} (uplo : Char) {n : Nat} {A : Nat → Nat → κ} (h : ∀ i j, i < n → j < n → A i j = cj (A j i))
    (hd : ∀ i, i < n → re (A i i) = A i i) (i j : Nat) (hi : i < n) (hj : j < n) : herEntry cj re uplo A i j = A i j := by
  unfold herEntry
  by_cases e : i = j
  · subst e; rw [if_pos rfl, hd i hi]
  · rw [if_neg e]
    split_ifs <;> first | rfl | exact (h i j hi hj).symm

theorem syev_dense [LE β] {cj re : κ → κ} {emb : β → κ} {eig : Nat → (Nat → Nat → κ) → Option ((Nat → β) × (Nat → Nat → κ))}
    (hspec : SyevSpec cj emb eig) {m : Nat} (hm0 : 0 < m) (need : Int) (uplo : Char) {a : NumMatrix κ} {A : Nat → Nat → κ} {l : List β}
    {P : Nat → β} (ha : IsDense a m m A) (hl : IsVec l m P) (work : Nat) {lwork : Int} (h1 : 1 ≤ lwork) (h2 : need ≤ lwork)
    (h3 : lwork.toNat ≤ work) {rneed rwork : Nat} (h4 : rneed ≤ rwork) (routine : String) :
    let r := syev cj re eig need 'V' uplo m a.data m l work lwork rneed rwork >>= syevFinish a routine
    r = err s!"LAPACK ERROR ({routine}): The algorithm failed to converge" ∨
    ∃ l' a' L V, r = ok (l', a') ∧ IsVec l' m L ∧ IsDense a' m m V ∧ IsHerEig cj emb m (herEntry cj re uplo A) L V := by
  unfold syev
  dsimp only
  rw [if_neg (by omega)]
  simp only [Int.toNat_natCast]
  rw [if_neg (by
    rintro (h | h)
    · exact h rfl
    · exact h ⟨ha.inArray, by rw [hl.len], h3, h4⟩)]
  cases e : eig m (herEntry cj re uplo (entries a.data m)) with
  | none => left; rfl
  | some o =>
    right
    have sp := hspec m _ o e
    refine ⟨_, _, o.1, o.2, rfl, putVec_isVec hl _, putMat_dense ha _, sp.asc, sp.unitary, fun j hj i hi => ?_⟩
    rw [← sp.eig j hj i hi]
    exact Finset.sum_congr rfl fun k hk => by rw [herEntry_congr (entries_dense ha) i k hi (Finset.mem_range.1 hk)]

/-- **C102** `mat_eigen_sym`: eigenvalues in ascending order and orthonormal eigenvectors of the symmetric matrix given by the chosen triangle
(the other triangle is not used), or the message that LAPACK did not converge. -/
theorem C102_eigen_sym [LE κ] {eig : Nat → (Nat → Nat → κ) → Option ((Nat → κ) × (Nat → Nat → κ))} (hspec : SyevSpec id id eig) {m : Nat}
    (hm : m < 2147483648) (hm0 : 0 < m) {a : NumMatrix κ} {A : Nat → Nat → κ} {l : List κ} {P : Nat → κ} (ha : IsDense a m m A)
    (hl : IsVec l m P) (upper : Bool) :
    matEigenSym eig l a upper = err "LAPACK ERROR (dsyev): The algorithm failed to converge" ∨
    ∃ l' a' L V, matEigenSym eig l a upper = ok (l', a') ∧ IsVec l' m L ∧ IsDense a' m m V ∧
      IsHerEig id id m (herEntry id id (if upper then 'U' else 'L') A) L V := by
  unfold matEigenSym
  simp only [ha.nrow, ha.ncol, hl.len]
  rw [if_neg (by simp), if_neg (by omega), if_neg (by simp), toI32_lt hm, ok_bind]
  have := syev_dense (re := id) hspec hm0 (3 * (m : Int) - 1) (if upper then 'U' else 'L') ha hl (3 * (m : Int) + 1).toNat
    (lwork := 3 * (m : Int) + 1) (by omega) (by omega) (le_refl _) (le_refl 0) "dsyev"
  cases upper <;> exact this

/-- **C102** `complex_mat_eigen_herm`: the same for a Hermitian matrix, with real eigenvalues. -/
theorem C102_eigen_herm [LE β] {cj re : κ → κ} {emb : β → κ} {eig : Nat → (Nat → Nat → κ) → Option ((Nat → β) × (Nat → Nat → κ))}
    (hspec : SyevSpec cj emb eig) {m : Nat} (hm : m < 2147483648) (hm0 : 0 < m) {a : NumMatrix κ} {A : Nat → Nat → κ} {l : List β}
    {P : Nat → β} (ha : IsDense a m m A) (hl : IsVec l m P) (upper : Bool) :
    complexMatEigenHerm cj re eig l a upper = err "LAPACK ERROR (zheev): The algorithm failed to converge" ∨
    ∃ l' a' L V, complexMatEigenHerm cj re eig l a upper = ok (l', a') ∧ IsVec l' m L ∧ IsDense a' m m V ∧
      IsHerEig cj emb m (herEntry cj re (if upper then 'U' else 'L') A) L V := by
  unfold complexMatEigenHerm
  simp only [ha.nrow, ha.ncol, hl.len]
  rw [if_neg (by simp), if_neg (by omega), if_neg (by simp), toI32_lt hm, ok_bind]
  have := syev_dense (re := re) hspec hm0 (2 * (m : Int) - 1) (if upper then 'U' else 'L') ha hl (2 * (m : Int) + 1).toNat
    (lwork := 2 * (m : Int) + 1) (by omega) (by omega) (le_refl _) (rneed := max 1 (3 * m - 2)) (rwork := 3 * m) (by omega) "zheev"
  cases upper <;> exact this

/-- **C102** the result of `mat_eigen_sym` or `complex_mat_eigen_herm` decomposes the matrix: `h = v diag(l) vᴴ`. -/
theorem C102_herm_decomposition [LE β] {cj : κ → κ} {emb : β → κ} {n : Nat} {H : Nat → Nat → κ} {w : Nat → β} {V : Nat → Nat → κ}
    (h : IsHerEig cj emb n H w V) (i l : Nat) (hi : i < n) (hl : l < n) :
    H i l = ∑ j ∈ Finset.range n, V i j * emb (w j) * cj (V l j) := by
  have e1 : ∑ j ∈ Finset.range n, V i j * emb (w j) * cj (V l j) =
      ∑ j ∈ Finset.range n, ∑ k ∈ Finset.range n, H i k * (V k j * cj (V l j)) := by
    refine Finset.sum_congr rfl fun j hj => ?_
    rw [mul_comm (V i j), ← h.eig j (Finset.mem_range.1 hj) i hi, Finset.sum_mul]
    exact Finset.sum_congr rfl fun k _ => by ring
  rw [e1, Finset.sum_comm]
  have e2 : ∀ k ∈ Finset.range n, ∑ j ∈ Finset.range n, H i k * (V k j * cj (V l j)) = if k = l then H i l else 0 := by
    intro k hk
    rw [← Finset.mul_sum, h.unitary.2 k l (Finset.mem_range.1 hk) hl]
    by_cases e : k = l
    · subst e; simp
    · simp [e]
  rw [Finset.sum_congr rfl e2, Finset.sum_ite_eq' (Finset.range n) l, if_pos (Finset.mem_range.2 hl)]

/-! ## Cholesky -/

/-- the triangle of `F` chosen by `uplo` (the rest of `F` is not used) is the factor: `h = l lᴴ` or `h = uᴴ u`, positive diagonal -/
def IsChol (cj : κ → κ) (pos : κ → Prop) (uplo : Char) (n : Nat) (H F : Nat → Nat → κ) : Prop :=
  (∀ i, i < n → pos (F i i)) ∧ ∀ i j, i < n → j < n → H i j = if uplo = 'U'
    then ∑ k ∈ Finset.range n, (if k ≤ i then cj (F k i) else 0) * (if k ≤ j then F k j else 0)
    else ∑ k ∈ Finset.range n, (if k ≤ i then F i k else 0) * (if k ≤ j then cj (F j k) else 0)

def CholSpec (cj : κ → κ) (pos : κ → Prop) (chol : Char → Nat → (Nat → Nat → κ) → Option (Nat → Nat → κ)) : Prop :=
  ∀ uplo n H F, chol uplo n H = some F → IsChol cj pos uplo n H F

theorem isChol_congr {cj : κ → κ} {pos : κ → Prop} {uplo : Char} {n : Nat} {H H' F F' : Nat → Nat → κ}
    (h1 : ∀ i j, i < n → j < n → H i j = H' i j) (h2 : ∀ i j, i < n → j < n → (if uplo = 'U' then i ≤ j else j ≤ i) → F i j = F' i j)
    (h : IsChol cj pos uplo n H F) : IsChol cj pos uplo n H' F' := by
  refine ⟨fun i hi => ?_, fun i j hi hj => ?_⟩
  · rw [← h2 i i hi hi (by split_ifs <;> exact le_refl _)]; exact h.1 i hi
  · rw [← h1 i j hi hj, h.2 i j hi hj]
    by_cases e : uplo = 'U'
    · rw [if_pos e, if_pos e]
      refine Finset.sum_congr rfl fun k hk => ?_
      have hk := Finset.mem_range.1 hk
      congr 1
      · by_cases l : k ≤ i
        · rw [if_pos l, if_pos l, h2 k i hk hi (by rw [if_pos e]; exact l)]
        · rw [if_neg l, if_neg l]
      · by_cases l : k ≤ j
        · rw [if_pos l, if_pos l, h2 k j hk hj (by rw [if_pos e]; exact l)]
        · rw [if_neg l, if_neg l]
    · rw [if_neg e, if_neg e]
      refine Finset.sum_congr rfl fun k hk => ?_
      have hk := Finset.mem_range.1 hk
      congr 1
      · by_cases l : k ≤ i
        · rw [if_pos l, if_pos l, h2 i k hi hk (by rw [if_neg e]; exact l)]
        · rw [if_neg l, if_neg l]
      · by_cases l : k ≤ j
        · rw [if_pos l, if_pos l, h2 j k hj hk (by rw [if_neg e]; exact l)]
        · rw [if_neg l, if_neg l]

/-- the message for a matrix that is not positive definite -/
def cholFailed (routine : String) : String := s!"LAPACK ERROR ({routine}): Positive definite check failed"

/-- **C102** `mat_cholesky`, `complex_mat_cholesky`: the matrix given by the chosen triangle is factored, the factor is in this triangle with a
positive diagonal, and the other triangle is left as it was. The call fails exactly if LAPACK finds the matrix not positive definite. -/
theorem C102_cholesky {cj re : κ → κ} {pos : κ → Prop} {chol : Char → Nat → (Nat → Nat → κ) → Option (Nat → Nat → κ)}
    (hspec : CholSpec cj pos chol) (routine : String) {m : Nat} (hm : m < 2147483648) (hm0 : 0 < m) {a : NumMatrix κ} {A : Nat → Nat → κ}
    (ha : IsDense a m m A) (upper : Bool) :
    (chol (if upper then 'U' else 'L') m (herEntry cj re (if upper then 'U' else 'L') (entries a.data m)) = none ∧
      matCholesky routine cj re chol a upper = err (cholFailed routine)) ∨
    ∃ a' F, matCholesky routine cj re chol a upper = ok a' ∧ IsDense a' m m F ∧
      IsChol cj pos (if upper then 'U' else 'L') m (herEntry cj re (if upper then 'U' else 'L') A) F ∧
      ∀ i j, i < m → j < m → (if upper then j < i else i < j) → F i j = A i j := by
  have hu : uploOf (if upper then cTrue else cFalse) = if upper then 'U' else 'L' := by cases upper <;> rfl
  have hm' : matCholesky routine cj re chol a upper = (do
      let o ← potrf cj re chol (if upper then 'U' else 'L') m a.data m
      if o.2 < 0 then err s!"LAPACK ERROR ({routine}): An argument had an illegal value"
      else if o.2 > 0 then err s!"LAPACK ERROR ({routine}): Positive definite check failed"
      else ok ⟨m, m, o.1⟩) := by
    unfold matCholesky
    simp only [ha.nrow, ha.ncol]
    rw [if_neg (by simp), toI32_lt hm, ok_bind, hu]
  rw [hm']
  clear hm'
  generalize huplo : (if upper then 'U' else 'L') = uplo
  unfold potrf
  rw [if_neg (by omega)]
  simp only [Int.toNat_natCast]
  rw [if_neg (by rw [not_not]; exact ha.inArray)]
  cases e : chol uplo m (herEntry cj re uplo (entries a.data m)) with
  | none => left; exact ⟨rfl, rfl⟩
  | some F =>
    right
    have sp := hspec uplo m _ F e
    have hd : IsDense (⟨m, m, a.data.mapIdx fun p v => if p % m < m ∧ p / m < m ∧
        (if uplo = 'U' then p % m ≤ p / m else p / m ≤ p % m) then F (p % m) (p / m) else v⟩ : NumMatrix κ) m m
        (fun i j => if (if uplo = 'U' then i ≤ j else j ≤ i) then F i j else A i j) := by
      refine ⟨rfl, rfl, by rw [List.length_mapIdx, ha.len], fun i j hi hj => ?_⟩
      show vget _ (i + j * m) = _
      apply vget_of
      rw [List.getElem?_mapIdx, ha.entry hi hj, Option.map_some, (lin_mod hi).1, (lin_mod hi).2]
      simp only [hi, hj, true_and]
    refine ⟨_, _, rfl, hd, ?_, ?_⟩
    · refine isChol_congr (fun i j hi hj => herEntry_congr (entries_dense ha) i j hi hj) (fun i j hi hj h => ?_) sp
      rw [if_pos h]
    · intro i j hi hj h
      apply if_neg
      rw [← huplo]
      cases upper
      · simp only [Bool.false_eq_true, if_false] at h ⊢
        rw [if_neg (by decide)]; omega
      · simp only [if_true] at h ⊢
        omega

/-- **C102** a matrix of order zero: `mat_cholesky` reports an illegal argument -/
theorem C102_cholesky_empty (routine : String) (cj re : κ → κ) (chol : Char → Nat → (Nat → Nat → κ) → Option (Nat → Nat → κ)) (upper : Bool) :
    matCholesky routine cj re chol ⟨0, 0, []⟩ upper = err s!"LAPACK ERROR ({routine}): An argument had an illegal value" := by
  cases upper <;> rfl

end

section

variable [Field α] [LinearOrder α] [IsStrictOrderedRing α]

/-- `xᵀ H x > 0` for all `x` other than zero -/
def IsPosDef (n : Nat) (H : Nat → Nat → α) : Prop :=
  ∀ x : Nat → α, (∃ i, i < n ∧ x i ≠ 0) → 0 < ∑ i ∈ Finset.range n, ∑ j ∈ Finset.range n, x i * H i j * x j

/-- `T Tᵀ` with `T` lower triangular with positive diagonal is positive definite -/
theorem posDef_of_factor {n : Nat} {H T : Nat → Nat → α} (ht : ∀ i k, i < n → i < k → T i k = 0) (hd : ∀ i, i < n → 0 < T i i)
    (hH : ∀ i j, i < n → j < n → H i j = ∑ k ∈ Finset.range n, T i k * T j k) : IsPosDef n H := by
  intro x hx
  have e : ∑ i ∈ Finset.range n, ∑ j ∈ Finset.range n, x i * H i j * x j =
      ∑ k ∈ Finset.range n, (∑ i ∈ Finset.range n, T i k * x i) * (∑ i ∈ Finset.range n, T i k * x i) := by
    have : ∀ i ∈ Finset.range n, ∑ j ∈ Finset.range n, x i * H i j * x j =
        ∑ k ∈ Finset.range n, (T i k * x i) * ∑ j ∈ Finset.range n, T j k * x j := by
      intro i hi
      have : ∀ j ∈ Finset.range n, x i * H i j * x j = ∑ k ∈ Finset.range n, (T i k * x i) * (T j k * x j) := by
        intro j hj
        rw [hH i j (Finset.mem_range.1 hi) (Finset.mem_range.1 hj), Finset.mul_sum, Finset.sum_mul]
        exact Finset.sum_congr rfl fun k _ => by ring
      rw [Finset.sum_congr rfl this, Finset.sum_comm]
      exact Finset.sum_congr rfl fun k _ => by rw [Finset.mul_sum]
    rw [Finset.sum_congr rfl this, Finset.sum_comm]
    exact Finset.sum_congr rfl fun k _ => by rw [Finset.sum_mul]
  rw [e]
  classical
  -- the last index with a component other than zero
  have hne : ((Finset.range n).filter fun i => x i ≠ 0).Nonempty := by
    obtain ⟨i, hi, h⟩ := hx
    exact ⟨i, Finset.mem_filter.2 ⟨Finset.mem_range.2 hi, h⟩⟩
  obtain ⟨q, hq, hmax⟩ := Finset.exists_max_image _ (fun i : Nat => i) hne
  obtain ⟨hqr, hqx⟩ := Finset.mem_filter.1 hq
  have hqn := Finset.mem_range.1 hqr
  have hs : ∑ i ∈ Finset.range n, T i q * x i = T q q * x q := by
    apply Finset.sum_eq_single_of_mem q hqr
    intro i hi hne
    rcases lt_or_gt_of_ne hne with h | h
    · rw [ht i q (Finset.mem_range.1 hi) h, zero_mul]
    · have : x i = 0 := by
        by_contra h0
        have := hmax i (Finset.mem_filter.2 ⟨hi, h0⟩)
        omega
      rw [this, mul_zero]
  apply Finset.sum_pos' (fun k _ => mul_self_nonneg _)
  refine ⟨q, hqr, ?_⟩
  rw [hs]
  exact mul_self_pos.2 (mul_ne_zero (hd q hqn).ne' hqx)

/-- the promise of the manual of `dpotrf`: it fails only for matrices that are not positive definite -/
def CholTotal (chol : Char → Nat → (Nat → Nat → α) → Option (Nat → Nat → α)) : Prop :=
  ∀ uplo n H, chol uplo n H = none → ¬ IsPosDef n H

/-- **C102** `mat_cholesky` succeeds exactly for positive definite matrices. -/
theorem C102_cholesky_iff {chol : Char → Nat → (Nat → Nat → α) → Option (Nat → Nat → α)} (hspec : CholSpec id (fun x => 0 < x) chol)
    (htotal : CholTotal chol) {m : Nat} (hm : m < 2147483648) (hm0 : 0 < m) {a : NumMatrix α} {A : Nat → Nat → α} (ha : IsDense a m m A)
    (upper : Bool) :
    (∃ a', matCholesky "dpotrf" id id chol a upper = ok a') ↔ IsPosDef m (herEntry id id (if upper then 'U' else 'L') A) := by
  have hcongr : IsPosDef m (herEntry id id (if upper then 'U' else 'L') (entries a.data m)) ↔
      IsPosDef m (herEntry id id (if upper then 'U' else 'L') A) := by
    have : ∀ x : Nat → α, ∑ i ∈ Finset.range m, ∑ j ∈ Finset.range m,
        x i * herEntry id id (if upper then 'U' else 'L') (entries a.data m) i j * x j = ∑ i ∈ Finset.range m, ∑ j ∈ Finset.range m,
        x i * herEntry id id (if upper then 'U' else 'L') A i j * x j := fun x =>
      Finset.sum_congr rfl fun i hi => Finset.sum_congr rfl fun j hj => by
        rw [herEntry_congr (entries_dense ha) i j (Finset.mem_range.1 hi) (Finset.mem_range.1 hj)]
    unfold IsPosDef
    simp only [this]
  rcases C102_cholesky (re := id) hspec "dpotrf" hm hm0 ha upper with ⟨h1, h2⟩ | ⟨a', F, h1, h2, h3, h4⟩
  · refine ⟨fun ⟨a', e⟩ => ?_, fun h => absurd (hcongr.2 h) (htotal _ _ _ h1)⟩
    rw [h2] at e
    injection e
  · refine ⟨fun _ => ?_, fun _ => ⟨a', h1⟩⟩
    obtain ⟨p1, p2⟩ := h3
    cases upper
    · simp only [Bool.false_eq_true, if_false] at p2 ⊢
      refine posDef_of_factor (T := fun i k => if k ≤ i then F i k else 0) (fun i k _ h => if_neg (by omega))
        (fun i hi => by simpa using p1 i hi) (fun i j hi hj => ?_)
      rw [p2 i j hi hj, if_neg (by decide)]
      rfl
    · simp only [if_true] at p2 ⊢
      refine posDef_of_factor (T := fun i k => if k ≤ i then F k i else 0) (fun i k _ h => if_neg (by omega))
        (fun i hi => by simpa using p1 i hi) (fun i j hi hj => ?_)
      rw [p2 i j hi hj]
      rfl

end

end Russell.Lab
