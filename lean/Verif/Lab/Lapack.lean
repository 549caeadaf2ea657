import Verif.Lab.BlasOps

/-!
# Wrappers of LAPACK: decompositions and eigenvalues (property C102)

The routines of LAPACK are modelled by their published contract: an illegal argument gives a negative `info` and touches nothing; otherwise
an access outside of an array is undefined behaviour (`panic`), and the numerical part is an arbitrary function `Nat → … → Option …` of the
order and the entries (`none`: no convergence, positive `info`), about which the theorems assume what the manual promises. A work array is
represented by its length. Exact arithmetic.
-/

namespace Russell.Lab

open Russell Russell.Res Russell.Sparse

variable {α κ β : Type}

/-- entry of an array with leading dimension `ld` -/
def entries [Zero κ] (a : List κ) (ld : Nat) : Nat → Nat → κ := fun i j => a.getD (i + j * ld) 0

/-- write an `m × n` matrix into an array with leading dimension `ld` -/
def putMat (ld m n : Nat) (F : Nat → Nat → κ) (arr : List κ) : List κ :=
  arr.mapIdx fun p v => if p % ld < m ∧ p / ld < n then F (p % ld) (p / ld) else v

/-- write a vector into an array -/
def putVec (n : Nat) (F : Nat → κ) (arr : List κ) : List κ := arr.mapIdx fun i v => if i < n then F i else v

/-- `C_TRUE`, `C_FALSE`, `SVD_CODE_A` (/repo/russell_lab/src/internal/constants.rs:11-23) -/
def cTrue : Int := 1
def cFalse : Int := 0
def svdCodeA : Int := 0

/-- the job and triangle characters (/repo/russell_lab/c_code/interface_blas.c:167, 193, 194, 213, 214) -/
def jobOf (flag : Int) : Char := if flag = 1 then 'V' else 'N'
def uploOf (flag : Int) : Char := if flag = 1 then 'U' else 'L'

/-- the job of the SVD (/repo/russell_lab/c_code/interface_blas.c:309-316) -/
def svdJob (code : Int) : Char := if code = 0 then 'A' else if code = 1 then 'S' else if code = 2 then 'O' else 'N'

/-! ## Singular values -/

/-- the numerical part of `gesvd`: singular values, `U`, `Vᴴ` -/
abbrev Svd (κ β : Type) := Nat → Nat → (Nat → Nat → κ) → Option ((Nat → β) × (Nat → Nat → κ) × (Nat → Nat → κ))

structure SvdOut (κ β : Type) where
  s : List β
  u : List κ
  vt : List κ
  query : Int
  info : Int

/-- `dgesvd`, `zgesvd` for the job 'A'; `need` is the least workspace (`max(1, 3 min(m,n) + max(m,n), 5 min(m,n))` for real and
`max(1, 2 min(m,n) + max(m,n))` for complex matrices) and `best` the answer to a query; `rneed ≤ rwork` is the real workspace. -/
def gesvd [Zero κ] (svd : Svd κ β) (need best : Int) (jobu jobvt : Char) (m n : Int) (a : List κ) (lda : Int) (s : List β) (u : List κ)
    (ldu : Int) (vt : List κ) (ldvt : Int) (work : Nat) (lwork : Int) (rneed rwork : Nat) : Res (SvdOut κ β) :=
  if jobu ≠ 'A' ∨ jobvt ≠ 'A' then Res.panic
  else if m < 0 ∨ n < 0 ∨ lda < max 1 m ∨ ldu < max 1 m ∨ ldvt < max 1 n ∨ lwork ≠ -1 ∧ lwork < need then ok ⟨s, u, vt, 0, -1⟩
  else if lwork = -1 then if work < 1 then Res.panic else ok ⟨s, u, vt, best, 0⟩
  else if ¬ (InArray a lda.toNat m.toNat n.toNat ∧ min m.toNat n.toNat ≤ s.length ∧ InArray u ldu.toNat m.toNat m.toNat ∧
      InArray vt ldvt.toNat n.toNat n.toNat ∧ lwork.toNat ≤ work ∧ rneed ≤ rwork) then Res.panic
  else match svd m.toNat n.toNat (entries a lda.toNat) with
    | none => ok ⟨s, u, vt, 0, 1⟩
    | some r => ok ⟨putVec (min m.toNat n.toNat) r.1 s, putMat ldu.toNat m.toNat m.toNat r.2.1 u, putMat ldvt.toNat n.toNat n.toNat r.2.2 vt,
        0, 0⟩

/-- the checks of `mat_svd` and `complex_mat_svd` -/
def svdChecks (name : String) (m n : Nat) (s : List β) (u vt : NumMatrix κ) (k : Unit → Res γ) : Res γ :=
  if s.length ≠ min m n then err "[s] must be a min(m,n) vector"
  else if u.nrow ≠ m ∨ u.ncol ≠ m then err "[u] must be an m-by-m square matrix"
  else if vt.nrow ≠ n ∨ vt.ncol ≠ n then err s!"[{name}] must be an n-by-n square matrix"
  else k ()

/-- the evaluation of `info` -/
def svdFinish (u vt : NumMatrix κ) (routine : String) (o : SvdOut κ β) : Res (List β × NumMatrix κ × NumMatrix κ) :=
  if o.info < 0 then err s!"LAPACK ERROR ({routine}): An argument had an illegal value"
  else if o.info > 0 then err s!"LAPACK ERROR ({routine}): Algorithm did not converge"
  else ok (o.s, { u with data := o.u }, { vt with data := o.vt })

/-- least workspace of `dgesvd` -/
def dgesvdNeed (m n : Nat) : Int := max 1 (max (3 * min (m : Int) n + max (m : Int) n) (5 * min (m : Int) n))

/-- least workspace of `zgesvd` -/
def zgesvdNeed (m n : Nat) : Int := max 1 (2 * min (m : Int) n + max (m : Int) n)

/-- `mat_svd` (/repo/russell_lab/src/matrix/mat_svd.rs:150-220); the matrix `a` holds no information afterwards and is not returned.
`best` is the answer of the workspace query. -/
def matSvd [Zero κ] (svd : Svd κ β) (best : Nat → Nat → Int) (s : List β) (u vt a : NumMatrix κ) : Res (List β × NumMatrix κ × NumMatrix κ) :=
  let m := a.nrow
  let n := a.ncol
  svdChecks "vt" m n s u vt fun _ => do
    let m_i32 ← toI32 m
    let n_i32 ← toI32 n
    let lda := m_i32
    let ldu := m_i32
    let ldvt := n_i32
    let q ← gesvd svd (dgesvdNeed m n) (best m n) (svdJob svdCodeA) (svdJob svdCodeA) m_i32 n_i32 a.data lda s u.data ldu vt.data ldvt 1 (-1) 0 0
    let lwork := q.query
    let o ← gesvd svd (dgesvdNeed m n) (best m n) (svdJob svdCodeA) (svdJob svdCodeA) m_i32 n_i32 a.data lda q.s q.u ldu q.vt ldvt lwork.toNat
      lwork 0 0
    svdFinish u vt "dgesvd" o

/-- `complex_mat_svd` (/repo/russell_lab/src/matrix/complex_mat_svd.rs:92-150) -/
def complexMatSvd [Zero κ] (svd : Svd κ β) (s : List β) (u vh a : NumMatrix κ) : Res (List β × NumMatrix κ × NumMatrix κ) :=
  let m := a.nrow
  let n := a.ncol
  svdChecks "vh" m n s u vh fun _ => do
    let m_i32 ← toI32 m
    let n_i32 ← toI32 n
    let lda := m_i32
    let ldu := m_i32
    let ldvt := n_i32
    let min_i32 ← toI32 (min m n)
    let max_i32 ← toI32 (max m n)
    let lwork := 2 * min_i32 + max_i32 + 1
    let work := lwork.toNat
    let rwork := 5 * min m n
    let o ← gesvd svd (zgesvdNeed m n) 0 (svdJob svdCodeA) (svdJob svdCodeA) m_i32 n_i32 a.data lda s u.data ldu vh.data ldvt work lwork
      (5 * min m n) rwork
    svdFinish u vh "zgesvd" o

/-! ## Eigenvalues of real matrices -/

/-- the result of `dgeev` -/
structure EigR (α : Type) where
  wr : Nat → α
  wi : Nat → α
  vl : Nat → Nat → α
  vr : Nat → Nat → α

structure GeevOut (α : Type) where
  wr : List α
  wi : List α
  vl : List α
  vr : List α
  info : Int

/-- `dgeev` -/
def dgeev [Zero α] (eig : Nat → (Nat → Nat → α) → Option (EigR α)) (jobvl jobvr : Char) (n : Int) (a : List α) (lda : Int)
    (wr wi vl : List α) (ldvl : Int) (vr : List α) (ldvr : Int) (work : Nat) (lwork : Int) : Res (GeevOut α) :=
  if n < 0 ∨ lda < max 1 n ∨ ldvl < 1 ∨ jobvl = 'V' ∧ ldvl < n ∨ ldvr < 1 ∨ jobvr = 'V' ∧ ldvr < n ∨
      lwork < max 1 (if jobvl = 'V' ∨ jobvr = 'V' then 4 * n else 3 * n) then ok ⟨wr, wi, vl, vr, -1⟩
  else if ¬ (InArray a lda.toNat n.toNat n.toNat ∧ n.toNat ≤ wr.length ∧ n.toNat ≤ wi.length ∧
      (jobvl = 'V' → InArray vl ldvl.toNat n.toNat n.toNat) ∧ (jobvr = 'V' → InArray vr ldvr.toNat n.toNat n.toNat) ∧
      lwork.toNat ≤ work) then Res.panic
  else match eig n.toNat (entries a lda.toNat) with
    | none => ok ⟨wr, wi, vl, vr, 1⟩
    | some o => ok ⟨putVec n.toNat o.wr wr, putVec n.toNat o.wi wi,
        if jobvl = 'V' then putMat ldvl.toNat n.toNat n.toNat o.vl vl else vl,
        if jobvr = 'V' then putMat ldvr.toNat n.toNat n.toNat o.vr vr else vr, 0⟩

/-- the evaluation of `info` -/
def geevCheck (routine : String) (info : Int) : Res Unit :=
  if info < 0 then err s!"LAPACK ERROR ({routine}): An argument had an illegal value"
  else if info > 0 then
    err s!"LAPACK ERROR ({routine}): The QR algorithm failed to compute all the eigenvalues, and no eigenvectors have been computed"
  else ok ()

section

variable [Field α] [LinearOrder α]

/-- the complex case of `dgeev_data`: two columns from two -/
def dgeevPair (n j : Nat) (v : List α) (s : List α × List α) : Res (List α × List α) :=
  forRange 0 n s fun i s => do
    let p := i + j * n
    let q := i + (j + 1) * n
    let x ← vget v p
    let vre ← vset s.1 p x
    let y ← vget v q
    let vim ← vset s.2 p y
    let vre ← vset vre q x
    let vim ← vset vim q (-y)
    ok (vre, vim)

/-- the real case of `dgeev_data` -/
def dgeevReal (n j : Nat) (v : List α) (s : List α × List α) : Res (List α × List α) :=
  forRange 0 n s fun i s => do
    let p := i + j * n
    let x ← vget v p
    let vre ← vset s.1 p x
    let vim ← vset s.2 p 0
    ok (vre, vim)

/-- the loop of `dgeev_data` -/
def dgeevLoop (n : Nat) (w v : List α) (j : Nat) (s : List α × List α) : Res (List α × List α) :=
  if h : j < n then
    vget w j >>= fun wj =>
      if |wj| > 0 then
        subUsize n 2 >>= fun n2 =>
          if j > n2 then err "last eigenvalue cannot be complex"
          else dgeevPair n j v s >>= fun s => dgeevLoop n w v (j + 2) s
      else dgeevReal n j v s >>= fun s => dgeevLoop n w v (j + 1) s
  else ok s
termination_by n - j

/-- `dgeev_data` (/repo/russell_lab/src/internal/dgeev_data.rs:17-61) -/
def dgeevData (v_real v_imag w_imag v : List α) : Res (List α × List α) :=
  let n := w_imag.length
  let nn := n * n
  if v_real.length ≠ nn ∨ v_imag.length ≠ nn ∨ v.length ≠ nn ∨ w_imag.length ≠ n then err "arrays have wrong dimensions"
  else dgeevLoop n w_imag v 0 (v_real, v_imag)

/-- the pairs of `dgeev_data_lr` -/
def dgeevPairLr (n j : Nat) (vl vr : List α) (s : (List α × List α) × (List α × List α)) :
    Res ((List α × List α) × (List α × List α)) :=
  forRange 0 n s fun i s => do
    let p := i + j * n
    let q := i + (j + 1) * n
    let x ← vget vl p
    let y ← vget vl q
    let z ← vget vr p
    let t ← vget vr q
    let lre ← vset s.1.1 p x
    let lim ← vset s.1.2 p y
    let rre ← vset s.2.1 p z
    let rim ← vset s.2.2 p t
    let lre ← vset lre q x
    let lim ← vset lim q (-y)
    let rre ← vset rre q z
    let rim ← vset rim q (-t)
    ok ((lre, lim), (rre, rim))

/-- the real columns of `dgeev_data_lr` -/
def dgeevRealLr (n j : Nat) (vl vr : List α) (s : (List α × List α) × (List α × List α)) :
    Res ((List α × List α) × (List α × List α)) :=
  forRange 0 n s fun i s => do
    let p := i + j * n
    let x ← vget vl p
    let lre ← vset s.1.1 p x
    let z ← vget vr p
    let rre ← vset s.2.1 p z
    let lim ← vset s.1.2 p 0
    let rim ← vset s.2.2 p 0
    ok ((lre, lim), (rre, rim))

/-- the loop of `dgeev_data_lr` -/
def dgeevLoopLr (n : Nat) (w vl vr : List α) (j : Nat) (s : (List α × List α) × (List α × List α)) :
    Res ((List α × List α) × (List α × List α)) :=
  if h : j < n then
    vget w j >>= fun wj =>
      if |wj| > 0 then
        subUsize n 2 >>= fun n2 =>
          if j > n2 then err "last eigenvalue cannot be complex"
          else dgeevPairLr n j vl vr s >>= fun s => dgeevLoopLr n w vl vr (j + 2) s
      else dgeevRealLr n j vl vr s >>= fun s => dgeevLoopLr n w vl vr (j + 1) s
  else ok s
termination_by n - j

/-- `dgeev_data_lr` (/repo/russell_lab/src/internal/dgeev_data.rs:78-143) -/
def dgeevDataLr (vl_real vl_imag vr_real vr_imag w_imag vl vr : List α) : Res ((List α × List α) × (List α × List α)) :=
  let n := w_imag.length
  let nn := n * n
  if vl_real.length ≠ nn ∨ vl_imag.length ≠ nn ∨ vr_real.length ≠ nn ∨ vr_imag.length ≠ nn ∨ vl.length ≠ nn ∨ vr.length ≠ nn ∨
      w_imag.length ≠ n then err "arrays have wrong dimensions"
  else dgeevLoopLr n w_imag vl vr 0 ((vl_real, vl_imag), (vr_real, vr_imag))

/-- `mat_eigen` (/repo/russell_lab/src/matrix/mat_eigen.rs:125-183); the matrix `a` holds no information afterwards -/
def matEigen (eig : Nat → (Nat → Nat → α) → Option (EigR α)) (l_real l_imag : List α) (v_real v_imag a : NumMatrix α) :
    Res (List α × List α × NumMatrix α × NumMatrix α) :=
  let m := a.nrow
  let n := a.ncol
  if m ≠ n then err "matrix must be square"
  else if l_real.length ≠ m ∨ l_imag.length ≠ m then err "vectors are incompatible"
  else if v_real.nrow ≠ m ∨ v_real.ncol ≠ m ∨ v_imag.nrow ≠ m ∨ v_imag.ncol ≠ m then err "matrices are incompatible"
  else do
    let m_i32 ← toI32 m
    let lda := m_i32
    let ldu : Int := 1
    let ldv := m_i32
    let lwork := 4 * m_i32 + 1
    let u := List.replicate ldu.toNat (0 : α)
    let v := List.replicate (m * m) (0 : α)
    let work := lwork.toNat
    let o ← dgeev eig (jobOf cFalse) (jobOf cTrue) m_i32 a.data lda l_real l_imag u ldu v ldv work lwork
    geevCheck "dgeev" o.info
    let s ← dgeevData v_real.data v_imag.data o.wi o.vr
    ok (o.wr, o.wi, { v_real with data := s.1 }, { v_imag with data := s.2 })

/-- `mat_eigen_lr` (/repo/russell_lab/src/matrix/mat_eigen.rs:295-372) -/
def matEigenLr (eig : Nat → (Nat → Nat → α) → Option (EigR α)) (l_real l_imag : List α) (u_real u_imag v_real v_imag a : NumMatrix α) :
    Res (List α × List α × (NumMatrix α × NumMatrix α) × (NumMatrix α × NumMatrix α)) :=
  let m := a.nrow
  let n := a.ncol
  if m ≠ n then err "matrix must be square"
  else if l_real.length ≠ m ∨ l_imag.length ≠ m then err "vectors are incompatible"
  else if u_real.nrow ≠ m ∨ u_real.ncol ≠ m ∨ u_imag.nrow ≠ m ∨ u_imag.ncol ≠ m ∨ v_real.nrow ≠ m ∨ v_real.ncol ≠ m ∨
      v_imag.nrow ≠ m ∨ v_imag.ncol ≠ m then err "matrices are incompatible"
  else do
    let m_i32 ← toI32 m
    let lda := m_i32
    let ldu := m_i32
    let ldv := m_i32
    let lwork := 4 * m_i32 + 1
    let u := List.replicate (m * m) (0 : α)
    let v := List.replicate (m * m) (0 : α)
    let work := lwork.toNat
    let o ← dgeev eig (jobOf cTrue) (jobOf cTrue) m_i32 a.data lda l_real l_imag u ldu v ldv work lwork
    geevCheck "dgeev" o.info
    let s ← dgeevDataLr u_real.data u_imag.data v_real.data v_imag.data o.wi o.vl o.vr
    ok (o.wr, o.wi, ({ u_real with data := s.1.1 }, { u_imag with data := s.1.2 }),
      ({ v_real with data := s.2.1 }, { v_imag with data := s.2.2 }))

/-- `mat_eigenvalues` (/repo/russell_lab/src/matrix/mat_eigenvalues.rs:88-137) -/
def matEigenvalues (eig : Nat → (Nat → Nat → α) → Option (EigR α)) (l_real l_imag : List α) (a : NumMatrix α) : Res (List α × List α) :=
  let m := a.nrow
  let n := a.ncol
  if m ≠ n then err "matrix must be square"
  else if l_real.length ≠ m ∨ l_imag.length ≠ m then err "vectors are incompatible"
  else do
    let m_i32 ← toI32 m
    let lda := m_i32
    let ldu : Int := 1
    let ldv : Int := 1
    let lwork := 4 * m_i32 + 1
    let u := List.replicate ldu.toNat (0 : α)
    let v := List.replicate ldv.toNat (0 : α)
    let work := lwork.toNat
    let o ← dgeev eig (jobOf cFalse) (jobOf cFalse) m_i32 a.data lda l_real l_imag u ldu v ldv work lwork
    geevCheck "dgeev" o.info
    ok (o.wr, o.wi)

end

/-! ## Eigenvalues of complex matrices, generalized eigenvalues -/

/-- the result of `zgeev` -/
structure EigC (κ : Type) where
  w : Nat → κ
  vl : Nat → Nat → κ
  vr : Nat → Nat → κ

structure ZgeevOut (κ : Type) where
  w : List κ
  vl : List κ
  vr : List κ
  info : Int

/-- `zgeev` -/
def zgeev [Zero κ] (eig : Nat → (Nat → Nat → κ) → Option (EigC κ)) (jobvl jobvr : Char) (n : Int) (a : List κ) (lda : Int)
    (w vl : List κ) (ldvl : Int) (vr : List κ) (ldvr : Int) (work : Nat) (lwork : Int) (rwork : Nat) : Res (ZgeevOut κ) :=
  if n < 0 ∨ lda < max 1 n ∨ ldvl < 1 ∨ jobvl = 'V' ∧ ldvl < n ∨ ldvr < 1 ∨ jobvr = 'V' ∧ ldvr < n ∨ lwork < max 1 (2 * n) then
    ok ⟨w, vl, vr, -1⟩
  else if ¬ (InArray a lda.toNat n.toNat n.toNat ∧ n.toNat ≤ w.length ∧
      (jobvl = 'V' → InArray vl ldvl.toNat n.toNat n.toNat) ∧ (jobvr = 'V' → InArray vr ldvr.toNat n.toNat n.toNat) ∧
      lwork.toNat ≤ work ∧ 2 * n.toNat ≤ rwork) then Res.panic
  else match eig n.toNat (entries a lda.toNat) with
    | none => ok ⟨w, vl, vr, 1⟩
    | some o => ok ⟨putVec n.toNat o.w w, if jobvl = 'V' then putMat ldvl.toNat n.toNat n.toNat o.vl vl else vl,
        if jobvr = 'V' then putMat ldvr.toNat n.toNat n.toNat o.vr vr else vr, 0⟩

/-- `complex_mat_eigen` (/repo/russell_lab/src/matrix/complex_mat_eigen.rs:93-145) -/
def complexMatEigen [Zero κ] (eig : Nat → (Nat → Nat → κ) → Option (EigC κ)) (l : List κ) (v a : NumMatrix κ) :
    Res (List κ × NumMatrix κ) :=
  let m := a.nrow
  let n := a.ncol
  if m ≠ n then err "matrix must be square"
  else if l.length ≠ m then err "vectors are incompatible"
  else if v.nrow ≠ m ∨ v.ncol ≠ m then err "matrices are incompatible"
  else do
    let m_i32 ← toI32 m
    let lda := m_i32
    let ldu : Int := 1
    let ldv := m_i32
    let lwork := 2 * m_i32 + 1
    let u := List.replicate ldu.toNat (0 : κ)
    let work := lwork.toNat
    let rwork := 2 * m
    let o ← zgeev eig (jobOf cFalse) (jobOf cTrue) m_i32 a.data lda l u ldu v.data ldv work lwork rwork
    geevCheck "zgeev" o.info
    ok (o.w, { v with data := o.vr })

/-- `complex_mat_eigen_lr` (/repo/russell_lab/src/matrix/complex_mat_eigen.rs:232-288) -/
def complexMatEigenLr [Zero κ] (eig : Nat → (Nat → Nat → κ) → Option (EigC κ)) (l : List κ) (u v a : NumMatrix κ) :
    Res (List κ × NumMatrix κ × NumMatrix κ) :=
  let m := a.nrow
  let n := a.ncol
  if m ≠ n then err "matrix must be square"
  else if l.length ≠ m then err "vectors are incompatible"
  else if u.nrow ≠ m ∨ u.ncol ≠ m ∨ v.nrow ≠ m ∨ v.ncol ≠ m then err "matrices are incompatible"
  else do
    let m_i32 ← toI32 m
    let lda := m_i32
    let ldu := m_i32
    let ldv := m_i32
    let lwork := 2 * m_i32 + 1
    let work := lwork.toNat
    let rwork := 2 * m
    let o ← zgeev eig (jobOf cTrue) (jobOf cTrue) m_i32 a.data lda l u.data ldu v.data ldv work lwork rwork
    geevCheck "zgeev" o.info
    ok (o.w, { u with data := o.vl }, { v with data := o.vr })

/-- the result of `dggev` (the imaginary part `ai` is zero for `zggev`, where `ar` is complex) -/
structure EigG (κ : Type) where
  ar : Nat → κ
  ai : Nat → κ
  b : Nat → κ
  vl : Nat → Nat → κ
  vr : Nat → Nat → κ

structure GgevOut (κ : Type) where
  ar : List κ
  ai : List κ
  b : List κ
  vl : List κ
  vr : List κ
  info : Int

/-- `dggev` and `zggev`; `need` is the least workspace, `rneed` the size of the real workspace. `zggev` has no array for the imaginary
parts: `ai` is then empty and `cplx` true. -/
def ggev [Zero κ] (eig : Nat → (Nat → Nat → κ) → (Nat → Nat → κ) → Option (EigG κ)) (cplx : Bool) (need : Int) (jobvl jobvr : Char) (n : Int)
    (a : List κ) (lda : Int) (b : List κ) (ldb : Int) (ar ai be vl : List κ) (ldvl : Int) (vr : List κ) (ldvr : Int) (work : Nat)
    (lwork : Int) (rneed rwork : Nat) : Res (GgevOut κ) :=
  if n < 0 ∨ lda < max 1 n ∨ ldb < max 1 n ∨ ldvl < 1 ∨ jobvl = 'V' ∧ ldvl < n ∨ ldvr < 1 ∨ jobvr = 'V' ∧ ldvr < n ∨
      lwork < max 1 need then ok ⟨ar, ai, be, vl, vr, -1⟩
  else if ¬ (InArray a lda.toNat n.toNat n.toNat ∧ InArray b ldb.toNat n.toNat n.toNat ∧ n.toNat ≤ ar.length ∧
      (cplx = false → n.toNat ≤ ai.length) ∧ n.toNat ≤ be.length ∧ (jobvl = 'V' → InArray vl ldvl.toNat n.toNat n.toNat) ∧
      (jobvr = 'V' → InArray vr ldvr.toNat n.toNat n.toNat) ∧ lwork.toNat ≤ work ∧ rneed ≤ rwork) then Res.panic
  else match eig n.toNat (entries a lda.toNat) (entries b ldb.toNat) with
    | none => ok ⟨ar, ai, be, vl, vr, 1⟩
    | some o => ok ⟨putVec n.toNat o.ar ar, putVec n.toNat o.ai ai, putVec n.toNat o.b be,
        if jobvl = 'V' then putMat ldvl.toNat n.toNat n.toNat o.vl vl else vl,
        if jobvr = 'V' then putMat ldvr.toNat n.toNat n.toNat o.vr vr else vr, 0⟩

/-- the evaluation of `info` -/
def ggevCheck (routine : String) (info : Int) : Res Unit :=
  if info < 0 then err s!"LAPACK ERROR ({routine}): An argument had an illegal value"
  else if info > 0 then err s!"LAPACK ERROR ({routine}): Iterations failed "
  else ok ()

/-- `mat_gen_eigen` (/repo/russell_lab/src/matrix/mat_gen_eigen.rs:106-162) -/
def matGenEigen [Zero κ] (eig : Nat → (Nat → Nat → κ) → (Nat → Nat → κ) → Option (EigG κ)) (alpha_real alpha_imag beta : List κ)
    (v a b : NumMatrix κ) : Res (List κ × List κ × List κ × NumMatrix κ) :=
  let m := a.nrow
  let n := a.ncol
  if m ≠ n then err "matrix must be square"
  else if alpha_real.length ≠ m ∨ alpha_imag.length ≠ m ∨ beta.length ≠ m then err "vectors are incompatible"
  else if v.nrow ≠ m ∨ v.ncol ≠ m ∨ b.nrow ≠ m ∨ b.ncol ≠ m then err "matrices are incompatible"
  else do
    let m_i32 ← toI32 m
    let lda := m_i32
    let ldb := m_i32
    let ldu : Int := 1
    let ldv := m_i32
    let lwork := 8 * m_i32 + 1
    let u := List.replicate ldu.toNat (0 : κ)
    let work := lwork.toNat
    let o ← ggev eig false (8 * m_i32) (jobOf cFalse) (jobOf cTrue) m_i32 a.data lda b.data ldb alpha_real alpha_imag beta u ldu v.data ldv
      work lwork 0 0
    ggevCheck "dggev" o.info
    ok (o.ar, o.ai, o.b, { v with data := o.vr })

/-- `mat_gen_eigen_lr` (/repo/russell_lab/src/matrix/mat_gen_eigen.rs:267-323) -/
def matGenEigenLr [Zero κ] (eig : Nat → (Nat → Nat → κ) → (Nat → Nat → κ) → Option (EigG κ)) (alpha_real alpha_imag beta : List κ)
    (u v a b : NumMatrix κ) : Res (List κ × List κ × List κ × NumMatrix κ × NumMatrix κ) :=
  let m := a.nrow
  let n := a.ncol
  if m ≠ n then err "matrix must be square"
  else if alpha_real.length ≠ m ∨ alpha_imag.length ≠ m ∨ beta.length ≠ m then err "vectors are incompatible"
  else if u.nrow ≠ m ∨ u.ncol ≠ m ∨ v.nrow ≠ m ∨ v.ncol ≠ m ∨ b.nrow ≠ m ∨ b.ncol ≠ m then err "matrices are incompatible"
  else do
    let m_i32 ← toI32 m
    let lda := m_i32
    let ldb := m_i32
    let ldu := m_i32
    let ldv := m_i32
    let lwork := 8 * m_i32 + 1
    let work := lwork.toNat
    let o ← ggev eig false (8 * m_i32) (jobOf cTrue) (jobOf cTrue) m_i32 a.data lda b.data ldb alpha_real alpha_imag beta u.data ldu v.data
      ldv work lwork 0 0
    ggevCheck "dggev" o.info
    ok (o.ar, o.ai, o.b, { u with data := o.vl }, { v with data := o.vr })

/-- `complex_mat_gen_eigen` (/repo/russell_lab/src/matrix/complex_mat_gen_eigen.rs:104-160) -/
def complexMatGenEigen [Zero κ] (eig : Nat → (Nat → Nat → κ) → (Nat → Nat → κ) → Option (EigG κ)) (alpha beta : List κ)
    (v a b : NumMatrix κ) : Res (List κ × List κ × NumMatrix κ) :=
  let m := a.nrow
  let n := a.ncol
  if m ≠ n then err "matrix must be square"
  else if alpha.length ≠ m ∨ beta.length ≠ m then err "vectors are incompatible"
  else if v.nrow ≠ m ∨ v.ncol ≠ m ∨ b.nrow ≠ m ∨ b.ncol ≠ m then err "matrices are incompatible"
  else do
    let m_i32 ← toI32 m
    let lda := m_i32
    let ldb := m_i32
    let ldu : Int := 1
    let ldv := m_i32
    let lwork := 2 * m_i32 + 1
    let u := List.replicate ldu.toNat (0 : κ)
    let work := lwork.toNat
    let rwork := 8 * m
    let o ← ggev eig true (2 * m_i32) (jobOf cFalse) (jobOf cTrue) m_i32 a.data lda b.data ldb alpha [] beta u ldu v.data ldv work lwork
      (8 * m) rwork
    ggevCheck "zggev" o.info
    ok (o.ar, o.b, { v with data := o.vr })

/-- `complex_mat_gen_eigen_lr` (/repo/russell_lab/src/matrix/complex_mat_gen_eigen.rs:257-313); the first flag is `C_FALSE` in the code -/
def complexMatGenEigenLr [Zero κ] (eig : Nat → (Nat → Nat → κ) → (Nat → Nat → κ) → Option (EigG κ)) (alpha beta : List κ)
    (u v a b : NumMatrix κ) : Res (List κ × List κ × NumMatrix κ × NumMatrix κ) :=
  let m := a.nrow
  let n := a.ncol
  if m ≠ n then err "matrix must be square"
  else if alpha.length ≠ m ∨ beta.length ≠ m then err "vectors are incompatible"
  else if u.nrow ≠ m ∨ u.ncol ≠ m ∨ v.nrow ≠ m ∨ v.ncol ≠ m ∨ b.nrow ≠ m ∨ b.ncol ≠ m then err "matrices are incompatible"
  else do
    let m_i32 ← toI32 m
    let lda := m_i32
    let ldb := m_i32
    let ldu := m_i32
    let ldv := m_i32
    let lwork := 2 * m_i32 + 1
    let work := lwork.toNat
    let rwork := 8 * m
    let o ← ggev eig true (2 * m_i32) (jobOf cFalse) (jobOf cTrue) m_i32 a.data lda b.data ldb alpha [] beta u.data ldu v.data ldv work
      lwork (8 * m) rwork
    ggevCheck "zggev" o.info
    ok (o.ar, o.b, { u with data := o.vl }, { v with data := o.vr })

/-! ## Symmetric and Hermitian matrices -/

/-- entry of the Hermitian matrix given by one triangle: `cj` is the conjugation, `re` the real part (as a number of the field) -/
def herEntry (cj re : κ → κ) (uplo : Char) (A : Nat → Nat → κ) : Nat → Nat → κ := fun i j =>
  if i = j then re (A i i) else if uplo = 'U' then (if i < j then A i j else cj (A j i)) else (if j < i then A i j else cj (A j i))

structure SyevOut (κ β : Type) where
  a : List κ
  w : List β
  info : Int

/-- `dsyev`, `zheev` with the job 'V' (the only one used here) -/
def syev [Zero κ] (cj re : κ → κ) (eig : Nat → (Nat → Nat → κ) → Option ((Nat → β) × (Nat → Nat → κ))) (need : Int) (jobz uplo : Char)
    (n : Int) (a : List κ) (lda : Int) (w : List β) (work : Nat) (lwork : Int) (rneed rwork : Nat) : Res (SyevOut κ β) :=
  if n < 0 ∨ lda < max 1 n ∨ lwork < max 1 need then ok ⟨a, w, -1⟩
  else if jobz ≠ 'V' ∨ ¬ (InArray a lda.toNat n.toNat n.toNat ∧ n.toNat ≤ w.length ∧ lwork.toNat ≤ work ∧ rneed ≤ rwork) then Res.panic
  else match eig n.toNat (herEntry cj re uplo (entries a lda.toNat)) with
    | none => ok ⟨a, w, 1⟩
    | some o => ok ⟨putMat lda.toNat n.toNat n.toNat o.2 a, putVec n.toNat o.1 w, 0⟩

/-- the evaluation of `info` -/
def syevFinish (a : NumMatrix κ) (routine : String) (o : SyevOut κ β) : Res (List β × NumMatrix κ) :=
  if o.info < 0 then err s!"LAPACK ERROR ({routine}): An argument had an illegal value"
  else if o.info > 0 then err s!"LAPACK ERROR ({routine}): The algorithm failed to converge"
  else ok (o.w, { a with data := o.a })

/-- `mat_eigen_sym` (/repo/russell_lab/src/matrix/mat_eigen_sym.rs:81-123) -/
def matEigenSym [Zero κ] (eig : Nat → (Nat → Nat → κ) → Option ((Nat → κ) × (Nat → Nat → κ))) (l : List κ) (a : NumMatrix κ)
    (upper : Bool) : Res (List κ × NumMatrix κ) :=
  let m := a.nrow
  let n := a.ncol
  if m ≠ n then err "matrix must be square"
  else if m = 0 then err "matrix dimension must be ≥ 1"
  else if l.length ≠ n then err "l vector has incompatible dimension"
  else do
    let c_upper := if upper then cTrue else cFalse
    let n_i32 ← toI32 n
    let lda := n_i32
    let lwork := 3 * n_i32 + 1
    let work := lwork.toNat
    let o ← syev id id eig (3 * n_i32 - 1) (jobOf cTrue) (uploOf c_upper) n_i32 a.data lda l work lwork 0 0
    syevFinish a "dsyev" o

/-- `complex_mat_eigen_herm` (/repo/russell_lab/src/matrix/complex_mat_eigen_herm.rs:104-148) -/
def complexMatEigenHerm [Zero κ] (cj re : κ → κ) (eig : Nat → (Nat → Nat → κ) → Option ((Nat → β) × (Nat → Nat → κ))) (l : List β)
    (a : NumMatrix κ) (upper : Bool) : Res (List β × NumMatrix κ) :=
  let m := a.nrow
  let n := a.ncol
  if m ≠ n then err "matrix must be square"
  else if m = 0 then err "matrix dimension must be ≥ 1"
  else if l.length ≠ m then err "l vector is incompatible"
  else do
    let c_upper := if upper then cTrue else cFalse
    let m_i32 ← toI32 m
    let lda := m_i32
    let lwork := 2 * m_i32 + 1
    let work := lwork.toNat
    let rwork := 3 * m
    let o ← syev cj re eig (2 * m_i32 - 1) (jobOf cTrue) (uploOf c_upper) m_i32 a.data lda l work lwork (max 1 (3 * m - 2)) rwork
    syevFinish a "zheev" o

/-- `dpotrf`, `zpotrf`: the numerical part gives the triangle of the factor, `none` if the matrix is not positive definite -/
def potrf [Zero κ] (cj re : κ → κ) (chol : Char → Nat → (Nat → Nat → κ) → Option (Nat → Nat → κ)) (uplo : Char) (n : Int) (a : List κ)
    (lda : Int) : Res (List κ × Int) :=
  if n < 0 ∨ lda < max 1 n then ok (a, -1)
  else if ¬ InArray a lda.toNat n.toNat n.toNat then Res.panic
  else match chol uplo n.toNat (herEntry cj re uplo (entries a lda.toNat)) with
    | none => ok (a, 1)
    | some F => ok (a.mapIdx fun p v => if p % lda.toNat < n.toNat ∧ p / lda.toNat < n.toNat ∧
        (if uplo = 'U' then p % lda.toNat ≤ p / lda.toNat else p / lda.toNat ≤ p % lda.toNat) then F (p % lda.toNat) (p / lda.toNat) else v, 0)

/-- `mat_cholesky`, `complex_mat_cholesky` with the name of the routine (/repo/russell_lab/src/matrix/mat_cholesky.rs:93-114,
complex_mat_cholesky.rs:93-114) -/
def matCholesky [Zero κ] (routine : String) (cj re : κ → κ) (chol : Char → Nat → (Nat → Nat → κ) → Option (Nat → Nat → κ)) (a : NumMatrix κ)
    (upper : Bool) : Res (NumMatrix κ) :=
  let m := a.nrow
  let n := a.ncol
  if m ≠ n then err "the matrix must be square"
  else do
    let c_upper := if upper then cTrue else cFalse
    let m_i32 ← toI32 m
    let lda := m_i32
    let o ← potrf cj re chol (uploOf c_upper) m_i32 a.data lda
    if o.2 < 0 then err s!"LAPACK ERROR ({routine}): An argument had an illegal value"
    else if o.2 > 0 then err s!"LAPACK ERROR ({routine}): Positive definite check failed"
    else ok { a with data := o.1 }

/-! ## Proofs -/

theorem putMat_dense {c : NumMatrix κ} {m n : Nat} {f : Nat → Nat → κ} (hc : IsDense c m n f) (F : Nat → Nat → κ) :
    IsDense { c with data := putMat m m n F c.data } m n F :=
  isDense_mapIdx hc _ F fun i j hi hj => by rw [(lin_mod hi).1, (lin_mod hi).2, if_pos ⟨hi, hj⟩]

theorem putVec_isVec {v : List κ} {n : Nat} {f : Nat → κ} (hv : IsVec v n f) (F : Nat → κ) : IsVec (putVec n F v) n F :=
  isVec_mapIdx hv _ fun i hi => by rw [if_pos hi]

theorem dense_congr {d : NumMatrix κ} {m n : Nat} {f g : Nat → Nat → κ} (h : IsDense d m n f) (e : ∀ i j, i < m → j < n → f i j = g i j) :
    IsDense d m n g :=
  ⟨h.nrow, h.ncol, h.len, fun i j hi hj => by rw [h.get i j hi hj, e i j hi hj]⟩

/-- rows and columns are orthonormal -/
def IsUnitary [CommRing κ] (cj : κ → κ) (n : Nat) (u : Nat → Nat → κ) : Prop :=
  (∀ i j, i < n → j < n → ∑ k ∈ Finset.range n, cj (u k i) * u k j = if i = j then 1 else 0) ∧
  (∀ i j, i < n → j < n → ∑ k ∈ Finset.range n, u i k * cj (u j k) = if i = j then 1 else 0)

/-- `s`, `u`, `vt` is a singular value decomposition of the matrix; `emb` embeds the real numbers -/
def IsSvd [CommRing κ] [Zero β] [LE β] (cj : κ → κ) (emb : β → κ) (m n : Nat) (A : Nat → Nat → κ) (s : Nat → β) (u vt : Nat → Nat → κ) : Prop :=
  (∀ k, k < min m n → 0 ≤ s k) ∧ (∀ k, k + 1 < min m n → s (k + 1) ≤ s k) ∧ IsUnitary cj m u ∧ IsUnitary cj n vt ∧
  ∀ i j, i < m → j < n → A i j = ∑ k ∈ Finset.range (min m n), u i k * emb (s k) * vt k j

/-- the promise of the manual of `gesvd` -/
def SvdSpec [CommRing κ] [Zero β] [LE β] (cj : κ → κ) (emb : β → κ) (svd : Svd κ β) : Prop :=
  ∀ m n A r, svd m n A = some r → IsSvd cj emb m n A r.1 r.2.1 r.2.2

theorem gesvd_dense [CommRing κ] [Zero β] [LE β] {cj : κ → κ} {emb : β → κ} {svd : Svd κ β} (hspec : SvdSpec cj emb svd) {m n : Nat}
    (hm0 : 0 < m) (hn0 : 0 < n) (need best : Int) {a u vt : NumMatrix κ} {A U V : Nat → Nat → κ} {s : List β} {S : Nat → β}
    (ha : IsDense a m n A) (hs : IsVec s (min m n) S) (hu : IsDense u m m U) (hv : IsDense vt n n V) (work : Nat) {lwork : Int}
    (h1 : lwork ≠ -1) (h2 : need ≤ lwork) (h3 : lwork.toNat ≤ work) {rneed rwork : Nat} (h4 : rneed ≤ rwork) (routine : String) :
    let r := gesvd svd need best 'A' 'A' m n a.data m s u.data m vt.data n work lwork rneed rwork >>= svdFinish u vt routine
    r = err s!"LAPACK ERROR ({routine}): Algorithm did not converge" ∨
    ∃ s' u' vt' S' U' V', r = ok (s', u', vt') ∧ IsVec s' (min m n) S' ∧ IsDense u' m m U' ∧ IsDense vt' n n V' ∧
      IsSvd cj emb m n A S' U' V' := by
  unfold gesvd
  dsimp only
  rw [if_neg (by decide), if_neg (by omega), if_neg h1]
  simp only [Int.toNat_natCast]
  rw [if_neg (by
    rw [not_not]
    exact ⟨ha.inArray, by rw [hs.len], hu.inArray, hv.inArray, h3, h4⟩)]
  cases e : svd m n (entries a.data m) with
  | none => left; rfl
  | some r =>
    right
    have sp := hspec m n _ r e
    refine ⟨_, _, _, r.1, r.2.1, r.2.2, rfl, putVec_isVec hs r.1, putMat_dense hu _, putMat_dense hv _, ?_⟩
    obtain ⟨p1, p2, p3, p4, p5⟩ := sp
    refine ⟨p1, p2, p3, p4, fun i j hi hj => ?_⟩
    rw [← p5 i j hi hj, entries, ha.getD' hi hj]

/-- **C102** `mat_svd` for a matrix that is not empty: it either reports that LAPACK did not converge, or returns a singular value
decomposition: orthogonal `u` and `vt`, singular values that are not negative and not increasing, `a = u s vt`. The workspace query is
answered in accordance with the manual (`best` is at least the least workspace). -/
theorem C102_svd [CommRing κ] [Zero β] [LE β] {emb : β → κ} {svd : Svd κ β} (hspec : SvdSpec id emb svd) {m n : Nat}
    (hm : m < 2147483648) (hn : n < 2147483648) (hm0 : 0 < m) (hn0 : 0 < n) {best : Nat → Nat → Int} (hbest : dgesvdNeed m n ≤ best m n)
    {a u vt : NumMatrix κ} {A U V : Nat → Nat → κ} {s : List β} {S : Nat → β} (ha : IsDense a m n A) (hs : IsVec s (min m n) S)
    (hu : IsDense u m m U) (hv : IsDense vt n n V) :
    matSvd svd best s u vt a = err "LAPACK ERROR (dgesvd): Algorithm did not converge" ∨
    ∃ s' u' vt' S' U' V', matSvd svd best s u vt a = ok (s', u', vt') ∧ IsVec s' (min m n) S' ∧ IsDense u' m m U' ∧ IsDense vt' n n V' ∧
      IsSvd id emb m n A S' U' V' := by
  have e : matSvd svd best s u vt a = gesvd svd (dgesvdNeed m n) (best m n) 'A' 'A' m n a.data m s u.data m vt.data n (best m n).toNat
      (best m n) 0 0 >>= svdFinish u vt "dgesvd" := by
    unfold matSvd svdChecks
    simp only [ha.nrow, ha.ncol, hs.len, hu.nrow, hu.ncol, hv.nrow, hv.ncol]
    rw [if_neg (by simp), if_neg (by simp), if_neg (by simp), toI32_lt hm, ok_bind, toI32_lt hn, ok_bind]
    have q : gesvd svd (dgesvdNeed m n) (best m n) (svdJob svdCodeA) (svdJob svdCodeA) m n a.data m s u.data m vt.data n 1 (-1) 0 0 =
        ok ⟨s, u.data, vt.data, best m n, 0⟩ := by
      unfold gesvd
      rw [if_neg (by decide), if_neg (by omega), if_pos rfl, if_neg (by omega)]
    rw [q, ok_bind]
    rfl
  rw [e]
  have hneed : 1 ≤ dgesvdNeed m n := le_max_left _ _
  exact gesvd_dense hspec hm0 hn0 _ _ ha hs hu hv _ (by omega) hbest (le_refl _) (le_refl _) "dgesvd"

/-- **C102** `complex_mat_svd`: `u` and `vh` unitary, the singular values are real, not negative and not increasing, `a = u s vh`. The
workspace is sufficient. -/
theorem C102_complex_svd [CommRing κ] [Zero β] [LE β] {cj : κ → κ} {emb : β → κ} {svd : Svd κ β} (hspec : SvdSpec cj emb svd) {m n : Nat}
    (hm : m < 2147483648) (hn : n < 2147483648) (hm0 : 0 < m) (hn0 : 0 < n) {a u vh : NumMatrix κ} {A U V : Nat → Nat → κ} {s : List β}
    {S : Nat → β} (ha : IsDense a m n A) (hs : IsVec s (min m n) S) (hu : IsDense u m m U) (hv : IsDense vh n n V) :
    complexMatSvd svd s u vh a = err "LAPACK ERROR (zgesvd): Algorithm did not converge" ∨
    ∃ s' u' vh' S' U' V', complexMatSvd svd s u vh a = ok (s', u', vh') ∧ IsVec s' (min m n) S' ∧ IsDense u' m m U' ∧
      IsDense vh' n n V' ∧ IsSvd cj emb m n A S' U' V' := by
  have e : complexMatSvd svd s u vh a = gesvd svd (zgesvdNeed m n) 0 'A' 'A' m n a.data m s u.data m vh.data n
      (2 * ((min m n : Nat) : Int) + ((max m n : Nat) : Int) + 1).toNat (2 * ((min m n : Nat) : Int) + ((max m n : Nat) : Int) + 1)
      (5 * min m n) (5 * min m n) >>= svdFinish u vh "zgesvd" := by
    unfold complexMatSvd svdChecks
    simp only [ha.nrow, ha.ncol, hs.len, hu.nrow, hu.ncol, hv.nrow, hv.ncol]
    rw [if_neg (by simp), if_neg (by simp), if_neg (by simp), toI32_lt hm, ok_bind, toI32_lt hn, ok_bind, toI32_lt (by omega), ok_bind,
      toI32_lt (by omega), ok_bind]
    rfl
  rw [e]
  exact gesvd_dense hspec hm0 hn0 _ _ ha hs hu hv _ (by omega) (by unfold zgesvdNeed; push_cast; omega) (le_refl _) (le_refl _) "zgesvd"

/-- **C102** the SVD of a matrix without rows or without columns is refused -/
theorem C102_svd_empty [Zero κ] (svd : Svd κ β) (best : Nat → Nat → Int) {m n : Nat} (hm : m < 2147483648) (hn : n < 2147483648)
    (h0 : m = 0 ∨ n = 0) {a u vt : NumMatrix κ} {A U V : Nat → Nat → κ} {s : List β} {S : Nat → β} (ha : IsDense a m n A)
    (hs : IsVec s (min m n) S) (hu : IsDense u m m U) (hv : IsDense vt n n V) :
    matSvd svd best s u vt a = err "LAPACK ERROR (dgesvd): An argument had an illegal value" ∧
    complexMatSvd svd s u vt a = err "LAPACK ERROR (zgesvd): An argument had an illegal value" := by
  have q : ∀ (need best : Int) (s : List β) (u vt : List κ) (work : Nat) (lwork : Int) (r1 r2 : Nat),
      gesvd svd need best (svdJob svdCodeA) (svdJob svdCodeA) m n a.data m s u m vt n work lwork r1 r2 = ok ⟨s, u, vt, 0, -1⟩ := by
    intros
    unfold gesvd
    rw [if_neg (by decide), if_pos (by omega)]
  constructor
  · unfold matSvd svdChecks
    simp only [ha.nrow, ha.ncol, hs.len, hu.nrow, hu.ncol, hv.nrow, hv.ncol]
    rw [if_neg (by simp), if_neg (by simp), if_neg (by simp), toI32_lt hm, ok_bind, toI32_lt hn, ok_bind, q, ok_bind, q, ok_bind]
    rfl
  · unfold complexMatSvd svdChecks
    simp only [ha.nrow, ha.ncol, hs.len, hu.nrow, hu.ncol, hv.nrow, hv.ncol]
    rw [if_neg (by simp), if_neg (by simp), if_neg (by simp), toI32_lt hm, ok_bind, toI32_lt hn, ok_bind, toI32_lt (by omega), ok_bind,
      toI32_lt (by omega), ok_bind, q, ok_bind]
    rfl

end Russell.Lab
