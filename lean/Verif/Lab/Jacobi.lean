import Verif.Lab.Small
import Mathlib.Analysis.InnerProductSpace.PiL2
import Mathlib.Analysis.Real.Sqrt

/-!
# Eigenvalues of symmetric matrices by Jacobi rotations (russell_lab/src/matrix/mat_eigen_sym_jacobi.rs)

Numbers are real. Matrices are total functions of two indices, the entries within the dimensions count; after the checks of the
dimensions every index of the loops is within them.
-/

namespace Russell.Lab

open Russell Russell.Res

/-- `TOLERANCE` (mat_eigen_sym_jacobi.rs:5). -/
noncomputable def jacobiTol : ℝ := 1e-15

/-- `N_MAX_ITERATIONS` (mat_eigen_sym_jacobi.rs:8). -/
def jacobiMaxIterations : Nat := 20

/-- `for j in lo..hi`. -/
def loop {σ : Type} (lo hi : Nat) (s : σ) (f : Nat → σ → σ) : σ := (List.range' lo (hi - lo)).foldl (fun s j => f j s) s

/-- The matrices and vectors that the rotations change. -/
structure JState where
  a : Arr2 ℝ
  v : Arr2 ℝ
  l : Nat → ℝ
  z : Nat → ℝ

/-- A loop over `j` that changes the entries `X j` and `Y j` (mat_eigen_sym_jacobi.rs:162-188). -/
noncomputable def pairLoop (s tau : ℝ) (X Y : Nat → Nat × Nat) (lo hi : Nat) (a : Arr2 ℝ) : Arr2 ℝ :=
  loop lo hi a fun j a =>
    let g := a (X j).1 (X j).2
    let h := a (Y j).1 (Y j).2
    (a.put (X j).1 (X j).2 (g - s * (h + g * tau))).put (Y j).1 (Y j).2 (h + s * (g - h * tau))

open Classical in
/-- The tangent of the rotation (mat_eigen_sym_jacobi.rs:143-151). For `a[p][q] = 0` the quotient `theta` is infinite and `t` is zero. -/
noncomputable def jacobiTan (h apq : ℝ) : ℝ :=
  if |h| ≤ jacobiTol then 1
  else if apq = 0 then 0
  else
    let theta := 0.5 * h / apq
    let t := 1 / (|theta| + √(1 + theta * theta))
    if theta < 0 then -t else t

/-- `x[p] = value`. -/
def putv (x : Nat → ℝ) (p : Nat) (value : ℝ) : Nat → ℝ := fun i => if i = p then value else x i

/-- One rotation (mat_eigen_sym_jacobi.rs:142-188). -/
noncomputable def jacobiRotate (n p q : Nat) (S : JState) : JState :=
  let h := S.l q - S.l p
  let t := jacobiTan h (S.a p q)
  let c := 1 / √(1 + t * t)
  let s := t * c
  let tau := s / (1 + c)
  let h := t * S.a p q
  let z := putv S.z p (S.z p - h)
  let z := putv z q (z q + h)
  let l := putv S.l p (S.l p - h)
  let l := putv l q (l q + h)
  let a := S.a.put p q 0
  let a := pairLoop s tau (fun j => (j, p)) (fun j => (j, q)) 0 p a
  let a := pairLoop s tau (fun j => (p, j)) (fun j => (j, q)) (p + 1) q a
  let a := pairLoop s tau (fun j => (p, j)) (fun j => (q, j)) (q + 1) n a
  let v := pairLoop s tau (fun j => (j, p)) (fun j => (j, q)) 0 n S.v
  ⟨a, v, l, z⟩

/-- The rotations of one iteration (mat_eigen_sym_jacobi.rs:140-190). -/
noncomputable def jacobiSweep (n : Nat) (S : JState) : JState :=
  loop 0 (n - 1) S fun p S => loop (p + 1) n S fun q S => jacobiRotate n p q S

/-- Sum of the magnitudes of the upper off-diagonal elements (mat_eigen_sym_jacobi.rs:127-132). -/
noncomputable def jacobiOff (n : Nat) (a : Arr2 ℝ) : ℝ := loop 0 (n - 1) 0 fun p sm => loop (p + 1) n sm fun q sm => sm + |a p q|

open Classical in
/-- The iterations (mat_eigen_sym_jacobi.rs:125-198); `left` is the number of iterations left. -/
noncomputable def jacobiIter (n : Nat) : (left iteration : Nat) → (b : Nat → ℝ) → JState → Res (Nat × JState)
  | 0, _, _, _ => err "Jacobi rotation did not converge"
  | left + 1, iteration, b, S =>
    if jacobiOff n S.a < jacobiTol then ok (iteration + 1, S)
    else
      let S := jacobiSweep n S
      let r := loop 0 n (b, S) fun p r =>
        let b := putv r.1 p (r.1 p + r.2.z p)
        (b, { r.2 with l := putv r.2.l p (b p), z := putv r.2.z p 0 })
      jacobiIter n left (iteration + 1) r.1 r.2

/-- `mat_eigen_sym_jacobi` (mat_eigen_sym_jacobi.rs:79-199) for a matrix `a` of dimensions `(m, n)`, `v` of dimensions `(mm, nn)` and `l` of
dimension `ldim`. The result is the number of iterations, `l`, and `v`; what is left in `a` is not modelled. -/
noncomputable def matEigenSymJacobi (ldim : Nat) (mm nn m n : Nat) (a : Arr2 ℝ) : Res (Nat × (Nat → ℝ) × Arr2 ℝ) :=
  if m ≠ n then err "matrix must be square"
  else if m = 0 then err "matrix dimension must be ≥ 1"
  else if mm ≠ m ∨ nn ≠ n then err "v and a matrices must have the same dimensions"
  else if ldim ≠ n then err "l vector has incompatible dimension"
  else do
    let b := fun p => a p p
    let v : Arr2 ℝ := fun p q => if p = q then 1 else 0
    let r ← jacobiIter n jacobiMaxIterations 0 b ⟨a, v, b, fun _ => 0⟩
    ok (r.1, r.2.l, r.2.v)

/-! ### Loops -/

theorem loop_succ {σ : Type} (lo hi : Nat) (s : σ) (f : Nat → σ → σ) (h : lo ≤ hi) : loop lo (hi + 1) s f = f hi (loop lo hi s f) := by
  unfold loop
  have : hi + 1 - lo = (hi - lo) + 1 := by omega
  rw [this, List.range'_1_concat, List.foldl_append]
  simp only [List.foldl_cons, List.foldl_nil]
  congr 1
  omega

theorem loop_self {σ : Type} (lo hi : Nat) (s : σ) (f : Nat → σ → σ) (h : hi ≤ lo) : loop lo hi s f = s := by
  unfold loop
  rw [Nat.sub_eq_zero_of_le h]
  rfl

theorem loop_inv {σ : Type} (P : Nat → σ → Prop) (lo hi : Nat) (s : σ) (f : Nat → σ → σ) (h : lo ≤ hi) (h0 : P lo s)
    (hs : ∀ j s, lo ≤ j → j < hi → P j s → P (j + 1) (f j s)) : P hi (loop lo hi s f) := by
  induction hi with
  | zero =>
    have : lo = 0 := by omega
    subst this
    rw [loop_self _ _ _ _ (by omega)]
    exact h0
  | succ hi ih =>
    rcases Nat.lt_or_ge hi lo with hlt | hge
    · have : lo = hi + 1 := by omega
      subst this
      rw [loop_self _ _ _ _ (by omega)]
      exact h0
    · rw [loop_succ _ _ _ _ hge]
      exact hs hi _ hge (by omega) (ih hge fun j s h1 h2 => hs j s h1 (by omega))

/-- What `pairLoop` does to the entries. -/
theorem pairLoop_spec (s tau : ℝ) (X Y : Nat → Nat × Nat) (lo hi : Nat) (a : Arr2 ℝ) (h : lo ≤ hi) (hX : ∀ j k, X j = X k → j = k)
    (hY : ∀ j k, Y j = Y k → j = k) (hXY : ∀ j k, lo ≤ j → j < hi → lo ≤ k → k < hi → X j ≠ Y k) :
    (∀ j, lo ≤ j → j < hi → pairLoop s tau X Y lo hi a (X j).1 (X j).2 =
      a (X j).1 (X j).2 - s * (a (Y j).1 (Y j).2 + a (X j).1 (X j).2 * tau)) ∧
    (∀ j, lo ≤ j → j < hi → pairLoop s tau X Y lo hi a (Y j).1 (Y j).2 =
      a (Y j).1 (Y j).2 + s * (a (X j).1 (X j).2 - a (Y j).1 (Y j).2 * tau)) ∧
    ∀ x y, (∀ j, lo ≤ j → j < hi → (x, y) ≠ X j ∧ (x, y) ≠ Y j) → pairLoop s tau X Y lo hi a x y = a x y := by
  have key := loop_inv (fun m (w : Arr2 ℝ) =>
      (∀ j, lo ≤ j → j < m → w (X j).1 (X j).2 = a (X j).1 (X j).2 - s * (a (Y j).1 (Y j).2 + a (X j).1 (X j).2 * tau)) ∧
      (∀ j, lo ≤ j → j < m → w (Y j).1 (Y j).2 = a (Y j).1 (Y j).2 + s * (a (X j).1 (X j).2 - a (Y j).1 (Y j).2 * tau)) ∧
      ∀ x y, (∀ j, lo ≤ j → j < m → (x, y) ≠ X j ∧ (x, y) ≠ Y j) → w x y = a x y) lo hi a
    (fun j a =>
      let g := a (X j).1 (X j).2
      let h := a (Y j).1 (Y j).2
      (a.put (X j).1 (X j).2 (g - s * (h + g * tau))).put (Y j).1 (Y j).2 (h + s * (g - h * tau))) h
    ⟨fun j h1 h2 => by omega, fun j h1 h2 => by omega, fun x y _ => rfl⟩ ?_
  · exact key
  · rintro j w hj1 hj2 ⟨h1, h2, h3⟩
    have pe : ∀ x y : Nat × Nat, (x.1 = y.1 ∧ x.2 = y.2) ↔ x = y := fun x y => Prod.ext_iff.symm
    have eX : w (X j).1 (X j).2 = a (X j).1 (X j).2 := h3 _ _ fun k k1 k2 =>
      ⟨fun e => by have := hX j k e; omega, hXY j k hj1 hj2 k1 (by omega)⟩
    have eY : w (Y j).1 (Y j).2 = a (Y j).1 (Y j).2 := h3 _ _ fun k k1 k2 =>
      ⟨fun e => hXY k j k1 (by omega) hj1 hj2 e.symm, fun e => by have := hY j k e; omega⟩
    have val : ∀ x y, ((w.put (X j).1 (X j).2 (w (X j).1 (X j).2 - s * (w (Y j).1 (Y j).2 + w (X j).1 (X j).2 * tau))).put (Y j).1 (Y j).2
        (w (Y j).1 (Y j).2 + s * (w (X j).1 (X j).2 - w (Y j).1 (Y j).2 * tau))) x y =
        if (x, y) = Y j then a (Y j).1 (Y j).2 + s * (a (X j).1 (X j).2 - a (Y j).1 (Y j).2 * tau)
        else if (x, y) = X j then a (X j).1 (X j).2 - s * (a (Y j).1 (Y j).2 + a (X j).1 (X j).2 * tau) else w x y := by
      intro x y
      have e1 := pe (x, y) (Y j)
      have e2 := pe (x, y) (X j)
      simp only at e1 e2
      simp only [Arr2.put, e1, e2, eX, eY]
    refine ⟨fun k k1 k2 => ?_, fun k k1 k2 => ?_, fun x y hxy => ?_⟩
    · rw [val]
      rw [if_neg (show ¬ X k = Y j from hXY k j k1 (by omega) hj1 hj2)]
      by_cases hk : k = j
      · subst hk
        rw [if_pos rfl]
      · rw [if_neg (fun e => hk (hX k j e))]
        exact h1 k k1 (by omega)
    · rw [val]
      by_cases hk : k = j
      · subst hk
        rw [if_pos rfl]
      · rw [if_neg (fun e => hk (hY k j e)), if_neg (show ¬ Y k = X j from fun e => hXY j k hj1 hj2 k1 (by omega) e.symm)]
        exact h2 k k1 (by omega)
    · rw [val, if_neg (hxy j hj1 (by omega)).2, if_neg (hxy j hj1 (by omega)).1]
      exact h3 x y fun k k1 k2 => hxy k k1 (by omega)

/-! ### One rotation -/

/-- Entries of the symmetric matrix whose diagonal is `l` and whose upper triangle is that of `a`. -/
def JState.sym (S : JState) (i j : Nat) : ℝ := if i = j then S.l i else S.a (min i j) (max i j)

theorem sym_comm (S : JState) (i j : Nat) : S.sym i j = S.sym j i := by
  unfold JState.sym
  by_cases h : i = j
  · rw [h]
  · rw [if_neg h, if_neg (Ne.symm h), min_comm, max_comm]

theorem sym_lt (S : JState) {i j : Nat} (h : i < j) : S.sym i j = S.a i j := by
  rw [JState.sym, if_neg (by omega), min_eq_left (by omega), max_eq_right (by omega)]

theorem sym_gt (S : JState) {i j : Nat} (h : i < j) : S.sym j i = S.a i j := by rw [sym_comm, sym_lt S h]

/-- The numbers of a rotation. -/
structure Rot (t c s tau : ℝ) : Prop where
  c_pos : 0 < c
  s_eq : s = t * c
  unit : c * c * (1 + t * t) = 1
  half : 1 - s * tau = c

theorem rot_of (t : ℝ) : Rot t (1 / √(1 + t * t)) (t * (1 / √(1 + t * t))) (t * (1 / √(1 + t * t)) / (1 + 1 / √(1 + t * t))) := by
  have hp : 0 < 1 + t * t := by nlinarith [mul_self_nonneg t]
  have hs : 0 < √(1 + t * t) := Real.sqrt_pos.2 hp
  have hc : 0 < 1 / √(1 + t * t) := by positivity
  have hu : 1 / √(1 + t * t) * (1 / √(1 + t * t)) * (1 + t * t) = 1 := by
    have := Real.mul_self_sqrt hp.le
    generalize √(1 + t * t) = r at this hs
    rw [← this]
    field_simp
  refine ⟨hc, rfl, hu, ?_⟩
  generalize 1 / √(1 + t * t) = c at hc hu
  have h1 : 1 + c ≠ 0 := by positivity
  field_simp
  nlinarith

/-- The symmetric matrix after a rotation, out of the block of `p` and `q`. -/
theorem rotate_sym (n p q : Nat) (S : JState) (hpq : p < q) (hqn : q < n) : ∃ t c s tau, Rot t c s tau ∧ t = jacobiTan (S.l q - S.l p) (S.a p q) ∧
    (jacobiRotate n p q S).sym p p = S.l p - t * S.a p q ∧
    (jacobiRotate n p q S).sym q q = S.l q + t * S.a p q ∧
    (jacobiRotate n p q S).sym p q = 0 ∧
    (∀ k, k < n → k ≠ p → k ≠ q → (jacobiRotate n p q S).sym k p = c * S.sym k p - s * S.sym k q) ∧
    (∀ k, k < n → k ≠ p → k ≠ q → (jacobiRotate n p q S).sym k q = s * S.sym k p + c * S.sym k q) ∧
    (∀ j k, j < n → k < n → j ≠ p → j ≠ q → k ≠ p → k ≠ q → (jacobiRotate n p q S).sym j k = S.sym j k) ∧
    (∀ j, j < n → (jacobiRotate n p q S).v j p = c * S.v j p - s * S.v j q) ∧
    (∀ j, j < n → (jacobiRotate n p q S).v j q = s * S.v j p + c * S.v j q) ∧
    (∀ j k, k ≠ p → k ≠ q → (jacobiRotate n p q S).v j k = S.v j k) ∧
    (∀ i, (jacobiRotate n p q S).l i - (jacobiRotate n p q S).z i = S.l i - S.z i) := by
  obtain ⟨t, ht⟩ : ∃ t, t = jacobiTan (S.l q - S.l p) (S.a p q) := ⟨_, rfl⟩
  have hrot := rot_of t
  obtain ⟨c, hc⟩ : ∃ c, c = 1 / √(1 + t * t) := ⟨_, rfl⟩
  obtain ⟨s, hs⟩ : ∃ s, s = t * c := ⟨_, rfl⟩
  obtain ⟨tau, htau⟩ : ∃ tau, tau = s / (1 + c) := ⟨_, rfl⟩
  rw [← hc, ← hs, ← htau] at hrot
  obtain ⟨a0, ha0⟩ : ∃ a0, a0 = S.a.put p q 0 := ⟨_, rfl⟩
  obtain ⟨a1, ha1⟩ : ∃ a1, a1 = pairLoop s tau (fun j => (j, p)) (fun j => (j, q)) 0 p a0 := ⟨_, rfl⟩
  obtain ⟨a2, ha2⟩ : ∃ a2, a2 = pairLoop s tau (fun j => (p, j)) (fun j => (j, q)) (p + 1) q a1 := ⟨_, rfl⟩
  obtain ⟨a3, ha3⟩ : ∃ a3, a3 = pairLoop s tau (fun j => (p, j)) (fun j => (q, j)) (q + 1) n a2 := ⟨_, rfl⟩
  obtain ⟨v', hv'⟩ : ∃ v', v' = pairLoop s tau (fun j => (j, p)) (fun j => (j, q)) 0 n S.v := ⟨_, rfl⟩
  obtain ⟨l', hl'⟩ : ∃ l', l' = putv (putv S.l p (S.l p - t * S.a p q)) q (putv S.l p (S.l p - t * S.a p q) q + t * S.a p q) := ⟨_, rfl⟩
  obtain ⟨z', hz'⟩ : ∃ z', z' = putv (putv S.z p (S.z p - t * S.a p q)) q (putv S.z p (S.z p - t * S.a p q) q + t * S.a p q) := ⟨_, rfl⟩
  have hS : jacobiRotate n p q S = ⟨a3, v', l', z'⟩ := by
    subst hv' hl' hz' ha3 ha2 ha1 ha0 htau hs hc ht
    rfl
  have b0 : ∀ x y, ¬ (x = p ∧ y = q) → a0 x y = S.a x y := fun x y h => by rw [ha0]; exact if_neg h
  obtain ⟨X1, Y1, Z1⟩ := pairLoop_spec s tau (fun j => (j, p)) (fun j => (j, q)) 0 p a0 (by omega) (fun j k h => (Prod.ext_iff.1 h).1)
    (fun j k h => (Prod.ext_iff.1 h).1) (fun j k _ _ _ _ h => by have := (Prod.ext_iff.1 h).2; simp only at this; omega)
  obtain ⟨X2, Y2, Z2⟩ := pairLoop_spec s tau (fun j => (p, j)) (fun j => (j, q)) (p + 1) q a1 (by omega) (fun j k h => (Prod.ext_iff.1 h).2)
    (fun j k h => (Prod.ext_iff.1 h).1) (fun j k _ _ _ _ h => by have := (Prod.ext_iff.1 h).1; simp only at this; omega)
  obtain ⟨X3, Y3, Z3⟩ := pairLoop_spec s tau (fun j => (p, j)) (fun j => (q, j)) (q + 1) n a2 (by omega) (fun j k h => (Prod.ext_iff.1 h).2)
    (fun j k h => (Prod.ext_iff.1 h).2) (fun j k _ _ _ _ h => by have := (Prod.ext_iff.1 h).1; simp only at this; omega)
  obtain ⟨XV, YV, ZV⟩ := pairLoop_spec s tau (fun j => (j, p)) (fun j => (j, q)) 0 n S.v (by omega) (fun j k h => (Prod.ext_iff.1 h).1)
    (fun j k h => (Prod.ext_iff.1 h).1) (fun j k _ _ _ _ h => by have := (Prod.ext_iff.1 h).2; simp only at this; omega)
  rw [← ha1] at X1 Y1 Z1
  rw [← ha2] at X2 Y2 Z2
  rw [← ha3] at X3 Y3 Z3
  rw [← hv'] at XV YV ZV
  simp only [ne_eq, Prod.mk.injEq] at X1 Y1 Z1 X2 Y2 Z2 X3 Y3 Z3 XV YV ZV
  have fc : ∀ g h : ℝ, g - s * (h + g * tau) = c * g - s * h := fun g h => by linear_combination g * hrot.half
  have fs : ∀ g h : ℝ, h + s * (g - h * tau) = s * g + c * h := fun g h => by linear_combination h * hrot.half
  simp only [fc, fs] at X1 Y1 X2 Y2 X3 Y3 XV YV
  have low : ∀ k, k < p → a3 k p = c * S.a k p - s * S.a k q ∧ a3 k q = s * S.a k p + c * S.a k q := by
    intro k hk
    rw [Z3 k p (fun j _ _ => by omega), Z2 k p (fun j _ _ => by omega), X1 k (by omega) hk]
    rw [Z3 k q (fun j _ _ => by omega), Z2 k q (fun j _ _ => by omega), Y1 k (by omega) hk]
    rw [b0 k p (by omega), b0 k q (by omega)]
    exact ⟨rfl, rfl⟩
  have mid : ∀ k, p < k → k < q → a3 p k = c * S.a p k - s * S.a k q ∧ a3 k q = s * S.a p k + c * S.a k q := by
    intro k hk hk'
    rw [Z3 p k (fun j _ _ => by omega), X2 k (by omega) hk', Z3 k q (fun j _ _ => by omega), Y2 k (by omega) hk']
    rw [Z1 p k (fun j _ _ => by omega), Z1 k q (fun j _ _ => by omega)]
    rw [b0 p k (by omega), b0 k q (by omega)]
    exact ⟨rfl, rfl⟩
  have high : ∀ k, q < k → k < n → a3 p k = c * S.a p k - s * S.a q k ∧ a3 q k = s * S.a p k + c * S.a q k := by
    intro k hk hk'
    rw [X3 k (by omega) hk', Y3 k (by omega) hk']
    rw [Z2 p k (fun j _ _ => by omega), Z2 q k (fun j _ _ => by omega)]
    rw [Z1 p k (fun j _ _ => by omega), Z1 q k (fun j _ _ => by omega)]
    rw [b0 p k (by omega), b0 q k (by omega)]
    exact ⟨rfl, rfl⟩
  have other : ∀ j k, j < k → j ≠ p → j ≠ q → k ≠ p → k ≠ q → a3 j k = S.a j k := by
    intro j k hjk h1 h2 h3 h4
    rw [Z3 j k (fun i _ _ => by omega), Z2 j k (fun i _ _ => by omega), Z1 j k (fun i _ _ => by omega), b0 j k (by omega)]
  have lp : l' p = S.l p - t * S.a p q := by rw [hl']; simp [putv, hpq.ne]
  have lq : l' q = S.l q + t * S.a p q := by rw [hl']; simp [putv, hpq.ne']
  have lo : ∀ i, i ≠ p → i ≠ q → l' i = S.l i := fun i h1 h2 => by rw [hl']; simp [putv, h1, h2]
  have zp : z' p = S.z p - t * S.a p q := by rw [hz']; simp [putv, hpq.ne]
  have zq : z' q = S.z q + t * S.a p q := by rw [hz']; simp [putv, hpq.ne']
  have zo : ∀ i, i ≠ p → i ≠ q → z' i = S.z i := fun i h1 h2 => by rw [hz']; simp [putv, h1, h2]
  refine ⟨t, c, s, tau, hrot, ht, ?_, ?_, ?_, ?_, ?_, ?_, ?_, ?_, ?_, ?_⟩
  · rw [hS, JState.sym, if_pos rfl]
    exact lp
  · rw [hS, JState.sym, if_pos rfl]
    exact lq
  · rw [hS, sym_lt _ hpq]
    show a3 p q = 0
    rw [Z3 p q (fun j _ _ => by omega), Z2 p q (fun j _ _ => by omega), Z1 p q (fun j _ _ => by omega), ha0]
    simp [Arr2.put]
  · intro k hk h1 h2
    rcases Nat.lt_or_ge k p with h | h
    · rw [hS, sym_lt _ h, sym_lt S h, sym_lt S (show k < q by omega)]
      exact (low k h).1
    · rcases Nat.lt_or_ge k q with h' | h'
      · rw [hS, sym_gt _ (show p < k by omega), sym_gt S (show p < k by omega), sym_lt S h']
        exact (mid k (by omega) h').1
      · rw [hS, sym_gt _ (show p < k by omega), sym_gt S (show p < k by omega), sym_gt S (show q < k by omega)]
        exact (high k (by omega) hk).1
  · intro k hk h1 h2
    rcases Nat.lt_or_ge k p with h | h
    · rw [hS, sym_lt _ (show k < q by omega), sym_lt S h, sym_lt S (show k < q by omega)]
      exact (low k h).2
    · rcases Nat.lt_or_ge k q with h' | h'
      · rw [hS, sym_lt _ h', sym_gt S (show p < k by omega), sym_lt S h']
        exact (mid k (by omega) h').2
      · rw [hS, sym_gt _ (show q < k by omega), sym_gt S (show p < k by omega), sym_gt S (show q < k by omega)]
        exact (high k (by omega) hk).2
  · intro j k hj hk h1 h2 h3 h4
    rw [hS]
    rcases lt_trichotomy j k with h | h | h
    · rw [sym_lt _ h, sym_lt S h]
      exact other j k h h1 h2 h3 h4
    · subst h
      rw [JState.sym, JState.sym, if_pos rfl, if_pos rfl]
      exact lo j h1 h2
    · rw [sym_gt _ h, sym_gt S h]
      exact other k j h h3 h4 h1 h2
  · intro j hj
    rw [hS]
    exact XV j (by omega) hj
  · intro j hj
    rw [hS]
    exact YV j (by omega) hj
  · intro j k h1 h2
    rw [hS]
    exact ZV j k fun i _ _ => ⟨fun e => h1 e.2, fun e => h2 e.2⟩
  · intro i
    rw [hS]
    show l' i - z' i = _
    by_cases h1 : i = p
    · rw [h1, lp, zp]; ring
    · by_cases h2 : i = q
      · rw [h2, lq, zq]; ring
      · rw [lo i h1 h2, zo i h1 h2]

end Russell.Lab
