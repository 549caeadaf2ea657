import Verif.Lab.Dense
import Mathlib.Algebra.Ring.Defs
import Mathlib.Tactic.Ring

/-!
# Unrolled array kernels (property C29)

Models of /repo/russell_lab/src/internal/{array_plus_op,array_minus_op,array_plus_opx}.rs. The real and the complex versions
have the same code. The BLAS calls used for long arrays are modelled by their specification.
-/

namespace Russell.Lab

open Russell Russell.Res

variable {α : Type}

/-- one assignment `w[i] = op(u[i], v[i])` -/
def kassign (op : α → α → α) (u v : List α) (i : Nat) (w : List α) : Res (List α) := do
  let a ← vget u i
  let b ← vget v i
  vset w i (op a b)

/-- `for i in (lo..hi).step_by(4) { w[i+0] = ..; w[i+1] = ..; w[i+2] = ..; w[i+3] = .. }`
(e.g. /repo/russell_lab/src/internal/array_plus_op.rs:67-72) -/
def kblocks (op : α → α → α) (u v : List α) (lo hi : Nat) (w : List α) : Res (List α) :=
  if lo < hi then do
    let w ← kassign op u v (lo + 0) w
    let w ← kassign op u v (lo + 1) w
    let w ← kassign op u v (lo + 2) w
    let w ← kassign op u v (lo + 3) w
    kblocks op u v (lo + 4) hi w
  else ok w
termination_by hi - lo

/-- the unrolled kernel (/repo/russell_lab/src/internal/array_plus_op.rs:15-73, the same code in array_minus_op.rs and in
array_plus_opx.rs:60-115): straight-line code up to length 8, then `n % 4` single steps followed by blocks of four -/
def kernel (op : α → α → α) (w u v : List α) : Res (List α) :=
  let n := w.length
  let go (l : List Nat) := forList l w (kassign op u v)
  if n = 0 then ok w
  else if n = 1 then go [0]
  else if n = 2 then go [0, 1]
  else if n = 3 then go [0, 1, 2]
  else if n = 4 then go [0, 1, 2, 3]
  else if n = 5 then go [0, 1, 2, 3, 4]
  else if n = 6 then go [0, 1, 2, 3, 4, 5]
  else if n = 7 then go [0, 1, 2, 3, 4, 5, 6]
  else if n = 8 then go [0, 1, 2, 3, 4, 5, 6, 7]
  else do
    let m := n % 4
    let w ← forRange 0 m w (kassign op u v)
    kblocks op u v m n w

/-- `array_plus_op` and `array_minus_op` with `op` the addition or subtraction
(/repo/russell_lab/src/internal/array_plus_op.rs:10-75, 83-148 and array_minus_op.rs:10-75, 83-148) -/
def arrayOp (op : α → α → α) (w u v : List α) : Res (List α) :=
  if u.length ≠ w.length ∨ v.length ≠ w.length then err "arrays are incompatible" else kernel op w u v

/-- `cblas_dcopy`: the first `n` values of `x` replace those of `y` -/
def blasCopy (n : Nat) (x y : List α) : List α := x.take n ++ y.drop n
/-- `cblas_dscal`: the first `n` values of `x` are multiplied by `a` -/
def blasScal [Mul α] (n : Nat) (a : α) (x : List α) : List α := (x.take n).map (a * ·) ++ x.drop n
/-- `cblas_daxpy`: `y := a x + y` on the first `n` values -/
def blasAxpy [Mul α] [Add α] (n : Nat) (a : α) (x y : List α) : List α :=
  List.zipWith (fun s t => a * s + t) (x.take n) (y.take n) ++ y.drop n

/-- `array_plus_opx` (/repo/russell_lab/src/internal/array_plus_opx.rs:41-118, 126-209), `MAX_DIM_FOR_NATIVE_BLAS = 16`
(/repo/russell_lab/src/internal/constants.rs:2) -/
def arrayOpx [Mul α] [Add α] (w : List α) (a : α) (u : List α) (b : α) (v : List α) : Res (List α) :=
  let n := w.length
  if u.length ≠ n ∨ v.length ≠ n then err "arrays are incompatible"
  else if n = 0 then ok w
  else if n > 16 then do
    let _ ← toI32 n
    let w := blasCopy n v w
    let w := blasScal n b w
    ok (blasAxpy n a u w)
  else kernel (fun x y => a * x + b * y) w u v

/-! ## Proofs -/

theorem kassign_spec {op : α → α → α} {u v w : List α} {n : Nat} {U V W : Nat → α} (hu : IsVec u n U) (hv : IsVec v n V)
    (hw : IsVec w n W) {i : Nat} (hi : i < n) :
    ∃ w', kassign op u v i w = ok w' ∧ IsVec w' n (fun k => if k = i then op (U i) (V i) else W k) := by
  obtain ⟨w', e, h⟩ := hw.vset hi (op (U i) (V i))
  exact ⟨w', by simp [kassign, hu.vget hi, hv.vget hi, e], h⟩

/-- the kernel result restricted to the positions below `t` -/
def Upto (op : α → α → α) (U V W : Nat → α) (t : Nat) : Nat → α := fun k => if k < t then op (U k) (V k) else W k

theorem kassign_upto {op : α → α → α} {u v w : List α} {n : Nat} {U V W : Nat → α} (hu : IsVec u n U) (hv : IsVec v n V)
    {i : Nat} (hw : IsVec w n (Upto op U V W i)) (hi : i < n) :
    ∃ w', kassign op u v i w = ok w' ∧ IsVec w' n (Upto op U V W (i + 1)) := by
  obtain ⟨w', e, h⟩ := kassign_spec (op := op) hu hv hw hi
  refine ⟨w', e, h.congr ?_⟩
  intro k _
  simp only [Upto]
  by_cases hk : k = i
  · subst hk; simp
  · rw [if_neg hk]
    by_cases h2 : k < i
    · rw [if_pos h2, if_pos (by omega)]
    · rw [if_neg h2, if_neg (by omega)]

theorem forList_upto {op : α → α → α} {u v : List α} {n : Nat} {U V W : Nat → α} (hu : IsVec u n U) (hv : IsVec v n V) :
    ∀ (t lo : Nat) (w : List α), IsVec w n (Upto op U V W lo) → lo + t ≤ n →
      ∃ w', forList (List.range' lo t) w (kassign op u v) = ok w' ∧ IsVec w' n (Upto op U V W (lo + t)) := by
  intro t
  induction t with
  | zero => intro lo w hw _; exact ⟨w, rfl, hw⟩
  | succ t ih =>
    intro lo w hw hle
    obtain ⟨w1, e1, h1⟩ := kassign_upto hu hv hw (by omega)
    obtain ⟨w2, e2, h2⟩ := ih (lo + 1) w1 h1 (by omega)
    refine ⟨w2, by simp [List.range'_succ, forList, e1, e2], ?_⟩
    rw [show lo + (t + 1) = lo + 1 + t by omega]; exact h2

theorem kblocks_upto {op : α → α → α} {u v : List α} {n : Nat} {U V W : Nat → α} (hu : IsVec u n U) (hv : IsVec v n V) :
    ∀ (t lo : Nat) (w : List α), IsVec w n (Upto op U V W lo) → lo + 4 * t = n →
      ∃ w', kblocks op u v lo n w = ok w' ∧ IsVec w' n (Upto op U V W n) := by
  intro t
  induction t with
  | zero =>
    intro lo w hw hle
    have : lo = n := by omega
    subst this
    exact ⟨w, by rw [kblocks, if_neg (by omega)], hw⟩
  | succ t ih =>
    intro lo w hw hle
    obtain ⟨w1, e1, h1⟩ := kassign_upto hu hv (i := lo + 0) hw (by omega)
    obtain ⟨w2, e2, h2⟩ := kassign_upto hu hv (i := lo + 1) h1 (by omega)
    obtain ⟨w3, e3, h3⟩ := kassign_upto hu hv (i := lo + 2) h2 (by omega)
    obtain ⟨w4, e4, h4⟩ := kassign_upto hu hv (i := lo + 3) h3 (by omega)
    obtain ⟨w5, e5, h5⟩ := ih (lo + 4) w4 h4 (by omega)
    refine ⟨w5, ?_, h5⟩
    rw [kblocks, if_pos (by omega), e1, ok_bind, e2, ok_bind, e3, ok_bind, e4, ok_bind]
    exact e5

theorem kernel_spec {op : α → α → α} {w u v : List α} {n : Nat} {U V W : Nat → α} (hw : IsVec w n W) (hu : IsVec u n U)
    (hv : IsVec v n V) : ∃ w', kernel op w u v = ok w' ∧ IsVec w' n (fun k => op (U k) (V k)) := by
  have h0 : IsVec w n (Upto op U V W 0) := hw.congr (fun i _ => by simp [Upto])
  have fin : ∀ w', IsVec w' n (Upto op U V W n) → IsVec w' n (fun k => op (U k) (V k)) :=
    fun w' h => h.congr (fun i hi => by simp [Upto, hi])
  have small : ∃ w', forList (List.range' 0 n) w (kassign op u v) = ok w' ∧ IsVec w' n (fun k => op (U k) (V k)) := by
    obtain ⟨w', e, h⟩ := forList_upto hu hv n 0 w h0 (by omega)
    exact ⟨w', e, fin _ (by simpa using h)⟩
  by_cases h8 : n ≤ 8
  · obtain ⟨w', e, h⟩ := small
    refine ⟨w', ?_, h⟩
    simp only [kernel, hw.len]
    have : n = 0 ∨ n = 1 ∨ n = 2 ∨ n = 3 ∨ n = 4 ∨ n = 5 ∨ n = 6 ∨ n = 7 ∨ n = 8 := by omega
    rcases this with rfl | rfl | rfl | rfl | rfl | rfl | rfl | rfl | rfl <;> exact e
  · obtain ⟨w1, e1, h1⟩ := forRange_spec (f := kassign op u v) (fun t w => IsVec w n (Upto op U V W t))
      (Nat.zero_le (n % 4)) (s := w) h0 (by
        intro k s _ hk hI
        exact kassign_upto hu hv hI (by omega))
    obtain ⟨w2, e2, h2⟩ := kblocks_upto hu hv (n / 4) (n % 4) w1 h1 (by omega)
    refine ⟨w2, ?_, fin _ h2⟩
    simp only [kernel, hw.len]
    rw [if_neg (by omega), if_neg (by omega), if_neg (by omega), if_neg (by omega), if_neg (by omega), if_neg (by omega),
      if_neg (by omega), if_neg (by omega), if_neg (by omega), e1, ok_bind]
    exact e2

theorem isVec_zipWith {op : α → α → α} {u v : List α} {n : Nat} {U V : Nat → α} (hu : IsVec u n U) (hv : IsVec v n V) :
    IsVec (List.zipWith op u v) n (fun k => op (U k) (V k)) :=
  ⟨by simp [hu.len, hv.len], fun i hi => by simp [List.getElem?_zipWith, hu.get i hi, hv.get i hi]⟩

/-- **C29** For arrays of equal length (any length), the unrolled kernel assigns `op(u[i], v[i])` to every `w[i]`; for unequal
lengths it returns an error. Hence `array_plus_op` is `w := u + v` and `array_minus_op` is `w := u - v`. -/
theorem C29_array_op (op : α → α → α) (w u v : List α) :
    (u.length = w.length → v.length = w.length → arrayOp op w u v = ok (List.zipWith op u v)) ∧
    (u.length ≠ w.length ∨ v.length ≠ w.length → arrayOp op w u v = err "arrays are incompatible") := by
  constructor
  · intro h1 h2
    rcases w with _ | ⟨d, w⟩
    · simp only [List.length_nil, List.length_eq_zero_iff] at h1 h2
      subst h1; subst h2; rfl
    · have hw := isVec_self (d :: w) d
      have hu := isVec_self u d
      have hv := isVec_self v d
      rw [h1] at hu; rw [h2] at hv
      obtain ⟨w', e, h⟩ := kernel_spec (op := op) hw hu hv
      simp only [arrayOp, h1, h2]
      rw [if_neg (by simp), e, h.unique (isVec_zipWith hu hv)]
  · intro h
    simp only [arrayOp]
    rw [if_pos h]

/-- **C29** `array_plus_opx` computes `w := a·u + b·v` for arrays of equal length, through the unrolled code for at most 16
values and through BLAS above (there the length must fit an `i32`). -/
theorem C29_array_opx [CommSemiring α] (w : List α) (a : α) (u : List α) (b : α) (v : List α) :
    (u.length = w.length → v.length = w.length → w.length < 2147483648 →
      arrayOpx w a u b v = ok (List.zipWith (fun x y => a * x + b * y) u v)) ∧
    (u.length ≠ w.length ∨ v.length ≠ w.length → arrayOpx w a u b v = err "arrays are incompatible") := by
  constructor
  · intro h1 h2 h3
    simp only [arrayOpx]
    rw [if_neg (by simp [h1, h2])]
    by_cases h0 : w.length = 0
    · rw [if_pos h0]
      rw [h0, List.length_eq_zero_iff] at h1 h2
      rw [List.length_eq_zero_iff] at h0
      subst h0; subst h1; subst h2; rfl
    · rw [if_neg h0]
      by_cases h16 : w.length > 16
      · rw [if_pos h16, toI32_lt h3, ok_bind]
        congr 1
        have e1 : blasCopy w.length v w = v := by
          unfold blasCopy
          rw [List.take_of_length_le (by omega), List.drop_of_length_le (Nat.le_refl _), List.append_nil]
        have e2 : blasScal w.length b v = v.map (b * ·) := by
          unfold blasScal
          rw [List.take_of_length_le (by omega), List.drop_of_length_le (by omega), List.append_nil]
        rw [e1, e2]
        unfold blasAxpy
        rw [List.take_of_length_le (by omega), List.take_of_length_le (by simp; omega),
          List.drop_of_length_le (by simp; omega), List.append_nil, List.zipWith_map_right]
      · rw [if_neg h16]
        have := (C29_array_op (fun x y => a * x + b * y) w u v).1 h1 h2
        simp only [arrayOp] at this
        rwa [if_neg (by simp [h1, h2])] at this
  · intro h
    simp only [arrayOpx]
    rw [if_pos h]

/-- length 11: three single steps and two blocks -/
example : arrayOp (· + ·) (List.replicate 11 (0 : Int)) [1, 2, 3, 4, 5, 6, 7, 8, 9, 10, 11]
    [10, 20, 30, 40, 50, 60, 70, 80, 90, 100, 110] = ok [11, 22, 33, 44, 55, 66, 77, 88, 99, 110, 121] :=
  (C29_array_op (· + ·) _ _ _).1 rfl rfl

end Russell.Lab
