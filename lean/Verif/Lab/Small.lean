import Verif.Prelude
import Mathlib.LinearAlgebra.Matrix.Determinant.Basic
import Mathlib.LinearAlgebra.Matrix.NonsingularInverse
import Mathlib.Algebra.Order.Field.Basic
import Mathlib.Algebra.BigOperators.Fin
import Mathlib.Algebra.BigOperators.Field
import Mathlib.Tactic.FieldSimp
import Mathlib.Tactic.LinearCombination
import Mathlib.Tactic.Linarith

/-!
# Small fixed-size matrices: arithmetic and inversion (C26, C53)

A stack-allocated array `[[T; M]; N]` is modelled by a total function together with bounds-checked access: reading or writing
outside `N × M` panics, entries outside the bounds are never observed.
-/

namespace Russell.Lab

open Russell Russell.Res

/-- content of a two-dimensional fixed-size array -/
abbrev Arr2 (α : Type) := Nat → Nat → α

namespace Arr2

variable {α : Type}

/-- `a[i][j]` for `a: [[T; M]; N]` -/
def get (N M : Nat) (a : Arr2 α) (i j : Nat) : Res α := if i < N ∧ j < M then ok (a i j) else panic

/-- the array after `a[i][j] = x` -/
def put (a : Arr2 α) (i j : Nat) (x : α) : Arr2 α := fun r c => if r = i ∧ c = j then x else a r c

/-- `a[i][j] = x` -/
def set (N M : Nat) (a : Arr2 α) (i j : Nat) (x : α) : Res (Arr2 α) := if i < N ∧ j < M then ok (a.put i j x) else panic

/-- the array after swapping two rows -/
def swapped (a : Arr2 α) (i j : Nat) : Arr2 α := fun r c => if r = i then a j c else if r = j then a i c else a r c

/-- `a.swap(i, j)` (slice method): swaps whole rows -/
def swap (N : Nat) (a : Arr2 α) (i j : Nat) : Res (Arr2 α) := if i < N ∧ j < N then ok (a.swapped i j) else panic

theorem get_ok {N M : Nat} {a : Arr2 α} {i j : Nat} (hi : i < N) (hj : j < M) : get N M a i j = ok (a i j) := if_pos ⟨hi, hj⟩
theorem set_ok {N M : Nat} {a : Arr2 α} {i j : Nat} {x : α} (hi : i < N) (hj : j < M) : set N M a i j x = ok (a.put i j x) := if_pos ⟨hi, hj⟩
theorem swap_ok {N : Nat} {a : Arr2 α} {i j : Nat} (hi : i < N) (hj : j < N) : swap N a i j = ok (a.swapped i j) := if_pos ⟨hi, hj⟩

end Arr2

/-! ## Arithmetic (C53) -/

section Arith

variable {α : Type} [CommRing α]

/-- `small_mat_add` (/repo/russell_lab/src/small/small_mat_add.rs:58-74) -/
def smallMatAdd (N : Nat) (c : Arr2 α) (alpha : α) (a : Arr2 α) (beta : α) (b : Arr2 α) (n : Nat) : Res (Arr2 α) :=
  if n ≤ N then
    forRange 0 n c fun i c =>
      forRange 0 n c fun j c => do
        let x ← Arr2.get N N a i j
        let y ← Arr2.get N N b i j
        Arr2.set N N c i j (alpha * x + beta * y)
  else panic

/-- `small_mat_update` (/repo/russell_lab/src/small/small_mat_update.rs:52-62) -/
def smallMatUpdate (N : Nat) (b : Arr2 α) (alpha : α) (a : Arr2 α) (n : Nat) : Res (Arr2 α) :=
  if n ≤ N then
    forRange 0 n b fun i b =>
      forRange 0 n b fun j b => do
        let y ← Arr2.get N N b i j
        let x ← Arr2.get N N a i j
        Arr2.set N N b i j (y + alpha * x)
  else panic

/-- `small_mat_mat_mul` (/repo/russell_lab/src/small/small_mat_mat_mul.rs:56-76) -/
def smallMatMatMul (N : Nat) (c : Arr2 α) (alpha : α) (a b : Arr2 α) (beta : α) (n : Nat) : Res (Arr2 α) :=
  if n ≤ N then
    forRange 0 n c fun i c =>
      forRange 0 n c fun j c => do
        let sum ← forRange 0 n (0 : α) fun k sum => do
          let x ← Arr2.get N N a i k
          let y ← Arr2.get N N b k j
          ok (sum + x * y)
        let z ← Arr2.get N N c i j
        Arr2.set N N c i j (alpha * sum + beta * z)
  else panic

/-- A nested loop that writes `g i j (c i j)` at every `(i, j)` of the active block. -/
theorem blockLoop {N n : Nat} {β : Type} (g : Nat → Nat → β → β) {body : Nat → Nat → Arr2 β → Res (Arr2 β)}
    (hb : ∀ i j c, i < n → j < n → body i j c = Arr2.set N N c i j (g i j (c i j))) (hn : n ≤ N) (c : Arr2 β) :
    forRange 0 n c (fun i c => forRange 0 n c (body i)) = ok (fun r s => if r < n ∧ s < n then g r s (c r s) else c r s) := by
  obtain ⟨c', e, h⟩ := forRange_spec (f := fun i c => forRange 0 n c (body i))
    (fun t c' => ∀ r s, c' r s = if r < t ∧ s < n then g r s (c r s) else c r s) (Nat.zero_le n) (s := c)
    (by intro r s; rw [if_neg (by omega)])
    (by
      intro i c1 _ hi hc1
      obtain ⟨c2, e2, h2⟩ := forRange_spec (f := body i)
        (fun t c' => ∀ r s, c' r s = if r = i ∧ s < t then g r s (c1 r s) else c1 r s) (Nat.zero_le n) (s := c1)
        (by intro r s; rw [if_neg (by omega)])
        (by
          intro j c3 _ hj hc3
          refine ⟨_, by rw [hb i j c3 hi hj, Arr2.set_ok (by omega) (by omega)], ?_⟩
          intro r s
          simp only [Arr2.put]
          by_cases h1 : r = i ∧ s = j
          · obtain ⟨rfl, rfl⟩ := h1
            rw [if_pos ⟨rfl, rfl⟩, if_pos ⟨rfl, by omega⟩, hc3, if_neg (by omega)]
          · rw [if_neg h1, hc3]
            by_cases h2 : r = i ∧ s < j
            · rw [if_pos h2, if_pos (by omega)]
            · rw [if_neg h2, if_neg (by omega)])
      refine ⟨c2, e2, ?_⟩
      intro r s
      rw [h2]
      by_cases h3 : r = i ∧ s < n
      · rw [if_pos h3, if_pos (by omega), hc1, if_neg (by omega)]
      · rw [if_neg h3, hc1]
        by_cases h4 : r < i ∧ s < n
        · rw [if_pos h4, if_pos (by omega)]
        · rw [if_neg h4, if_neg (by omega)])
  rw [e]; congr 1; funext r s; exact h r s

/-- **C53** `small_mat_add` writes `c = α a + β b` in the top-left `n × n` block and leaves the rest of `c` as it was. -/
theorem C53_small_mat_add {N n : Nat} (hn : n ≤ N) (c : Arr2 α) (alpha : α) (a : Arr2 α) (beta : α) (b : Arr2 α) :
    smallMatAdd N c alpha a beta b n = ok (fun i j => if i < n ∧ j < n then alpha * a i j + beta * b i j else c i j) := by
  unfold smallMatAdd
  rw [if_pos hn]
  exact blockLoop (fun i j _ => alpha * a i j + beta * b i j)
    (fun i j c hi hj => by rw [Arr2.get_ok (by omega) (by omega), Arr2.get_ok (by omega) (by omega)]; rfl) hn c

/-- **C53** `small_mat_update` writes `b + α a` in the top-left block. -/
theorem C53_small_mat_update {N n : Nat} (hn : n ≤ N) (b : Arr2 α) (alpha : α) (a : Arr2 α) :
    smallMatUpdate N b alpha a n = ok (fun i j => if i < n ∧ j < n then b i j + alpha * a i j else b i j) := by
  unfold smallMatUpdate
  rw [if_pos hn]
  exact blockLoop (fun i j x => x + alpha * a i j)
    (fun i j c hi hj => by rw [Arr2.get_ok (by omega) (by omega), Arr2.get_ok (by omega) (by omega)]; rfl) hn b

/-- **C53** `small_mat_mat_mul` writes `α a b + β c` in the top-left block; the rest of `c` is unchanged. -/
theorem C53_small_mat_mat_mul {N n : Nat} (hn : n ≤ N) (c : Arr2 α) (alpha : α) (a b : Arr2 α) (beta : α) :
    smallMatMatMul N c alpha a b beta n =
      ok (fun i j => if i < n ∧ j < n then alpha * (∑ k ∈ Finset.range n, a i k * b k j) + beta * c i j else c i j) := by
  unfold smallMatMatMul
  rw [if_pos hn]
  refine blockLoop (fun i j x => alpha * (∑ k ∈ Finset.range n, a i k * b k j) + beta * x) (fun i j c hi hj => ?_) hn c
  obtain ⟨s, e, h⟩ := forRange_spec (f := fun k (sum : α) => do
          let x ← Arr2.get N N a i k
          let y ← Arr2.get N N b k j
          ok (sum + x * y)) (fun t s => s = ∑ k ∈ Finset.range t, a i k * b k j) (Nat.zero_le n) (s := (0 : α)) (by simp)
    (by
      rintro k s _ hk rfl
      exact ⟨_, by rw [Arr2.get_ok (by omega) (by omega), Arr2.get_ok (by omega) (by omega)]; rfl, by
        rw [Finset.sum_range_succ]⟩)
  rw [e, h, Arr2.get_ok (by omega) (by omega)]
  rfl

/-- **C53** larger active sizes panic -/
theorem C53_panics {N n : Nat} (hn : N < n) (c : Arr2 α) (alpha : α) (a : Arr2 α) (beta : α) (b : Arr2 α) :
    smallMatAdd N c alpha a beta b n = panic ∧ smallMatUpdate N b alpha a n = panic ∧ smallMatMatMul N c alpha a b beta n = panic := by
  refine ⟨?_, ?_, ?_⟩ <;> simp [smallMatAdd, smallMatUpdate, smallMatMatMul, Nat.not_le.2 hn]

end Arith

/-! ## Inversion (C26) -/

section Inv

variable {α : Type} [Field α] [LinearOrder α]

/-- search of the pivot in column `k` (/repo/russell_lab/src/small/small_mat_inv.rs:140-148) -/
def pivotSearch (N n : Nat) (aw : Arr2 α) (k : Nat) : Res (Nat × α) := do
  let v ← Arr2.get N N aw k k
  forRange (k + 1) n (k, |v|) fun i s => do
    let x ← Arr2.get N N aw i k
    ok (if |x| > s.2 then (i, |x|) else s)

/-- row swap in both sides and sign of the determinant (/repo/russell_lab/src/small/small_mat_inv.rs:156-160) -/
def pivotSwap (N k m : Nat) (s : Arr2 α × Arr2 α × α) : Res (Arr2 α × Arr2 α × α) :=
  if m ≠ k then do
    let aw ← Arr2.swap N s.1 k m
    let ai ← Arr2.swap N s.2.1 k m
    ok (aw, ai, -s.2.2)
  else ok s

/-- normalisation of the pivot row (/repo/russell_lab/src/small/small_mat_inv.rs:167-173) -/
def normalizeRow (N n k : Nat) (pivot : α) (s : Arr2 α × Arr2 α) : Res (Arr2 α × Arr2 α) := do
  let s ← forRange 0 n s fun j s => do
    let x ← Arr2.get N N s.1 k j
    let aw ← Arr2.set N N s.1 k j (x / pivot)
    let y ← Arr2.get N N s.2 k j
    let ai ← Arr2.set N N s.2 k j (y / pivot)
    ok (aw, ai)
  let aw ← Arr2.set N N s.1 k k 1
  ok (aw, s.2)

/-- elimination of one row (/repo/russell_lab/src/small/small_mat_inv.rs:177-204); the `split_at_mut` calls only produce
references to the rows `i` and `k` -/
def eliminateRow (N n k i : Nat) (s : Arr2 α × Arr2 α) : Res (Arr2 α × Arr2 α) :=
  if i ≠ k then do
    let factor ← Arr2.get N N s.1 i k
    if factor ≠ 0 then do
      let s ← forRange 0 n s fun j s => do
        let ta ← Arr2.get N N s.1 i j
        let sa ← Arr2.get N N s.1 k j
        let aw ← Arr2.set N N s.1 i j (ta - factor * sa)
        let ti ← Arr2.get N N s.2 i j
        let si ← Arr2.get N N s.2 k j
        let ai ← Arr2.set N N s.2 i j (ti - factor * si)
        ok (aw, ai)
      let aw ← Arr2.set N N s.1 i k 0
      ok (aw, s.2)
    else ok s
  else ok s

/-- one pass of the loop over `k` (/repo/russell_lab/src/small/small_mat_inv.rs:138-206) -/
def gjStep (N n : Nat) (tol : α) (k : Nat) (s : Arr2 α × Arr2 α × α) : Res (Arr2 α × Arr2 α × α) := do
  let (m, v) ← pivotSearch N n s.1 k
  if v ≤ tol then err "matrix is singular"
  else do
    let s ← pivotSwap N k m s
    let pivot ← Arr2.get N N s.1 k k
    let t ← normalizeRow N n k pivot (s.1, s.2.1)
    let t ← forRange 0 n t (eliminateRow N n k)
    ok (t.1, t.2, s.2.2 * pivot)

/-- identity in the active block (/repo/russell_lab/src/small/small_mat_inv.rs:131-136) -/
def setIdentity (N n : Nat) (ai : Arr2 α) : Res (Arr2 α) :=
  forRange 0 n ai fun i ai => do
    let ai ← forRange 0 n ai fun j ai => Arr2.set N N ai i j 0
    Arr2.set N N ai i i 1

/-- the Gauss-Jordan branch (/repo/russell_lab/src/small/small_mat_inv.rs:123-208) -/
def smallMatInvGj (N : Nat) (tol : α) (ai a : Arr2 α) (n : Nat) : Res (α × Arr2 α) := do
  let ai ← setIdentity N n ai
  let s ← forRange 0 n (a, ai, (1 : α)) (gjStep N n tol)
  ok (s.2.2, s.2.1)

/-- the 1×1, 2×2 and 3×3 branches (/repo/russell_lab/src/small/small_mat_inv.rs:81-121); the bounds checks cannot fail because
`n ≤ N` has been asserted, so the accesses are written directly -/
def smallMatInv1 (tol : α) (ai a : Arr2 α) : Res (α × Arr2 α) :=
  let det := a 0 0
  if |det| ≤ tol then err "matrix is singular" else ok (det, ai.put 0 0 (1 / det))

@[inherit_doc smallMatInv1]
def smallMatInv2 (tol : α) (ai a : Arr2 α) : Res (α × Arr2 α) :=
  let det := a 0 0 * a 1 1 - a 0 1 * a 1 0
  if |det| ≤ tol then err "matrix is singular"
  else ok (det, (((ai.put 0 0 (a 1 1 / det)).put 0 1 (-a 0 1 / det)).put 1 0 (-a 1 0 / det)).put 1 1 (a 0 0 / det))

@[inherit_doc smallMatInv1]
def smallMatInv3 (tol : α) (ai a : Arr2 α) : Res (α × Arr2 α) :=
  let det := a 0 0 * (a 1 1 * a 2 2 - a 1 2 * a 2 1) - a 0 1 * (a 1 0 * a 2 2 - a 1 2 * a 2 0)
    + a 0 2 * (a 1 0 * a 2 1 - a 1 1 * a 2 0)
  if |det| ≤ tol then err "matrix is singular"
  else
    let ai := ai.put 0 0 ((a 1 1 * a 2 2 - a 1 2 * a 2 1) / det)
    let ai := ai.put 0 1 ((a 0 2 * a 2 1 - a 0 1 * a 2 2) / det)
    let ai := ai.put 0 2 ((a 0 1 * a 1 2 - a 0 2 * a 1 1) / det)
    let ai := ai.put 1 0 ((a 1 2 * a 2 0 - a 1 0 * a 2 2) / det)
    let ai := ai.put 1 1 ((a 0 0 * a 2 2 - a 0 2 * a 2 0) / det)
    let ai := ai.put 1 2 ((a 0 2 * a 1 0 - a 0 0 * a 1 2) / det)
    let ai := ai.put 2 0 ((a 1 0 * a 2 1 - a 1 1 * a 2 0) / det)
    let ai := ai.put 2 1 ((a 0 1 * a 2 0 - a 0 0 * a 2 1) / det)
    let ai := ai.put 2 2 ((a 0 0 * a 1 1 - a 0 1 * a 1 0) / det)
    ok (det, ai)

/-- `small_mat_inv` (/repo/russell_lab/src/small/small_mat_inv.rs:67-209).  Returns the determinant and the array `ai`; on error the
partially overwritten `ai` is not modelled.  `tol` is `ZERO_DETERMINANT`. -/
def smallMatInv (N : Nat) (tol : α) (ai a : Arr2 α) (n : Nat) : Res (α × Arr2 α) :=
  if n ≤ N then
    if n = 1 then smallMatInv1 tol ai a
    else if n = 2 then smallMatInv2 tol ai a
    else if n = 3 then smallMatInv3 tol ai a
    else smallMatInvGj N tol ai a n
  else panic

/-- the active block as a matrix -/
def blockOf (n : Nat) (a : Arr2 α) : Matrix (Fin n) (Fin n) α := fun i j => a i j

/-! ### lemmas on the loops -/

theorem setIdentity_eq {N n : Nat} (hn : n ≤ N) (ai : Arr2 α) :
    setIdentity N n ai = ok (fun r c => if r < n ∧ c < n then (if r = c then 1 else 0) else ai r c) := by
  unfold setIdentity
  obtain ⟨c', e, h⟩ := forRange_spec (f := fun i ai => do
    let ai ← forRange 0 n ai fun j ai => Arr2.set N N ai i j (0 : α)
    Arr2.set N N ai i i 1)
    (fun t c' => c' = fun r c => if r < t ∧ c < n then (if r = c then 1 else 0) else ai r c) (Nat.zero_le n) (s := ai)
    (by funext r s; rw [if_neg (by omega)])
    (by
      intro i c1 _ hi hc1
      obtain ⟨c2, e2, h2⟩ := forRange_spec (f := fun j ai => Arr2.set N N ai i j (0 : α))
        (fun t c' => c' = fun r s => if r = i ∧ s < t then 0 else c1 r s) (Nat.zero_le n) (s := c1)
        (by funext r s; rw [if_neg (by omega)])
        (by
          intro j c3 _ hj hc3
          refine ⟨_, by rw [Arr2.set_ok (by omega) (by omega)], ?_⟩
          funext r s
          simp only [Arr2.put, hc3]
          by_cases h1 : r = i ∧ s = j
          · rw [if_pos h1, if_pos (by omega)]
          · rw [if_neg h1]
            by_cases h2 : r = i ∧ s < j
            · rw [if_pos h2, if_pos (by omega)]
            · rw [if_neg h2, if_neg (by omega)])
      refine ⟨_, by rw [e2, ok_bind, Arr2.set_ok (by omega) (by omega)], ?_⟩
      funext r s
      simp only [Arr2.put, h2, hc1]
      by_cases h3 : r = i ∧ s = i
      · rw [if_pos h3, if_pos (by omega), if_pos (by omega)]
      · rw [if_neg h3]
        by_cases h4 : r = i ∧ s < n
        · rw [if_pos h4, if_pos (by omega), if_neg (by omega)]
        · rw [if_neg h4]
          by_cases h5 : r < i ∧ s < n
          · rw [if_pos h5, if_pos (show r < i + 1 ∧ s < n by omega)]
          · rw [if_neg h5, if_neg (show ¬(r < i + 1 ∧ s < n) by omega)])
  rw [e, h]

theorem pivotSearch_spec [IsStrictOrderedRing α] {N n k : Nat} (hn : n ≤ N) (hk : k < n) (aw : Arr2 α) :
    ∃ m, pivotSearch N n aw k = ok (m, |aw m k|) ∧ k ≤ m ∧ m < n ∧ ∀ i, k ≤ i → i < n → |aw i k| ≤ |aw m k| := by
  unfold pivotSearch
  rw [Arr2.get_ok (by omega) (by omega), ok_bind]
  obtain ⟨s, e, h⟩ := forRange_spec (f := fun i (s : Nat × α) => do
    let x ← Arr2.get N N aw i k
    ok (if |x| > s.2 then (i, |x|) else s))
    (fun t s => k ≤ s.1 ∧ s.1 < n ∧ s.2 = |aw s.1 k| ∧ ∀ i, k ≤ i → i < t → |aw i k| ≤ s.2)
    (show k + 1 ≤ n by omega) (s := (k, |aw k k|)) ⟨le_refl _, hk, rfl, fun i h1 h2 => by
      have : i = k := by omega
      rw [this]⟩
    (by
      rintro i ⟨m, v⟩ h1 h2 ⟨h3, h4, h5, h6⟩
      rw [Arr2.get_ok (by omega) (by omega), ok_bind]
      refine ⟨_, rfl, ?_⟩
      dsimp only at *
      by_cases h7 : |aw i k| > v
      · rw [if_pos h7]
        refine ⟨by dsimp only; omega, h2, rfl, fun j hj hj' => ?_⟩
        dsimp only
        rcases Nat.lt_or_ge j i with h | h
        · exact (h6 j hj h).trans h7.le
        · rw [show j = i by omega]
      · rw [if_neg h7]
        refine ⟨h3, h4, h5, fun j hj hj' => ?_⟩
        rcases Nat.lt_or_ge j i with h | h
        · exact h6 j hj h
        · rw [show j = i by omega]; exact not_lt.1 h7)
  obtain ⟨m, v⟩ := s
  obtain ⟨h3, h4, h5, h6⟩ := h
  dsimp only at *
  subst h5
  exact ⟨m, e, h3, h4, h6⟩

/-- rows scaled: row `k` (columns `< n`) divided by `p` -/
def scaledRow (n k : Nat) (p : α) (a : Arr2 α) : Arr2 α := fun r c => if r = k ∧ c < n then a r c / p else a r c

/-- rows eliminated: row `i` (columns `< n`) minus `f` times row `k` -/
def subbedRow (n k i : Nat) (f : α) (a : Arr2 α) : Arr2 α := fun r c => if r = i ∧ c < n then a r c - f * a k c else a r c

theorem normalizeRow_eq {N n k : Nat} (hn : n ≤ N) (hk : k < n) {p : α} (hp : p ≠ 0) (aw ai : Arr2 α) (hpk : aw k k = p) :
    normalizeRow N n k p (aw, ai) = ok (scaledRow n k p aw, scaledRow n k p ai) := by
  unfold normalizeRow
  obtain ⟨s, e, h⟩ := forRange_spec (f := fun j (s : Arr2 α × Arr2 α) => do
    let x ← Arr2.get N N s.1 k j
    let aw ← Arr2.set N N s.1 k j (x / p)
    let y ← Arr2.get N N s.2 k j
    let ai ← Arr2.set N N s.2 k j (y / p)
    ok (aw, ai))
    (fun t s => s.1 = scaledRow t k p aw ∧ s.2 = scaledRow t k p ai) (Nat.zero_le n) (s := (aw, ai))
    ⟨by funext r c; simp [scaledRow], by funext r c; simp [scaledRow]⟩
    (by
      rintro j ⟨s1, s2⟩ _ hj ⟨h1, h2⟩
      dsimp only at h1 h2
      subst h1 h2
      have hst : ∀ b : Arr2 α, (scaledRow j k p b).put k j (scaledRow j k p b k j / p) = scaledRow (j + 1) k p b := by
        intro b
        funext r c
        simp only [Arr2.put, scaledRow]
        by_cases h3 : r = k ∧ c = j
        · obtain ⟨rfl, rfl⟩ := h3
          rw [if_pos ⟨rfl, rfl⟩, if_neg (by omega), if_pos (by omega)]
        · rw [if_neg h3]
          by_cases h4 : r = k ∧ c < j
          · rw [if_pos h4, if_pos (by omega)]
          · rw [if_neg h4, if_neg (by omega)]
      refine ⟨(scaledRow (j + 1) k p aw, scaledRow (j + 1) k p ai), ?_, rfl, rfl⟩
      rw [Arr2.get_ok (by omega) (by omega), ok_bind, Arr2.set_ok (by omega) (by omega), ok_bind,
        Arr2.get_ok (by omega) (by omega), ok_bind, Arr2.set_ok (by omega) (by omega), ok_bind, hst, hst])
  obtain ⟨s1, s2⟩ := s
  obtain ⟨h1, h2⟩ := h
  dsimp only at h1 h2
  subst h1 h2
  rw [e, ok_bind, Arr2.set_ok (by omega) (by omega), ok_bind]
  congr 2
  funext r c
  simp only [Arr2.put]
  by_cases h3 : r = k ∧ c = k
  · obtain ⟨rfl, rfl⟩ := h3
    rw [if_pos ⟨rfl, rfl⟩]
    simp only [scaledRow]
    rw [if_pos ⟨trivial, by omega⟩, hpk, div_self hp]
  · rw [if_neg h3]

theorem eliminateRow_eq {N n k i : Nat} (hn : n ≤ N) (hk : k < n) (hi : i < n) (hik : i ≠ k) (aw ai : Arr2 α) (h1 : aw k k = 1) :
    eliminateRow N n k i (aw, ai) = ok (subbedRow n k i (aw i k) aw, subbedRow n k i (aw i k) ai) := by
  unfold eliminateRow
  rw [if_pos hik, Arr2.get_ok (by omega) (by omega), ok_bind]
  dsimp only
  by_cases hf : aw i k = 0
  · rw [if_neg (by simpa using hf)]
    congr 2 <;>
    · funext r c
      simp only [subbedRow]
      split
      · rw [hf]; simp
      · rfl
  · rw [if_pos hf]
    obtain ⟨s, e, h⟩ := forRange_spec (f := fun j (s : Arr2 α × Arr2 α) => do
        let ta ← Arr2.get N N s.1 i j
        let sa ← Arr2.get N N s.1 k j
        let aw' ← Arr2.set N N s.1 i j (ta - aw i k * sa)
        let ti ← Arr2.get N N s.2 i j
        let si ← Arr2.get N N s.2 k j
        let ai' ← Arr2.set N N s.2 i j (ti - aw i k * si)
        ok (aw', ai'))
      (fun t s => s.1 = subbedRow t k i (aw i k) aw ∧ s.2 = subbedRow t k i (aw i k) ai) (Nat.zero_le n) (s := (aw, ai))
      ⟨by funext r c; simp [subbedRow], by funext r c; simp [subbedRow]⟩
      (by
        rintro j ⟨s1, s2⟩ _ hj ⟨h1, h2⟩
        dsimp only at h1 h2
        subst h1 h2
        have hst : ∀ (b : Arr2 α) (f : α), (subbedRow j k i f b).put i j (subbedRow j k i f b i j - f * subbedRow j k i f b k j) =
            subbedRow (j + 1) k i f b := by
          intro b f
          funext r c
          simp only [Arr2.put, subbedRow]
          by_cases h3 : r = i ∧ c = j
          · obtain ⟨rfl, rfl⟩ := h3
            rw [if_pos ⟨rfl, rfl⟩, if_neg (by omega), if_neg (by omega), if_pos (by omega)]
          · rw [if_neg h3]
            by_cases h4 : r = i ∧ c < j
            · rw [if_pos h4, if_pos (by omega)]
            · rw [if_neg h4, if_neg (by omega)]
        refine ⟨(subbedRow (j + 1) k i (aw i k) aw, subbedRow (j + 1) k i (aw i k) ai), ?_, rfl, rfl⟩
        simp only [Arr2.get_ok (show i < N by omega) (show j < N by omega), Arr2.get_ok (show k < N by omega) (show j < N by omega),
          Arr2.set_ok (show i < N by omega) (show j < N by omega), ok_bind, hst])
    obtain ⟨s1, s2⟩ := s
    obtain ⟨h2, h3⟩ := h
    dsimp only at h2 h3
    subst h2 h3
    rw [e, ok_bind, Arr2.set_ok (by omega) (by omega), ok_bind]
    congr 2
    funext r c
    simp only [Arr2.put]
    by_cases h3 : r = i ∧ c = k
    · obtain ⟨rfl, rfl⟩ := h3
      rw [if_pos ⟨rfl, rfl⟩]
      simp only [subbedRow]
      rw [if_pos ⟨trivial, by omega⟩, h1]; ring
    · rw [if_neg h3]

/-- all rows but `k` eliminated -/
def elimAll (n k t : Nat) (f a : Arr2 α) : Arr2 α := fun r c => if r ≠ k ∧ r < t ∧ c < n then a r c - f r k * a k c else a r c

theorem eliminate_eq {N n k : Nat} (hn : n ≤ N) (hk : k < n) (aw ai : Arr2 α) (h1 : aw k k = 1) :
    forRange 0 n (aw, ai) (eliminateRow N n k) = ok (elimAll n k n aw aw, elimAll n k n aw ai) := by
  obtain ⟨s, e, h⟩ := forRange_spec (f := eliminateRow N n k)
    (fun t s => s.1 = elimAll n k t aw aw ∧ s.2 = elimAll n k t aw ai) (Nat.zero_le n) (s := (aw, ai))
    ⟨by funext r c; simp [elimAll], by funext r c; simp [elimAll]⟩
    (by
      rintro i ⟨s1, s2⟩ _ hi ⟨h2, h3⟩
      dsimp only at h2 h3
      subst h2 h3
      by_cases hik : i = k
      · refine ⟨(elimAll n k i aw aw, elimAll n k i aw ai), by simp [eliminateRow, hik], ?_, ?_⟩ <;>
        · funext r c
          simp only [elimAll]
          by_cases h4 : r ≠ k ∧ r < i ∧ c < n
          · rw [if_pos h4, if_pos (by omega)]
          · rw [if_neg h4, if_neg (by omega)]
      · refine ⟨_, eliminateRow_eq hn hk hi hik _ _ ?_, ?_, ?_⟩
        · simp only [elimAll]; rw [if_neg (by simp), h1]
        all_goals
          funext r c
          simp only [subbedRow, elimAll]
          by_cases h4 : r = i ∧ c < n
          · obtain ⟨rfl, hc⟩ := h4
            rw [if_pos ⟨rfl, hc⟩, if_neg (by omega), if_neg (by omega), if_neg (by simp), if_pos ⟨hik, by omega, hc⟩]
          · rw [if_neg h4]
            by_cases h5 : r ≠ k ∧ r < i ∧ c < n
            · rw [if_pos h5, if_pos (by omega)]
            · rw [if_neg h5, if_neg (by omega)])
  obtain ⟨s1, s2⟩ := s
  obtain ⟨h2, h3⟩ := h
  dsimp only at h2 h3
  rw [e, h2, h3]

/-- invariant of the Gauss-Jordan loop: `ai · A = aw` on the active block, the first `k` columns of `aw` are unit vectors and
`d · det(aw) = det(A)` -/
structure GjInv (n : Nat) (A : Arr2 α) (k : Nat) (aw ai : Arr2 α) (d : α) : Prop where
  prod : ∀ i j, i < n → j < n → ∑ l ∈ Finset.range n, ai i l * A l j = aw i j
  unit : ∀ i j, i < n → j < k → aw i j = if i = j then 1 else 0
  det : d * (blockOf n aw).det = (blockOf n A).det

theorem GjInv.swap {n k m : Nat} {A aw ai : Arr2 α} {d : α} (h : GjInv n A k aw ai d) (hk : k < n) (hm : m < n) (hkm : k < m) :
    GjInv n A k (aw.swapped k m) (ai.swapped k m) (-d) := by
  refine ⟨?_, ?_, ?_⟩
  · intro i j hi hj
    simp only [Arr2.swapped]
    split
    · exact h.prod m j hm hj
    split
    · exact h.prod k j hk hj
    · exact h.prod i j hi hj
  · intro i j hi hj
    simp only [Arr2.swapped]
    split
    · next e => rw [h.unit m j hm hj, if_neg (by omega), if_neg (by omega)]
    split
    · next e => rw [h.unit k j hk hj, if_neg (by omega), if_neg (by omega)]
    · exact h.unit i j hi hj
  · have : blockOf n (aw.swapped k m) = (blockOf n aw).submatrix (Equiv.swap (⟨k, hk⟩ : Fin n) ⟨m, hm⟩) id := by
      ext i j
      simp only [blockOf, Arr2.swapped, Matrix.submatrix_apply, id]
      by_cases h1 : i = ⟨k, hk⟩
      · subst h1; simp
      · by_cases h2 : i = ⟨m, hm⟩
        · subst h2; simp [show m ≠ k by omega]
        · rw [Equiv.swap_apply_of_ne_of_ne h1 h2, if_neg (fun h => h1 (Fin.ext h)), if_neg (fun h => h2 (Fin.ext h))]
    rw [this, Matrix.det_permute, Equiv.Perm.sign_swap (by intro e; simp at e; omega), ← h.det]
    simp

theorem GjInv.elim {n k : Nat} {A aw ai : Arr2 α} {d : α} (h : GjInv n A k aw ai d) (hk : k < n) (hp : aw k k ≠ 0) :
    GjInv n A (k + 1) (elimAll n k n (scaledRow n k (aw k k) aw) (scaledRow n k (aw k k) aw))
      (elimAll n k n (scaledRow n k (aw k k) aw) (scaledRow n k (aw k k) ai)) (d * aw k k) := by
  set p := aw k k with hpdef
  have hs : ∀ i j, i < n → j < n → ∑ l ∈ Finset.range n, scaledRow n k p ai i l * A l j = scaledRow n k p aw i j := by
    intro i j hi hj
    by_cases hik : i = k
    · have : ∀ l ∈ Finset.range n, scaledRow n k p ai i l * A l j = (ai i l * A l j) / p := by
        intro l hl
        simp only [scaledRow]; rw [if_pos ⟨hik, Finset.mem_range.1 hl⟩]; ring
      rw [Finset.sum_congr rfl this, ← Finset.sum_div, h.prod i j hi hj]
      simp only [scaledRow]; rw [if_pos ⟨hik, hj⟩]
    · have : ∀ b : Arr2 α, scaledRow n k p b i = b i := by
        intro b; funext c; simp only [scaledRow]; rw [if_neg (by simp [hik])]
      rw [this, this, h.prod i j hi hj]
  refine ⟨?_, ?_, ?_⟩
  · intro i j hi hj
    by_cases hik : i = k
    · have : ∀ f b : Arr2 α, elimAll n k n f b i = b i := by
        intro f b; funext c; simp only [elimAll]; rw [if_neg (by simp [hik])]
      rw [this, this, hs i j hi hj]
    · have e1 : ∀ l ∈ Finset.range n, elimAll n k n (scaledRow n k p aw) (scaledRow n k p ai) i l * A l j =
          scaledRow n k p ai i l * A l j - scaledRow n k p aw i k * (scaledRow n k p ai k l * A l j) := by
        intro l hl
        simp only [elimAll]; rw [if_pos ⟨hik, hi, Finset.mem_range.1 hl⟩]; ring
      rw [Finset.sum_congr rfl e1, Finset.sum_sub_distrib, ← Finset.mul_sum, hs i j hi hj, hs k j hk hj]
      simp only [elimAll]; rw [if_pos ⟨hik, hi, hj⟩]
  · intro i j hi hj
    have hkk : scaledRow n k p aw k k = 1 := by
      simp only [scaledRow]; rw [if_pos ⟨trivial, by omega⟩, ← hpdef, div_self hp]
    have hkj : j < k → scaledRow n k p aw k j = 0 := by
      intro hjk
      simp only [scaledRow]; rw [if_pos ⟨trivial, by omega⟩, h.unit k j hk hjk, if_neg (by omega), zero_div]
    by_cases hik : i = k
    · subst hik
      simp only [elimAll]; rw [if_neg (by simp)]
      rcases Nat.lt_or_ge j i with hjk | hjk
      · rw [hkj hjk, if_neg (by omega)]
      · rw [show j = i by omega, hkk, if_pos rfl]
    · simp only [elimAll]; rw [if_pos ⟨hik, hi, by omega⟩]
      rcases Nat.lt_or_ge j k with hjk | hjk
      · rw [hkj hjk, mul_zero, sub_zero]
        simp only [scaledRow]; rw [if_neg (by simp [hik]), h.unit i j hi hjk]
      · rw [show j = k by omega, hkk, mul_one, sub_self, if_neg (by omega)]
  · have e1 : (blockOf n (elimAll n k n (scaledRow n k p aw) (scaledRow n k p aw))).det = (blockOf n (scaledRow n k p aw)).det := by
      refine Matrix.det_eq_of_forall_row_eq_smul_add_const
        (fun i : Fin n => if (i : Nat) = k then 0 else -(scaledRow n k p aw i k)) ⟨k, hk⟩ (by simp) ?_
      intro i j
      simp only [blockOf, elimAll]
      by_cases hik : (i : Nat) = k
      · rw [if_neg (by simp [hik]), if_pos hik]; ring
      · rw [if_pos ⟨hik, i.2, j.2⟩, if_neg hik]; ring
    have e2 : blockOf n (scaledRow n k p aw) = (blockOf n aw).updateRow ⟨k, hk⟩ (p⁻¹ • blockOf n aw ⟨k, hk⟩) := by
      ext i j
      rw [Matrix.updateRow_apply]
      simp only [blockOf, scaledRow]
      by_cases hik : i = ⟨k, hk⟩
      · subst hik
        rw [if_pos ⟨rfl, j.2⟩, if_pos rfl]
        simp only [Pi.smul_apply, smul_eq_mul]
        rw [div_eq_inv_mul]; rfl
      · rw [if_neg hik, if_neg (fun e => hik (Fin.ext e.1))]
    rw [e1, e2, Matrix.det_updateRow_smul, Matrix.updateRow_eq_self, ← h.det]
    field_simp

theorem gjStep_spec [IsStrictOrderedRing α] {N n k : Nat} (hn : n ≤ N) (hk : k < n) {tol : α} (ht : 0 ≤ tol) {A aw ai : Arr2 α} {d : α}
    (h : GjInv n A k aw ai d) :
    gjStep N n tol k (aw, ai, d) = err "matrix is singular" ∨
      ∃ aw' ai' d', gjStep N n tol k (aw, ai, d) = ok (aw', ai', d') ∧ GjInv n A (k + 1) aw' ai' d' := by
  obtain ⟨m, e, h1, h2, h3⟩ := pivotSearch_spec hn hk aw
  unfold gjStep
  rw [e, ok_bind]
  dsimp only
  by_cases hv : |aw m k| ≤ tol
  · left; rw [if_pos hv]
  right
  rw [if_neg hv]
  have hne : aw m k ≠ 0 := by
    intro h0; rw [h0, abs_zero] at hv; exact hv ht
  obtain ⟨aw1, ai1, d1, e1, hI, hp⟩ : ∃ aw1 ai1 d1, pivotSwap N k m (aw, ai, d) = ok (aw1, ai1, d1) ∧ GjInv n A k aw1 ai1 d1 ∧ aw1 k k ≠ 0 := by
    unfold pivotSwap
    by_cases hmk : m = k
    · subst hmk
      exact ⟨aw, ai, d, by rw [if_neg (by simp)], h, hne⟩
    · refine ⟨_, _, _, by rw [if_pos hmk, Arr2.swap_ok (by omega) (by omega), ok_bind, Arr2.swap_ok (by omega) (by omega), ok_bind],
        h.swap hk h2 (by omega), ?_⟩
      simp only [Arr2.swapped, if_true]
      exact hne
  rw [e1, ok_bind]
  dsimp only
  rw [Arr2.get_ok (by omega) (by omega), ok_bind, normalizeRow_eq hn hk hp aw1 ai1 rfl, ok_bind, eliminate_eq hn hk, ok_bind]
  · exact ⟨_, _, _, rfl, hI.elim hk hp⟩
  · simp only [scaledRow]; rw [if_pos ⟨trivial, by omega⟩, div_self hp]

theorem forRange_err_or {σ : Type} {f : Nat → σ → Res σ} {msg : String} (I : Nat → σ → Prop) {lo hi : Nat} {s : σ} (hle : lo ≤ hi)
    (h0 : I lo s) (hs : ∀ k s, lo ≤ k → k < hi → I k s → f k s = err msg ∨ ∃ s', f k s = ok s' ∧ I (k + 1) s') :
    forRange lo hi s f = err msg ∨ ∃ s', forRange lo hi s f = ok s' ∧ I hi s' := by
  obtain ⟨d, rfl⟩ : ∃ d, hi = lo + d := ⟨hi - lo, by omega⟩
  induction d with
  | zero => right; exact ⟨s, by simp [forRange_empty], h0⟩
  | succ d ih =>
    have hr := forRange_succ_right (f := f) (s := s) (lo := lo) (hi := lo + d) (by omega)
    rw [← Nat.add_assoc, hr]
    rcases ih (by omega) (fun k s h1 h2 => hs k s h1 (by omega)) with h | ⟨s', h1, h2⟩
    · left; rw [h]; rfl
    · rw [h1, ok_bind]
      exact hs (lo + d) s' (by omega) (by omega) h2

theorem GjInv.init {n : Nat} (A ai : Arr2 α) :
    GjInv n A 0 A (fun r c => if r < n ∧ c < n then (if r = c then 1 else 0) else ai r c) 1 := by
  refine ⟨?_, fun _ _ _ h => absurd h (by omega), by rw [one_mul]⟩
  intro i j hi hj
  rw [Finset.sum_eq_single i]
  · rw [if_pos ⟨hi, hi⟩, if_pos rfl, one_mul]
  · intro l hl hne
    rw [if_pos ⟨hi, Finset.mem_range.1 hl⟩, if_neg (Ne.symm hne), zero_mul]
  · intro h; exact absurd (Finset.mem_range.2 hi) h

theorem GjInv.final {n : Nat} {A aw ai : Arr2 α} {d : α} (h : GjInv n A n aw ai d) :
    blockOf n ai * blockOf n A = 1 ∧ d = (blockOf n A).det := by
  have h1 : blockOf n aw = 1 := by
    ext i j
    rw [Matrix.one_apply]
    simp only [blockOf]
    rw [h.unit i j i.2 j.2]
    simp [Fin.ext_iff]
  refine ⟨?_, ?_⟩
  · rw [← h1]
    ext i j
    rw [Matrix.mul_apply]
    simp only [blockOf]
    rw [← h.prod i j i.2 j.2, Finset.sum_range]
  · rw [← h.det, h1, Matrix.det_one, mul_one]

/-- what the three outcomes mean -/
def InvSpec (n : Nat) (a : Arr2 α) (r : Res (α × Arr2 α)) : Prop :=
  r = err "matrix is singular" ∨
    ∃ det ai', r = ok (det, ai') ∧ blockOf n a * blockOf n ai' = 1 ∧ blockOf n ai' * blockOf n a = 1 ∧ det = (blockOf n a).det

theorem smallMatInvGj_spec [IsStrictOrderedRing α] {N n : Nat} (hn : n ≤ N) {tol : α} (ht : 0 ≤ tol) (ai a : Arr2 α) :
    InvSpec n a (smallMatInvGj N tol ai a n) := by
  unfold smallMatInvGj
  rw [setIdentity_eq hn, ok_bind]
  rcases forRange_err_or (f := gjStep N n tol) (msg := "matrix is singular") (fun k s => GjInv n a k s.1 s.2.1 s.2.2) (Nat.zero_le n)
      (s := (a, fun r c => if r < n ∧ c < n then (if r = c then 1 else 0) else ai r c, (1 : α))) (GjInv.init a ai)
      (by
        rintro k ⟨aw, ai, d⟩ _ hk h
        rcases gjStep_spec hn hk ht h with e | ⟨aw', ai', d', e, h'⟩
        · left; exact e
        · right; exact ⟨_, e, h'⟩) with e | ⟨⟨aw', ai', d'⟩, e, h'⟩
  · left; rw [e]; rfl
  · right
    obtain ⟨h1, h2⟩ := h'.final
    exact ⟨d', ai', by rw [e]; rfl, mul_eq_one_comm.1 h1, h1, h2⟩

theorem blockOf_ext {n : Nat} {M : Matrix (Fin n) (Fin n) α} {a : Arr2 α} : blockOf n a = M ↔ ∀ i j : Fin n, a i j = M i j := by
  constructor
  · rintro rfl i j; rfl
  · intro h; ext i j; exact h i j

/-- **C26** `small_mat_inv` for every active size `n ≤ N`: it either reports a singular matrix or returns the determinant of the
active block and an `ai` whose active block is the two-sided inverse.  It never panics. -/
theorem C26_small_mat_inv [IsStrictOrderedRing α] {N n : Nat} (hn : n ≤ N) {tol : α} (ht : 0 ≤ tol) (ai a : Arr2 α) :
    smallMatInv N tol ai a n = err "matrix is singular" ∨
      ∃ det ai', smallMatInv N tol ai a n = ok (det, ai') ∧ blockOf n a * blockOf n ai' = 1 ∧ blockOf n ai' * blockOf n a = 1 ∧
        det = (blockOf n a).det := by
  have key : ∀ {m : Nat} {ai' : Arr2 α}, blockOf m a * blockOf m ai' = 1 → blockOf m ai' * blockOf m a = 1 :=
    fun h => mul_eq_one_comm.1 h
  have nz : ∀ {x : α}, ¬|x| ≤ tol → x ≠ 0 := by
    intro x h h0; rw [h0, abs_zero] at h; exact h ht
  unfold smallMatInv
  rw [if_pos hn]
  split
  · next h =>
    subst h
    unfold smallMatInv1
    by_cases h : |a 0 0| ≤ tol
    · left; simp only [if_pos h]
    · right
      refine ⟨_, _, by simp only [if_neg h]; rfl, ?_⟩
      have h0 := nz h
      have hm : blockOf 1 a * blockOf 1 (ai.put 0 0 (1 / a 0 0)) = 1 := by
        ext i j
        fin_cases i; fin_cases j
        simp [Matrix.mul_apply, blockOf, Arr2.put, h0]
      refine ⟨hm, key hm, by simp [blockOf]⟩
  split
  · next h =>
    subst h
    unfold smallMatInv2
    set det := a 0 0 * a 1 1 - a 0 1 * a 1 0 with hdet
    by_cases h : |det| ≤ tol
    · left; simp only [if_pos h]
    · right
      refine ⟨_, _, by simp only [if_neg h]; rfl, ?_⟩
      have h0 := nz h
      have hm : ∀ ai', (∀ i j : Fin 2, ai' i j = (!![a 1 1 / det, -a 0 1 / det; -a 1 0 / det, a 0 0 / det] : Matrix (Fin 2) (Fin 2) α) i j) →
          blockOf 2 a * blockOf 2 ai' = 1 := by
        intro ai' h
        rw [blockOf_ext.2 h]
        ext i j
        fin_cases i <;> fin_cases j <;> simp [Matrix.mul_apply, Fin.sum_univ_two, blockOf] <;> field_simp <;> (try rw [hdet]) <;> ring
      exact ⟨hm _ (by intro i j; fin_cases i <;> fin_cases j <;> simp [Arr2.put]),
        key (hm _ (by intro i j; fin_cases i <;> fin_cases j <;> simp [Arr2.put])), by rw [Matrix.det_fin_two]; simp [blockOf, hdet]⟩
  split
  · next h =>
    subst h
    unfold smallMatInv3
    set det := a 0 0 * (a 1 1 * a 2 2 - a 1 2 * a 2 1) - a 0 1 * (a 1 0 * a 2 2 - a 1 2 * a 2 0) + a 0 2 * (a 1 0 * a 2 1 - a 1 1 * a 2 0)
      with hdet
    by_cases h : |det| ≤ tol
    · left; simp only [if_pos h]
    · right
      refine ⟨_, _, by simp only [if_neg h]; rfl, ?_⟩
      have h0 := nz h
      have hm : ∀ ai', (∀ i j : Fin 3, ai' i j = (!![(a 1 1 * a 2 2 - a 1 2 * a 2 1) / det, (a 0 2 * a 2 1 - a 0 1 * a 2 2) / det,
            (a 0 1 * a 1 2 - a 0 2 * a 1 1) / det;
          (a 1 2 * a 2 0 - a 1 0 * a 2 2) / det, (a 0 0 * a 2 2 - a 0 2 * a 2 0) / det, (a 0 2 * a 1 0 - a 0 0 * a 1 2) / det;
          (a 1 0 * a 2 1 - a 1 1 * a 2 0) / det, (a 0 1 * a 2 0 - a 0 0 * a 2 1) / det, (a 0 0 * a 1 1 - a 0 1 * a 1 0) / det] :
          Matrix (Fin 3) (Fin 3) α) i j) → blockOf 3 a * blockOf 3 ai' = 1 := by
        intro ai' h
        rw [blockOf_ext.2 h]
        ext i j
        fin_cases i <;> fin_cases j <;> simp [Matrix.mul_apply, Fin.sum_univ_three, blockOf] <;> field_simp <;> rw [hdet] <;> ring
      exact ⟨hm _ (by intro i j; fin_cases i <;> fin_cases j <;> simp [Arr2.put]),
        key (hm _ (by intro i j; fin_cases i <;> fin_cases j <;> simp [Arr2.put])),
        by rw [Matrix.det_fin_three]; simp [blockOf, hdet]; ring⟩
  · exact smallMatInvGj_spec hn ht ai a

/-- **C26** a singular active block is always reported -/
theorem C26_singular [IsStrictOrderedRing α] {N n : Nat} (hn : n ≤ N) {tol : α} (ht : 0 ≤ tol) (ai a : Arr2 α)
    (hs : (blockOf n a).det = 0) : smallMatInv N tol ai a n = err "matrix is singular" := by
  rcases C26_small_mat_inv hn ht ai a with h | ⟨det, ai', _, h1, _, _⟩
  · exact h
  · exfalso
    have := congrArg Matrix.det h1
    rw [Matrix.det_mul, hs, zero_mul, Matrix.det_one] at this
    exact zero_ne_one this

/-- for 1 ≤ n ≤ 3 a determinant above the tolerance is never rejected -/
theorem C26_small_accepts [IsStrictOrderedRing α] {N n : Nat} (hn : n ≤ N) (h0 : 0 < n) (h3 : n ≤ 3) {tol : α} (ai a : Arr2 α) :
    smallMatInv N tol ai a n = err "matrix is singular" ↔ |(blockOf n a).det| ≤ tol := by
  unfold smallMatInv
  rw [if_pos hn]
  have : n = 1 ∨ n = 2 ∨ n = 3 := by omega
  rcases this with rfl | rfl | rfl
  · simp [smallMatInv1, blockOf]
  · simp [smallMatInv2, Matrix.det_fin_two, blockOf]
  · have e : (blockOf 3 a).det = a 0 0 * (a 1 1 * a 2 2 - a 1 2 * a 2 1) - a 0 1 * (a 1 0 * a 2 2 - a 1 2 * a 2 0)
        + a 0 2 * (a 1 0 * a 2 1 - a 1 1 * a 2 0) := by
      rw [Matrix.det_fin_three]; simp [blockOf]; ring
    rw [e]
    simp [smallMatInv3]

end Inv

/-- an input for which the first pivot of a 4×4 block inside a 5×5 array is in the second row -/
def exPerm : Arr2 ℚ := fun i j => if (i = 0 ∧ j = 1) ∨ (i = 1 ∧ j = 0) ∨ (i = j ∧ 2 ≤ i) then 1 else 0

/-- output array with one non-zero entry outside the active block -/
def exOut : Arr2 ℚ := fun i j => if i = 0 ∧ j = 4 then 7 else 0

/-- **C26** The documentation of `small_mat_inv` says that only the top-left (n,n) block of `ai` is overwritten.  This is false
for `4 ≤ n < N`: `ai.swap(k, max_index)` exchanges whole rows, including the columns outside the block. -/
theorem C26_outside_block_counterexample :
    ∃ det ai', smallMatInv 5 (1 / 1000000000000000) exOut exPerm 4 = ok (det, ai') ∧ ai' 0 4 ≠ exOut 0 4 := by
  have h : (match smallMatInv 5 (1 / 1000000000000000) exOut exPerm 4 with
    | ok (_, ai') => decide (ai' 0 4 ≠ exOut 0 4)
    | _ => false) = true := by decide +kernel
  split at h
  · next det ai' e => exact ⟨det, ai', e, by simpa using h⟩
  · exact absurd h (by simp)

/-- the 4×4 block of the example is inverted: neither an error nor a trivial case -/
example : ∃ det ai', smallMatInv 5 (1 / 1000000000000000) exOut exPerm 4 = ok (det, ai') ∧ det = -1 := by
  have h : (match smallMatInv 5 (1 / 1000000000000000) exOut exPerm 4 with
    | ok (d, _) => decide (d = -1)
    | _ => false) = true := by decide +kernel
  split at h
  · next det ai' e => exact ⟨det, ai', e, by simpa using h⟩
  · exact absurd h (by simp)

end Russell.Lab
