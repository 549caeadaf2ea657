import Verif.Lab.Small
import Mathlib.GroupTheory.Perm.Basic

/-!
# Gauss-Jordan elimination with full pivoting (C27)

Model of `num_recipes_gaussj_sol`, `num_recipes_gaussj_inv` and `small_solve_lin_sys` (/repo/russell_lab/src/small).
-/

namespace Russell.Lab

open Russell Russell.Res

/-- content of a one-dimensional fixed-size array -/
abbrev Arr1 (β : Type) := Nat → β

namespace Arr1
variable {β : Type}
/-- `v[i]` for `v: [T; N]` -/
def get (N : Nat) (v : Arr1 β) (i : Nat) : Res β := if i < N then ok (v i) else panic
/-- the array after `v[i] = x` -/
def put (v : Arr1 β) (i : Nat) (x : β) : Arr1 β := fun k => if k = i then x else v k
/-- `v[i] = x` -/
def set (N : Nat) (v : Arr1 β) (i : Nat) (x : β) : Res (Arr1 β) := if i < N then ok (v.put i x) else panic
theorem get_ok {N : Nat} {v : Arr1 β} {i : Nat} (h : i < N) : get N v i = ok (v i) := if_pos h
theorem set_ok {N : Nat} {v : Arr1 β} {i : Nat} {x : β} (h : i < N) : set N v i x = ok (v.put i x) := if_pos h
end Arr1

variable {α : Type} [Field α] [LinearOrder α]

/-- the local arrays of `num_recipes_gaussj_sol` -/
structure GjState (α : Type) where
  a : Arr2 α
  b : Arr2 α
  indxc : Arr1 Nat
  indxr : Arr1 Nat
  ipiv : Arr1 Nat

/-- search of the pivot (/repo/russell_lab/src/small/num_recipes_gaussj.rs:141-159) -/
def gjScan (N : Nat) (a : Arr2 α) (ipiv : Arr1 Nat) : Res (α × Nat × Nat) :=
  forRange 0 N ((0 : α), 0, 0) fun j s => do
    let pj ← Arr1.get N ipiv j
    if pj ≠ 1 then
      forRange 0 N s fun k s => do
        let pk ← Arr1.get N ipiv k
        if pk = 0 then do
          let x ← Arr2.get N N a j k
          ok (if |x| ≥ s.1 then (|x|, j, k) else s)
        else ok s
    else ok s

/-- interchange of rows (/repo/russell_lab/src/small/num_recipes_gaussj.rs:172-175) -/
def gjSwap (N irow icol : Nat) (a b : Arr2 α) : Res (Arr2 α × Arr2 α) :=
  if irow ≠ icol then do
    let a ← Arr2.swap N a irow icol
    let b ← Arr2.swap N b irow icol
    ok (a, b)
  else ok (a, b)

/-- `for l in 0..M { b[r][l] = b[r][l] * pivinv }` (/repo/russell_lab/src/small/num_recipes_gaussj.rs:182-187) -/
def gjScale (N M r : Nat) (pivinv : α) (b : Arr2 α) : Res (Arr2 α) :=
  forRange 0 M b fun l b => do
    let x ← Arr2.get N M b r l
    Arr2.set N M b r l (x * pivinv)

/-- `for l in 0..M { b[ll][l] = b[ll][l] - b[icol][l] * dum }` (/repo/russell_lab/src/small/num_recipes_gaussj.rs:194-199) -/
def gjSub (N M ll icol : Nat) (dum : α) (b : Arr2 α) : Res (Arr2 α) :=
  forRange 0 M b fun l b => do
    let x ← Arr2.get N M b ll l
    let y ← Arr2.get N M b icol l
    Arr2.set N M b ll l (x - y * dum)

/-- reduction of one row (/repo/russell_lab/src/small/num_recipes_gaussj.rs:191-200) -/
def gjReduce (N M icol ll : Nat) (s : Arr2 α × Arr2 α) : Res (Arr2 α × Arr2 α) :=
  if ll ≠ icol then do
    let dum ← Arr2.get N N s.1 ll icol
    let a ← Arr2.set N N s.1 ll icol 0
    let a ← gjSub N N ll icol dum a
    let b ← gjSub N M ll icol dum s.2
    ok (a, b)
  else ok s

/-- one pass of the main loop (/repo/russell_lab/src/small/num_recipes_gaussj.rs:140-202) -/
def gaussjStep (N M : Nat) (tol : α) (i : Nat) (s : GjState α) : Res (GjState α) := do
  let (big, irow, icol) ← gjScan N s.a s.ipiv
  let p ← Arr1.get N s.ipiv icol
  let ipiv ← Arr1.set N s.ipiv icol (p + 1)
  if big ≤ tol then err "matrix is singular"
  else do
    let (a, b) ← gjSwap N irow icol s.a s.b
    let indxr ← Arr1.set N s.indxr i irow
    let indxc ← Arr1.set N s.indxc i icol
    let x ← Arr2.get N N a icol icol
    let pivinv := 1 / x
    let a ← Arr2.set N N a icol icol 1
    let a ← gjScale N N icol pivinv a
    let b ← gjScale N M icol pivinv b
    let (a, b) ← forRange 0 N (a, b) (gjReduce N M icol)
    ok { a, b, indxc, indxr, ipiv }

/-- `a[k].swap(p, q)` for every row `k` (/repo/russell_lab/src/small/num_recipes_gaussj.rs:208-210) -/
def gjSwapCols (N p q : Nat) (a : Arr2 α) : Res (Arr2 α) :=
  forRange 0 N a fun k a => do
    let x ← Arr2.get N N a k p
    let y ← Arr2.get N N a k q
    let a ← Arr2.set N N a k p y
    Arr2.set N N a k q x

/-- body of the final loop, for `l = N - 1 - t` (/repo/russell_lab/src/small/num_recipes_gaussj.rs:206-212) -/
def gjUnscramble (N : Nat) (indxr indxc : Arr1 Nat) (t : Nat) (a : Arr2 α) : Res (Arr2 α) := do
  let p ← Arr1.get N indxr (N - 1 - t)
  let q ← Arr1.get N indxc (N - 1 - t)
  if p ≠ q then gjSwapCols N p q a else ok a

/-- `num_recipes_gaussj_sol` (/repo/russell_lab/src/small/num_recipes_gaussj.rs:124-215); returns the arrays `a` and `b` after the
call, their values after an error are not modelled; `tol` is `ZERO_DETERMINANT` -/
def gaussjSol (N M : Nat) (tol : α) (a b : Arr2 α) : Res (Arr2 α × Arr2 α) := do
  let s ← forRange 0 N { a, b, indxc := fun _ => 0, indxr := fun _ => 0, ipiv := fun _ => 0 } (gaussjStep N M tol)
  let a ← forRange 0 N s.a (gjUnscramble N s.indxr s.indxc)
  ok (a, s.b)

/-- `num_recipes_gaussj_inv` (/repo/russell_lab/src/small/num_recipes_gaussj.rs:65-71) -/
def gaussjInv (N : Nat) (tol : α) (a : Arr2 α) : Res (Arr2 α) := do
  let (a, _) ← gaussjSol N 0 tol a (fun _ _ => 0)
  ok a

/-- `small_solve_lin_sys` (/repo/russell_lab/src/small/small_solve_lin_sys.rs:59-80); returns `(b, a)` -/
def smallSolveLinSys (N : Nat) (tol : α) (b : Arr1 α) (a : Arr2 α) : Res (Arr1 α × Arr2 α) := do
  let bb ← forRange 0 N (show Arr2 α from fun _ _ => 0) fun i bb => do
    let x ← Arr1.get N b i
    Arr2.set N 1 bb i 0 x
  let (a, bb) ← gaussjSol N 1 tol a bb
  let b ← forRange 0 N b fun i b => do
    let x ← Arr2.get N 1 bb i 0
    Arr1.set N b i x
  ok (b, a)

/-! ## effect of the loops -/

theorem gjScan_spec [IsStrictOrderedRing α] {N : Nat} (a : Arr2 α) (ipiv : Arr1 Nat) (hp : ∀ k, k < N → ipiv k = 0 ∨ ipiv k = 1)
    (hex : ∃ k, k < N ∧ ipiv k = 0) :
    ∃ irow icol, gjScan N a ipiv = ok (|a irow icol|, irow, icol) ∧ irow < N ∧ icol < N ∧ ipiv irow = 0 ∧ ipiv icol = 0 := by
  obtain ⟨k0, hk0, hk0'⟩ := hex
  unfold gjScan
  obtain ⟨s, e, h⟩ := forRange_spec (f := fun j (s : α × Nat × Nat) => do
    let pj ← Arr1.get N ipiv j
    if pj ≠ 1 then
      forRange 0 N s fun k s => do
        let pk ← Arr1.get N ipiv k
        if pk = 0 then do
          let x ← Arr2.get N N a j k
          ok (if |x| ≥ s.1 then (|x|, j, k) else s)
        else ok s
    else ok s)
    (fun t s => (s.1 = 0 ∧ t ≤ k0) ∨
      (s.1 = |a s.2.1 s.2.2| ∧ s.2.1 < N ∧ s.2.2 < N ∧ ipiv s.2.1 = 0 ∧ ipiv s.2.2 = 0))
    (Nat.zero_le N) (s := ((0 : α), 0, 0)) (Or.inl ⟨rfl, Nat.zero_le _⟩)
    (by
      intro j s _ hj hI
      rw [Arr1.get_ok hj, ok_bind]
      by_cases hpj : ipiv j = 1
      · refine ⟨s, by rw [if_neg (by simpa using hpj)], ?_⟩
        rcases hI with ⟨h1, h2⟩ | h
        · left
          refine ⟨h1, ?_⟩
          have : j ≠ k0 := by intro h; rw [h] at hpj; omega
          omega
        · right; exact h
      · have hj0 : ipiv j = 0 := by rcases hp j hj with h | h; exact h; exact absurd h hpj
        rw [if_pos hpj]
        obtain ⟨s2, e2, h2⟩ := forRange_spec (f := fun k (s : α × Nat × Nat) => do
          let pk ← Arr1.get N ipiv k
          if pk = 0 then do
            let x ← Arr2.get N N a j k
            ok (if |x| ≥ s.1 then (|x|, j, k) else s)
          else ok s)
          (fun t s => (s.1 = 0 ∧ t ≤ k0) ∨
            (s.1 = |a s.2.1 s.2.2| ∧ s.2.1 < N ∧ s.2.2 < N ∧ ipiv s.2.1 = 0 ∧ ipiv s.2.2 = 0))
          (Nat.zero_le N) (s := s) (by
            rcases hI with h | h
            · left; exact ⟨h.1, Nat.zero_le _⟩
            · right; exact h)
          (by
            intro k s _ hk hI
            rw [Arr1.get_ok hk, ok_bind]
            by_cases hpk : ipiv k = 0
            · rw [if_pos hpk, Arr2.get_ok hj hk, ok_bind]
              refine ⟨_, rfl, ?_⟩
              right
              by_cases hge : |a j k| ≥ s.1
              · rw [if_pos hge]; exact ⟨rfl, hj, hk, hj0, hpk⟩
              · rw [if_neg hge]
                rcases hI with h | h
                · rw [h.1] at hge; exact absurd (abs_nonneg _) hge
                · exact h
            · rw [if_neg hpk]
              refine ⟨s, rfl, ?_⟩
              rcases hI with ⟨h1, h2⟩ | h
              · left; refine ⟨h1, ?_⟩
                have : k ≠ k0 := by intro h; rw [h] at hpk; exact hpk hk0'
                omega
              · right; exact h)
        refine ⟨s2, e2, ?_⟩
        rcases h2 with ⟨_, h⟩ | h
        · omega
        · right; exact h)
  obtain ⟨v, r, c⟩ := s
  rcases h with ⟨_, h⟩ | ⟨h1, h2, h3, h4, h5⟩
  · omega
  · dsimp only at h1 h2 h3 h4 h5
    subst h1
    exact ⟨r, c, e, h2, h3, h4, h5⟩

theorem gjScale_eq {N M r : Nat} (hr : r < N) (p : α) (b : Arr2 α) :
    gjScale N M r p b = ok (fun i j => if i = r ∧ j < M then b i j * p else b i j) := by
  unfold gjScale
  obtain ⟨s, e, h⟩ := forRange_spec (f := fun l (b : Arr2 α) => do
    let x ← Arr2.get N M b r l
    Arr2.set N M b r l (x * p)) (fun t s => ∀ i j, s i j = if i = r ∧ j < t then b i j * p else b i j) (Nat.zero_le M) (s := b)
    (by intro i j; rw [if_neg (by omega)])
    (by
      intro l s _ hl hI
      refine ⟨_, by rw [Arr2.get_ok hr hl, ok_bind, Arr2.set_ok hr hl], ?_⟩
      intro i j
      simp only [Arr2.put]
      by_cases h1 : i = r ∧ j = l
      · obtain ⟨rfl, rfl⟩ := h1
        rw [if_pos ⟨rfl, rfl⟩, if_pos ⟨rfl, by omega⟩, hI, if_neg (by omega)]
      · rw [if_neg h1, hI]
        by_cases h2 : i = r ∧ j < l
        · rw [if_pos h2, if_pos (by omega)]
        · rw [if_neg h2, if_neg (by omega)])
  rw [e]; congr 1; funext i j; exact h i j

theorem gjSub_eq {N M ll icol : Nat} (h1 : ll < N) (h2 : icol < N) (hne : ll ≠ icol) (d : α) (b : Arr2 α) :
    gjSub N M ll icol d b = ok (fun i j => if i = ll ∧ j < M then b i j - b icol j * d else b i j) := by
  unfold gjSub
  obtain ⟨s, e, h⟩ := forRange_spec (f := fun l (b : Arr2 α) => do
    let x ← Arr2.get N M b ll l
    let y ← Arr2.get N M b icol l
    Arr2.set N M b ll l (x - y * d)) (fun t s => ∀ i j, s i j = if i = ll ∧ j < t then b i j - b icol j * d else b i j) (Nat.zero_le M) (s := b)
    (by intro i j; rw [if_neg (by omega)])
    (by
      intro l s _ hl hI
      refine ⟨_, by rw [Arr2.get_ok h1 hl, ok_bind, Arr2.get_ok h2 hl, ok_bind, Arr2.set_ok h1 hl], ?_⟩
      intro i j
      simp only [Arr2.put]
      by_cases h3 : i = ll ∧ j = l
      · obtain ⟨rfl, rfl⟩ := h3
        rw [if_pos ⟨rfl, rfl⟩, if_pos ⟨rfl, by omega⟩, hI, if_neg (by omega), hI, if_neg (by omega)]
      · rw [if_neg h3, hI]
        by_cases h4 : i = ll ∧ j < l
        · rw [if_pos h4, if_pos (by omega)]
        · rw [if_neg h4, if_neg (by omega)])
  rw [e]; congr 1; funext i j; exact h i j

/-- reduced row of the in-place matrix -/
def redA (icol : Nat) (a : Arr2 α) (i j : Nat) : α := (if j = icol then 0 else a i j) - a icol j * a i icol

/-- effect of the reduction of all rows on the active part -/
theorem gjReduce_all {N M icol : Nat} (hc : icol < N) (a b : Arr2 α) :
    ∃ a' b', forRange 0 N (a, b) (gjReduce N M icol) = ok (a', b') ∧
      (∀ i j, i < N → j < N → a' i j = if i = icol then a i j else redA icol a i j) ∧
      (∀ i j, i < N → j < M → b' i j = if i = icol then b i j else b i j - b icol j * a i icol) := by
  obtain ⟨s, e, h⟩ := forRange_spec (f := gjReduce N M icol)
    (fun t s => (∀ i j, i < N → j < N → s.1 i j = if i = icol ∨ t ≤ i then a i j else redA icol a i j) ∧
      (∀ i j, i < N → j < M → s.2 i j = if i = icol ∨ t ≤ i then b i j else b i j - b icol j * a i icol)) (Nat.zero_le N) (s := (a, b))
    ⟨fun i j _ _ => by rw [if_pos (by omega)], fun i j _ _ => by rw [if_pos (by omega)]⟩
    (by
      rintro ll ⟨s1, s2⟩ _ hl ⟨hA, hB⟩
      dsimp only at hA hB
      unfold gjReduce
      by_cases hlc : ll = icol
      · refine ⟨(s1, s2), by rw [if_neg (by simpa using hlc)], ?_, ?_⟩
        · intro i j hi hj
          dsimp only; rw [hA i j hi hj]
          by_cases h : i = icol ∨ ll ≤ i
          · rw [if_pos h, if_pos (by omega)]
          · rw [if_neg h, if_neg (by omega)]
        · intro i j hi hj
          dsimp only; rw [hB i j hi hj]
          by_cases h : i = icol ∨ ll ≤ i
          · rw [if_pos h, if_pos (by omega)]
          · rw [if_neg h, if_neg (by omega)]
      · refine ⟨_, by rw [if_pos hlc, Arr2.get_ok hl hc, ok_bind, Arr2.set_ok hl hc, ok_bind, gjSub_eq hl hc hlc, ok_bind, gjSub_eq hl hc hlc, ok_bind], ?_, ?_⟩
        · intro i j hi hj
          have hd : s1 ll icol = a ll icol := by rw [hA ll icol hl hc, if_pos (by omega)]
          simp only [Arr2.put, hd]
          by_cases h : i = ll
          · subst h
            rw [if_pos ⟨rfl, hj⟩, if_neg (show ¬(i = icol ∨ i + 1 ≤ i) by omega)]
            rw [if_neg (show ¬(icol = i ∧ j = icol) by omega), hA icol j hc hj, if_pos (Or.inl rfl), hA i j hi hj,
              if_pos (Or.inr (le_refl i))]
            unfold redA
            by_cases hj2 : j = icol
            · rw [if_pos ⟨rfl, hj2⟩, if_pos hj2]
            · rw [if_neg (by omega), if_neg hj2]
          · rw [if_neg (by omega), if_neg (by omega), hA i j hi hj]
            by_cases h : i = icol ∨ ll ≤ i
            · rw [if_pos h, if_pos (by omega)]
            · rw [if_neg h, if_neg (by omega)]
        · intro i j hi hj
          have hd : s1 ll icol = a ll icol := by rw [hA ll icol hl hc, if_pos (by omega)]
          simp only [hd]
          by_cases h : i = ll
          · subst h
            rw [if_pos ⟨rfl, hj⟩, if_neg (show ¬(i = icol ∨ i + 1 ≤ i) by omega), hB icol j hc hj, if_pos (by omega), hB i j hi hj, if_pos (by omega)]
          · rw [if_neg (by omega), hB i j hi hj]
            by_cases h : i = icol ∨ ll ≤ i
            · rw [if_pos h, if_pos (by omega)]
            · rw [if_neg h, if_neg (by omega)])
  obtain ⟨s1, s2⟩ := s
  refine ⟨s1, s2, e, ?_, ?_⟩
  · intro i j hi hj
    have := h.1 i j hi hj
    dsimp only at this
    rw [this]
    by_cases h : i = icol
    · rw [if_pos (Or.inl h), if_pos h]
    · rw [if_neg (by omega), if_neg h]
  · intro i j hi hj
    have := h.2 i j hi hj
    dsimp only at this
    rw [this]
    by_cases h : i = icol
    · rw [if_pos (Or.inl h), if_pos h]
    · rw [if_neg (by omega), if_neg h]

/-! ## the invariant -/

/-- product of the transpositions recorded in the first `i` steps -/
def gjPerm (indxr indxc : Arr1 Nat) : Nat → Equiv.Perm Nat
  | 0 => 1
  | i + 1 => gjPerm indxr indxc i * Equiv.swap (indxr i) (indxc i)

/-- Invariant.  `W` and `L` are the two halves of the virtual augmented matrix `[W | L]` (`W = L A`): the array `a` stores the columns
of `W` that have not been reduced yet and, in place of the reduced ones, columns of `L`. -/
structure GaussJInv (N M : Nat) (A B : Arr2 α) (i : Nat) (s : GjState α) (W L : Arr2 α) : Prop where
  prod : ∀ r c, r < N → c < N → ∑ l ∈ Finset.range N, L r l * A l c = W r c
  bprod : ∀ r c, r < N → c < M → ∑ l ∈ Finset.range N, L r l * B l c = s.b r c
  piv : ∀ c, c < N → s.ipiv c = 0 ∨ s.ipiv c = 1
  card : ((Finset.range N).filter (fun c => s.ipiv c = 0)).card + i = N
  idx : ∀ l, l < i → s.indxr l < N ∧ s.indxc l < N
  doneW : ∀ r c, r < N → c < N → s.ipiv c = 1 → W r c = if r = c then 1 else 0
  doneA : ∀ r c, r < N → c < N → s.ipiv c = 1 → s.a r c = L r (gjPerm s.indxr s.indxc i c)
  todoA : ∀ r c, r < N → c < N → s.ipiv c = 0 → s.a r c = W r c
  todoL : ∀ r c, r < N → c < N → s.ipiv c = 0 → L r (gjPerm s.indxr s.indxc i c) = if r = c then 1 else 0

theorem gjPerm_congr {r c r' c' : Arr1 Nat} : ∀ {i : Nat}, (∀ l, l < i → r l = r' l ∧ c l = c' l) → gjPerm r c i = gjPerm r' c' i
  | 0, _ => rfl
  | i + 1, h => by
    rw [gjPerm, gjPerm, gjPerm_congr (fun l hl => h l (by omega)), (h i (by omega)).1, (h i (by omega)).2]

theorem gjPerm_lt {N : Nat} {r c : Arr1 Nat} : ∀ {i : Nat}, (∀ l, l < i → r l < N ∧ c l < N) → ∀ k, k < N → gjPerm r c i k < N
  | 0, _, k, hk => hk
  | i + 1, h, k, hk => by
    rw [gjPerm, Equiv.Perm.mul_apply]
    apply gjPerm_lt (fun l hl => h l (by omega))
    rw [Equiv.swap_apply_def]
    have := h i (by omega)
    split
    · exact this.2
    split
    · exact this.1
    · exact hk

theorem gjSwap_eq {N irow icol : Nat} (h1 : irow < N) (h2 : icol < N) (a b : Arr2 α) :
    gjSwap N irow icol a b = ok (a.swapped irow icol, b.swapped irow icol) := by
  unfold gjSwap
  by_cases h : irow = icol
  · rw [if_neg (by simpa using h)]
    subst h
    have : ∀ a : Arr2 α, a.swapped irow irow = a := by
      intro a; funext r c; simp only [Arr2.swapped]; split <;> simp_all
    rw [this, this]
  · rw [if_pos h, Arr2.swap_ok h1 h2, ok_bind, Arr2.swap_ok h1 h2, ok_bind]

/-- virtual elimination step -/
def gjElim (k : Nat) (W X : Arr2 α) : Arr2 α := fun r c => if r = k then X k c / W k k else X r c - X k c / W k k * W r k

theorem gaussjStep_spec [IsStrictOrderedRing α] {N M i : Nat} (hi : i < N) {tol : α} (ht : 0 ≤ tol) {A B : Arr2 α} {s : GjState α} {W L : Arr2 α}
    (h : GaussJInv N M A B i s W L) :
    gaussjStep N M tol i s = err "matrix is singular" ∨
      ∃ s' W' L', gaussjStep N M tol i s = ok s' ∧ GaussJInv N M A B (i + 1) s' W' L' := by
  obtain ⟨k0, hk0⟩ : ((Finset.range N).filter (fun c => s.ipiv c = 0)).Nonempty := by
    rw [← Finset.card_pos]; have := h.card; omega
  rw [Finset.mem_filter, Finset.mem_range] at hk0
  obtain ⟨irow, icol, e, hr, hc, hpr, hpc⟩ := gjScan_spec s.a s.ipiv h.piv ⟨k0, hk0⟩
  unfold gaussjStep
  rw [e, ok_bind]
  dsimp only
  rw [Arr1.get_ok hc, ok_bind, Arr1.set_ok hc, ok_bind]
  by_cases hbig : |s.a irow icol| ≤ tol
  · left; rw [if_pos hbig]
  right
  rw [if_neg hbig, gjSwap_eq hr hc, ok_bind]
  dsimp only
  rw [Arr1.set_ok hi, ok_bind, Arr1.set_ok hi, ok_bind, Arr2.get_ok hc hc, ok_bind, Arr2.set_ok hc hc, ok_bind, gjScale_eq hc, ok_bind,
    gjScale_eq hc, ok_bind]
  obtain ⟨a', b', e3, hA, hB⟩ := gjReduce_all (M := M) hc
    (fun i j => if i = icol ∧ j < N then Arr2.put (s.a.swapped irow icol) icol icol 1 i j * (1 / s.a.swapped irow icol icol icol)
      else Arr2.put (s.a.swapped irow icol) icol icol 1 i j)
    (fun i j => if i = icol ∧ j < M then s.b.swapped irow icol i j * (1 / s.a.swapped irow icol icol icol) else s.b.swapped irow icol i j)
  rw [e3, ok_bind]
  dsimp only
  -- the virtual matrices
  set W1 := W.swapped irow icol with hW1
  set L1 := L.swapped irow icol with hL1
  set a1 := s.a.swapped irow icol with ha1
  set b1 := s.b.swapped irow icol with hb1
  have hsw : ∀ (X : Arr2 α) r c, r < N → ∃ r', r' < N ∧ X.swapped irow icol r c = X r' c ∧
      (r' = if r = irow then icol else if r = icol then irow else r) := by
    intro X r c hr'
    refine ⟨if r = irow then icol else if r = icol then irow else r, ?_, ?_, rfl⟩
    · split; exact hc; split; exact hr; exact hr'
    · simp only [Arr2.swapped]; split; rfl; split <;> rfl
  have hp : a1 icol icol = s.a irow icol := by
    simp only [ha1, Arr2.swapped]; split
    · next h => rw [h]
    · simp
  have hcol : ∀ r, r < N → a1 r icol = W1 r icol := by
    intro r hr'
    obtain ⟨r', h1, h2, h3⟩ := hsw s.a r icol hr'
    obtain ⟨r'', h1', h2', h3'⟩ := hsw W r icol hr'
    rw [ha1, hW1, h2, h2', h3', ← h3]; exact h.todoA r' icol h1 hc hpc
  have hpne : W1 icol icol ≠ 0 := by
    rw [← hcol icol hc, hp]
    intro h0; rw [h0, abs_zero] at hbig; exact hbig ht
  -- explicit values of the new arrays
  have hA' : ∀ r c, r < N → c < N → a' r c = if c = icol then (if r = icol then 1 / W1 icol icol else 0 - 1 / W1 icol icol * W1 r icol)
      else gjElim icol W1 a1 r c := by
    intro r c hr' hc'
    rw [hA r c hr' hc']
    have e1 : ∀ r, r < N → r ≠ icol → ¬(r = icol ∧ icol < N) := by intro r _ h; simp [h]
    by_cases hri : r = icol
    · subst hri
      rw [if_pos rfl, if_pos ⟨rfl, hc'⟩, hcol r hc]
      by_cases hci : c = r
      · subst hci; rw [if_pos rfl, if_pos rfl]; simp [Arr2.put]
      · rw [if_neg hci]; simp [Arr2.put, hci, gjElim, div_eq_mul_inv]
    · rw [if_neg hri]
      unfold redA
      beta_reduce
      rw [if_pos (show icol = icol ∧ c < N from ⟨rfl, hc'⟩), if_neg (show ¬(r = icol ∧ c < N) by omega), if_neg (show ¬(r = icol ∧ icol < N) by omega), hcol icol hc]
      have hput : ∀ j, a1.put icol icol 1 r j = a1 r j := by intro j; simp [Arr2.put, hri]
      rw [hput, hput, hcol r hr']
      simp only [Arr2.put]
      by_cases hci : c = icol
      · subst hci; simp [hri]
      · simp [hci, gjElim, hri, div_eq_mul_inv]
  have hB' : ∀ r c, r < N → c < M → b' r c = gjElim icol W1 b1 r c := by
    intro r c hr' hc'
    rw [hB r c hr' hc']
    by_cases hri : r = icol
    · subst hri
      rw [if_pos rfl, if_pos ⟨rfl, hc'⟩, hcol r hc]
      simp [gjElim, div_eq_mul_inv]
    · rw [if_neg hri, if_neg (by simp [hri]), if_pos ⟨rfl, hc'⟩, if_neg (by simp [hri]), hcol icol hc]
      simp only [Arr2.put]
      rw [if_neg (by simp [hri]), hcol r hr']
      simp [gjElim, hri, div_eq_mul_inv]
  -- linearity
  have hlin : ∀ (X Y : Arr2 α) (m : Nat) (Z : Arr2 α), (∀ r c, r < N → c < m → ∑ l ∈ Finset.range N, X r l * Z l c = Y r c) →
      ∀ r c, r < N → c < m → ∑ l ∈ Finset.range N, gjElim icol W1 (X.swapped irow icol) r l * Z l c = gjElim icol W1 (Y.swapped irow icol) r c := by
    intro X Y m Z hXY r c hr' hc'
    have hs1 : ∀ r c, r < N → c < m → ∑ l ∈ Finset.range N, X.swapped irow icol r l * Z l c = Y.swapped irow icol r c := by
      intro r c hr' hc'
      simp only [Arr2.swapped]
      split
      · exact hXY _ _ hc hc'
      split
      · exact hXY _ _ hr hc'
      · exact hXY _ _ hr' hc'
    simp only [gjElim]
    by_cases hri : r = icol
    · simp only [if_pos hri]
      rw [← hs1 icol c hc hc', Finset.sum_div]
      apply Finset.sum_congr rfl; intro l _; ring
    · simp only [if_neg hri]
      rw [← hs1 icol c hc hc', ← hs1 r c hr' hc', Finset.sum_div, Finset.sum_mul, ← Finset.sum_sub_distrib]
      apply Finset.sum_congr rfl; intro l _; ring
  refine ⟨_, gjElim icol W1 W1, gjElim icol W1 L1, rfl, ?_⟩
  have hperm : gjPerm (s.indxr.put i irow) (s.indxc.put i icol) (i + 1) = gjPerm s.indxr s.indxc i * Equiv.swap irow icol := by
    rw [gjPerm]
    congr 1
    · exact gjPerm_congr fun l hl => ⟨by simp [Arr1.put, show l ≠ i by omega], by simp [Arr1.put, show l ≠ i by omega]⟩
    · simp [Arr1.put]
  set σ := gjPerm s.indxr s.indxc i with hσ
  -- unit columns after a swap
  have hunit : ∀ (X : Arr2 α) c c', (∀ r, r < N → X r c = if r = c' then 1 else 0) → c' < N → ∀ r, r < N →
      X.swapped irow icol r c = if r = Equiv.swap irow icol c' then 1 else 0 := by
    intro X c c' hX hc' r hr'
    obtain ⟨r', h1, h2, h3⟩ := hsw X r c hr'
    rw [h2, hX r' h1]
    have : (r' = c') ↔ (r = Equiv.swap irow icol c') := by
      rw [h3, ← Equiv.swap_apply_def, Equiv.apply_eq_iff_eq_symm_apply, Equiv.symm_swap]
    simp only [this]
  have hne_of : ∀ c, s.ipiv c = 1 → c ≠ irow ∧ c ≠ icol := by
    intro c h1; constructor <;> intro h2 <;> subst h2 <;> omega
  have hpiv' : ∀ c, (s.ipiv.put icol (s.ipiv icol + 1)) c = if c = icol then 1 else s.ipiv c := by
    intro c; simp [Arr1.put, hpc]
  constructor
  · exact hlin L W N A h.prod
  · intro r c hr' hc'
    dsimp only
    rw [hB' r c hr' hc']
    exact hlin L s.b M B h.bprod r c hr' hc'
  · intro c hc'
    dsimp only
    rw [hpiv']
    split
    · right; rfl
    · exact h.piv c hc'
  · dsimp only
    have : ((Finset.range N).filter (fun c => (s.ipiv.put icol (s.ipiv icol + 1)) c = 0)) =
        ((Finset.range N).filter (fun c => s.ipiv c = 0)).erase icol := by
      ext c
      simp only [Finset.mem_filter, Finset.mem_erase, hpiv']
      by_cases hci : c = icol
      · simp [hci]
      · simp [hci]
    rw [this, Finset.card_erase_of_mem (by simp [hc, hpc])]
    have := h.card
    omega
  · intro l hl
    dsimp only
    simp only [Arr1.put]
    by_cases hli : l = i
    · rw [if_pos hli, if_pos hli]; exact ⟨hr, hc⟩
    · rw [if_neg hli, if_neg hli]; exact h.idx l (by omega)
  · -- doneW
    intro r c hr' hc' h1
    dsimp only at h1
    rw [hpiv'] at h1
    by_cases hci : c = icol
    · subst hci
      simp only [gjElim]
      split
      · exact div_self hpne
      · rw [div_self hpne]; ring
    · rw [if_neg hci] at h1
      obtain ⟨hn1, hn2⟩ := hne_of c h1
      have hu := hunit W c c (fun r hr' => h.doneW r c hr' hc' h1) hc'
      rw [Equiv.swap_apply_of_ne_of_ne hn1 hn2, ← hW1] at hu
      simp only [gjElim, hu icol hc, hu r hr', if_neg (Ne.symm hci)]
      split
      · next h => rw [zero_div, if_neg (by omega)]
      · rw [zero_div, zero_mul, sub_zero]
  · -- doneA
    intro r c hr' hc' h1
    dsimp only at h1 ⊢
    rw [hpiv'] at h1
    rw [hperm, hA' r c hr' hc', Equiv.Perm.mul_apply]
    by_cases hci : c = icol
    · subst hci
      rw [if_pos rfl, Equiv.swap_apply_right]
      have hu := hunit L (σ irow) irow (fun r hr' => h.todoL r irow hr' hr hpr) hr
      rw [Equiv.swap_apply_left, ← hL1] at hu
      simp only [gjElim, hu c hc', hu r hr', if_true]
      split
      · rfl
      · rfl
    · rw [if_neg hci] at h1
      rw [if_neg hci]
      obtain ⟨hn1, hn2⟩ := hne_of c h1
      rw [Equiv.swap_apply_of_ne_of_ne hn1 hn2]
      have : ∀ r, r < N → a1 r c = L1 r (σ c) := by
        intro r hr'
        obtain ⟨r', h1', h2, h3⟩ := hsw s.a r c hr'
        obtain ⟨r'', h1'', h2', h3'⟩ := hsw L r (σ c) hr'
        rw [ha1, hL1, h2, h2', h3', ← h3]; exact h.doneA r' c h1' hc' h1
      simp only [gjElim, this icol hc, this r hr']
  · -- todoA
    intro r c hr' hc' h1
    dsimp only at h1 ⊢
    rw [hpiv'] at h1
    rw [hA' r c hr' hc']
    by_cases hci : c = icol
    · rw [if_pos hci] at h1; omega
    · rw [if_neg hci] at h1 ⊢
      have : ∀ r, r < N → a1 r c = W1 r c := by
        intro r hr'
        obtain ⟨r', h1', h2, h3⟩ := hsw s.a r c hr'
        obtain ⟨r'', h1'', h2', h3'⟩ := hsw W r c hr'
        rw [ha1, hW1, h2, h2', h3', ← h3]; exact h.todoA r' c h1' hc' h1
      simp only [gjElim, this icol hc, this r hr']
  · -- todoL
    intro r c hr' hc' h1
    dsimp only at h1 ⊢
    rw [hpiv'] at h1
    rw [hperm, Equiv.Perm.mul_apply]
    by_cases hci : c = icol
    · rw [if_pos hci] at h1; omega
    · rw [if_neg hci] at h1
      have hu : ∀ r, r < N → L1 r (σ (Equiv.swap irow icol c)) = if r = c then 1 else 0 := by
        by_cases hcr : c = irow
        · have hu := hunit L (σ icol) icol (fun r hr' => h.todoL r icol hr' hc hpc) hc
          rw [Equiv.swap_apply_right, ← hL1] at hu
          rw [hcr, Equiv.swap_apply_left]; exact hu
        · have hu := hunit L (σ c) c (fun r hr' => h.todoL r c hr' hc' h1) hc'
          rw [Equiv.swap_apply_of_ne_of_ne hcr hci, ← hL1] at hu
          rw [Equiv.swap_apply_of_ne_of_ne hcr hci]; exact hu
      simp only [gjElim, hu icol hc, hu r hr', if_neg (Ne.symm hci)]
      split
      · next h => rw [zero_div, if_neg (by omega)]
      · rw [zero_div, zero_mul, sub_zero]

theorem gjSwapCols_eq {N p q : Nat} (hp : p < N) (hq : q < N) (a : Arr2 α) :
    ∃ a', gjSwapCols N p q a = ok a' ∧ ∀ r c, r < N → a' r c = a r (Equiv.swap p q c) := by
  unfold gjSwapCols
  obtain ⟨s, e, h⟩ := forRange_spec (f := fun k (a : Arr2 α) => do
    let x ← Arr2.get N N a k p
    let y ← Arr2.get N N a k q
    let a ← Arr2.set N N a k p y
    Arr2.set N N a k q x) (fun t s => ∀ r c, s r c = if r < t then a r (Equiv.swap p q c) else a r c) (Nat.zero_le N) (s := a)
    (by intro r c; rw [if_neg (by omega)])
    (by
      intro k s _ hk hI
      refine ⟨_, by rw [Arr2.get_ok hk hp, ok_bind, Arr2.get_ok hk hq, ok_bind, Arr2.set_ok hk hp, ok_bind, Arr2.set_ok hk hq], ?_⟩
      intro r c
      simp only [Arr2.put]
      by_cases hrk : r = k
      · subst hrk
        rw [if_pos (show r < r + 1 by omega), Equiv.swap_apply_def]
        simp only [hI, if_neg (show ¬ r < r by omega), true_and]
        by_cases h1 : c = q
        · subst h1
          rw [if_pos rfl]
          by_cases h2 : c = p
          · subst h2; simp
          · rw [if_neg h2, if_pos rfl]
        · rw [if_neg h1, if_neg h1]
          split <;> rfl
      · rw [if_neg (by simp [hrk]), if_neg (by simp [hrk]), hI]
        by_cases h1 : r < k
        · rw [if_pos h1, if_pos (by omega)]
        · rw [if_neg h1, if_neg (by omega)])
  refine ⟨s, e, ?_⟩
  intro r c hr
  rw [h, if_pos hr]

theorem gjUnscramble_eq {N : Nat} {indxr indxc : Arr1 Nat} (hix : ∀ l, l < N → indxr l < N ∧ indxc l < N) (a L : Arr2 α)
    (h : ∀ r c, r < N → c < N → a r c = L r (gjPerm indxr indxc N c)) :
    ∃ a', forRange 0 N a (gjUnscramble N indxr indxc) = ok a' ∧ ∀ r c, r < N → c < N → a' r c = L r c := by
  obtain ⟨s, e, h⟩ := forRange_spec (f := gjUnscramble N indxr indxc)
    (fun t s => ∀ r c, r < N → c < N → s r c = L r (gjPerm indxr indxc (N - t) c)) (Nat.zero_le N) (s := a) h
    (by
      intro t s _ ht hI
      have hl : N - 1 - t < N := by omega
      obtain ⟨hp, hq⟩ := hix _ hl
      have hstep : gjPerm indxr indxc (N - t) = gjPerm indxr indxc (N - (t + 1)) * Equiv.swap (indxr (N - 1 - t)) (indxc (N - 1 - t)) := by
        have : N - t = (N - 1 - t) + 1 := by omega
        rw [this, gjPerm]
        have : N - (t + 1) = N - 1 - t := by omega
        rw [this]
      unfold gjUnscramble
      rw [Arr1.get_ok hl, ok_bind, Arr1.get_ok hl, ok_bind]
      by_cases hpq : indxr (N - 1 - t) = indxc (N - 1 - t)
      · rw [if_neg (by simpa using hpq)]
        refine ⟨s, rfl, ?_⟩
        intro r c hr hc
        rw [hI r c hr hc, hstep, hpq, Equiv.swap_self]
        rfl
      · rw [if_pos hpq]
        obtain ⟨s', e', h'⟩ := gjSwapCols_eq hp hq s
        refine ⟨s', e', ?_⟩
        intro r c hr hc
        have hlt : Equiv.swap (indxr (N - 1 - t)) (indxc (N - 1 - t)) c < N := by
          rw [Equiv.swap_apply_def]; split; exact hq; split; exact hp; exact hc
        rw [h' r c hr, hI r _ hr hlt, hstep, Equiv.Perm.mul_apply, Equiv.swap_apply_self])
  refine ⟨s, e, ?_⟩
  intro r c hr hc
  rw [h r c hr hc, Nat.sub_self]
  rfl

/-- **C27** `num_recipes_gaussj_sol` either reports a singular matrix, or replaces `a` by the two-sided inverse of the given matrix and every
column of `b` by the unique solution of the corresponding linear system (`A b' = b`).  It never panics. -/
theorem C27_gaussj_sol [IsStrictOrderedRing α] (N M : Nat) {tol : α} (ht : 0 ≤ tol) (a b : Arr2 α) :
    gaussjSol N M tol a b = err "matrix is singular" ∨
      ∃ a' b', gaussjSol N M tol a b = ok (a', b') ∧ blockOf N a * blockOf N a' = 1 ∧ blockOf N a' * blockOf N a = 1 ∧
        ∀ r c, r < N → c < M → ∑ l ∈ Finset.range N, a r l * b' l c = b r c := by
  unfold gaussjSol
  rcases forRange_err_or (f := gaussjStep N M tol) (msg := "matrix is singular") (fun k s => ∃ W L, GaussJInv N M a b k s W L) (Nat.zero_le N)
      (s := { a, b, indxc := fun _ => 0, indxr := fun _ => 0, ipiv := fun _ => 0 })
      ⟨a, fun r c => if r = c then 1 else 0, by
        have hid : ∀ (Z : Arr2 α) r c, r < N → ∑ l ∈ Finset.range N, (if r = l then (1 : α) else 0) * Z l c = Z r c := by
          intro Z r c hr
          rw [Finset.sum_eq_single r]
          · rw [if_pos rfl, one_mul]
          · intro l _ hne; rw [if_neg (Ne.symm hne), zero_mul]
          · intro h; exact absurd (Finset.mem_range.2 hr) h
        constructor
        · intro r c hr _; exact hid a r c hr
        · intro r c hr _; exact hid b r c hr
        · intro c _; left; rfl
        · simp
        · intro l hl; omega
        · intro r c _ _ h; exact absurd h (by simp)
        · intro r c _ _ h; exact absurd h (by simp)
        · intro r c _ _ _; rfl
        · intro r c _ _ _; rfl⟩
      (by
        rintro k s _ hk ⟨W, L, h⟩
        rcases gaussjStep_spec hk ht h with e | ⟨s', W', L', e, h'⟩
        · left; exact e
        · right; exact ⟨s', e, W', L', h'⟩) with e | ⟨s, e, W, L, h⟩
  · left; rw [e]; rfl
  · right
    rw [e, ok_bind]
    have hall : ∀ c, c < N → s.ipiv c = 1 := by
      intro c hc
      rcases h.piv c hc with h0 | h1
      · exfalso
        have h2 : ((Finset.range N).filter (fun c => s.ipiv c = 0)).card = 0 := by have := h.card; omega
        rw [Finset.card_eq_zero] at h2
        have : c ∈ ((Finset.range N).filter (fun c => s.ipiv c = 0)) := by simp [hc, h0]
        rw [h2] at this
        exact absurd this (Finset.notMem_empty _)
      · exact h1
    obtain ⟨a', e', ha'⟩ := gjUnscramble_eq h.idx s.a L (fun r c hr hc => h.doneA r c hr hc (hall c hc))
    refine ⟨a', s.b, by rw [e', ok_bind], ?_⟩
    have hl : blockOf N a' * blockOf N a = 1 := by
      ext i j
      rw [Matrix.mul_apply, Matrix.one_apply]
      have h1 := h.prod i j i.2 j.2
      rw [h.doneW i j i.2 j.2 (hall j j.2), Finset.sum_range] at h1
      have : ∀ k : Fin N, blockOf N a' i k * blockOf N a k j = L i k * a k j := by
        intro k; simp only [blockOf]; rw [ha' i k i.2 k.2]
      rw [Finset.sum_congr rfl (fun k _ => this k), h1]
      simp [Fin.ext_iff]
    have hr := mul_eq_one_comm.1 hl
    refine ⟨hr, hl, ?_⟩
    intro r c hr' hc'
    have hA : ∀ i j : Fin N, ∑ l : Fin N, a i l * a' l j = if i = j then 1 else 0 := by
      intro i j
      have := congrFun (congrFun hr i) j
      rw [Matrix.mul_apply, Matrix.one_apply] at this
      exact this
    rw [Finset.sum_range]
    have h2 : ∀ l : Fin N, a r l * s.b l c = ∑ m : Fin N, a r l * a' l m * b m c := by
      intro l
      rw [← h.bprod l c l.2 hc', Finset.sum_range, Finset.mul_sum]
      apply Finset.sum_congr rfl
      intro m _
      rw [ha' l m l.2 m.2]; ring
    rw [Finset.sum_congr rfl (fun l _ => h2 l), Finset.sum_comm]
    have h3 : ∀ m : Fin N, ∑ l : Fin N, a r l * a' l m * b m c = (if (⟨r, hr'⟩ : Fin N) = m then 1 else 0) * b m c := by
      intro m
      rw [← Finset.sum_mul, ← hA ⟨r, hr'⟩ m]
    rw [Finset.sum_congr rfl (fun l _ => h3 l)]
    simp

/-- **C27** `num_recipes_gaussj_inv` inverts or reports a singular matrix -/
theorem C27_gaussj_inv [IsStrictOrderedRing α] (N : Nat) {tol : α} (ht : 0 ≤ tol) (a : Arr2 α) :
    gaussjInv N tol a = err "matrix is singular" ∨
      ∃ a', gaussjInv N tol a = ok a' ∧ blockOf N a * blockOf N a' = 1 ∧ blockOf N a' * blockOf N a = 1 := by
  unfold gaussjInv
  rcases C27_gaussj_sol N 0 ht a (fun _ _ => 0) with e | ⟨a', b', e, h1, h2, _⟩
  · left; rw [e]; rfl
  · right; exact ⟨a', by rw [e]; rfl, h1, h2⟩

/-- **C27** a singular matrix is always reported -/
theorem C27_singular [IsStrictOrderedRing α] (N M : Nat) {tol : α} (ht : 0 ≤ tol) (a b : Arr2 α)
    (hs : (blockOf N a).det = 0) : gaussjSol N M tol a b = err "matrix is singular" := by
  rcases C27_gaussj_sol N M ht a b with h | ⟨_, _, _, h1, _, _⟩
  · exact h
  · exfalso
    have := congrArg Matrix.det h1
    rw [Matrix.det_mul, hs, zero_mul, Matrix.det_one] at this
    exact zero_ne_one this

/-- **C27** `small_solve_lin_sys` replaces `b` by the solution of `A x = b` and `a` by the inverse, or reports a singular matrix -/
theorem C27_small_solve_lin_sys [IsStrictOrderedRing α] (N : Nat) {tol : α} (ht : 0 ≤ tol) (b : Arr1 α) (a : Arr2 α) :
    smallSolveLinSys N tol b a = err "matrix is singular" ∨
      ∃ x a', smallSolveLinSys N tol b a = ok (x, a') ∧ blockOf N a * blockOf N a' = 1 ∧
        ∀ r, r < N → ∑ l ∈ Finset.range N, a r l * x l = b r := by
  unfold smallSolveLinSys
  obtain ⟨bb, e1, h1⟩ := forRange_spec (f := fun i (bb : Arr2 α) => do
    let x ← Arr1.get N b i
    Arr2.set N 1 bb i 0 x) (fun t bb => ∀ r, r < t → bb r 0 = b r) (Nat.zero_le N) (s := fun _ _ => (0 : α)) (fun r h => by omega)
    (by
      intro k s _ hk hI
      refine ⟨_, by rw [Arr1.get_ok hk, ok_bind, Arr2.set_ok hk (by omega)], ?_⟩
      intro r hr
      simp only [Arr2.put]
      by_cases h : r = k
      · rw [if_pos ⟨h, trivial⟩, h]
      · rw [if_neg (by simp [h])]; exact hI r (by omega))
  rw [e1, ok_bind]
  rcases C27_gaussj_sol N 1 ht a bb with e | ⟨a', b', e, h2, _, h4⟩
  · left; rw [e]; rfl
  · right
    rw [e, ok_bind]
    dsimp only
    obtain ⟨x, e3, h3⟩ := forRange_spec (f := fun i (b : Arr1 α) => do
      let x ← Arr2.get N 1 b' i 0
      Arr1.set N b i x) (fun t x => ∀ r, r < t → x r = b' r 0) (Nat.zero_le N) (s := b) (fun r h => by omega)
      (by
        intro k s _ hk hI
        refine ⟨_, by rw [Arr2.get_ok hk (by omega), ok_bind, Arr1.set_ok hk], ?_⟩
        intro r hr
        simp only [Arr1.put]
        by_cases h : r = k
        · rw [if_pos h, h]
        · rw [if_neg h]; exact hI r (by omega))
    refine ⟨x, a', by rw [e3]; rfl, h2, ?_⟩
    intro r hr
    rw [← h1 r hr, ← h4 r 0 hr (by omega)]
    apply Finset.sum_congr rfl
    intro l hl
    rw [h3 l (Finset.mem_range.1 hl)]

/-- a concrete system: [[0,2],[1,1]] x = (4, 5) has the solution (3, 2); the pivots are off the diagonal -/
example : (match smallSolveLinSys 2 (1 / 1000000000000000 : ℚ) (fun i => if i = 0 then 4 else 5)
      (fun i j => if i = 0 ∧ j = 0 then 0 else if i = 0 then 2 else 1) with
    | ok (x, _) => decide (x 0 = 3 ∧ x 1 = 2)
    | _ => false) = true := by decide +kernel

end Russell.Lab
