/-!
# Semantics of the Rust primitives used by the models

`Res` is the result of running a Rust function: a value, an `Err(msg)`, or a panic.
-/

namespace Russell

universe u v

/-- Outcome of a Rust computation: `Ok(v)` (or a plain value), `Err(msg)`, or a panic (out-of-bounds index, `unwrap` of an
error, failed assertion, arithmetic overflow in a checked build). -/
inductive Res (α : Type u) where
  | ok (v : α)
  | err (msg : String)
  | panic
  deriving DecidableEq, Repr

namespace Res

/-- Sequencing; `err` plays the role of the `?` operator. -/
protected def bind {α : Type u} {β : Type v} (x : Res α) (f : α → Res β) : Res β :=
  match x with
  | ok v => f v
  | err m => err m
  | panic => panic

instance : Monad Res where
  pure := ok
  bind := Res.bind

@[simp] theorem pure_eq {α : Type u} (a : α) : (pure a : Res α) = ok a := rfl
@[simp] theorem ok_bind {α β : Type u} (a : α) (f : α → Res β) : (ok a >>= f) = f a := id rfl
@[simp] theorem err_bind {α β : Type u} (m : String) (f : α → Res β) : ((err m : Res α) >>= f) = err m := id rfl
@[simp] theorem panic_bind {α β : Type u} (f : α → Res β) : ((panic : Res α) >>= f) = panic := id rfl

/-- `Result::unwrap`: an `Err` becomes a panic. -/
def unwrap {α : Type u} : Res α → Res α
  | ok v => ok v
  | _ => panic

@[simp] theorem unwrap_ok {α : Type u} (a : α) : (ok a).unwrap = ok a := rfl
@[simp] theorem unwrap_err {α : Type u} (m : String) : (err m : Res α).unwrap = panic := rfl
@[simp] theorem unwrap_panic {α : Type u} : (panic : Res α).unwrap = panic := rfl

/-- The computation finished with a value. -/
def isOk {α : Type u} : Res α → Bool
  | ok _ => true
  | _ => false

theorem bind_eq_ok {α β : Type u} {x : Res α} {f : α → Res β} {b : β} :
    (x >>= f) = ok b ↔ ∃ a, x = ok a ∧ f a = ok b := by
  cases x <;> simp

end Res

open Res

/-- `v[i]` (read): panics when out of bounds. -/
def vget {α : Type u} (l : List α) (i : Nat) : Res α :=
  match l[i]? with
  | some v => ok v
  | none => panic

/-- `v[i] = x`: panics when out of bounds. -/
def vset {α : Type u} (l : List α) (i : Nat) (x : α) : Res (List α) :=
  if i < l.length then ok (l.set i x) else panic

theorem vget_eq_ok {α : Type u} {l : List α} {i : Nat} {v : α} : vget l i = ok v ↔ l[i]? = some v := by
  unfold vget; split <;> simp_all

theorem vget_of {α : Type u} {l : List α} {i : Nat} {v : α} (h : l[i]? = some v) : vget l i = ok v :=
  vget_eq_ok.2 h

theorem vget_lt {α : Type u} {l : List α} {i : Nat} (h : i < l.length) : vget l i = ok l[i] := by
  simp [vget, h]

theorem vget_ge {α : Type u} {l : List α} {i : Nat} (h : l.length ≤ i) : vget l i = panic := by
  simp [vget, h]

theorem vset_lt {α : Type u} {l : List α} {i : Nat} (x : α) (h : i < l.length) : vset l i x = ok (l.set i x) := by
  simp [vset, h]

theorem vset_ge {α : Type u} {l : List α} {i : Nat} (x : α) (h : l.length ≤ i) : vset l i x = panic := by
  simp [vset, Nat.not_lt.2 h]

/-- `num as usize` for an `i32`: negative numbers become huge (two's complement, 64 bits). -/
def asUsize (x : Int) : Nat := (x % 18446744073709551616).toNat

/-- `num as i32` for a `usize`: wraps around. -/
def asI32 (n : Nat) : Int := Int.bmod n 4294967296

/-- `to_i32(num)`: panics if the number does not fit.
(/repo/russell_sparse/src/constants.rs:20-22, /repo/russell_lab/src/internal/to_i32.rs:7-9) -/
def toI32 (n : Nat) : Res Int := if n < 2147483648 then ok (n : Int) else panic

/-- checked `i32` addition (panics on overflow, as in a debug build) -/
def addI32 (a b : Int) : Res Int :=
  if -2147483648 ≤ a + b ∧ a + b < 2147483648 then ok (a + b) else panic

/-- checked `usize` subtraction (panics on underflow) -/
def subUsize (a b : Nat) : Res Nat := if b ≤ a then ok (a - b) else panic

theorem asUsize_natCast {n : Nat} (h : n < 2147483648) : asUsize (n : Int) = n := by
  unfold asUsize; omega

theorem asI32_natCast {n : Nat} (h : n < 2147483648) : asI32 n = (n : Int) := by
  unfold asI32
  rw [Int.bmod_def]
  split <;> omega

theorem toI32_lt {n : Nat} (h : n < 2147483648) : toI32 n = ok (n : Int) := by simp [toI32, h]

theorem toI32_ge {n : Nat} (h : 2147483648 ≤ n) : toI32 n = panic := by simp [toI32, Nat.not_lt.2 h]

theorem addI32_nat {a b : Nat} (h : a + b < 2147483648) : addI32 (a : Int) (b : Int) = ok ((a + b : Nat) : Int) := by
  unfold addI32
  rw [if_pos (by omega)]
  simp

/-- `n` iterations of a loop body with a counter starting at `lo`. -/
def forN {σ : Type u} : Nat → Nat → σ → (Nat → σ → Res σ) → Res σ
  | 0, _, s, _ => ok s
  | n + 1, lo, s, f => f lo s >>= fun s' => forN n (lo + 1) s' f

/-- `for k in lo..hi { s = body(k, s)? }` -/
def forRange {σ : Type u} (lo hi : Nat) (s : σ) (f : Nat → σ → Res σ) : Res σ :=
  forN (hi - lo) lo s f

theorem forN_spec {σ : Type u} {f : Nat → σ → Res σ} (I : Nat → σ → Prop) :
    ∀ (n lo : Nat) (s : σ), I lo s →
      (∀ k s, lo ≤ k → k < lo + n → I k s → ∃ s', f k s = ok s' ∧ I (k + 1) s') →
      ∃ s', forN n lo s f = ok s' ∧ I (lo + n) s'
  | 0, lo, s, h0, _ => ⟨s, rfl, by simpa using h0⟩
  | n + 1, lo, s, h0, hs => by
    obtain ⟨s1, h1, hI1⟩ := hs lo s (Nat.le_refl _) (by omega) h0
    obtain ⟨s2, h2, hI2⟩ := forN_spec I n (lo + 1) s1 hI1 (fun k s hk hk' => hs k s (by omega) (by omega))
    refine ⟨s2, ?_, ?_⟩
    · simp [forN, h1, h2]
    · have : lo + (n + 1) = lo + 1 + n := by omega
      rw [this]; exact hI2

/-- Invariant rule for counted loops that never fail. -/
theorem forRange_spec {σ : Type u} {f : Nat → σ → Res σ} (I : Nat → σ → Prop) {lo hi : Nat} {s : σ}
    (hle : lo ≤ hi) (h0 : I lo s)
    (hs : ∀ k s, lo ≤ k → k < hi → I k s → ∃ s', f k s = ok s' ∧ I (k + 1) s') :
    ∃ s', forRange lo hi s f = ok s' ∧ I hi s' := by
  obtain ⟨s', h1, h2⟩ := forN_spec I (hi - lo) lo s h0 (fun k s hk hk' => hs k s hk (by omega))
  refine ⟨s', h1, ?_⟩
  have : lo + (hi - lo) = hi := by omega
  rwa [this] at h2

theorem forRange_empty {σ : Type u} {f : Nat → σ → Res σ} {lo hi : Nat} {s : σ} (h : hi ≤ lo) :
    forRange lo hi s f = ok s := by
  have : hi - lo = 0 := by omega
  simp [forRange, this, forN]

theorem forRange_step {σ : Type u} {f : Nat → σ → Res σ} {lo hi : Nat} {s : σ} (h : lo < hi) :
    forRange lo hi s f = (f lo s >>= fun s' => forRange (lo + 1) hi s' f) := by
  have : hi - lo = (hi - (lo + 1)) + 1 := by omega
  simp [forRange, this, forN]

theorem forRange_succ_right {σ : Type u} {f : Nat → σ → Res σ} {lo hi : Nat} (h : lo ≤ hi) (s : σ) :
    forRange lo (hi + 1) s f = (forRange lo hi s f >>= fun s' => f hi s') := by
  obtain ⟨n, rfl⟩ := Nat.exists_eq_add_of_le h
  clear h
  induction n generalizing lo s with
  | zero =>
    rw [forRange_step (by omega), forRange_empty (by omega : lo + 0 ≤ lo)]
    simp only [Nat.add_zero, ok_bind]
    cases f lo s with
    | ok v => simp [forRange_empty]
    | err m => rfl
    | panic => rfl
  | succ n ih =>
    rw [forRange_step (by omega), forRange_step (lo := lo) (hi := lo + (n+1)) (by omega)]
    cases f lo s with
    | ok v =>
      simp only [ok_bind]
      have h1 : lo + (n + 1) = (lo + 1) + n := by omega
      rw [h1]; exact ih v
    | err m => rfl
    | panic => rfl

/-- General (partial correctness) invariant rule: whatever the outcome, if it is `ok` the invariant holds. -/
theorem forRange_ok {σ : Type u} {f : Nat → σ → Res σ} (I : Nat → σ → Prop) {lo hi : Nat} {s r : σ}
    (hle : lo ≤ hi) (h0 : I lo s)
    (hs : ∀ k s s', lo ≤ k → k < hi → I k s → f k s = ok s' → I (k + 1) s')
    (h : forRange lo hi s f = ok r) : I hi r := by
  obtain ⟨n, rfl⟩ := Nat.exists_eq_add_of_le hle
  clear hle
  induction n generalizing r with
  | zero => rw [forRange_empty (by omega)] at h; cases h; exact h0
  | succ n ih =>
    rw [show lo + (n + 1) = (lo + n) + 1 by omega, forRange_succ_right (by omega), Res.bind_eq_ok] at h
    obtain ⟨m, h1, h2⟩ := h
    have := ih (fun k s s' a b => hs k s s' a (by omega)) h1
    exact hs (lo + n) m r (Nat.le_add_right _ _) (by omega) this h2

/-- Outcome of a `&mut self` method returning `Result<(), StrError>`: the final state of `self` is visible to the caller
after `Ok` and after `Err` alike. -/
inductive MRes (σ : Type u) where
  | ok (s : σ)
  | err (s : σ) (msg : String)
  | panic
  deriving DecidableEq, Repr

namespace MRes

/-- `self.method(..)?` followed by the rest of the function: an `Err` returns at once, keeping the state reached. -/
def andThen {σ : Type u} (x : MRes σ) (f : σ → MRes σ) : MRes σ :=
  match x with
  | ok s => f s
  | err s m => err s m
  | panic => panic

@[simp] theorem ok_andThen {σ : Type u} (s : σ) (f : σ → MRes σ) : (ok s).andThen f = f s := rfl
@[simp] theorem err_andThen {σ : Type u} (s : σ) (m : String) (f : σ → MRes σ) : (err s m).andThen f = err s m := rfl
@[simp] theorem panic_andThen {σ : Type u} (f : σ → MRes σ) : (panic : MRes σ).andThen f = panic := rfl

end MRes

/-- `for k in lo..(lo+n) { self.method(k)?; }` for a `&mut self` method. -/
def forMut {σ : Type u} : Nat → Nat → σ → (Nat → σ → MRes σ) → MRes σ
  | 0, _, s, _ => MRes.ok s
  | n + 1, lo, s, f => (f lo s).andThen fun s' => forMut n (lo + 1) s' f

/-- `for x in xs { s = body(x, s)? }` -/
def forList {σ : Type u} {β : Type v} : List β → σ → (β → σ → Res σ) → Res σ
  | [], s, _ => ok s
  | x :: xs, s, f => f x s >>= fun s' => forList xs s' f

/-- `v[lo..hi]`: panics unless `lo ≤ hi ≤ len`. -/
def vslice {α : Type u} (l : List α) (lo hi : Nat) : Res (List α) :=
  if lo ≤ hi ∧ hi ≤ l.length then ok ((l.drop lo).take (hi - lo)) else panic

end Russell
