import Verif.Lab.FiniteDiff
import Mathlib.Tactic.IntervalCases

/-!
# Derivatives of vectors (property C81)

/repo/russell_lab/src/vector/vec_deriv1_approx_eq.rs and vec_deriv2_approx_eq.rs; exact arithmetic.
-/

namespace Russell.Lab

open Russell Russell.Res

variable {α : Type} [Field α] [LinearOrder α] {A : Type}

/-- the closure handed to `deriv1_approx_eq` (vec_deriv1_approx_eq.rs:43-46, vec_deriv2_approx_eq.rs:43-46); the vector `v` is reused in all calls -/
def vdClosure (f : List α → α → A → Res (List α × A)) (i : Nat) : Callback α (List α × A) := fun s st => do
  let (v, args) ← f st.1 s st.2
  let y ← vget v i
  ok (y, (v, args))

/-- `vec_deriv1_approx_eq` (vec_deriv1_approx_eq.rs:36-48) and `vec_deriv2_approx_eq` (vec_deriv2_approx_eq.rs:36-48) for the formula `num` -/
def vecDerivApproxEq (num : List α × A → Callback α (List α × A) → Res (α × (List α × A))) (d : List α) (args : A) (tol : α)
    (f : List α → α → A → Res (List α × A)) : Res A := do
  let n := d.length
  let (_, args) ← forRange 0 n (List.replicate n (0 : α), args) fun i st => do
    let di ← vget d i
    derivApproxEq num di st tol (vdClosure f i)
  ok args

section props
variable [IsStrictOrderedRing α]

theorem vec_forN {num : List α × A → Callback α (List α × A) → Res (α × (List α × A))} {d : List α} {tol E : α} {f : List α → α → A → Res (List α × A)} {D : Nat → α}
    (hnum : ∀ i < d.length, ∀ s, ∃ dn s', num s (vdClosure f i) = ok (dn, s') ∧ |dn - D i| ≤ E) :
    ∀ (n lo : Nat) (s : List α × A), lo + n ≤ d.length →
      ((∀ i, lo ≤ i → i < lo + n → |d.getD i 0 - D i| + E ≤ tol) → ∃ s', forN n lo s (fun i st => do
        let di ← vget d i
        derivApproxEq num di st tol (vdClosure f i)) = ok s') ∧
      (∀ s', forN n lo s (fun i st => do
        let di ← vget d i
        derivApproxEq num di st tol (vdClosure f i)) = ok s' → ∀ i, lo ≤ i → i < lo + n → |d.getD i 0 - D i| ≤ tol + E)
  | 0, lo, s, _ => ⟨fun _ => ⟨s, rfl⟩, fun _ _ i h1 h2 => absurd h2 (by omega)⟩
  | n + 1, lo, s, hl => by
    have hlt : lo < d.length := by omega
    obtain ⟨dn, s1, e1, h1⟩ := hnum lo hlt s
    have hv : vget d lo = ok (d.getD lo 0) := by rw [vget_lt hlt, List.getD_eq_getElem _ _ hlt]
    have step : (do
        let di ← vget d lo
        derivApproxEq num di s tol (vdClosure f lo)) = if |d.getD lo 0 - dn| > tol then Res.panic else ok s1 := by
      rw [hv, ok_bind]
      unfold derivApproxEq
      rw [e1]
      rfl
    obtain ⟨r1, r2⟩ := vec_forN hnum n (lo + 1) s1 (by omega)
    have t1 := abs_sub_le (d.getD lo 0) (D lo) dn
    have t2 := abs_sub_le (d.getD lo 0) dn (D lo)
    rw [abs_sub_comm (D lo) dn] at t1
    constructor
    · intro h
      have h0 := h lo le_rfl (by omega)
      obtain ⟨s', e⟩ := r1 (fun i a b => h i (by omega) (by omega))
      refine ⟨s', ?_⟩
      rw [forN, step, if_neg (not_lt.2 (by linarith)), ok_bind]
      exact e
    · intro s' e i a b
      rw [forN, step] at e
      by_cases hc : |d.getD lo 0 - dn| > tol
      · rw [if_pos hc] at e
        cases e
      · rw [if_neg hc, ok_bind] at e
        rcases Nat.eq_or_lt_of_le a with rfl | a
        · linarith [not_lt.1 hc]
        · exact r2 s' e i a (by omega)

theorem vec_spec {num : List α × A → Callback α (List α × A) → Res (α × (List α × A))} {d : List α} {tol E : α} {f : List α → α → A → Res (List α × A)} {D : Nat → α} (args : A)
    (hnum : ∀ i < d.length, ∀ s, ∃ dn s', num s (vdClosure f i) = ok (dn, s') ∧ |dn - D i| ≤ E) :
    ((∀ i < d.length, |d.getD i 0 - D i| + E ≤ tol) → ∃ a, vecDerivApproxEq num d args tol f = ok a) ∧
    ((∃ a, vecDerivApproxEq num d args tol f = ok a) → ∀ i < d.length, |d.getD i 0 - D i| ≤ tol + E) := by
  obtain ⟨r1, r2⟩ := vec_forN (tol := tol) hnum d.length 0 (List.replicate d.length (0 : α), args) (by omega)
  unfold vecDerivApproxEq forRange
  dsimp only
  rw [Nat.sub_zero]
  constructor
  · intro h
    obtain ⟨s', e⟩ := r1 (fun i _ hi => h i (by omega))
    exact ⟨s'.2, by rw [e]; rfl⟩
  · rintro ⟨a, e⟩ i hi
    match hf : forN d.length 0 (List.replicate d.length (0 : α), args) (fun i st => do
        let di ← vget d i
        derivApproxEq num di st tol (vdClosure f i)) with
    | ok s' => exact r2 s' hf i (Nat.zero_le _) (by omega)
    | err m => rw [hf] at e; cases e
    | Res.panic => rw [hf] at e; cases e

/-- C81: `vec_deriv1_approx_eq` accepts a vector of derivatives when every component is closer to the derivative of that component of `v(s)` than the
tolerance less the truncation error `5 M h⁴ / 12`; and whenever it accepts, every component is within the tolerance plus that error. `c i` holds the
Taylor coefficients of component `i`, `M` bounds the remainders. The function may change its extra arguments in any way -/
theorem C81_vec_deriv1 {cbrt : α → α} (hcb : CbrtOk cbrt) {f : List α → α → A → Res (List α × A)} {G : α → List α} {upd : α → A → A} {d : List α} {x tol M : α} (args : A)
    (hG : ∀ t, d.length ≤ (G t).length) (hf : ∀ v t a, |t - x| ≤ fdStep → f v t a = ok (G t, upd t a)) (c : Nat → Nat → α) (R : Nat → α → α)
    (he : ∀ i < d.length, Expands (fun t => (G t).getD i 0) x 5 (c i) (R i) (fun u => |u| ≤ fdStep)) (hR : ∀ i < d.length, ∀ u, |u| ≤ fdStep → |R i u| ≤ M * |u| ^ 5) :
    ((∀ i < d.length, |d.getD i 0 - c i 1| + 5 / 12 * M * fdStep ^ 4 ≤ tol) → ∃ a, vecDerivApproxEq (deriv1Central5 cbrt x) d args tol f = ok a) ∧
    ((∃ a, vecDerivApproxEq (deriv1Central5 cbrt x) d args tol f = ok a) → ∀ i < d.length, |d.getD i 0 - c i 1| ≤ tol + 5 / 12 * M * fdStep ^ 4) := by
  refine vec_spec args fun i hi s => ?_
  obtain ⟨dn, pts, e, -, -, -, h⟩ := C81_central5 (f := vdClosure f i) (g := fun t => (G t).getD i 0) (upd := fun t s => (G t, upd t s.2)) (I := fun _ => True) (x := x) (args := s) hcb
    (fun t ht a _ => ⟨by
      have hl : i < (G t).length := lt_of_lt_of_le hi (hG t)
      simp only [vdClosure, hf _ t _ ht, ok_bind, vget_lt hl, List.getD_eq_getElem _ _ hl], trivial⟩) trivial
  exact ⟨dn, _, e, h _ _ _ (he i hi) (hR i hi)⟩

/-- C81: `vec_deriv2_approx_eq` likewise, with the second derivative and the truncation error of the formula with nine points -/
theorem C81_vec_deriv2 {f : List α → α → A → Res (List α × A)} {G : α → List α} {upd : α → A → A} {d : List α} {x tol M : α} (args : A)
    (hG : ∀ t, d.length ≤ (G t).length) (hf : ∀ v t a, x - 4 * fdStep ≤ t → t ≤ x + 4 * fdStep → f v t a = ok (G t, upd t a)) (c : Nat → Nat → α) (R : Nat → α → α)
    (he : ∀ i < d.length, Expands (fun t => (G t).getD i 0) x 10 (c i) (R i) (fun u => -(4 * fdStep) ≤ u ∧ u ≤ 4 * fdStep))
    (hR : ∀ i < d.length, ∀ u, -(4 * fdStep) ≤ u ∧ u ≤ 4 * fdStep → |R i u| ≤ M * |u| ^ 10) :
    ((∀ i < d.length, |d.getD i 0 - 2 * c i 2| + 250496 / 35 * M * fdStep ^ 8 ≤ tol) → ∃ a, vecDerivApproxEq (deriv2Central9 x) d args tol f = ok a) ∧
    ((∃ a, vecDerivApproxEq (deriv2Central9 x) d args tol f = ok a) → ∀ i < d.length, |d.getD i 0 - 2 * c i 2| ≤ tol + 250496 / 35 * M * fdStep ^ 8) := by
  refine vec_spec args fun i hi s => ?_
  obtain ⟨dn, e, h⟩ := C81_second_central9 (f := vdClosure f i) (g := fun t => (G t).getD i 0) (upd := fun t s => (G t, upd t s.2)) (x := x) s
    (fun t ht a => by
      have hl : i < (G t).length := lt_of_lt_of_le hi (hG t)
      simp only [vdClosure, hf _ t _ ht.1 ht.2, ok_bind, vget_lt hl, List.getD_eq_getElem _ _ hl])
  exact ⟨dn, _, e, h _ _ _ (he i hi) (hR i hi)⟩

omit [IsStrictOrderedRing α] in
/-- C81: an error returned by the function makes both checks panic, unless there is no component to check -/
theorem C81_vec_deriv_error (cbrt : α → α) (x : α) {f : List α → α → A → Res (List α × A)} {d : List α} (hd : d ≠ []) (args : A) (tol : α) (m : String)
    (hf : ∀ v t a, f v t a = err m) :
    vecDerivApproxEq (deriv1Central5 cbrt x) d args tol f = Res.panic ∧ vecDerivApproxEq (deriv2Central9 x) d args tol f = Res.panic := by
  obtain ⟨y, l, rfl⟩ := List.exists_cons_of_ne_nil hd
  constructor <;>
    simp [vecDerivApproxEq, forRange, forN, derivApproxEq, deriv1Central5, deriv1AndErrorsCentral5, deriv2Central9, vdClosure, hf, vget, Res.unwrap]

/-- `v(s) = (s², s³)` at `s = 2`: the vector `(4, 12)` is accepted and `(4, 13)` is not -/
example : (∃ a, vecDerivApproxEq (deriv1Central5 (fun _ : ℚ => 1) 2) [4, 12] () (1 / 100) (fun _ t a => ok ([t ^ 2, t ^ 3], a)) = ok a) ∧
    ¬ ∃ a, vecDerivApproxEq (deriv1Central5 (fun _ : ℚ => 1) 2) [4, 13] () (1 / 100) (fun _ t a => ok ([t ^ 2, t ^ 3], a)) = ok a := by
  have key := fun (d : List ℚ) (hd : d.length = 2) => C81_vec_deriv1 (cbrt := fun _ : ℚ => 1) (fun _ _ _ => ⟨by norm_num, le_rfl⟩) (f := fun _ t a => ok ([t ^ 2, t ^ 3], a))
    (G := fun t => [t ^ 2, t ^ 3]) (upd := fun _ a => a) (d := d) (x := 2) (tol := 1 / 100) (M := 0) () (by simp [hd]) (fun _ _ _ _ => rfl)
    (fun i => fun k => if i = 0 then [4, 4, 1, 0, 0].getD k 0 else [8, 12, 6, 1, 0].getD k 0) (fun _ _ => 0)
    (fun i hi u _ => by
      rw [hd] at hi
      interval_cases i <;> simp [Finset.sum_range_succ] <;> ring)
    (fun i _ u _ => by simp)
  constructor
  · refine (key [4, 12] rfl).1 fun i hi => ?_
    simp only [List.length_cons, List.length_nil] at hi
    interval_cases i <;> norm_num
  · intro h
    have := (key [4, 13] rfl).2 h 1 (by simp)
    norm_num at this

end props

end Russell.Lab
