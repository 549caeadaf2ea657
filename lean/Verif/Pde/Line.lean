import Verif.Pde.Assembly
import Mathlib.Tactic.FieldSimp
import Mathlib.Tactic.NormNum

/-!
# Neighbours along one direction of a grid

The left and right neighbours used by `loop_over_bandwidth` (/repo/russell_pde/src/fdm_1d.rs:849-855, /repo/russell_pde/src/fdm_2d.rs:960-973) along
a line of `n` nodes, and the counting needed for the capacity of the matrices.
-/

namespace Russell.Pde

open Russell Res Russell.Sparse

/-- the node before `i` on a line of `n` nodes (wrapping around or mirrored at the end) -/
def lef (per : Bool) (n i : Nat) : Nat := if i ≠ 0 then i - 1 else if per then n - 1 else 1

/-- the node after `i` -/
def rig (per : Bool) (n i : Nat) : Nat := if i ≠ n - 1 then i + 1 else if per then 0 else n - 2

/-- the row of an end node is divided by two unless the line is periodic -/
def half {α : Type} [Field α] (per : Bool) (n i : Nat) : α := if per = false ∧ (i = 0 ∨ i = n - 1) then 1 / 2 else 1

theorem lef_lt {per : Bool} {n i : Nat} (hn : 2 ≤ n) (hi : i < n) : lef per n i < n := by
  unfold lef; split_ifs <;> omega

theorem rig_lt {per : Bool} {n i : Nat} (hn : 2 ≤ n) (hi : i < n) : rig per n i < n := by
  unfold rig; split_ifs <;> omega

theorem lef_ne {per : Bool} {n i : Nat} (hn : 2 ≤ n) : lef per n i ≠ i := by
  unfold lef; split_ifs <;> omega

theorem rig_ne {per : Bool} {n i : Nat} (hn : 2 ≤ n) : rig per n i ≠ i := by
  unfold rig; split_ifs <;> omega

/-- on a line that is not periodic the coupling is between adjacent nodes, with weight one -/
theorem line_adj {α : Type} [Field α] [CharZero α] {n i k : Nat} (hn : 2 ≤ n) (hi : i < n) (hk : k < n) :
    half false n i * ((if lef false n i = k then 1 else 0) + (if rig false n i = k then 1 else 0)) =
      (if i + 1 = k ∨ k + 1 = i then 1 else 0 : α) := by
  have h2 : (2 : α) ≠ 0 := by norm_num
  by_cases hi0 : i = 0
  · have e1 : lef false n i = 1 := by unfold lef; simp [hi0]
    have e2 : rig false n i = 1 := by unfold rig; rw [if_pos (by omega)]; omega
    have e3 : (half false n i : α) = 1 / 2 := by unfold half; rw [if_pos ⟨rfl, Or.inl hi0⟩]
    rw [e1, e2, e3]
    by_cases hk1 : 1 = k
    · rw [if_pos hk1, if_pos (by omega)]; field_simp; norm_num
    · rw [if_neg hk1, if_neg (by omega)]; simp
  · have e1 : lef false n i = i - 1 := by unfold lef; rw [if_pos hi0]
    by_cases hin : i = n - 1
    · have e2 : rig false n i = i - 1 := by unfold rig; rw [if_neg (by simpa using hin), if_neg (by simp)]; omega
      have e3 : (half false n i : α) = 1 / 2 := by unfold half; rw [if_pos ⟨rfl, Or.inr hin⟩]
      rw [e1, e2, e3]
      by_cases hk1 : i - 1 = k
      · rw [if_pos hk1, if_pos (by omega)]; field_simp; norm_num
      · rw [if_neg hk1, if_neg (by omega)]; simp
    · have e2 : rig false n i = i + 1 := by unfold rig; rw [if_pos (by simpa using hin)]
      have e3 : (half false n i : α) = 1 := by unfold half; rw [if_neg (by rintro ⟨_, h⟩; omega)]
      rw [e1, e2, e3, one_mul]
      by_cases hk1 : i - 1 = k
      · rw [if_pos hk1, if_neg (by omega), if_pos (by omega), add_zero]
      · by_cases hk2 : i + 1 = k
        · rw [if_neg hk1, if_pos hk2, if_pos (by omega), zero_add]
        · rw [if_neg hk1, if_neg hk2, if_neg (by omega), zero_add]

theorem lef_rig_per {n i k : Nat} (hn : 2 ≤ n) (hi : i < n) (hk : k < n) : lef true n i = k ↔ rig true n k = i := by
  have e1 : lef true n i = if i = 0 then n - 1 else i - 1 := by unfold lef; by_cases h : i = 0 <;> simp [h]
  have e2 : rig true n k = if k = n - 1 then 0 else k + 1 := by unfold rig; by_cases h : k = n - 1 <;> simp [h]
  rw [e1, e2]
  split_ifs <;> omega

/-- the coupling along a line is symmetric -/
theorem line_symm {α : Type} [Field α] [CharZero α] (per : Bool) {n i k : Nat} (hn : 2 ≤ n) (hi : i < n) (hk : k < n) :
    half per n i * ((if lef per n i = k then 1 else 0) + (if rig per n i = k then 1 else 0)) =
      (half per n k * ((if lef per n k = i then 1 else 0) + (if rig per n k = i then 1 else 0)) : α) := by
  cases per with
  | true =>
    unfold half
    simp only [lef_rig_per hn hi hk, lef_rig_per hn hk hi, Bool.true_eq_false, false_and, if_false]
    ring
  | false =>
    rw [line_adj hn hi hk, line_adj hn hk hi]
    apply if_congr _ rfl rfl
    tauto

/-! ## Counting -/

/-- splitting off the first and the last node -/
theorem sum_first {β : Type} [AddCommMonoid β] {n : Nat} (hn : 1 ≤ n) (f : Nat → β) :
    ∑ i ∈ Finset.range n, f i = f 0 + ∑ i ∈ Finset.range (n - 1), f (i + 1) := by
  obtain ⟨k, rfl⟩ : ∃ k, n = k + 1 := ⟨n - 1, by omega⟩
  rw [Finset.sum_range_succ', add_comm, Nat.add_sub_cancel]

theorem sum_last {β : Type} [AddCommMonoid β] {n : Nat} (hn : 1 ≤ n) (f : Nat → β) :
    ∑ i ∈ Finset.range n, f i = ∑ i ∈ Finset.range (n - 1), f i + f (n - 1) := by
  obtain ⟨k, rfl⟩ : ∃ k, n = k + 1 := ⟨n - 1, by omega⟩
  rw [Finset.sum_range_succ, Nat.add_sub_cancel]

/-- entries kept in the lower triangle along a line: at most one for every unknown node -/
theorem line_lower (per : Bool) {n : Nat} (hn : 2 ≤ n) (U : Nat → Nat) (hU : ∀ i, U i ≤ 1) :
    ∑ i ∈ Finset.range n, U i * ((if lef per n i ≤ i then U (lef per n i) else 0) + (if rig per n i ≤ i then U (rig per n i) else 0)) ≤
      ∑ i ∈ Finset.range n, U i := by
  have hm : ∀ a b, U a * U b ≤ U b := fun a b => by have := Nat.mul_le_mul_right (U b) (hU a); omega
  have hm' : ∀ a b, U a * U b ≤ U a := fun a b => by have := Nat.mul_le_mul_left (U a) (hU b); omega
  have h1 : ∑ i ∈ Finset.range n, U i * (if lef per n i ≤ i then U (lef per n i) else 0) ≤ ∑ i ∈ Finset.range (n - 1), U i := by
    rw [sum_first (by omega)]
    have : U 0 * (if lef per n 0 ≤ 0 then U (lef per n 0) else 0) = 0 := by
      rw [if_neg, Nat.mul_zero]; unfold lef; split_ifs <;> omega
    rw [this, Nat.zero_add]
    apply Finset.sum_le_sum
    intro i _
    have : lef per n (i + 1) = i := by unfold lef; rw [if_pos (by omega)]; rfl
    rw [this, if_pos (by omega)]
    exact hm _ _
  have h2 : ∑ i ∈ Finset.range n, U i * (if rig per n i ≤ i then U (rig per n i) else 0) ≤ U (n - 1) := by
    rw [sum_last (by omega), Finset.sum_eq_zero, Nat.zero_add]
    · split
      · exact hm' _ _
      · omega
    · intro i hi
      have := Finset.mem_range.1 hi
      have hr : rig per n i = i + 1 := by unfold rig; rw [if_pos (by omega)]
      rw [hr, if_neg (by omega), Nat.mul_zero]
  rw [sum_last (by omega) U]
  simp only [Nat.mul_add, Finset.sum_add_distrib]
  omega

theorem line_upper (per : Bool) {n : Nat} (hn : 2 ≤ n) (U : Nat → Nat) (hU : ∀ i, U i ≤ 1) :
    ∑ i ∈ Finset.range n, U i * ((if i ≤ lef per n i then U (lef per n i) else 0) + (if i ≤ rig per n i then U (rig per n i) else 0)) ≤
      ∑ i ∈ Finset.range n, U i := by
  have hm : ∀ a b, U a * U b ≤ U b := fun a b => by have := Nat.mul_le_mul_right (U b) (hU a); omega
  have hm' : ∀ a b, U a * U b ≤ U a := fun a b => by have := Nat.mul_le_mul_left (U a) (hU b); omega
  have h1 : ∑ i ∈ Finset.range n, U i * (if i ≤ rig per n i then U (rig per n i) else 0) ≤ ∑ i ∈ Finset.range (n - 1), U (i + 1) := by
    rw [sum_last (by omega)]
    have : U (n - 1) * (if n - 1 ≤ rig per n (n - 1) then U (rig per n (n - 1)) else 0) = 0 := by
      rw [if_neg, Nat.mul_zero]; unfold rig; split_ifs <;> omega
    rw [this, Nat.add_zero]
    apply Finset.sum_le_sum
    intro i hi
    have := Finset.mem_range.1 hi
    have hr : rig per n i = i + 1 := by unfold rig; rw [if_pos (by omega)]
    rw [hr, if_pos (by omega)]
    exact hm _ _
  have h2 : ∑ i ∈ Finset.range n, U i * (if i ≤ lef per n i then U (lef per n i) else 0) ≤ U 0 := by
    rw [sum_first (by omega), Finset.sum_eq_zero, Nat.add_zero]
    · split
      · exact hm' _ _
      · omega
    · intro i hi
      have : lef per n (i + 1) = i := by unfold lef; rw [if_pos (by omega)]; rfl
      rw [this, if_neg (by omega), Nat.mul_zero]
  rw [sum_first (by omega) U]
  simp only [Nat.mul_add, Finset.sum_add_distrib]
  omega

/-- couplings of unknown to prescribed nodes along a line on which only the ends of a non-periodic line are prescribed (or the whole line) -/
theorem line_check (per : Bool) {n : Nat} (hn : 2 ≤ n) (U P : Nat → Nat) (hU : ∀ i, U i ≤ 1)
    (h : (∀ i, i < n → U i = 0) ∨ (∀ i, i < n → P i ≠ 0 → per = false ∧ (i = 0 ∨ i = n - 1))) :
    ∑ i ∈ Finset.range n, U i * (P (lef per n i) + P (rig per n i)) ≤ 2 * ∑ i ∈ Finset.range n, P i := by
  rcases h with h | h
  · rw [Finset.sum_eq_zero]
    · omega
    · intro i hi; rw [h i (Finset.mem_range.1 hi), Nat.zero_mul]
  · have hm : ∀ a b, U a * P b ≤ P b := fun a b => by have := Nat.mul_le_mul_right (P b) (hU a); omega
    have hz : ∀ i, i < n → ¬ (per = false ∧ (i = 0 ∨ i = n - 1)) → P i = 0 := fun i hi hc => by
      by_contra hne; exact hc (h i hi hne)
    have h1 : ∑ i ∈ Finset.range n, U i * P (lef per n i) ≤ ∑ i ∈ Finset.range n, P i := by
      by_cases hp : per = true ∨ 3 ≤ n
      · rw [sum_first (by omega), sum_last (by omega) P]
        have h0 : P (lef per n 0) = 0 := by
          apply hz _ (lef_lt hn (by omega))
          rintro ⟨a, b⟩
          subst a
          rw [show lef false n 0 = 1 from rfl] at b
          rcases hp with hp | hp
          · cases hp
          · omega
        rw [h0, Nat.mul_zero, Nat.zero_add]
        apply Nat.le_add_right_of_le
        apply Finset.sum_le_sum
        intro i _
        have : lef per n (i + 1) = i := by unfold lef; rw [if_pos (by omega)]; rfl
        rw [this]
        exact hm _ _
      · have hn2 : n = 2 := by omega
        have hpf : per = false := by simpa using fun h => hp (Or.inl h)
        subst hn2 hpf
        rw [Finset.sum_range_succ, Finset.sum_range_one, Finset.sum_range_succ, Finset.sum_range_one]
        have a := hm 0 1
        have b := hm 1 0
        rw [show lef false 2 0 = 1 from rfl, show lef false 2 1 = 0 from rfl]
        omega
    have h2 : ∑ i ∈ Finset.range n, U i * P (rig per n i) ≤ ∑ i ∈ Finset.range n, P i := by
      by_cases hp : per = true ∨ 3 ≤ n
      · rw [sum_last (by omega), sum_first (by omega) P]
        have h0 : P (rig per n (n - 1)) = 0 := by
          apply hz _ (rig_lt hn (by omega))
          rintro ⟨a, b⟩
          subst a
          rw [show rig false n (n - 1) = n - 2 by unfold rig; simp] at b
          rcases hp with hp | hp
          · cases hp
          · omega
        rw [h0, Nat.mul_zero, Nat.add_zero]
        apply Nat.le_add_left_of_le
        apply Finset.sum_le_sum
        intro i hi
        have := Finset.mem_range.1 hi
        have hr : rig per n i = i + 1 := by unfold rig; rw [if_pos (by omega)]
        rw [hr]
        exact hm _ _
      · have hn2 : n = 2 := by omega
        have hpf : per = false := by simpa using fun h => hp (Or.inl h)
        subst hn2 hpf
        rw [Finset.sum_range_succ, Finset.sum_range_one, Finset.sum_range_succ, Finset.sum_range_one]
        have a := hm 0 1
        have b := hm 1 0
        rw [show rig false 2 0 = 1 from rfl, show rig false 2 1 = 0 from rfl]
        omega
    simp only [Nat.mul_add, Finset.sum_add_distrib]
    omega

/-- a set of nodes closed under both neighbours is everything -/
theorem line_connected {per : Bool} {n : Nat} (hn : 2 ≤ n) {M : Nat → Prop} (hl : ∀ i, i < n → M i → M (lef per n i)) (hr : ∀ i, i < n → M i → M (rig per n i))
    {i : Nat} (hi : i < n) (hM : M i) : ∀ k, k < n → M k := by
  have h0 : ∀ d, d ≤ i → M (i - d) := by
    intro d
    induction d with
    | zero => intro _; exact hM
    | succ d ih =>
      intro hd
      have := hl (i - d) (by omega) (ih (by omega))
      rw [show lef per n (i - d) = i - (d + 1) by unfold lef; rw [if_pos (by omega)]; omega] at this
      exact this
  have hz : M 0 := by have := h0 i (by omega); rwa [Nat.sub_self] at this
  intro k
  induction k with
  | zero => intro _; exact hz
  | succ k ih =>
    intro hk
    have := hr k (by omega) (ih (by omega))
    rw [show rig per n k = k + 1 by unfold rig; rw [if_pos (by omega)]] at this
    exact this

/-- sum over the nodes of a two-dimensional grid -/
theorem sum_grid {β : Type} [AddCommMonoid β] (nx ny : Nat) (f : Nat → β) :
    ∑ m ∈ Finset.range (nx * ny), f m = ∑ j ∈ Finset.range ny, ∑ i ∈ Finset.range nx, f (i + j * nx) := by
  induction ny with
  | zero => simp
  | succ n ih =>
    rw [Nat.mul_succ, Finset.sum_range_add, ih, Finset.sum_range_succ]
    congr 1
    apply Finset.sum_congr rfl
    intro i _
    rw [Nat.mul_comm nx n, Nat.add_comm]

end Russell.Pde
