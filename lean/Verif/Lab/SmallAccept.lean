import Verif.Lab.Small

/-!
# Which matrices the Gauss-Jordan branch of `small_mat_inv` accepts (C26)
-/

namespace Russell.Lab
open Russell Russell.Res

variable {α : Type} [Field α] [LinearOrder α]

/-- entry `i` of the product of the active block with a vector -/
def mulVecTo (n : Nat) (a : Arr2 α) (x : Nat → α) (i : Nat) : α := ∑ j ∈ Finset.range n, a i j * x j

/-- Where the first `k` entries of `aw x` are zero, every entry of `A x` is zero or one of the other entries of `aw x`. -/
def GjRows (n : Nat) (A : Arr2 α) (k : Nat) (aw : Arr2 α) : Prop :=
  ∀ x : Nat → α, (∀ j, j < k → mulVecTo n aw x j = 0) → ∀ r, r < n → mulVecTo n A x r = 0 ∨
    ∃ i, k ≤ i ∧ i < n ∧ mulVecTo n A x r = mulVecTo n aw x i

theorem GjRows.swap {n k m : Nat} {A aw : Arr2 α} (h : GjRows n A k aw) (hk : k < n) (hm : m < n) (hkm : k < m) :
    GjRows n A k (aw.swapped k m) := by
  have e : ∀ x i, mulVecTo n (aw.swapped k m) x i = mulVecTo n aw x (if i = k then m else if i = m then k else i) := by
    intro x i
    simp only [mulVecTo, Arr2.swapped]
    split
    · rfl
    split <;> rfl
  intro x hx r hr
  rcases h x (fun j hj => by
    have := hx j hj
    rwa [e, if_neg (by omega), if_neg (by omega)] at this) r hr with h0 | ⟨i, h1, h2, h3⟩
  · exact Or.inl h0
  · right
    by_cases hik : i = k
    · exact ⟨m, by omega, hm, by rw [e, if_neg (by omega), if_pos rfl, h3, hik]⟩
    · by_cases him : i = m
      · exact ⟨k, le_refl _, hk, by rw [e, if_pos rfl, h3, him]⟩
      · exact ⟨i, h1, h2, by rw [e, if_neg hik, if_neg him, h3]⟩

theorem GjRows.elim {n k : Nat} {A aw : Arr2 α} (h : GjRows n A k aw) (hk : k < n) (hp : aw k k ≠ 0) :
    GjRows n A (k + 1) (elimAll n k n (scaledRow n k (aw k k) aw) (scaledRow n k (aw k k) aw)) := by
  set p := aw k k with hpdef
  have ek : ∀ x, mulVecTo n (elimAll n k n (scaledRow n k p aw) (scaledRow n k p aw)) x k = mulVecTo n aw x k / p := by
    intro x
    rw [mulVecTo, mulVecTo, Finset.sum_div]
    refine Finset.sum_congr rfl fun j hj => ?_
    simp only [elimAll, scaledRow]
    rw [if_neg (by simp), if_pos ⟨trivial, Finset.mem_range.1 hj⟩]
    ring
  have ei : ∀ x i, i < n → i ≠ k → mulVecTo n (elimAll n k n (scaledRow n k p aw) (scaledRow n k p aw)) x i =
      mulVecTo n aw x i - aw i k * (mulVecTo n aw x k / p) := by
    intro x i hi hik
    rw [mulVecTo, mulVecTo, mulVecTo, Finset.sum_div, Finset.mul_sum, ← Finset.sum_sub_distrib]
    refine Finset.sum_congr rfl fun j hj => ?_
    have hj := Finset.mem_range.1 hj
    simp only [elimAll, scaledRow]
    rw [if_pos ⟨hik, hi, hj⟩, if_neg (by simp [hik]), if_neg (by simp [hik]), if_pos ⟨trivial, hj⟩]
    ring
  intro x hx r hr
  have h0 : mulVecTo n aw x k = 0 := by
    have := hx k (by omega)
    rw [ek, div_eq_zero_iff] at this
    exact this.resolve_right hp
  have e0 : ∀ i, i < n → i ≠ k → mulVecTo n (elimAll n k n (scaledRow n k p aw) (scaledRow n k p aw)) x i = mulVecTo n aw x i := by
    intro i hi hik
    rw [ei x i hi hik, h0]
    simp
  rcases h x (fun j hj => by rw [← e0 j (by omega) (by omega)]; exact hx j (by omega)) r hr with h1 | ⟨i, h1, h2, h3⟩
  · exact Or.inl h1
  · by_cases hik : i = k
    · left; rw [h3, hik, h0]
    · right; exact ⟨i, by omega, h2, by rw [e0 i h2 hik, h3]⟩

theorem GjRows.init (n : Nat) (A : Arr2 α) : GjRows n A 0 A := fun x _ r hr => Or.inr ⟨r, by omega, hr, rfl⟩

/-- If no pivot above the tolerance is found, a vector with an entry 1 is mapped to one with small entries. -/
theorem GjRows.small [IsStrictOrderedRing α] {n k : Nat} {A aw ai : Arr2 α} {d tol : α} (h : GjRows n A k aw) (hI : GjInv n A k aw ai d) (hk : k < n) (ht : 0 ≤ tol)
    (hs : ∀ i, k ≤ i → i < n → |aw i k| ≤ tol) : ∃ x : Nat → α, x k = 1 ∧ ∀ r, r < n → |mulVecTo n A x r| ≤ tol := by
  let x : Nat → α := fun j => if j < k then -aw j k else if j = k then 1 else 0
  have e : ∀ i, i < n → mulVecTo n aw x i = if i < k then 0 else aw i k := by
    intro i hi
    have h1 : ∀ j ∈ Finset.range n, aw i j * x j = (if j = i then (if i < k then -aw i k else 0) else 0) + (if j = k then aw i k else 0) := by
      intro j hj
      simp only [x]
      by_cases hjk : j < k
      · rw [if_pos hjk, hI.unit i j hi hjk, if_neg (show ¬ j = k by omega)]
        by_cases hij : i = j
        · subst hij
          rw [if_pos rfl, if_pos rfl, if_pos hjk]
          ring
        · rw [if_neg hij, if_neg (fun h => hij h.symm)]
          ring
      · rw [if_neg hjk]
        by_cases hjk' : j = k
        · rw [if_pos hjk', if_pos hjk', hjk']
          by_cases hki : k = i
          · rw [if_pos hki, if_neg (by omega)]; ring
          · rw [if_neg hki]; ring
        · rw [if_neg hjk', if_neg hjk']
          by_cases hji : j = i
          · rw [if_pos hji, if_neg (by omega)]; ring
          · rw [if_neg hji]; ring
    rw [mulVecTo, Finset.sum_congr rfl h1, Finset.sum_add_distrib, Finset.sum_ite_eq', Finset.sum_ite_eq', if_pos (Finset.mem_range.2 hi),
      if_pos (Finset.mem_range.2 hk)]
    split
    · ring
    · ring
  refine ⟨x, by simp [x], fun r hr => ?_⟩
  rcases h x (fun j hj => by rw [e j (by omega), if_pos hj]) r hr with h0 | ⟨i, h1, h2, h3⟩
  · rw [h0, abs_zero]; exact ht
  · rw [h3, e i h2, if_neg (by omega)]
    exact hs i h1 h2

theorem gjStep_rows [IsStrictOrderedRing α] {N n k : Nat} (hn : n ≤ N) (hk : k < n) {tol : α} (ht : 0 ≤ tol) {A aw ai : Arr2 α} {d : α}
    (h : GjInv n A k aw ai d) (hR : GjRows n A k aw) :
    (∃ x : Nat → α, x k = 1 ∧ ∀ r, r < n → |mulVecTo n A x r| ≤ tol) ∨
      ∃ aw' ai' d', gjStep N n tol k (aw, ai, d) = ok (aw', ai', d') ∧ GjInv n A (k + 1) aw' ai' d' ∧ GjRows n A (k + 1) aw' := by
  obtain ⟨m, e, h1, h2, h3⟩ := pivotSearch_spec hn hk aw
  by_cases hv : |aw m k| ≤ tol
  · left
    exact hR.small h hk ht fun i hi hi' => (h3 i hi hi').trans hv
  right
  unfold gjStep
  rw [e, ok_bind]
  dsimp only
  rw [if_neg hv]
  have hne : aw m k ≠ 0 := by
    intro h0; rw [h0, abs_zero] at hv; exact hv ht
  obtain ⟨aw1, ai1, d1, e1, hI, hI', hp⟩ : ∃ aw1 ai1 d1, pivotSwap N k m (aw, ai, d) = ok (aw1, ai1, d1) ∧ GjInv n A k aw1 ai1 d1 ∧
      GjRows n A k aw1 ∧ aw1 k k ≠ 0 := by
    unfold pivotSwap
    by_cases hmk : m = k
    · subst hmk
      exact ⟨aw, ai, d, by rw [if_neg (by simp)], h, hR, hne⟩
    · refine ⟨_, _, _, by rw [if_pos hmk, Arr2.swap_ok (by omega) (by omega), ok_bind, Arr2.swap_ok (by omega) (by omega), ok_bind],
        h.swap hk h2 (by omega), hR.swap hk h2 (by omega), ?_⟩
      simp only [Arr2.swapped, if_true]
      exact hne
  rw [e1, ok_bind]
  dsimp only
  rw [Arr2.get_ok (by omega) (by omega), ok_bind, normalizeRow_eq hn hk hp aw1 ai1 rfl, ok_bind, eliminate_eq hn hk, ok_bind]
  · exact ⟨_, _, _, rfl, hI.elim hk hp, hI'.elim hk hp⟩
  · simp only [scaledRow]; rw [if_pos ⟨trivial, by omega⟩, div_self hp]

/-- **C26** for `n ≥ 4` a matrix is refused only if it maps a vector with an entry 1 to one whose entries are all within the tolerance -/
theorem C26_refused_nearly_singular [IsStrictOrderedRing α] {N n : Nat} (hn : n ≤ N) (h4 : 4 ≤ n) {tol : α} (ht : 0 ≤ tol) (ai a : Arr2 α) (msg : String)
    (he : smallMatInv N tol ai a n = err msg) : ∃ x : Fin n → α, (∃ k, x k = 1) ∧ ∀ r, |(blockOf n a).mulVec x r| ≤ tol := by
  by_contra hx
  have hx' : ¬ ∃ k, k < n ∧ ∃ x : Nat → α, x k = 1 ∧ ∀ r, r < n → |mulVecTo n a x r| ≤ tol := by
    rintro ⟨k, hk, x, h1, h2⟩
    refine hx ⟨fun i => x i, ⟨⟨k, hk⟩, h1⟩, fun r => ?_⟩
    have := h2 r r.2
    rw [mulVecTo, Finset.sum_range] at this
    exact this
  obtain ⟨s, e, -⟩ := forRange_spec (f := gjStep N n tol) (fun k s => GjInv n a k s.1 s.2.1 s.2.2 ∧ GjRows n a k s.1) (Nat.zero_le n)
    (s := (a, fun r c => if r < n ∧ c < n then (if r = c then 1 else 0) else ai r c, (1 : α))) ⟨GjInv.init a ai, GjRows.init n a⟩
    (by
      rintro k ⟨aw, ai, d⟩ _ hk ⟨h, hR⟩
      rcases gjStep_rows hn hk ht h hR with h | ⟨aw', ai', d', e, h', hR'⟩
      · exact absurd ⟨k, hk, h⟩ hx'
      · exact ⟨_, e, h', hR'⟩)
  unfold smallMatInv at he
  rw [if_pos hn, if_neg (by omega), if_neg (by omega), if_neg (by omega), smallMatInvGj, setIdentity_eq hn, ok_bind, e] at he
  exact absurd he (by simp)

/-- **C26** for `n ≥ 4` a matrix is accepted if the absolute row sums of its inverse are below `1/tol` -/
theorem C26_accepts [IsStrictOrderedRing α] {N n : Nat} (hn : n ≤ N) (h4 : 4 ≤ n) {tol : α} (ht : 0 ≤ tol) (ai a : Arr2 α)
    (B : Matrix (Fin n) (Fin n) α) (hB : B * blockOf n a = 1) (hs : ∀ i, (∑ j, |B i j|) * tol < 1) :
    ∃ ai', smallMatInv N tol ai a n = ok ((blockOf n a).det, ai') ∧ blockOf n ai' = B := by
  rcases C26_small_mat_inv hn ht ai a with h | ⟨det, ai', h1, h2, h3, h5⟩
  · exfalso
    obtain ⟨x, ⟨k, hk⟩, hx⟩ := C26_refused_nearly_singular hn h4 ht ai a _ h
    have e : x = B.mulVec ((blockOf n a).mulVec x) := by rw [Matrix.mulVec_mulVec, hB, Matrix.one_mulVec]
    have e1 : (1 : α) = ∑ j, B k j * (blockOf n a).mulVec x j := by rw [← hk]; exact congrFun e k
    have : (1 : α) ≤ (∑ j, |B k j|) * tol := by
      calc (1 : α) = |∑ j, B k j * (blockOf n a).mulVec x j| := by rw [← e1, abs_one]
        _ ≤ ∑ j, |B k j * (blockOf n a).mulVec x j| := Finset.abs_sum_le_sum_abs _ _
        _ ≤ ∑ j, |B k j| * tol := Finset.sum_le_sum fun j _ => by rw [abs_mul]; exact mul_le_mul_of_nonneg_left (hx j) (abs_nonneg _)
        _ = _ := by rw [Finset.sum_mul]
    exact absurd this (not_le.2 (hs k))
  · refine ⟨ai', by rw [h1, h5], ?_⟩
    calc blockOf n ai' = B * blockOf n a * blockOf n ai' := by rw [hB, Matrix.one_mul]
      _ = B := by rw [Matrix.mul_assoc, h2, Matrix.mul_one]

/-- the identity is accepted in every size from 4 on -/
example (ai : Arr2 ℚ) (n : Nat) (h4 : 4 ≤ n) : ∃ ai', smallMatInv n (1 / 1000000000000000) ai (fun i j => if i = j then 1 else 0) n = ok (1, ai') ∧
    blockOf n ai' = 1 := by
  have e : blockOf n (fun i j => if i = j then (1 : ℚ) else 0) = 1 := by
    ext i j
    simp [blockOf, Matrix.one_apply, Fin.ext_iff]
  obtain ⟨ai', h1, h2⟩ := C26_accepts (le_refl n) h4 (by norm_num) ai (fun i j => if i = j then (1 : ℚ) else 0) 1 (by rw [e, Matrix.one_mul])
    (tol := 1 / 1000000000000000) (fun i => by
      rw [Finset.sum_eq_single i (fun j _ hj => by rw [Matrix.one_apply_ne hj.symm, abs_zero]) (by simp)]
      norm_num)
  exact ⟨ai', by rw [h1, e, Matrix.det_one], h2⟩

/-- A matrix whose first column is within the tolerance is refused, invertible or not. -/
theorem C26_refuses_small_column [IsStrictOrderedRing α] {N n : Nat} (hn : n ≤ N) (h4 : 4 ≤ n) {tol : α} (ai a : Arr2 α)
    (h : ∀ i, i < n → |a i 0| ≤ tol) : smallMatInv N tol ai a n = err "matrix is singular" := by
  unfold smallMatInv
  rw [if_pos hn, if_neg (by omega), if_neg (by omega), if_neg (by omega), smallMatInvGj, setIdentity_eq hn, ok_bind]
  obtain ⟨k, rfl⟩ : ∃ k, n = k + 1 := ⟨n - 1, by omega⟩
  obtain ⟨m, e, h1, h2, -⟩ := pivotSearch_spec hn (show 0 < k + 1 by omega) a
  rw [forRange_step (by omega), gjStep, e, ok_bind]
  simp only
  rw [if_pos (h m h2)]
  rfl

end Russell.Lab
