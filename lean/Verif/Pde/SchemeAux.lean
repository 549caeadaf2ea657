import Verif.Pde.Scheme
import Verif.Pde.Fdm
import Mathlib.Algebra.Order.BigOperators.Group.Finset
import Mathlib.Algebra.Order.Field.Basic
import Mathlib.Tactic.Linarith
import Mathlib.Data.Finset.Max

/-!
# Loops filling vectors, and uniqueness of the discrete solution
-/

namespace Russell.Pde

open Russell Res Russell.Sparse

theorem forRange_eq_forList {σ : Type} (n : Nat) (s : σ) (f : Nat → σ → Res σ) : forRange 0 n s f = forList (List.range n) s f := by
  induction n with
  | zero => rw [forRange_empty (le_refl 0)]; rfl
  | succ n ih =>
    rw [forRange_succ_right (Nat.zero_le n), ih, List.range_succ, forList_append]
    congr 1
    funext s'
    simp only [forList]
    cases f n s' <;> rfl

/-- a loop in which node `m` changes the entry `pos m` only -/
theorem forList_fill {α : Type} {n : Nat} {pos : Nat → Nat} {upd : Nat → α → α} {body : Nat → List α → Res (List α)} : ∀ (l : List Nat) (v : List α) (G : Nat → α),
    l.Nodup → (∀ a ∈ l, ∀ b ∈ l, pos a = pos b → a = b) → Lab.IsVec v n G →
    (∀ m ∈ l, ∀ v G, Lab.IsVec v n G → ∃ v', body m v = ok v' ∧ Lab.IsVec v' n (fun i => if i = pos m then upd m (G i) else G i)) →
    ∃ v' G', forList l v body = ok v' ∧ Lab.IsVec v' n G' ∧ (∀ m ∈ l, G' (pos m) = upd m (G (pos m))) ∧ ∀ i, (∀ m ∈ l, pos m ≠ i) → G' i = G i := by
  intro l
  induction l with
  | nil => intro v G _ _ hv _; exact ⟨v, G, rfl, hv, by simp, by simp⟩
  | cons a l ih =>
    intro v G hnd hinj hv hb
    obtain ⟨v1, e1, h1⟩ := hb a (by simp) v G hv
    rw [List.nodup_cons] at hnd
    obtain ⟨v', G', e', h', q1, q2⟩ := ih v1 _ hnd.2 (fun x hx y hy => hinj x (by simp [hx]) y (by simp [hy])) h1 (fun m hm => hb m (by simp [hm]))
    have hne : ∀ m ∈ l, pos m ≠ pos a := fun m hm e => hnd.1 (by rw [← hinj m (by simp [hm]) a (by simp) e]; exact hm)
    refine ⟨v', G', ?_, h', ?_, ?_⟩
    · simp only [forList]; rw [e1, ok_bind]; exact e'
    · intro m hm
      rcases List.mem_cons.1 hm with rfl | hm
      · rw [q2 _ hne, if_pos rfl]
      · rw [q1 m hm, if_neg (hne m hm)]
    · intro i hi
      rw [q2 i (fun m hm => hi m (by simp [hm])), if_neg (fun e => hi a (by simp) e.symm)]

theorem unkn_nodup (P : List Nat) (n : Nat) : (unkn P n).Nodup := by
  unfold unkn; exact List.nodup_range.filter _

theorem presc_nodup (P : List Nat) (n : Nat) : (presc P n).Nodup := by
  unfold presc; exact List.nodup_range.filter _

theorem mem_unkn {P : List Nat} {n m : Nat} : m ∈ unkn P n ↔ m < n ∧ m ∉ P := by
  unfold unkn; simp

theorem mem_presc {P : List Nat} {n m : Nat} : m ∈ presc P n ↔ m < n ∧ m ∈ P := by
  unfold presc; simp

theorem addAt_spec {α : Type} [Field α] {v : List α} {n : Nat} {G : Nat → α} (h : Lab.IsVec v n G) {i : Nat} (hi : i < n) (x : α) :
    ∃ v', addAt v i x = ok v' ∧ Lab.IsVec v' n (fun k => if k = i then G k + x else G k) := by
  unfold addAt
  rw [h.vget hi, ok_bind]
  obtain ⟨v', e, h'⟩ := h.vset hi (G i + x)
  refine ⟨v', e, h'.congr ?_⟩
  intro k _
  by_cases hk : k = i
  · subst hk; rfl
  · simp [hk]

theorem pp_eq_zero {P : List Nat} {n : Nat} (hP : ∀ p ∈ P, p < n) : pp P n = 0 ↔ P = [] := by
  constructor
  · intro h
    by_contra hne
    obtain ⟨p, hp⟩ := List.exists_mem_of_ne_nil P hne
    have := pp_lt (hP p hp) hp
    omega
  · rintro rfl; unfold pp; rw [presc_nil]; rfl

/-! ### Statements about the assembled systems -/

section Api

variable {α : Type} [Field α] {h : EquationHandler} {neq B : Nat} {P : List Nat} {nn : Nat → List Nat} {val : Nat → Nat → Nat → Res α}
    {N : Nat → Nat → Nat} {V : Nat → Nat → α} {bandT bandF chk : Nat}

theorem Canon.lists (hc : Canon h neq P) : h.unknown = unkn P neq ∧ h.prescribed = presc P neq ∧ h.nu = pu P neq ∧ h.np = pp P neq := by
  refine ⟨hc.u, hc.p, ?_, ?_⟩
  · unfold EquationHandler.nu pu; rw [hc.u]
  · unfold EquationHandler.np pp; rw [hc.p]

/-- the partitioned matrices -/
theorem sps_api (S : Scheme h neq B P nn val N V bandT bandF chk) (hlt : neq < 2147483648) (hu : h.nu ≠ 0) (extra : Nat) (sym : Sym) :
    ∃ kk kc, matricesSps h nn val bandT bandF chk extra sym = ok (kk, if h.np = 0 then none else some kc) ∧
      kk.nrow = h.nu ∧ kk.ncol = h.nu ∧ kk.symmetric = sym ∧
      ∃ A a, kk.asDense = ok A ∧ IsDense A h.nu h.nu a ∧ (∀ i j, i < h.nu → j < h.nu → a i j = a j i) ∧
      ∃ b, (h.np ≠ 0 → kc.nrow = h.nu ∧ kc.ncol = h.np ∧ ∃ Bm, kc.asDense = ok Bm ∧ IsDense Bm h.nu h.np b) ∧
      ∀ i, i < h.nu → ∀ w : Nat → α,
        ∑ j ∈ Finset.range h.nu, a i j * w (h.unknown.getD j 0) + ∑ j ∈ Finset.range h.np, b i j * w (h.prescribed.getD j 0) =
        ∑ c ∈ Finset.range B, V (h.unknown.getD i 0) c * w (N (h.unknown.getD i 0) c) := by
  obtain ⟨l1, l2, l3, l4⟩ := S.hc.lists
  rw [l3] at hu
  obtain ⟨kk, kc, e, d1, d2, d3, A, a, eA, hA, hsy, es, b, hb, hrow⟩ := sps_rows S.hc S.hP hlt S.hs (extra := extra) sym (by omega) S.hb (S.k1 sym) S.k2 S.hsy
  rw [l1, l2, l3, l4]
  refine ⟨kk, kc, ?_, d1, d2, d3, A, a, eA, hA, hsy, b, ?_, ?_⟩
  · rw [e]
    simp only [pp_eq_zero S.hP]
  · intro hne
    have hne' : P ≠ [] := fun e => hne ((pp_eq_zero S.hP).2 e)
    obtain ⟨hr, d1, d2, hb⟩ := hb hne'
    obtain ⟨Bm, eB, hB⟩ := Coo.asDense_spec hr
    rw [d1, d2, hb] at hB
    exact ⟨d1, d2, Bm, eB, hB⟩
  · intro i hi w
    obtain ⟨m, hm, hmP, rfl⟩ := pu_surj hi
    rw [hrow m hm hmP w, unkn_get hm hmP]

/-- the matrix with multipliers -/
theorem lmm_api (S : Scheme h neq B P nn val N V bandT bandF chk) (hlt : 2 * neq < 2147483648) (hneq : 1 ≤ neq) (extra : Nat) (getc : Bool) (sym : Sym) :
    ∃ mm cc, matricesLmm h nn val bandT bandF extra getc sym = ok (mm, if getc = true ∧ h.np ≠ 0 then some cc else none) ∧
      mm.nrow = neq + h.np ∧ mm.ncol = neq + h.np ∧ mm.symmetric = sym ∧
      (∃ A a, mm.asDense = ok A ∧ IsDense A (neq + h.np) (neq + h.np) a ∧ (∀ i j, a i j = a j i) ∧
        (∀ m, m < neq → m ∉ h.prescribed → ∀ w : Nat → α, ∑ j ∈ Finset.range (neq + h.np), a m j * w j = ∑ c ∈ Finset.range B, V m c * w (N m c)) ∧
        (∀ i, i < h.np → ∀ w : Nat → α, ∑ j ∈ Finset.range (neq + h.np), a (h.prescribed.getD i 0) j * w j =
          ∑ c ∈ Finset.range B, V (h.prescribed.getD i 0) c * w (N (h.prescribed.getD i 0) c) + w (neq + i)) ∧
        (∀ i, i < h.np → ∀ w : Nat → α, ∑ j ∈ Finset.range (neq + h.np), a (neq + i) j * w j = w (h.prescribed.getD i 0))) ∧
      (getc = true ∧ h.np ≠ 0 → ∃ D d, cc.asDense = ok D ∧ IsDense D h.np neq d ∧
        ∀ i, i < h.np → ∀ k, k < neq → d i k = if k = h.prescribed.getD i 0 then 1 else 0) := by
  obtain ⟨l1, l2, l3, l4⟩ := S.hc.lists
  obtain ⟨mm, cc, e, d1, d2, d3, ⟨A, a, eA, hA, hsy', h1, h2⟩, hc⟩ := lmm_rows S.hc S.hP hlt hneq S.hs (extra := extra) getc sym ⟨S.hb.1, S.hb.2.1⟩ (S.k3 sym) (fun _ => S.hsy)
  rw [l2, l4]
  refine ⟨mm, cc, ?_, d1, d2, d3, ⟨A, a, eA, hA, hsy' S.hsy, ?_, ?_, ?_⟩, ?_⟩
  · rw [e]
    simp only [ne_eq, pp_eq_zero S.hP]
  · intro m hm hmP w
    have hmP' : m ∉ P := fun h => hmP (mem_presc.2 ⟨hm, h⟩)
    rw [h1 m hm, if_neg hmP', add_zero]
  · intro i hi w
    obtain ⟨p, hp, hpP, rfl⟩ := pp_surj hi
    rw [presc_get hp hpP, h1 p hp, if_pos hpP]
  · intro i hi w
    obtain ⟨p, hp, hpP, rfl⟩ := pp_surj hi
    rw [presc_get hp hpP, h2 p hpP]
  · rintro ⟨hg, hne⟩
    obtain ⟨D, d, eD, hD, hd⟩ := hc ⟨hg, fun e => hne ((pp_eq_zero S.hP).2 e)⟩
    refine ⟨D, d, eD, hD, ?_⟩
    intro i hi k hk
    obtain ⟨p, hp, hpP, rfl⟩ := pp_surj hi
    rw [presc_get hp hpP, hd p hpP k hk]

/-- equivalence of the two systems, in terms of the assembled matrices and vectors -/
theorem strategies_api (S : Scheme h neq B P nn val N V bandT bandF chk) (hlt : 2 * neq < 2147483648) (hu : h.nu ≠ 0) (hp : h.np ≠ 0) (extra extra' : Nat)
    (sym sym' : Sym) {R D : Nat → α} {ac fb ff : List α} (v : SpsVecs neq P R D ac fb) (v' : LmmVec neq P R D ff) :
    ∃ kk kc mm A a Bm b Mm M, matricesSps h nn val bandT bandF chk extra sym = ok (kk, some kc) ∧
      matricesLmm h nn val bandT bandF extra' false sym' = ok (mm, none) ∧
      kk.asDense = ok A ∧ IsDense A h.nu h.nu a ∧ kc.asDense = ok Bm ∧ IsDense Bm h.nu h.np b ∧ mm.asDense = ok Mm ∧ IsDense Mm (neq + h.np) (neq + h.np) M ∧
      (∀ x : Nat → α, (∀ i, i < h.nu → ∑ j ∈ Finset.range h.nu, a i j * x j + ∑ j ∈ Finset.range h.np, b i j * ac.getD j 0 = fb.getD i 0) →
        ∃ y : Nat → α, (∀ i, i < neq + h.np → ∑ j ∈ Finset.range (neq + h.np), M i j * y j = ff.getD i 0) ∧
          (∀ i, i < h.nu → y (h.unknown.getD i 0) = x i) ∧ ∀ i, i < h.np → y (h.prescribed.getD i 0) = ac.getD i 0) ∧
      (∀ y : Nat → α, (∀ i, i < neq + h.np → ∑ j ∈ Finset.range (neq + h.np), M i j * y j = ff.getD i 0) →
        (∀ i, i < h.nu → ∑ j ∈ Finset.range h.nu, a i j * y (h.unknown.getD j 0) + ∑ j ∈ Finset.range h.np, b i j * ac.getD j 0 = fb.getD i 0) ∧
          ∀ i, i < h.np → y (h.prescribed.getD i 0) = ac.getD i 0) := by
  obtain ⟨l1, l2, l3, l4⟩ := S.hc.lists
  rw [l3] at hu
  rw [l4] at hp
  have hne : P ≠ [] := fun e => hp ((pp_eq_zero S.hP).2 e)
  have hneq : 1 ≤ neq := by
    obtain ⟨p, hp⟩ := List.exists_mem_of_ne_nil P hne
    have := S.hP p hp
    omega
  obtain ⟨kk, kc, e, d1, d2, d3, A, a, eA, hA, _, es, b, hb, hrow⟩ := sps_rows S.hc S.hP (by omega) S.hs (extra := extra) sym (by omega) S.hb (S.k1 sym) S.k2 S.hsy
  obtain ⟨hr, k1, k2, hbb⟩ := hb hne
  obtain ⟨Bm, eB, hB⟩ := Coo.asDense_spec hr
  rw [k1, k2, hbb] at hB
  obtain ⟨mm, cc, em, _, _, _, ⟨Mm, M, eM, hM, _, h1, h2⟩, _⟩ := lmm_rows S.hc S.hP hlt hneq S.hs (extra := extra') false sym' ⟨S.hb.1, S.hb.2.1⟩ (S.k3 sym') (fun _ => S.hsy)
  rw [if_neg hne] at e
  rw [if_neg (by simp)] at em
  obtain ⟨t1, t2⟩ := strategies S.hP S.hs.lt hrow h1 h2 (R := R) (D := D)
  rw [l1, l2, l3, l4]
  have hac : ∀ f : Nat → α, ∑ j ∈ Finset.range (pp P neq), f j * ac.getD j 0 = ∑ j ∈ Finset.range (pp P neq), f j * D ((presc P neq).getD j 0) := fun f => sum_getD v.ac f
  refine ⟨kk, kc, mm, A, a, Bm, b, Mm, M, e, em, eA, hA, eB, hB, eM, hM, ?_, ?_⟩
  · intro x hx
    obtain ⟨y, hy, hj⟩ := t1 x (by
      intro i hi
      have := hx i hi
      rw [hac, isVec_getD v.fb hi] at this
      exact this)
    refine ⟨y, ?_, ?_, ?_⟩
    · intro i hi; rw [hy i hi, isVec_getD v' hi]
    · intro i hi
      obtain ⟨m, hm, hmP, rfl⟩ := pu_surj hi
      rw [unkn_get hm hmP, hj m hm]
      unfold joinW
      rw [if_neg hmP]
    · intro i hi
      rw [isVec_getD v.ac hi]
      obtain ⟨m, hm, hmP, rfl⟩ := pp_surj hi
      rw [presc_get hm hmP, hj m hm]
      unfold joinW
      rw [if_pos hmP]
  · intro y hy
    obtain ⟨z, hz, hj⟩ := t2 y (by
      intro i hi; rw [hy i hi, isVec_getD v' hi])
    refine ⟨?_, ?_⟩
    · intro i hi
      rw [hac, isVec_getD v.fb hi, ← hz i hi]
      congr 1
      apply Finset.sum_congr rfl
      intro j hj'
      obtain ⟨m, hm, hmP, e⟩ := pu_surj (Finset.mem_range.1 hj')
      rw [← e, unkn_get hm hmP, hj m hm]
      unfold joinW
      rw [if_neg hmP]
    · intro i hi
      rw [isVec_getD v.ac hi]
      obtain ⟨m, hm, hmP, rfl⟩ := pp_surj hi
      rw [presc_get hm hmP, hj m hm]
      unfold joinW
      rw [if_pos hmP]

end Api

/-- a linear solver that checks a given candidate (used in examples) -/
def checkSolver {α : Type} [Field α] [DecidableEq α] (x : List α) (A : Coo α) (b : List α) : Res (List α) :=
  match A.asDense with
  | ok D =>
    if x.length = A.ncol ∧ ∀ i ∈ List.range A.nrow,
        ((List.range A.ncol).map fun j => (match D.get i j with | ok v => v | _ => 0) * x.getD j 0).sum = b.getD i 0 then ok x
    else err "candidate is no solution"
  | _ => err "no matrix"

theorem checkSolver_solves {α : Type} [Field α] [DecidableEq α] (x : List α) : Solves (checkSolver x) := by
  intro A b y h
  unfold checkSolver at h
  split at h
  · rename_i D eD
    split at h
    · rename_i hc
      cases h
      refine ⟨hc.1, ?_⟩
      intro D' a eD' hD i hi
      rw [eD] at eD'; cases eD'
      rw [← hc.2 i (List.mem_range.2 hi), sum_range_list]
      apply Finset.sum_congr rfl
      intro j hj
      rw [hD.get i j hi (Finset.mem_range.1 hj)]
    · cases h
  · cases h

/-! ### Number of entries -/

/-- one at the nodes that are not prescribed -/
def uu (P : List Nat) (m : Nat) : Nat := if m ∈ P then 0 else 1

/-- one at the prescribed nodes -/
def pr (P : List Nat) (m : Nat) : Nat := if m ∈ P then 1 else 0

theorem uu_le (P : List Nat) (m : Nat) : uu P m ≤ 1 := by unfold uu; split <;> omega

theorem pu_count (P : List Nat) (n : Nat) : pu P n = ∑ m ∈ Finset.range n, uu P m := by
  have := sum_unkn P (fun _ => 1) n
  simp only [List.map_const', List.sum_replicate, smul_eq_mul, mul_one] at this
  exact this

theorem pp_count (P : List Nat) (n : Nat) : pp P n = ∑ m ∈ Finset.range n, pr P m := by
  have := sum_presc P (fun _ => 1) n
  simp only [List.map_const', List.sum_replicate, smul_eq_mul, mul_one] at this
  exact this

theorem barE_count {α : Type} (P : List Nat) (sym : Sym) (B : Nat) (N : Nat → Nat → Nat) (V : Nat → Nat → α) (n : Nat) :
    (barE P sym B N V (unkn P n)).length = ∑ m ∈ Finset.range n, uu P m * ∑ b ∈ Finset.range B, if Skip sym m (N m b) then 0 else uu P (N m b) := by
  have := barE_sum P sym B N V n (fun _ => 1)
  simp only [List.map_const', List.sum_replicate, smul_eq_mul, mul_one] at this
  rw [this]
  apply Finset.sum_congr rfl
  intro m _
  unfold uu
  by_cases hm : m ∈ P
  · rw [if_pos hm, if_pos hm, Nat.zero_mul]
  · rw [if_neg hm, if_neg hm, Nat.one_mul]
    apply Finset.sum_congr rfl
    intro b _
    by_cases h1 : N m b ∈ P <;> by_cases h2 : Skip sym m (N m b) <;> simp [h1, h2]

theorem chkE_count {α : Type} (P : List Nat) (B : Nat) (N : Nat → Nat → Nat) (V : Nat → Nat → α) (n : Nat) :
    (chkE P B N V (unkn P n)).length = ∑ m ∈ Finset.range n, uu P m * ∑ b ∈ Finset.range B, pr P (N m b) := by
  have := chkE_sum P B N V n (fun _ => 1)
  simp only [List.map_const', List.sum_replicate, smul_eq_mul, mul_one] at this
  rw [this]
  apply Finset.sum_congr rfl
  intro m _
  unfold uu pr
  by_cases hm : m ∈ P
  · rw [if_pos hm, if_pos hm, Nat.zero_mul]
  · rw [if_neg hm, if_neg hm, Nat.one_mul]

/-- without skipping entries there are at most `B` for every unknown -/
theorem barE_full {α : Type} (P : List Nat) {sym : Sym} (B : Nat) (N : Nat → Nat → Nat) (V : Nat → Nat → α) (n : Nat) :
    (barE P sym B N V (unkn P n)).length ≤ B * pu P n := by
  rw [barE_count, pu_count, Finset.mul_sum]
  apply Finset.sum_le_sum
  intro m _
  rw [Nat.mul_comm]
  apply Nat.mul_le_mul_right
  calc ∑ b ∈ Finset.range B, (if Skip sym m (N m b) then 0 else uu P (N m b)) ≤ ∑ b ∈ Finset.range B, 1 := by
        apply Finset.sum_le_sum
        intro b _
        split
        · omega
        · exact uu_le _ _
    _ = B := by simp

/-! ### Uniqueness -/

/-- the stencil is of positive type: diagonal first, negative couplings, row sums not negative, every node reached from every other -/
structure Positive {α : Type} [Field α] [LinearOrder α] (neq B : Nat) (N : Nat → Nat → Nat) (V : Nat → Nat → α) : Prop where
  hB : 1 ≤ B
  lt : ∀ m b, m < neq → b < B → N m b < neq
  diag : ∀ m, m < neq → N m 0 = m
  neg : ∀ m b, m < neq → 1 ≤ b → b < B → V m b < 0
  row : ∀ m, m < neq → 0 ≤ ∑ b ∈ Finset.range B, V m b
  conn : ∀ M : Nat → Prop, (∀ m b, m < neq → b < B → M m → M (N m b)) → ∀ m, m < neq → M m → ∀ k, k < neq → M k

variable {α : Type} [Field α] [LinearOrder α] [IsStrictOrderedRing α]

theorem max_principle {neq B : Nat} {N : Nat → Nat → Nat} {V : Nat → Nat → α} (S : Positive neq B N V) {P : List Nat} (hP : ∀ p ∈ P, p < neq) {e : Nat → α}
    (h0 : ∀ p ∈ P, e p = 0) (h1 : ∀ m, m < neq → m ∉ P → ∑ c ∈ Finset.range B, V m c * e (N m c) = 0)
    (hpos : P ≠ [] ∨ ∀ m, m < neq → 0 < ∑ b ∈ Finset.range B, V m b) : ∀ m, m < neq → e m ≤ 0 := by
  intro m0 hm0
  by_contra hcon
  rw [not_le] at hcon
  obtain ⟨x, hx, hmax⟩ := Finset.exists_max_image (Finset.range neq) e ⟨m0, Finset.mem_range.2 hm0⟩
  have hxn := Finset.mem_range.1 hx
  have hxpos : 0 < e x := lt_of_lt_of_le hcon (hmax m0 (Finset.mem_range.2 hm0))
  have key : ∀ m, m < neq → e m = e x → m ∉ P ∧ (∑ b ∈ Finset.range B, V m b) * e m = 0 ∧ ∀ c, c < B → e (N m c) = e x := by
    intro m hm hem
    have hmP : m ∉ P := fun h => by rw [h0 m h] at hem; rw [← hem] at hxpos; exact lt_irrefl _ hxpos
    have hrow := h1 m hm hmP
    have hge : ∀ c ∈ Finset.range B, V m c * e x ≤ V m c * e (N m c) := by
      intro c hc
      have hcB := Finset.mem_range.1 hc
      by_cases hc0 : c = 0
      · subst hc0; rw [S.diag m hm, hem]
      · exact mul_le_mul_of_nonpos_left (hmax _ (Finset.mem_range.2 (S.lt m c hm hcB))) (le_of_lt (S.neg m c hm (by omega) hcB))
    have hsum : ∑ c ∈ Finset.range B, V m c * e x ≤ 0 := by rw [← hrow]; exact Finset.sum_le_sum hge
    rw [← Finset.sum_mul] at hsum
    have hnn : 0 ≤ (∑ c ∈ Finset.range B, V m c) * e x := mul_nonneg (S.row m hm) (le_of_lt hxpos)
    have hz : (∑ c ∈ Finset.range B, V m c) * e x = 0 := le_antisymm hsum hnn
    have heq : ∑ c ∈ Finset.range B, V m c * e x = ∑ c ∈ Finset.range B, V m c * e (N m c) := by rw [hrow, ← Finset.sum_mul, hz]
    have hall := (Finset.sum_eq_sum_iff_of_le hge).1 heq
    refine ⟨hmP, by rw [hem]; exact hz, ?_⟩
    intro c hcB
    by_cases hc0 : c = 0
    · subst hc0; rw [S.diag m hm, hem]
    · have := hall c (Finset.mem_range.2 hcB)
      exact (mul_left_cancel₀ (ne_of_lt (S.neg m c hm (by omega) hcB)) this).symm
  have hfin := S.conn (fun m => m < neq ∧ e m = e x) (by
    rintro m b hm hb ⟨_, hem⟩
    exact ⟨S.lt m b hm hb, (key m hm hem).2.2 b hb⟩) x hxn ⟨hxn, rfl⟩
  rcases hpos with hne | hα
  · obtain ⟨p, hp⟩ := List.exists_mem_of_ne_nil P hne
    exact (key p (hP p hp) (hfin p (hP p hp)).2).1 hp
  · have := (key x hxn rfl).2.1
    exact absurd this (ne_of_gt (mul_pos (hα x hxn) hxpos))

/-- at most one solution -/
theorem sol_unique {neq B : Nat} {N : Nat → Nat → Nat} {V : Nat → Nat → α} (S : Positive neq B N V) {P : List Nat} (hP : ∀ p ∈ P, p < neq)
    (hpos : P ≠ [] ∨ ∀ m, m < neq → 0 < ∑ b ∈ Finset.range B, V m b) {R D W W' : Nat → α} (h : IsSol neq B P N V R D W) (h' : IsSol neq B P N V R D W') :
    ∀ m, m < neq → W m = W' m := by
  have gen : ∀ {W W' : Nat → α}, IsSol neq B P N V R D W → IsSol neq B P N V R D W' → ∀ m, m < neq → W m - W' m ≤ 0 := by
    intro W W' h h'
    apply max_principle S hP (e := fun m => W m - W' m) _ _ hpos
    · intro p hp; rw [h.2 p hp, h'.2 p hp, sub_self]
    · intro m hm hmP
      simp only [mul_sub, Finset.sum_sub_distrib]
      rw [h.1 m hm hmP, h'.1 m hm hmP, sub_self]
  intro m hm
  have a := gen h h' m hm
  have b := gen h' h m hm
  linarith

end Russell.Pde
