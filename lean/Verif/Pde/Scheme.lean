import Verif.Pde.Line

/-!
# The two strategies for prescribed values

What does not depend on the dimension: the partitioned system (SPS) and the system with multipliers (LMM) have the same solutions.
-/

namespace Russell.Pde

open Russell Res Russell.Sparse

variable {α : Type}

/-- everything known about an assembly -/
structure Scheme [CommSemiring α] (h : EquationHandler) (neq B : Nat) (P : List Nat) (nn : Nat → List Nat) (val : Nat → Nat → Nat → Res α)
    (N : Nat → Nat → Nat) (V : Nat → Nat → α) (bandT bandF chk : Nat) : Prop where
  hc : Canon h neq P
  hP : ∀ p ∈ P, p < neq
  hs : Stencil neq B nn val N V
  hsy : ∀ m n, m < neq → n < neq → stMat B N V m n = stMat B N V n m
  hb : 1 ≤ bandT ∧ 1 ≤ bandF ∧ 1 ≤ chk
  k1 : ∀ sym : Sym, (barE P sym B N V (unkn P neq)).length ≤ (if sym.triangular then bandT else bandF) * pu P neq
  k2 : (chkE P B N V (unkn P neq)).length ≤ chk * pp P neq
  k3 : ∀ sym : Sym, (lmmE sym B N V neq).length ≤ (if sym.triangular then bandT else bandF) * neq

/-- nodal values satisfying the stencil equations at the unknown nodes and having the prescribed values at the others -/
def IsSol [CommSemiring α] (neq B : Nat) (P : List Nat) (N : Nat → Nat → Nat) (V : Nat → Nat → α) (R D W : Nat → α) : Prop :=
  (∀ m, m < neq → m ∉ P → ∑ c ∈ Finset.range B, V m c * W (N m c) = R m) ∧ ∀ p, p ∈ P → W p = D p

/-- the linear solver: a returned vector solves the system -/
def Solves [CommSemiring α] (solver : Coo α → List α → Res (List α)) : Prop :=
  ∀ A b x, solver A b = ok x → x.length = A.ncol ∧
    ∀ D a, A.asDense = ok D → IsDense D A.nrow A.ncol a → ∀ i, i < A.nrow → ∑ j ∈ Finset.range A.ncol, a i j * x.getD j 0 = b.getD i 0

theorem isVec_getD {l : List α} {n : Nat} {f : Nat → α} (h : Lab.IsVec l n f) {i : Nat} (hi : i < n) (d : α) : l.getD i d = f i := by
  rw [List.getD_eq_getElem?_getD, h.get i hi]; rfl

theorem sum_getD [CommSemiring α] {l : List α} {n : Nat} {f : Nat → α} (h : Lab.IsVec l n f) (a : Nat → α) :
    ∑ j ∈ Finset.range n, a j * l.getD j 0 = ∑ j ∈ Finset.range n, a j * f j := by
  apply Finset.sum_congr rfl
  intro j hj
  rw [isVec_getD h (Finset.mem_range.1 hj)]

/-- joining the unknown and the prescribed values -/
def joinW (P : List Nat) (D z : Nat → α) (m : Nat) : α := if m ∈ P then D m else z (pu P m)

theorem joinW_unkn {P : List Nat} {D z : Nat → α} {n i : Nat} (hi : i < pu P n) : joinW P D z ((unkn P n).getD i 0) = z i := by
  obtain ⟨m, h1, h2, rfl⟩ := pu_surj hi
  rw [unkn_get h1 h2]
  unfold joinW
  rw [if_neg h2]

theorem joinW_presc {P : List Nat} {D z : Nat → α} {n i : Nat} (hi : i < pp P n) :
    joinW P D z ((presc P n).getD i 0) = D ((presc P n).getD i 0) := by
  obtain ⟨m, h1, h2, rfl⟩ := pp_surj hi
  rw [presc_get h1 h2]
  unfold joinW
  rw [if_pos h2]

section Ring

variable [Field α] {h : EquationHandler} {neq B : Nat} {P : List Nat} {nn : Nat → List Nat} {val : Nat → Nat → Nat → Res α}
    {N : Nat → Nat → Nat} {V : Nat → Nat → α} {bandT bandF chk : Nat}

/-- vectors of the partitioned system -/
structure SpsVecs (neq : Nat) (P : List Nat) (R D : Nat → α) (ac fb : List α) : Prop where
  ac : Lab.IsVec ac (pp P neq) (fun i => D ((presc P neq).getD i 0))
  fb : Lab.IsVec fb (pu P neq) (fun i => R ((unkn P neq).getD i 0))

/-- right-hand side of the system with multipliers -/
def LmmVec (neq : Nat) (P : List Nat) (R D : Nat → α) (ff : List α) : Prop :=
  Lab.IsVec ff (neq + pp P neq) (fun i => if i < neq then R i else D ((presc P neq).getD (i - neq) 0))

/-- the partitioned system and the discrete equations -/
theorem sps_iff {B : Nat} {N : Nat → Nat → Nat} {V : Nat → Nat → α} {a b : Nat → Nat → α} {R D : Nat → α}
    (hrow : ∀ m, m < neq → m ∉ P → ∀ w : Nat → α,
        ∑ j ∈ Finset.range (pu P neq), a (pu P m) j * w ((unkn P neq).getD j 0) + ∑ j ∈ Finset.range (pp P neq), b (pu P m) j * w ((presc P neq).getD j 0) =
        ∑ c ∈ Finset.range B, V m c * w (N m c)) (z : Nat → α) :
    (∀ i, i < pu P neq → ∑ j ∈ Finset.range (pu P neq), a i j * z j + ∑ j ∈ Finset.range (pp P neq), b i j * D ((presc P neq).getD j 0) =
      R ((unkn P neq).getD i 0)) ↔ IsSol neq B P N V R D (joinW P D z) := by
  have key : ∀ m, m < neq → m ∉ P → ∑ j ∈ Finset.range (pu P neq), a (pu P m) j * z j +
      ∑ j ∈ Finset.range (pp P neq), b (pu P m) j * D ((presc P neq).getD j 0) = ∑ c ∈ Finset.range B, V m c * joinW P D z (N m c) := by
    intro m hm hmP
    rw [← hrow m hm hmP]
    congr 1
    · apply Finset.sum_congr rfl
      intro j hj
      rw [joinW_unkn (Finset.mem_range.1 hj)]
    · apply Finset.sum_congr rfl
      intro j hj
      rw [joinW_presc (Finset.mem_range.1 hj)]
  constructor
  · intro H
    refine ⟨?_, ?_⟩
    · intro m hm hmP
      have := H (pu P m) (pu_lt hm hmP)
      rw [key m hm hmP, unkn_get hm hmP] at this
      exact this
    · intro p hp; unfold joinW; rw [if_pos hp]
  · rintro ⟨H, _⟩ i hi
    obtain ⟨m, hm, hmP, rfl⟩ := pu_surj hi
    rw [key m hm hmP, unkn_get hm hmP]
    exact H m hm hmP

/-- the system with multipliers and the discrete equations -/
theorem lmm_iff {B : Nat} {N : Nat → Nat → Nat} {V : Nat → Nat → α} (hP : ∀ p ∈ P, p < neq) {a : Nat → Nat → α} {R D : Nat → α}
    (h1 : ∀ m, m < neq → ∀ w : Nat → α, ∑ j ∈ Finset.range (neq + pp P neq), a m j * w j =
          ∑ c ∈ Finset.range B, V m c * w (N m c) + if m ∈ P then w (neq + pp P m) else 0)
    (h2 : ∀ m, m ∈ P → ∀ w : Nat → α, ∑ j ∈ Finset.range (neq + pp P neq), a (neq + pp P m) j * w j = w m) (z : Nat → α) :
    (∀ i, i < neq + pp P neq → ∑ j ∈ Finset.range (neq + pp P neq), a i j * z j = if i < neq then R i else D ((presc P neq).getD (i - neq) 0)) ↔
      IsSol neq B P N V R D z ∧ ∀ p, p ∈ P → z (neq + pp P p) = R p - ∑ c ∈ Finset.range B, V p c * z (N p c) := by
  constructor
  · intro H
    refine ⟨⟨?_, ?_⟩, ?_⟩
    · intro m hm hmP
      have := H m (by omega)
      rw [h1 m hm, if_neg hmP, add_zero, if_pos hm] at this
      exact this
    · intro p hp
      have hpn := hP p hp
      have := H (neq + pp P p) (by have := pp_lt hpn hp; omega)
      rw [h2 p hp, if_neg (by omega), Nat.add_sub_cancel_left, presc_get hpn hp] at this
      exact this
    · intro p hp
      have hpn := hP p hp
      have := H p (by omega)
      rw [h1 p hpn, if_pos hp, if_pos hpn] at this
      rw [← this]; ring
  · rintro ⟨⟨H1, H2⟩, H3⟩ i hi
    by_cases hin : i < neq
    · rw [h1 i hin, if_pos hin]
      by_cases hp : i ∈ P
      · rw [if_pos hp, H3 i hp]; ring
      · rw [if_neg hp, add_zero]; exact H1 i hin hp
    · obtain ⟨p, hpn, hp, e⟩ := pp_surj (P := P) (n := neq) (i := i - neq) (by omega)
      have : i = neq + pp P p := by omega
      subst this
      rw [if_neg hin, h2 p hp, Nat.add_sub_cancel_left, presc_get hpn hp]
      exact H2 p hp

/-- **C49** (for the two assemblies) The partitioned system has the solution `ā` exactly when the system with multipliers has a solution whose
first part is the join of `ā` and the prescribed values; and the first part of every solution of the latter arises this way. -/
theorem strategies {B : Nat} {N : Nat → Nat → Nat} {V : Nat → Nat → α} (hP : ∀ p ∈ P, p < neq)
    (hN : ∀ m c, m < neq → c < B → N m c < neq) {a b M : Nat → Nat → α} {R D : Nat → α}
    (hrow : ∀ m, m < neq → m ∉ P → ∀ w : Nat → α,
        ∑ j ∈ Finset.range (pu P neq), a (pu P m) j * w ((unkn P neq).getD j 0) + ∑ j ∈ Finset.range (pp P neq), b (pu P m) j * w ((presc P neq).getD j 0) =
        ∑ c ∈ Finset.range B, V m c * w (N m c))
    (h1 : ∀ m, m < neq → ∀ w : Nat → α, ∑ j ∈ Finset.range (neq + pp P neq), M m j * w j =
          ∑ c ∈ Finset.range B, V m c * w (N m c) + if m ∈ P then w (neq + pp P m) else 0)
    (h2 : ∀ m, m ∈ P → ∀ w : Nat → α, ∑ j ∈ Finset.range (neq + pp P neq), M (neq + pp P m) j * w j = w m) :
    (∀ z : Nat → α, (∀ i, i < pu P neq → ∑ j ∈ Finset.range (pu P neq), a i j * z j + ∑ j ∈ Finset.range (pp P neq), b i j * D ((presc P neq).getD j 0) =
      R ((unkn P neq).getD i 0)) → ∃ y : Nat → α,
        (∀ i, i < neq + pp P neq → ∑ j ∈ Finset.range (neq + pp P neq), M i j * y j = if i < neq then R i else D ((presc P neq).getD (i - neq) 0)) ∧
        ∀ m, m < neq → y m = joinW P D z m) ∧
    (∀ y : Nat → α, (∀ i, i < neq + pp P neq → ∑ j ∈ Finset.range (neq + pp P neq), M i j * y j =
        if i < neq then R i else D ((presc P neq).getD (i - neq) 0)) → ∃ z : Nat → α,
      (∀ i, i < pu P neq → ∑ j ∈ Finset.range (pu P neq), a i j * z j + ∑ j ∈ Finset.range (pp P neq), b i j * D ((presc P neq).getD j 0) =
        R ((unkn P neq).getD i 0)) ∧ ∀ m, m < neq → y m = joinW P D z m) := by
  have congrSol : ∀ {W W' : Nat → α}, (∀ m, m < neq → W m = W' m) → IsSol neq B P N V R D W → IsSol neq B P N V R D W' := by
    rintro W W' hw ⟨q1, q2⟩
    refine ⟨?_, ?_⟩
    · intro m hm hmP
      rw [← q1 m hm hmP]
      apply Finset.sum_congr rfl
      intro c hc
      rw [hw _ (hN m c hm (Finset.mem_range.1 hc))]
    · intro p hp; rw [← hw p (hP p hp)]; exact q2 p hp
  refine ⟨?_, ?_⟩
  · intro z hz
    have hsol := (sps_iff hrow z).1 hz
    set y : Nat → α := fun i => if i < neq then joinW P D z i else
      R ((presc P neq).getD (i - neq) 0) - ∑ c ∈ Finset.range B, V ((presc P neq).getD (i - neq) 0) c * joinW P D z (N ((presc P neq).getD (i - neq) 0) c) with hy
    have hyl : ∀ m, m < neq → y m = joinW P D z m := fun m hm => by rw [hy]; exact if_pos hm
    refine ⟨y, (lmm_iff hP h1 h2 y).2 ⟨congrSol (fun m hm => (hyl m hm).symm) hsol, ?_⟩, hyl⟩
    intro p hp
    have hpn := hP p hp
    rw [hy]
    dsimp only
    rw [if_neg (by omega), Nat.add_sub_cancel_left, presc_get hpn hp]
    congr 1
    apply Finset.sum_congr rfl
    intro c hc
    rw [if_pos (hN p c hpn (Finset.mem_range.1 hc))]
  · intro y hy
    obtain ⟨hsol, _⟩ := (lmm_iff hP h1 h2 y).1 hy
    refine ⟨fun i => y ((unkn P neq).getD i 0), ?_, ?_⟩
    · rw [sps_iff hrow]
      apply congrSol _ hsol
      intro m hm
      unfold joinW
      split
      · exact hsol.2 m (by assumption)
      · dsimp only; rw [unkn_get hm (by assumption)]
    · intro m hm
      unfold joinW
      split
      · exact hsol.2 m (by assumption)
      · dsimp only; rw [unkn_get hm (by assumption)]

/-- the end of `solve_sps` -/
theorem sps_finish (S : Scheme h neq B P nn val N V bandT bandF chk) (hlt : neq < 2147483648) (hu : 1 ≤ pu P neq) (hne : P ≠ []) (extra : Nat) (sym : Sym)
    {R D : Nat → α} {ac fb : List α} (v : SpsVecs neq P R D ac fb) {solver : Coo α → List α → Res (List α)} (hsol : Solves solver) :
    ∃ kk kc fb', matricesSps h nn val bandT bandF chk extra sym = ok (kk, some kc) ∧ kc.matVecMulUpdate fb (-1) ac = ok fb' ∧
      ∀ ab, solver kk fb' = ok ab → ∃ r W, joinedVectorSps h ab ac = ok r ∧ Lab.IsVec r neq W ∧ IsSol neq B P N V R D W := by
  obtain ⟨kk, kc, e, hr, hcol, _, A, a, eA, hA, _, es, b, hkc, hrow⟩ := sps_rows S.hc S.hP hlt S.hs (extra := extra) sym hu S.hb (S.k1 sym) S.k2 S.hsy
  obtain ⟨rk, dr, dc, hb⟩ := hkc hne
  rw [if_neg hne] at e
  obtain ⟨fb', e1, l1, q1⟩ := Coo.matVec_core rk fb ac (-1) (by rw [dc, v.ac.len]) (by rw [dr, v.fb.len])
  have e1' : kc.matVecMulUpdate fb (-1) ac = ok fb' := by
    unfold Coo.matVecMulUpdate
    rw [if_neg (by rw [dc, v.ac.len]; omega), if_neg (by rw [dr, v.fb.len]; omega)]
    exact e1
  refine ⟨kk, kc, fb', e, e1', ?_⟩
  intro ab hab
  obtain ⟨la, hx⟩ := hsol kk fb' ab hab
  rw [hr, hcol] at hx
  rw [hcol] at la
  have hx := hx A a eA hA
  have hz : Lab.IsVec ab (pu P neq) (fun i => ab.getD i 0) := by
    have := Lab.isVec_self ab (0 : α)
    rwa [la] at this
  have hfb : ∀ i, i < pu P neq → fb'.getD i 0 = R ((unkn P neq).getD i 0) - ∑ j ∈ Finset.range (pp P neq), b i j * D ((presc P neq).getD j 0) := by
    intro i hi
    have := q1 i (by rw [v.fb.len]; exact hi)
    rw [this, dc, hb, isVec_getD v.fb hi, sum_getD v.ac]
    ring
  have hs := (sps_iff hrow (R := R) (D := D) (fun i => ab.getD i 0)).1 (by
    intro i hi
    rw [hx i hi, hfb i hi]; ring)
  obtain ⟨r, er, hr'⟩ := joined_spec S.hc S.hP hlt hz v.ac
  refine ⟨r, _, er, hr'.congr ?_, hs⟩
  intro m hm
  unfold joinW
  by_cases hp : m ∈ P
  · rw [if_pos hp, if_pos hp, presc_get hm hp]
  · rw [if_neg hp, if_neg hp]

/-- the end of `solve_lmm` -/
theorem lmm_finish (S : Scheme h neq B P nn val N V bandT bandF chk) (hlt : 2 * neq < 2147483648) (hneq : 1 ≤ neq) (extra : Nat) (sym : Sym)
    {R D : Nat → α} {ff : List α} (v : LmmVec neq P R D ff) {solver : Coo α → List α → Res (List α)} (hsol : Solves solver) :
    ∃ mm, matricesLmm h nn val bandT bandF extra false sym = ok (mm, none) ∧
      ∀ aa, solver mm ff = ok aa → ∃ r W, vslice aa 0 neq = ok r ∧ Lab.IsVec r neq W ∧ IsSol neq B P N V R D W := by
  obtain ⟨mm, cc, e, hr, hcol, _, ⟨A, a, eA, hA, _, h1, h2⟩, _⟩ := lmm_rows S.hc S.hP hlt hneq S.hs (extra := extra) false sym ⟨S.hb.1, S.hb.2.1⟩ (S.k3 sym) (fun _ => S.hsy)
  rw [if_neg (by simp)] at e
  refine ⟨mm, e, ?_⟩
  intro aa haa
  obtain ⟨la, hx⟩ := hsol mm ff aa haa
  rw [hr, hcol] at hx
  rw [hcol] at la
  have hx := hx A a eA hA
  have hs := (lmm_iff S.hP h1 h2 (R := R) (D := D) (fun i => aa.getD i 0)).1 (by
    intro i hi
    rw [hx i hi, isVec_getD v hi])
  refine ⟨aa.take neq, _, ?_, ?_, hs.1⟩
  · unfold vslice
    rw [if_pos ⟨Nat.zero_le _, by omega⟩]
    simp
  · refine ⟨by simp; omega, ?_⟩
    intro i hi
    rw [List.getElem?_take, if_pos hi]
    simp [show i < aa.length by omega]

end Ring

end Russell.Pde
