import Verif.Pde.SchemeAux
import Mathlib.LinearAlgebra.FiniteDimensional.Lemmas

/-!
# Assembly of collocation systems

The part of `Spc1d`, `Spc2d` and `SpcMap2d` that does not depend on the dimension (/repo/russell_pde/src/spc_1d.rs, /repo/russell_pde/src/spc_2d.rs,
/repo/russell_pde/src/spc_map_2d.rs): full rows, `val m n` being the value computed for row `m` and column `n`, and no symmetric storage.
-/

namespace Russell.Pde

open Russell Res Russell.Sparse

section Model

variable {α : Type}

/-- `put_val` (/repo/russell_pde/src/spc_1d.rs:788-800, /repo/russell_pde/src/spc_2d.rs:915-927, /repo/russell_pde/src/spc_map_2d.rs:957-969) -/
def putVal (h : EquationHandler) (m n : Nat) (v : α) (s : Coo α × Coo α) : Res (Coo α × Coo α) := do
  let row ← h.iu m
  let p ← h.isPrescribed n
  if !p then do
    let col ← h.iu n
    let c ← unwrapM (s.1.put row col v)
    ok (c, s.2)
  else do
    let col ← h.ip n
    let c ← unwrapM (s.2.put row col v)
    ok (s.1, c)

/-- `get_matrices_sps` (/repo/russell_pde/src/spc_1d.rs:464-509, /repo/russell_pde/src/spc_2d.rs:531-607, /repo/russell_pde/src/spc_map_2d.rs:568-646);
`nnz` is the variable `nnz_wcs`, `nc` the number of columns of a row -/
def spcMatricesSps [Zero α] (h : EquationHandler) (nnz nc : Nat) (val : Nat → Nat → Res α) (extra : Nat) : Res (Coo α × Coo α) := do
  let nu := h.nu
  let np := h.np
  let kk_bar ← (Coo.new nu nu (nnz + extra) Sym.no).unwrap
  let kk_check ← (Coo.new nu np nnz Sym.no).unwrap
  forList h.unknown (kk_bar, kk_check) fun m s =>
    forRange 0 nc s fun n s => do
      let v ← val m n
      putVal h m n v s

/-- `get_matrices_lmm` (/repo/russell_pde/src/spc_1d.rs:541-605, /repo/russell_pde/src/spc_2d.rs:639-734, /repo/russell_pde/src/spc_map_2d.rs:666-762) -/
def spcMatricesLmm [Zero α] [One α] (h : EquationHandler) (nnz nc : Nat) (val : Nat → Nat → Res α) (extra : Nat) (get_constraints_mat : Bool) :
    Res (Coo α × Option (Coo α)) := do
  let neq := h.neq
  let nlag := h.np
  let ndim := neq + nlag
  let mm ← (Coo.new ndim ndim (nnz + extra + 2 * nlag) Sym.no).unwrap
  let mm ← forRange 0 neq mm fun m mm =>
    forRange 0 nc mm fun n mm => do
      let v ← val m n
      unwrapM (mm.put m n v)
  let mm ← forList h.prescribed mm (lmmConstraint h Sym.no)
  if get_constraints_mat ∧ nlag > 0 then do
    let cc ← constraintsMat h
    ok (mm, some cc)
  else ok (mm, none)

/-- the end of `solve_sps` (/repo/russell_pde/src/spc_1d.rs:282-295, /repo/russell_pde/src/spc_2d.rs:333-346, /repo/russell_pde/src/spc_map_2d.rs:385-398) -/
def spcFinishSps [Field α] (h : EquationHandler) (mats : Res (Coo α × Coo α)) (vecs : Res (List α × List α × List α))
    (solver : Coo α → List α → Res (List α)) : Res (List α) := do
  let (kk_bar, kk_check) ← mats
  let (_, a_check, f_bar) ← vecs
  let f_bar ← (kk_check.matVecMulUpdate f_bar (-1) a_check).unwrap
  let a_bar ← solver kk_bar f_bar
  joinedVectorSps h a_bar a_check

/-- the end of `solve_lmm` (/repo/russell_pde/src/spc_1d.rs:334-345, /repo/russell_pde/src/spc_2d.rs:386-397, /repo/russell_pde/src/spc_map_2d.rs:439-450) -/
def spcFinishLmm [Field α] (h : EquationHandler) (mats : Res (Coo α × Option (Coo α))) (vecs : Res (List α × List α))
    (solver : Coo α → List α → Res (List α)) : Res (List α) := do
  let (mm, _) ← mats
  let (_, ff) ← vecs
  let aa ← solver mm ff
  vslice aa 0 h.neq

/-- what the assembly of the vectors reads: the equations handler, the number of nodes, the number of sides, the flags and functions of the
essential conditions, the functions of the natural conditions, the nodes of a side, the tests `is_xmin`, … (by number of side) and `on_boundary`,
and the mapped coordinates of a node -/
structure SpcData (X α : Type) where
  h : EquationHandler
  npoint : Nat
  nside : Nat
  sides : List Bool
  ess : List (X → α)
  nat : List (X → α)
  nodesOn : Nat → Res (List Nat)
  isOn : Nat → Nat → Bool
  onBoundary : Nat → Bool
  coord : Nat → Res X

/-- the body of the loop over the nodes in `get_vectors_*` (/repo/russell_pde/src/spc_1d.rs:640-657, /repo/russell_pde/src/spc_2d.rs:760-786,
/repo/russell_pde/src/spc_map_2d.rs:788-814); the tests of the sides, written one after the other in the code, are a loop here -/
def SpcData.rhs [Field α] {X : Type} (S : SpcData X α) (source : X → α) (m i : Nat) (f : List α) : Res (List α) := do
  let x ← S.coord m
  if S.onBoundary m then
    forRange 0 S.nside f fun s f =>
      if S.isOn s m then do
        let g ← vget S.nat s
        addAt f i (g x)
      else ok f
  else vset f i (source x)

/-- the loop over the sides in `get_vectors_*` (/repo/russell_pde/src/spc_1d.rs:660-670, /repo/russell_pde/src/spc_2d.rs:788-798,
/repo/russell_pde/src/spc_map_2d.rs:816-826); `off` is `neq` for the method with multipliers -/
def SpcData.prescribed {X : Type} (S : SpcData X α) (off : Nat) (v : List α) : Res (List α) :=
  forRange 0 S.nside v fun index v => do
    let b ← vget S.sides index
    if b then do
      let nodes ← S.nodesOn index
      forList nodes v fun m v => do
        let ip ← S.h.ip m
        let x ← S.coord m
        let f ← vget S.ess index
        vset v (off + ip) (f x)
    else ok v

/-- `get_vectors_sps` (/repo/russell_pde/src/spc_1d.rs:630-672, /repo/russell_pde/src/spc_2d.rs:750-800, /repo/russell_pde/src/spc_map_2d.rs:778-828) -/
def SpcData.getVectorsSps [Field α] {X : Type} (S : SpcData X α) (source : X → α) : Res (List α × List α × List α) := do
  let nu := S.h.nu
  let np := S.h.np
  let f_bar ← forList S.h.unknown (List.replicate nu 0) fun m f => do
    let iu ← S.h.iu m
    S.rhs source m iu f
  let a_check ← S.prescribed 0 (List.replicate np 0)
  ok (List.replicate nu 0, a_check, f_bar)

/-- `get_vectors_lmm` (/repo/russell_pde/src/spc_1d.rs:731-769, /repo/russell_pde/src/spc_2d.rs:842-888, /repo/russell_pde/src/spc_map_2d.rs:870-916) -/
def SpcData.getVectorsLmm [Field α] {X : Type} (S : SpcData X α) (source : X → α) : Res (List α × List α) := do
  let neq := S.h.neq
  let ndim := neq + S.h.np
  let ff ← forRange 0 S.npoint (List.replicate ndim 0) fun m f => S.rhs source m m f
  let ff ← S.prescribed neq ff
  ok (List.replicate ndim 0, ff)

end Model

section Props

variable {α : Type}

theorem forRange_congr' {σ : Type} {lo hi : Nat} {s : σ} {f g : Nat → σ → Res σ} (h : ∀ k s, lo ≤ k → k < hi → f k s = g k s) :
    forRange lo hi s f = forRange lo hi s g := by
  by_cases hle : lo ≤ hi
  · obtain ⟨d, rfl⟩ := Nat.exists_eq_add_of_le hle
    clear hle
    induction d with
    | zero => rw [forRange_empty (hi := lo + 0) (by omega), forRange_empty (hi := lo + 0) (by omega)]
    | succ d ih =>
      rw [← Nat.add_assoc, forRange_succ_right (by omega), forRange_succ_right (by omega), ih (fun k s a b => h k s a (by omega))]
      congr 1
      funext s'
      exact h _ _ (by omega) (by omega)
  · rw [forRange_empty (by omega), forRange_empty (by omega)]

theorem isVec_range (n : Nat) : Lab.IsVec (List.range n) n (fun i => i) := ⟨by simp, by intro i hi; simp [hi]⟩

theorem forList_congr' {σ : Type} {l : List Nat} {f g : Nat → σ → Res σ} (h : ∀ k ∈ l, ∀ s, f k s = g k s) (s : σ) : forList l s f = forList l s g := by
  induction l generalizing s with
  | nil => rfl
  | cons a l ih =>
    simp only [forList]
    rw [h a (by simp) s]
    congr 1
    funext s'
    exact ih (fun k hk => h k (by simp [hk])) s'

/-- a stencil containing all nodes -/
theorem full_stencil {neq : Nat} {val : Nat → Nat → Res α} {V : Nat → Nat → α} (hv : ∀ m n, m < neq → n < neq → val m n = ok (V m n)) :
    Stencil neq neq (fun _ => List.range neq) (fun m _ n => val m n) (fun _ n => n) V :=
  ⟨fun _ _ => isVec_range neq, fun _ _ _ h => h, fun m n hm hn => hv m n hm hn⟩

variable [Field α] {h : EquationHandler} {neq : Nat} {P : List Nat} {val : Nat → Nat → Res α} {V : Nat → Nat → α}

theorem lmm_full (hc : Canon h neq P) (extra : Nat) (getc : Bool) :
    spcMatricesLmm h (neq * neq) neq val extra getc = matricesLmm h (fun _ => List.range neq) (fun m _ n => val m n) neq neq extra getc Sym.no := by
  unfold spcMatricesLmm matricesLmm
  dsimp only
  rw [hc.hneq, show (if Sym.no.triangular = true then neq else neq) * neq + 2 * h.np + extra = neq * neq + extra + 2 * h.np by
    simp; omega]
  congr 1
  funext mm
  congr 1
  apply forRange_congr'
  intro m s _ hm
  unfold loopBand
  rw [List.length_range]
  apply forRange_congr'
  intro n s _ hn
  rw [(isVec_range neq).vget hn, ok_bind]
  unfold lmmStep
  rw [if_neg (by simp [Skip])]

/-- the partitioned matrices -/
theorem spcSps_rows (hc : Canon h neq P) (hP : ∀ p ∈ P, p < neq) (hlt : neq < 2147483648) (hv : ∀ m n, m < neq → n < neq → val m n = ok (V m n))
    (hu : 1 ≤ pu P neq) (hp : 1 ≤ pp P neq) (extra : Nat) :
    ∃ kk kc, spcMatricesSps h (neq * neq) neq val extra = ok (kk, kc) ∧
      kk.nrow = pu P neq ∧ kk.ncol = pu P neq ∧ kk.symmetric = Sym.no ∧
      ∃ A a, kk.asDense = ok A ∧ IsDense A (pu P neq) (pu P neq) a ∧
      ∃ es b, kc.Rep es ∧ kc.nrow = pu P neq ∧ kc.ncol = pp P neq ∧ denseOf kc.symmetric es = b ∧
      ∀ m, m < neq → m ∉ P → ∀ w : Nat → α,
        ∑ j ∈ Finset.range (pu P neq), a (pu P m) j * w ((unkn P neq).getD j 0) + ∑ j ∈ Finset.range (pp P neq), b (pu P m) j * w ((presc P neq).getD j 0) =
        ∑ n ∈ Finset.range neq, V m n * w n := by
  have hs := full_stencil hv
  obtain ⟨l1, l2, l3, l4⟩ := hc.lists
  have hul : pu P neq ≤ neq := unkn_len_le P neq
  have hpl : pp P neq ≤ neq := presc_len_le P neq
  have hsq : 1 ≤ neq * neq := Nat.mul_pos (by omega) (by omega)
  obtain ⟨k0, ek, rk, dk⟩ := new_ok (α := α) (nrow := pu P neq) (ncol := pu P neq) (cap := neq * neq + extra) (sym := Sym.no) hu hu (by omega)
    (by simp) (by omega) (by omega)
  obtain ⟨c0, ec, rc, dc⟩ := new_ok (α := α) (nrow := pu P neq) (ncol := pp P neq) (cap := neq * neq) (sym := Sym.no) hu hp (by omega)
    (by simp) (by omega) (by omega)
  have hk1 := barE_full P (sym := Sym.no) neq (fun _ n => n) V neq
  have hk2 : (chkE P neq (fun _ n => n) V (unkn P neq)).length ≤ neq * pu P neq := by
    rw [chkE_count, pu_count, Finset.mul_sum]
    apply Finset.sum_le_sum
    intro m _
    rw [Nat.mul_comm]
    apply Nat.mul_le_mul_right
    calc ∑ b ∈ Finset.range neq, pr P b ≤ ∑ b ∈ Finset.range neq, 1 := by
          apply Finset.sum_le_sum
          intro b _
          unfold pr; split <;> omega
      _ = neq := by simp
  have hk3 : neq * pu P neq ≤ neq * neq := Nat.mul_le_mul_left _ hul
  obtain ⟨s, es, w1, w2, w3, w4⟩ := spsRows hc hP hlt hs Sym.no (cap1 := neq * neq + extra) (nr2 := pu P neq) (nc2 := pp P neq) (cap2 := neq * neq)
    (fun _ _ => ⟨rfl, rfl⟩) (unkn P neq) k0 c0 [] [] (fun m hm => mem_unkn.1 hm) rk rc dk dc
    (by rw [List.length_nil]; omega) (by rw [List.length_nil]; omega)
  obtain ⟨A, eA, hA⟩ := Coo.asDense_spec w1
  rw [w3.hr, w3.hc, w3.hsym] at hA
  refine ⟨s.1, s.2, ?_, w3.hr, w3.hc, w3.hsym, A, _, eA, hA, _, _, w2, w4.hr, w4.hc, rfl, ?_⟩
  · unfold spcMatricesSps
    dsimp only
    rw [l3, l4, ek, unwrap_ok, ok_bind, ec, unwrap_ok, ok_bind, l1]
    rw [← es]
    apply forList_congr'
    intro m hm s
    obtain ⟨hm1, hm2⟩ := mem_unkn.1 hm
    rw [hc.get_iu hlt hm1 hm2, ok_bind]
    unfold loopBand
    rw [List.length_range]
    apply forRange_congr'
    intro n s _ hn
    rw [(isVec_range neq).vget hn, ok_bind]
    unfold putVal spsStep
    congr 1
    funext v
    rw [hc.get_iu hlt hm1 hm2, ok_bind, hc.get_presc hn, ok_bind, ok_bind]
    by_cases hnP : n ∈ P
    · simp [hnP]
    · simp [hnP, Skip]
  · intro m hm hmP w
    rw [List.nil_append, List.nil_append, w4.hsym, sum_pu, sum_pp, ← Finset.sum_add_distrib,
      ← stMat_action (N := fun _ n => n) (V := V) (m := m) (neq := neq) (B := neq) (fun b hb => hb) w]
    apply Finset.sum_congr rfl
    intro n hn
    have hn := Finset.mem_range.1 hn
    by_cases hnP : n ∈ P
    · rw [if_pos hnP, if_pos hnP, dense_chk hm hmP hnP, presc_get hn hnP, zero_add]
    · rw [if_neg hnP, if_neg hnP, dense_bar Sym.no hm hn hmP hnP (by simp [Sym.triangular]), unkn_get hn hnP, add_zero]

/-- no unknown node, or no prescribed node: `CooMatrix::new` with a zero dimension is an error and `unwrap` panics -/
theorem spcSps_panic (h : EquationHandler) (nnz nc : Nat) (val : Nat → Nat → Res α) (extra : Nat) (h0 : h.nu = 0 ∨ h.np = 0) :
    spcMatricesSps h nnz nc val extra = Res.panic := by
  unfold spcMatricesSps
  dsimp only
  rcases h0 with h0 | h0
  · rw [h0]; rfl
  · rw [h0]
    have hc : ∀ nu, (Coo.new (α := α) nu 0 nnz Sym.no).unwrap = Res.panic := by
      intro nu
      unfold Coo.new
      by_cases h1 : nu < 1
      · rw [if_pos h1]; rfl
      · rw [if_neg h1, if_pos (by omega)]; rfl
    rw [hc]
    cases hh : (Coo.new (α := α) h.nu h.nu (nnz + extra) Sym.no).unwrap with
    | ok x => rfl
    | err m =>
      exfalso
      cases h2 : Coo.new (α := α) h.nu h.nu (nnz + extra) Sym.no <;> rw [h2] at hh <;> cases hh
    | panic => rfl

/-- the matrix with multipliers -/
theorem spcLmm_rows (hc : Canon h neq P) (hP : ∀ p ∈ P, p < neq) (hlt : 2 * neq < 2147483648) (hneq : 1 ≤ neq)
    (hv : ∀ m n, m < neq → n < neq → val m n = ok (V m n)) (extra : Nat) (getc : Bool) :
    ∃ mm cc, spcMatricesLmm h (neq * neq) neq val extra getc = ok (mm, if getc = true ∧ P ≠ [] then some cc else none) ∧
      mm.nrow = neq + pp P neq ∧ mm.ncol = neq + pp P neq ∧ mm.symmetric = Sym.no ∧
      (∃ A a, mm.asDense = ok A ∧ IsDense A (neq + pp P neq) (neq + pp P neq) a ∧
        (∀ m, m < neq → ∀ w : Nat → α, ∑ j ∈ Finset.range (neq + pp P neq), a m j * w j =
          ∑ n ∈ Finset.range neq, V m n * w n + if m ∈ P then w (neq + pp P m) else 0) ∧
        (∀ m, m ∈ P → ∀ w : Nat → α, ∑ j ∈ Finset.range (neq + pp P neq), a (neq + pp P m) j * w j = w m)) ∧
      (getc = true ∧ P ≠ [] → ∃ D d, cc.asDense = ok D ∧ IsDense D (pp P neq) neq d ∧
        ∀ p, p ∈ P → ∀ k, k < neq → d (pp P p) k = if k = p then 1 else 0) := by
  rw [lmm_full hc]
  have k1 : (lmmE Sym.no neq (fun _ n => n) V neq).length ≤ (if Sym.no.triangular then neq else neq) * neq := by
    rw [lmmE_eq]
    refine le_trans (barE_full [] neq _ V neq) ?_
    have : pu ([] : List Nat) neq ≤ neq := unkn_len_le [] neq
    simp only [ite_self]
    exact Nat.mul_le_mul_left _ this
  obtain ⟨mm, cc, e, d1, d2, d3, ⟨A, a, eA, hA, _, h1, h2⟩, rest⟩ := lmm_rows hc hP hlt hneq (full_stencil hv) (bandT := neq) (bandF := neq)
    (extra := extra) getc Sym.no ⟨hneq, hneq⟩ k1 (by simp [Sym.triangular])
  exact ⟨mm, cc, e, d1, d2, d3, ⟨A, a, eA, hA, h1, h2⟩, rest⟩

/-- nodal values satisfying the equations of the unknown nodes and having the prescribed values -/
def IsColl (neq : Nat) (P : List Nat) (V : Nat → Nat → α) (R D W : Nat → α) : Prop :=
  (∀ m, m < neq → m ∉ P → ∑ n ∈ Finset.range neq, V m n * W n = R m) ∧ ∀ p, p ∈ P → W p = D p

theorem spcSps_sol (hc : Canon h neq P) (hP : ∀ p ∈ P, p < neq) (hlt : neq < 2147483648) (hv : ∀ m n, m < neq → n < neq → val m n = ok (V m n))
    (hu : 1 ≤ pu P neq) (hp : 1 ≤ pp P neq) (extra : Nat) {R D : Nat → α} {z ac fb : List α} (v : SpsVecs neq P R D ac fb)
    {solver : Coo α → List α → Res (List α)} (hsol : Solves solver) :
    (∃ kk fb', (∃ m, solver kk fb' = err m) ∧ (∃ m, spcFinishSps h (spcMatricesSps h (neq * neq) neq val extra) (ok (z, ac, fb)) solver = err m) ∨
      (solver kk fb' = Res.panic ∧ spcFinishSps h (spcMatricesSps h (neq * neq) neq val extra) (ok (z, ac, fb)) solver = Res.panic)) ∨
    ∃ r W, spcFinishSps h (spcMatricesSps h (neq * neq) neq val extra) (ok (z, ac, fb)) solver = ok r ∧ Lab.IsVec r neq W ∧ IsColl neq P V R D W := by
  obtain ⟨kk, kc, e, hr, hcol, _, A, a, eA, hA, es, b, rk, dr, dc, hb, hrow⟩ := spcSps_rows hc hP hlt hv hu hp extra
  obtain ⟨fb', e1, l1, q1⟩ := Coo.matVec_core rk fb ac (-1) (by rw [dc, v.ac.len]) (by rw [dr, v.fb.len])
  have e1' : kc.matVecMulUpdate fb (-1) ac = ok fb' := by
    unfold Coo.matVecMulUpdate
    rw [if_neg (by rw [dc, v.ac.len]; omega), if_neg (by rw [dr, v.fb.len]; omega)]
    exact e1
  unfold spcFinishSps
  rw [e]
  simp only [ok_bind]
  rw [e1', unwrap_ok, ok_bind]
  cases hab : solver kk fb' with
  | err m => exact Or.inl ⟨kk, fb', Or.inl ⟨⟨m, hab⟩, m, rfl⟩⟩
  | panic => exact Or.inl ⟨kk, fb', Or.inr ⟨hab, rfl⟩⟩
  | ok ab =>
    right
    rw [ok_bind]
    obtain ⟨la, hx⟩ := hsol kk fb' ab hab
    rw [hr, hcol] at hx
    rw [hcol] at la
    have hx := hx A a eA hA
    have hz : Lab.IsVec ab (pu P neq) (fun i => ab.getD i 0) := by
      have := Lab.isVec_self ab (0 : α)
      rwa [la] at this
    have hfb : ∀ i, i < pu P neq → fb'.getD i 0 = R ((unkn P neq).getD i 0) - ∑ j ∈ Finset.range (pp P neq), b i j * D ((presc P neq).getD j 0) := by
      intro i hi
      have := q1 i (by rw [v.fb.len]; exact hi)
      rw [this, dc, hb, isVec_getD v.fb hi, sum_getD v.ac]
      ring
    have hs := (sps_iff (N := fun _ n => n) hrow (R := R) (D := D) (fun i => ab.getD i 0)).1 (by
      intro i hi
      rw [hx i hi, hfb i hi]; ring)
    obtain ⟨r, er, hr'⟩ := joined_spec hc hP hlt hz v.ac
    refine ⟨r, _, er, hr'.congr ?_, hs⟩
    intro m hm
    unfold joinW
    by_cases hp : m ∈ P
    · rw [if_pos hp, if_pos hp, presc_get hm hp]
    · rw [if_neg hp, if_neg hp]

theorem spcLmm_sol (hc : Canon h neq P) (hP : ∀ p ∈ P, p < neq) (hlt : 2 * neq < 2147483648) (hneq : 1 ≤ neq)
    (hv : ∀ m n, m < neq → n < neq → val m n = ok (V m n)) (extra : Nat) {R D : Nat → α} {z ff : List α} (v : LmmVec neq P R D ff)
    {solver : Coo α → List α → Res (List α)} (hsol : Solves solver) :
    (∃ mm, (∃ m, solver mm ff = err m) ∧ (∃ m, spcFinishLmm h (spcMatricesLmm h (neq * neq) neq val extra false) (ok (z, ff)) solver = err m) ∨
      (solver mm ff = Res.panic ∧ spcFinishLmm h (spcMatricesLmm h (neq * neq) neq val extra false) (ok (z, ff)) solver = Res.panic)) ∨
    ∃ r W, spcFinishLmm h (spcMatricesLmm h (neq * neq) neq val extra false) (ok (z, ff)) solver = ok r ∧ Lab.IsVec r neq W ∧ IsColl neq P V R D W := by
  obtain ⟨mm, cc, e, hr, hcol, _, ⟨A, a, eA, hA, h1, h2⟩, _⟩ := spcLmm_rows hc hP hlt hneq hv extra false
  rw [if_neg (by simp)] at e
  unfold spcFinishLmm
  rw [e]
  simp only [ok_bind]
  cases haa : solver mm ff with
  | err m => exact Or.inl ⟨mm, Or.inl ⟨⟨m, haa⟩, m, rfl⟩⟩
  | panic => exact Or.inl ⟨mm, Or.inr ⟨haa, rfl⟩⟩
  | ok aa =>
    right
    rw [ok_bind, hc.hneq]
    obtain ⟨la, hx⟩ := hsol mm ff aa haa
    rw [hr, hcol] at hx
    rw [hcol] at la
    have hx := hx A a eA hA
    have hs := (lmm_iff (N := fun _ n => n) hP h1 h2 (R := R) (D := D) (fun i => aa.getD i 0)).1 (by
      intro i hi
      rw [hx i hi, isVec_getD v hi])
    refine ⟨aa.take neq, _, ?_, ?_, hs.1⟩
    · unfold vslice
      rw [if_pos ⟨Nat.zero_le _, by omega⟩]
      simp
    · refine ⟨by simp; omega, ?_⟩
      intro i hi
      rw [List.getElem?_take, if_pos hi]
      simp [show i < aa.length by omega]

/-! ### The vectors -/

section Vectors

variable {X : Type} {S : SpcData X α} {b : Nat → Bool} {L : Nat → List Nat} {e g : Nat → X → α} {Z : Nat → X}

/-- what is known about the data: side `s` is essential when `b s`, has the nodes `L s` and the functions `e s` and `g s` -/
structure SpcData.Is (S : SpcData X α) (neq : Nat) (P : List Nat) (b : Nat → Bool) (L : Nat → List Nat) (e g : Nat → X → α) (Z : Nat → X) : Prop where
  canon : Canon S.h neq P
  npoint : S.npoint = neq
  sides : Lab.IsVec S.sides S.nside b
  ess : Lab.IsVec S.ess S.nside e
  nat : Lab.IsVec S.nat S.nside g
  nodesOn : ∀ s, s < S.nside → S.nodesOn s = ok (L s)
  nodup : ∀ s, s < S.nside → (L s).Nodup
  lt : ∀ s, s < S.nside → ∀ m ∈ L s, m < neq
  coord : ∀ m, m < neq → S.coord m = ok (Z m)
  hP : ∀ m, m ∈ P ↔ ∃ s, s < S.nside ∧ b s = true ∧ m ∈ L s

/-- prescribed value: the function of the last essential side the node is on -/
def dval (b : Nat → Bool) (L : Nat → List Nat) (e : Nat → X → α) (Z : Nat → X) : Nat → Nat → α
  | 0, _ => 0
  | s + 1, p => if b s = true ∧ p ∈ L s then e s (Z p) else dval b L e Z s p

/-- right-hand side -/
def SpcData.R (S : SpcData X α) (g : Nat → X → α) (Z : Nat → X) (source : X → α) (m : Nat) : α :=
  if S.onBoundary m = true then ∑ s ∈ Finset.range S.nside, (if S.isOn s m = true then g s (Z m) else 0) else source (Z m)

theorem SpcData.Is.rhs (H : S.Is neq P b L e g Z) (source : X → α) {m : Nat} (hm : m < neq) {i n : Nat} (hi : i < n) {v : List α} {G : Nat → α}
    (hv : Lab.IsVec v n G) : ∃ v', S.rhs source m i v = ok v' ∧ Lab.IsVec v' n (fun k => if k = i then
      (if S.onBoundary m = true then G k + ∑ s ∈ Finset.range S.nside, (if S.isOn s m = true then g s (Z m) else 0) else source (Z m)) else G k) := by
  unfold SpcData.rhs
  rw [H.coord m hm, ok_bind]
  by_cases hb : S.onBoundary m = true
  · rw [if_pos hb]
    simp only [if_pos hb]
    obtain ⟨v', e1, h1⟩ := forRange_spec (lo := 0) (hi := S.nside) (s := v)
      (f := fun s f => if S.isOn s m then do let g ← vget S.nat s; addAt f i (g (Z m)) else ok f)
      (I := fun t v' => Lab.IsVec v' n (fun k => if k = i then G k + ∑ s ∈ Finset.range t, (if S.isOn s m = true then g s (Z m) else 0) else G k))
      (Nat.zero_le _) (by
        apply hv.congr
        intro k _
        simp) (by
        intro t s _ ht hs
        by_cases ho : S.isOn t m = true
        · rw [if_pos ho, H.nat.vget ht, ok_bind]
          obtain ⟨v'', e2, h2⟩ := addAt_spec hs hi (g t (Z m))
          refine ⟨v'', e2, h2.congr ?_⟩
          intro k _
          by_cases hk : k = i
          · simp only [if_pos hk]
            rw [Finset.sum_range_succ, if_pos ho]; ring
          · simp only [if_neg hk]
        · rw [if_neg ho]
          refine ⟨s, rfl, hs.congr ?_⟩
          intro k _
          rw [Finset.sum_range_succ, if_neg ho, add_zero])
    exact ⟨v', e1, h1⟩
  · rw [if_neg hb]
    simp only [if_neg hb]
    exact hv.vset hi _

theorem SpcData.Is.prescribed (H : S.Is neq P b L e g Z) (hlt : neq < 2147483648) {off : Nat} {v : List α} {G : Nat → α}
    (hv : Lab.IsVec v (off + pp P neq) G) : ∃ v' G', S.prescribed off v = ok v' ∧ Lab.IsVec v' (off + pp P neq) G' ∧
      (∀ p ∈ P, G' (off + pp P p) = dval b L e Z S.nside p) ∧ ∀ i, i < off → G' i = G i := by
  have hPn : ∀ p ∈ P, p < neq := by
    intro p hp
    obtain ⟨s, hs, _, hps⟩ := (H.hP p).1 hp
    exact H.lt s hs p hps
  unfold SpcData.prescribed
  obtain ⟨v', e1, G', h1, h2, h3⟩ := forRange_spec (lo := 0) (hi := S.nside) (s := v)
    (f := fun index v => do
      let b ← vget S.sides index
      if b then do
        let nodes ← S.nodesOn index
        forList nodes v fun m v => do
          let ip ← S.h.ip m
          let x ← S.coord m
          let f ← vget S.ess index
          vset v (off + ip) (f x)
      else ok v)
    (I := fun t v' => ∃ G', Lab.IsVec v' (off + pp P neq) G' ∧
      (∀ p ∈ P, (∃ s, s < t ∧ b s = true ∧ p ∈ L s) → G' (off + pp P p) = dval b L e Z t p) ∧ ∀ i, i < off → G' i = G i)
    (Nat.zero_le _) ⟨G, hv, by rintro p _ ⟨s, hs, _⟩; omega, fun _ _ => rfl⟩ (by
      rintro t w _ ht ⟨G1, w1, w2, w3⟩
      rw [H.sides.vget ht, ok_bind]
      by_cases hb : b t = true
      · rw [if_pos hb, H.nodesOn t ht, ok_bind]
        have hin : ∀ m ∈ L t, m ∈ P := fun m hm => (H.hP m).2 ⟨t, ht, hb, hm⟩
        obtain ⟨w', G2, e2, q1, q2, q3⟩ := forList_fill (pos := fun m => off + pp P m) (upd := fun m _ => e t (Z m)) (n := off + pp P neq) (L t) w G1
          (body := fun m v => do
            let ip ← S.h.ip m
            let x ← S.coord m
            let f ← vget S.ess t
            vset v (off + ip) (f x)) (H.nodup t ht) (by
            intro x hx y hy hxy
            exact (pp_inj (hin x hx) (hin y hy)).1 (by omega)) w1 (by
            intro m hm v G hv
            have hmn := H.lt t ht m hm
            rw [H.canon.get_ip hlt hmn (hin m hm), ok_bind, H.coord m hmn, ok_bind, H.ess.vget ht, ok_bind]
            exact hv.vset (by have := pp_lt hmn (hin m hm); omega) _)
        refine ⟨w', e2, G2, q1, ?_, ?_⟩
        · intro p hp hs
          by_cases hpt : p ∈ L t
          · rw [q2 p hpt]
            unfold dval
            rw [if_pos ⟨hb, hpt⟩]
          · rw [q3]
            · unfold dval
              rw [if_neg (fun h => hpt h.2)]
              apply w2 p hp
              obtain ⟨s, h1, h2, h3⟩ := hs
              refine ⟨s, ?_, h2, h3⟩
              rcases Nat.lt_succ_iff_lt_or_eq.1 h1 with h | h
              · exact h
              · subst h; exact absurd h3 hpt
            · intro m hm hmp
              have := (pp_inj (hin m hm) hp).1 (by omega)
              subst this
              exact hpt hm
        · intro i hi
          rw [q3 i (by intro m _; omega), w3 i hi]
      · rw [if_neg hb]
        refine ⟨w, rfl, G1, w1, ?_, w3⟩
        intro p hp hs
        unfold dval
        rw [if_neg (fun h => hb h.1)]
        apply w2 p hp
        obtain ⟨s, h1, h2, h3⟩ := hs
        refine ⟨s, ?_, h2, h3⟩
        rcases Nat.lt_succ_iff_lt_or_eq.1 h1 with h | h
        · exact h
        · subst h; exact absurd h2 hb)
  exact ⟨v', G', e1, h1, fun p hp => h2 p hp ((H.hP p).1 hp), h3⟩

theorem SpcData.Is.vectorsSps (H : S.Is neq P b L e g Z) (hlt : neq < 2147483648) (source : X → α) :
    ∃ ac fb, S.getVectorsSps source = ok (List.replicate (pu P neq) 0, ac, fb) ∧ SpsVecs neq P (S.R g Z source) (dval b L e Z S.nside) ac fb := by
  unfold SpcData.getVectorsSps
  dsimp only
  obtain ⟨l1, l2, l3, l4⟩ := H.canon.lists
  rw [l1, l3, l4]
  obtain ⟨fb, G, e1, hG, q, _⟩ := forList_fill (pos := pu P) (n := pu P neq) (unkn P neq)
    (upd := fun m y => if S.onBoundary m = true then y + ∑ s ∈ Finset.range S.nside, (if S.isOn s m = true then g s (Z m) else 0) else source (Z m))
    (List.replicate (pu P neq) (0 : α)) (fun _ => 0) (body := fun m f => do
      let iu ← S.h.iu m
      S.rhs source m iu f) (unkn_nodup P neq) (by
        intro a ha b hb h
        exact (pu_inj (mem_unkn.1 ha).2 (mem_unkn.1 hb).2).1 h) (Lab.isVec_replicate _ _) (by
        intro m hm v G hv
        obtain ⟨hm, hmP⟩ := mem_unkn.1 hm
        rw [H.canon.get_iu hlt hm hmP, ok_bind]
        exact H.rhs source hm (pu_lt hm hmP) hv)
  rw [e1, ok_bind]
  obtain ⟨ac, G', e', hG', q', _⟩ := H.prescribed hlt (off := 0) (v := List.replicate (pp P neq) (0 : α)) (G := fun _ => 0) (by
    rw [Nat.zero_add]; exact Lab.isVec_replicate _ _)
  rw [e', ok_bind]
  refine ⟨ac, fb, rfl, ?_, ?_⟩
  · rw [Nat.zero_add] at hG'
    apply hG'.congr
    intro i hi
    obtain ⟨p, hp, hpP, rfl⟩ := pp_surj hi
    have := q' p hpP
    rw [Nat.zero_add] at this
    rw [this, presc_get hp hpP]
  · apply hG.congr
    intro i hi
    obtain ⟨m, hm, hmP, rfl⟩ := pu_surj hi
    rw [q m (mem_unkn.2 ⟨hm, hmP⟩), unkn_get hm hmP]
    simp only [zero_add]
    rfl

theorem SpcData.Is.vectorsLmm (H : S.Is neq P b L e g Z) (hlt : neq < 2147483648) (source : X → α) :
    ∃ ff, S.getVectorsLmm source = ok (List.replicate (neq + pp P neq) 0, ff) ∧ LmmVec neq P (S.R g Z source) (dval b L e Z S.nside) ff := by
  unfold SpcData.getVectorsLmm
  dsimp only
  obtain ⟨l1, l2, l3, l4⟩ := H.canon.lists
  rw [H.canon.hneq, l4, H.npoint, forRange_eq_forList]
  obtain ⟨fb, G, e1, hG, q, _⟩ := forList_fill (pos := id) (n := neq + pp P neq) (List.range neq)
    (upd := fun m y => if S.onBoundary m = true then y + ∑ s ∈ Finset.range S.nside, (if S.isOn s m = true then g s (Z m) else 0) else source (Z m))
    (List.replicate (neq + pp P neq) (0 : α)) (fun _ => 0) (body := fun m f => S.rhs source m m f) List.nodup_range (fun a _ b _ h => h)
    (Lab.isVec_replicate _ _) (by
        intro m hm v G hv
        have hm := List.mem_range.1 hm
        exact H.rhs source hm (by omega) hv)
  rw [e1, ok_bind]
  obtain ⟨ff, G', e', hG', q', q2⟩ := H.prescribed hlt (off := neq) hG
  rw [e', ok_bind]
  refine ⟨ff, rfl, hG'.congr ?_⟩
  intro i hi
  by_cases hin : i < neq
  · rw [if_pos hin, q2 i hin]
    have := q i (List.mem_range.2 hin)
    rw [id] at this
    rw [this]
    simp only [zero_add]
    rfl
  · rw [if_neg hin]
    obtain ⟨p, hp, hpP, e⟩ := pp_surj (P := P) (n := neq) (i := i - neq) (by omega)
    have : i = neq + pp P p := by omega
    subst this
    rw [q' p hpP, Nat.add_sub_cancel_left, presc_get hp hpP]

end Vectors

/-! ### The systems -/

/-- the equations of the two systems in terms of nodal values -/
theorem spc_systems (hc : Canon h neq P) (hP : ∀ p ∈ P, p < neq) (hlt : 2 * neq < 2147483648) (hneq : 1 ≤ neq)
    (hv : ∀ m n, m < neq → n < neq → val m n = ok (V m n)) (extra : Nat) {R D : Nat → α} {ac fb ff : List α} (v : SpsVecs neq P R D ac fb)
    (v' : LmmVec neq P R D ff) :
    (1 ≤ pu P neq → 1 ≤ pp P neq → ∃ kk kc A a Bm b, spcMatricesSps h (neq * neq) neq val extra = ok (kk, kc) ∧
      kk.asDense = ok A ∧ IsDense A h.nu h.nu a ∧ kc.asDense = ok Bm ∧ IsDense Bm h.nu h.np b ∧
      ∀ W : Nat → α, ((∀ i, i < h.nu → ∑ j ∈ Finset.range h.nu, a i j * W (h.unknown.getD j 0) + ∑ j ∈ Finset.range h.np, b i j * ac.getD j 0 = fb.getD i 0) ∧
        ∀ j, j < h.np → W (h.prescribed.getD j 0) = ac.getD j 0) ↔ IsColl neq P V R D W) ∧
    ∃ mm M m, spcMatricesLmm h (neq * neq) neq val extra false = ok (mm, none) ∧
      mm.asDense = ok M ∧ IsDense M (neq + h.np) (neq + h.np) m ∧
      ∀ W : Nat → α, (∃ z : Nat → α, (∀ i, i < neq → z i = W i) ∧ ∀ i, i < neq + h.np → ∑ j ∈ Finset.range (neq + h.np), m i j * z j = ff.getD i 0) ↔
        IsColl neq P V R D W := by
  obtain ⟨l1, l2, l3, l4⟩ := hc.lists
  rw [l1, l2, l3, l4]
  constructor
  · intro hu hp
    obtain ⟨kk, kc, e, hr, hcol, _, A, a, eA, hA, es, b, rk, dr, dc, hb, hrow⟩ := spcSps_rows hc hP (by omega) hv hu hp extra
    obtain ⟨Bm, eB, hB⟩ := Coo.asDense_spec rk
    rw [dr, dc, hb] at hB
    refine ⟨kk, kc, A, a, Bm, b, e, eA, hA, eB, hB, ?_⟩
    intro W
    have key : ∀ i, i < pu P neq → (∀ j, j < pp P neq → W ((presc P neq).getD j 0) = ac.getD j 0) →
        ∑ j ∈ Finset.range (pu P neq), a i j * W ((unkn P neq).getD j 0) + ∑ j ∈ Finset.range (pp P neq), b i j * ac.getD j 0 =
        ∑ n ∈ Finset.range neq, V ((unkn P neq).getD i 0) n * W n := by
      intro i hi hw
      obtain ⟨m, hm, hmP, rfl⟩ := pu_surj hi
      rw [unkn_get hm hmP, ← hrow m hm hmP W]
      congr 1
      apply Finset.sum_congr rfl
      intro j hj
      rw [hw j (Finset.mem_range.1 hj)]
    have hD : (∀ j, j < pp P neq → W ((presc P neq).getD j 0) = ac.getD j 0) ↔ ∀ p, p ∈ P → W p = D p := by
      constructor
      · intro hw p hp
        have hpn := hP p hp
        have := hw (pp P p) (pp_lt hpn hp)
        rwa [presc_get hpn hp, isVec_getD v.ac (pp_lt hpn hp), presc_get hpn hp] at this
      · intro hw j hj
        rw [isVec_getD v.ac hj]
        obtain ⟨p, hp, hpP, rfl⟩ := pp_surj hj
        rw [presc_get hp hpP]
        exact hw p hpP
    constructor
    · rintro ⟨h1, h2⟩
      refine ⟨?_, hD.1 h2⟩
      intro m hm hmP
      have := h1 (pu P m) (pu_lt hm hmP)
      rwa [key _ (pu_lt hm hmP) h2, isVec_getD v.fb (pu_lt hm hmP), unkn_get hm hmP] at this
    · rintro ⟨h1, h2⟩
      have h2 := hD.2 h2
      refine ⟨?_, h2⟩
      intro i hi
      rw [key i hi h2, isVec_getD v.fb hi]
      obtain ⟨m, hm, hmP, rfl⟩ := pu_surj hi
      rw [unkn_get hm hmP]
      exact h1 m hm hmP
  · obtain ⟨mm, cc, e, hr, hcol, _, ⟨A, a, eA, hA, h1, h2⟩, _⟩ := spcLmm_rows hc hP hlt hneq hv extra false
    rw [if_neg (by simp)] at e
    refine ⟨mm, A, a, e, eA, hA, ?_⟩
    intro W
    have hff : ∀ i, i < neq + pp P neq → ff.getD i 0 = if i < neq then R i else D ((presc P neq).getD (i - neq) 0) := fun i hi => isVec_getD v' hi 0
    have hi := lmm_iff (N := fun _ n => n) hP h1 h2 (R := R) (D := D)
    constructor
    · rintro ⟨z, hz, hs⟩
      obtain ⟨⟨q1, q2⟩, _⟩ := (hi z).1 (fun i hi => by rw [hs i hi, hff i hi])
      refine ⟨?_, ?_⟩
      · intro m hm hmP
        rw [← q1 m hm hmP]
        apply Finset.sum_congr rfl
        intro n hn
        rw [hz n (Finset.mem_range.1 hn)]
      · intro p hp
        rw [← hz p (hP p hp)]
        exact q2 p hp
    · rintro ⟨q1, q2⟩
      have hz : ∀ i, i < neq → (fun i => if i < neq then W i else
          R ((presc P neq).getD (i - neq) 0) - ∑ n ∈ Finset.range neq, V ((presc P neq).getD (i - neq) 0) n * W n) i = W i := by
        intro i hi; simp [hi]
      refine ⟨_, hz, ?_⟩
      intro i hin
      rw [hff i hin]
      refine (hi _).2 ⟨⟨?_, ?_⟩, ?_⟩ i hin
      · intro m hm hmP
        rw [← q1 m hm hmP]
        apply Finset.sum_congr rfl
        intro n hn
        show V m n * (if n < neq then _ else _) = _
        rw [if_pos (Finset.mem_range.1 hn)]
      · intro p hp
        rw [if_pos (hP p hp)]
        exact q2 p hp
      · intro p hp
        rw [if_neg (by omega), Nat.add_sub_cancel_left, presc_get (hP p hp) hp]
        congr 1
        apply Finset.sum_congr rfl
        intro n hn
        rw [if_pos (Finset.mem_range.1 hn)]

/-- a solver that finds a solution whenever there is one -/
def Complete (solver : Coo α → List α → Res (List α)) : Prop :=
  ∀ A b, (∃ x : List α, x.length = A.ncol ∧ ∀ D a, A.asDense = ok D → IsDense D A.nrow A.ncol a → ∀ i, i < A.nrow →
    ∑ j ∈ Finset.range A.ncol, a i j * x.getD j 0 = b.getD i 0) → ∃ x, solver A b = ok x

theorem dense_unique {A : Lab.NumMatrix α} {m n : Nat} {a a' : Nat → Nat → α} (h : IsDense A m n a) (h' : IsDense A m n a') {i j : Nat} (hi : i < m) (hj : j < n) :
    a' i j = a i j := by
  have h1 := h.get i j hi hj
  rw [h'.get i j hi hj] at h1
  exact Res.ok.inj h1

theorem spcSps_complete (hc : Canon h neq P) (hP : ∀ p ∈ P, p < neq) (hlt : neq < 2147483648) (hv : ∀ m n, m < neq → n < neq → val m n = ok (V m n))
    (hu : 1 ≤ pu P neq) (hp : 1 ≤ pp P neq) (extra : Nat) {R D : Nat → α} {z ac fb : List α} (v : SpsVecs neq P R D ac fb)
    {solver : Coo α → List α → Res (List α)} (hsol : Solves solver) (hcomp : Complete solver) {W : Nat → α} (hW : IsColl neq P V R D W) :
    ∃ r, spcFinishSps h (spcMatricesSps h (neq * neq) neq val extra) (ok (z, ac, fb)) solver = ok r := by
  obtain ⟨kk, kc, e, hr, hcol, _, A, a, eA, hA, es, b, rk, dr, dc, hb, hrow⟩ := spcSps_rows hc hP hlt hv hu hp extra
  obtain ⟨fb', e1, l1, q1⟩ := Coo.matVec_core rk fb ac (-1) (by rw [dc, v.ac.len]) (by rw [dr, v.fb.len])
  have e1' : kc.matVecMulUpdate fb (-1) ac = ok fb' := by
    unfold Coo.matVecMulUpdate
    rw [if_neg (by rw [dc, v.ac.len]; omega), if_neg (by rw [dr, v.fb.len]; omega)]
    exact e1
  have hfb : ∀ i, i < pu P neq → fb'.getD i 0 = R ((unkn P neq).getD i 0) - ∑ j ∈ Finset.range (pp P neq), b i j * D ((presc P neq).getD j 0) := by
    intro i hi
    have := q1 i (by rw [v.fb.len]; exact hi)
    rw [this, dc, hb, isVec_getD v.fb hi, sum_getD v.ac]
    ring
  obtain ⟨ab, hab⟩ := hcomp kk fb' (by
    refine ⟨(List.range (pu P neq)).map (fun j => W ((unkn P neq).getD j 0)), by simp [hcol], ?_⟩
    intro A' a' eA' hA' i hi
    rw [eA] at eA'
    cases eA'
    rw [hr] at hi hA'
    rw [hcol] at hA' ⊢
    rw [hfb i hi]
    obtain ⟨m, hm, hmP, rfl⟩ := pu_surj hi
    rw [unkn_get hm hmP, ← hW.1 m hm hmP, ← hrow m hm hmP W, eq_sub_iff_add_eq]
    congr 1
    · apply Finset.sum_congr rfl
      intro j hj
      have hj := Finset.mem_range.1 hj
      rw [dense_unique hA hA' hi hj]
      congr 1
      rw [List.getD_eq_getElem?_getD]
      simp [hj]
    · apply Finset.sum_congr rfl
      intro j hj
      obtain ⟨p, hpn, hpP, rfl⟩ := pp_surj (Finset.mem_range.1 hj)
      rw [presc_get hpn hpP, hW.2 p hpP])
  rcases spcSps_sol hc hP hlt hv hu hp extra (z := z) v hsol with _ | ⟨r, _, hr', _⟩
  · unfold spcFinishSps
    rw [e]
    simp only [ok_bind]
    rw [e1', unwrap_ok, ok_bind, hab, ok_bind]
    obtain ⟨la, _⟩ := hsol kk fb' ab hab
    rw [hcol] at la
    have hz : Lab.IsVec ab (pu P neq) (fun i => ab.getD i 0) := by
      have := Lab.isVec_self ab (0 : α)
      rwa [la] at this
    obtain ⟨r, er, _⟩ := joined_spec hc hP hlt hz v.ac
    exact ⟨r, er⟩
  · exact ⟨r, hr'⟩

theorem spcLmm_complete (hc : Canon h neq P) (hP : ∀ p ∈ P, p < neq) (hlt : 2 * neq < 2147483648) (hneq : 1 ≤ neq)
    (hv : ∀ m n, m < neq → n < neq → val m n = ok (V m n)) (extra : Nat) {R D : Nat → α} {z ff : List α} (v : LmmVec neq P R D ff)
    {solver : Coo α → List α → Res (List α)} (hsol : Solves solver) (hcomp : Complete solver) {W : Nat → α} (hW : IsColl neq P V R D W) :
    ∃ r, spcFinishLmm h (spcMatricesLmm h (neq * neq) neq val extra false) (ok (z, ff)) solver = ok r := by
  obtain ⟨mm, cc, e, hr, hcol, _, ⟨A, a, eA, hA, h1, h2⟩, _⟩ := spcLmm_rows hc hP hlt hneq hv extra false
  rw [if_neg (by simp)] at e
  have hff : ∀ i, i < neq + pp P neq → ff.getD i 0 = if i < neq then R i else D ((presc P neq).getD (i - neq) 0) := fun i hi => isVec_getD v hi 0
  obtain ⟨ab, hab⟩ := hcomp mm ff (by
    refine ⟨(List.range (neq + pp P neq)).map (fun j => if j < neq then W j else
      R ((presc P neq).getD (j - neq) 0) - ∑ n ∈ Finset.range neq, V ((presc P neq).getD (j - neq) 0) n * W n), by simp [hcol], ?_⟩
    intro A' a' eA' hA' i hi
    rw [eA] at eA'
    cases eA'
    rw [hr] at hi hA'
    rw [hcol] at hA' ⊢
    rw [hff i hi]
    have hi' := (lmm_iff (N := fun _ n => n) hP h1 h2 (R := R) (D := D) (fun j => if j < neq then W j else
      R ((presc P neq).getD (j - neq) 0) - ∑ n ∈ Finset.range neq, V ((presc P neq).getD (j - neq) 0) n * W n)).2 ⟨⟨?_, ?_⟩, ?_⟩ i hi
    · rw [← hi']
      apply Finset.sum_congr rfl
      intro j hj
      have hj := Finset.mem_range.1 hj
      rw [dense_unique hA hA' hi hj]
      congr 1
      rw [List.getD_eq_getElem?_getD]
      simp [hj]
    · intro m hm hmP
      rw [← hW.1 m hm hmP]
      apply Finset.sum_congr rfl
      intro n hn
      show V m n * (if n < neq then _ else _) = _
      rw [if_pos (Finset.mem_range.1 hn)]
    · intro p hp
      show (if p < neq then _ else _) = _
      rw [if_pos (hP p hp)]
      exact hW.2 p hp
    · intro p hp
      rw [if_neg (by omega), Nat.add_sub_cancel_left, presc_get (hP p hp) hp]
      congr 1
      apply Finset.sum_congr rfl
      intro n hn
      rw [if_pos (Finset.mem_range.1 hn)])
  unfold spcFinishLmm
  rw [e]
  simp only [ok_bind]
  rw [hab, ok_bind, hc.hneq]
  obtain ⟨la, _⟩ := hsol mm ff ab hab
  rw [hcol] at la
  unfold vslice
  rw [if_pos ⟨Nat.zero_le _, by omega⟩]
  exact ⟨_, rfl⟩

open Classical in
/-- a solver that finds a solution whenever there is one -/
noncomputable def chooseSolver (A : Coo α) (b : List α) : Res (List α) :=
  if h : ∃ x : List α, x.length = A.ncol ∧ ∀ D a, A.asDense = ok D → IsDense D A.nrow A.ncol a → ∀ i, i < A.nrow →
    ∑ j ∈ Finset.range A.ncol, a i j * x.getD j 0 = b.getD i 0 then ok h.choose else err "no solution"

theorem chooseSolver_solves : Solves (chooseSolver (α := α)) ∧ Complete (chooseSolver (α := α)) := by
  constructor
  · intro A b x hx
    unfold chooseSolver at hx
    split at hx
    · rename_i h
      cases hx
      exact h.choose_spec
    · cases hx
  · intro A b hx
    unfold chooseSolver
    rw [dif_pos hx]
    exact ⟨_, rfl⟩

theorem IsColl.congr {R D R' D' W : Nat → α} (hP : ∀ p ∈ P, p < neq) (h1 : ∀ m, m < neq → m ∉ P → R m = R' m) (h2 : ∀ p, p ∈ P → D p = D' p) :
    IsColl neq P V R D W ↔ IsColl neq P V R' D' W := by
  unfold IsColl
  constructor
  · rintro ⟨q1, q2⟩
    exact ⟨fun m hm hmP => by rw [q1 m hm hmP, h1 m hm hmP], fun p hp => by rw [q2 p hp, h2 p hp]⟩
  · rintro ⟨q1, q2⟩
    exact ⟨fun m hm hmP => by rw [q1 m hm hmP, h1 m hm hmP], fun p hp => by rw [q2 p hp, h2 p hp]⟩

/-- the system is square: if zero data have the zero solution only, all data have a solution -/
theorem isColl_exists (hP : ∀ p ∈ P, p < neq) (h0 : ∀ W : Nat → α, IsColl neq P V (fun _ => 0) (fun _ => 0) W → ∀ m, m < neq → W m = 0) (R D : Nat → α) :
    ∃ W, IsColl neq P V R D W := by
  classical
  let row : Fin neq → (Fin neq → α) → α := fun m w => if m.val ∈ P then w m else ∑ n : Fin neq, V m n * w n
  let L : (Fin neq → α) →ₗ[α] (Fin neq → α) :=
    { toFun := fun w m => row m w
      map_add' := by
        intro x y
        funext m
        simp only [row, Pi.add_apply]
        split
        · rfl
        · rw [← Finset.sum_add_distrib]
          exact Finset.sum_congr rfl fun n _ => by ring
      map_smul' := by
        intro c x
        funext m
        simp only [row, Pi.smul_apply, smul_eq_mul, RingHom.id_apply]
        split
        · rfl
        · rw [Finset.mul_sum]
          exact Finset.sum_congr rfl fun n _ => by ring }
  have hext : ∀ (w : Fin neq → α) (m : Nat), ∑ n ∈ Finset.range neq, V m n * (if h : n < neq then w ⟨n, h⟩ else 0) = ∑ n : Fin neq, V m n * w n := by
    intro w m
    rw [Finset.sum_range]
    refine Finset.sum_congr rfl fun n _ => ?_
    rw [dif_pos n.isLt]
  have hinj : Function.Injective L := by
    rw [← LinearMap.ker_eq_bot, LinearMap.ker_eq_bot']
    intro w hw
    have := h0 (fun n => if h : n < neq then w ⟨n, h⟩ else 0) ⟨?_, ?_⟩
    · funext m
      have := this m m.isLt
      rw [dif_pos m.isLt] at this
      exact this
    · intro m hm hmP
      rw [hext]
      have := congrFun hw ⟨m, hm⟩
      change row ⟨m, hm⟩ w = 0 at this
      simp only [row] at this
      rwa [if_neg hmP] at this
    · intro p hp
      have := congrFun hw ⟨p, hP p hp⟩
      change row ⟨p, hP p hp⟩ w = 0 at this
      simp only [row] at this
      rw [if_pos hp] at this
      show (if h : p < neq then w ⟨p, h⟩ else 0) = 0
      rw [dif_pos (hP p hp)]
      exact this
  obtain ⟨w, hw⟩ := (LinearMap.injective_iff_surjective.1 hinj) (fun m => if m.val ∈ P then D m else R m)
  refine ⟨fun n => if h : n < neq then w ⟨n, h⟩ else 0, ?_, ?_⟩
  · intro m hm hmP
    rw [hext]
    have := congrFun hw ⟨m, hm⟩
    change row ⟨m, hm⟩ w = _ at this
    simp only [row] at this
    rwa [if_neg hmP, if_neg hmP] at this
  · intro p hp
    have := congrFun hw ⟨p, hP p hp⟩
    change row ⟨p, hP p hp⟩ w = _ at this
    simp only [row] at this
    rw [if_pos hp, if_pos hp] at this
    show (if h : p < neq then w ⟨p, h⟩ else 0) = D p
    rw [dif_pos (hP p hp)]
    exact this

end Props

end Russell.Pde
