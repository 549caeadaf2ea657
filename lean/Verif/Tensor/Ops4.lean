import Verif.Tensor.Consts4
import Verif.Tensor.MixOdyad
import Verif.Tensor.MixUdyad
import Verif.Tensor.MixQsd

/-!
# Operations with fourth-order tensors (C70)
-/

namespace Russell.Tensor
open Russell Russell.Res

/-- Contraction from the left, `A : D`. -/
def contrL (a : Matrix (Fin 3) (Fin 3) ℝ) (d : Array4) : Matrix (Fin 3) (Fin 3) ℝ := Matrix.of fun k l => ∑ i, ∑ j, a i j * d i j k l

/-! ### Lemmas -/

theorem foldl_add_eq {ι : Type} (l : List ι) (f : ι → ℝ) (s : ℝ) : l.foldl (fun s n => s + f n) s = s + (l.map f).sum := by
  induction l generalizing s with
  | nil => simp
  | cons a l ih => rw [List.foldl_cons, ih, List.map_cons, List.sum_cons, add_assoc]

theorem filter_sum (d : Nat) (f : Fin 9 → ℝ) :
    (((List.finRange 9).filter fun n => decide (n.val < d)).map f).sum = ∑ n, if n.val < d then f n else 0 := by
  have : ∀ l : List (Fin 9), ((l.filter fun n => decide (n.val < d)).map f).sum = (l.map fun n => if n.val < d then f n else 0).sum := by
    intro l
    induction l with
    | nil => rfl
    | cons a l ih => by_cases h : a.val < d <;> simp [List.filter_cons, h, ih]
  rw [this, Fin.sum_univ_def]

theorem sumTo_eq (d : Nat) (f : Fin 9 → ℝ) : sumTo d f = ∑ n, if n.val < d then f n else 0 := by
  rw [sumTo, foldl_add_eq, filter_sum, zero_add]

theorem mat99_swap (f : Fin 9 → Fin 9 → ℝ) (i j k l : Fin 3) : mat99 f i j k l = mat99 (fun m n => f n m) k l i j := by
  simp only [mat99]
  rw [Finset.sum_comm]
  exact Finset.sum_congr rfl fun m _ => Finset.sum_congr rfl fun n _ => by ring

theorem contrL_mat99 (v : Fin 9 → ℝ) (f : Fin 9 → Fin 9 → ℝ) : contrL (mat9 v) (mat99 f) = mat9 fun n => ∑ m, v m * f m n := by
  have := contr_mat99 (fun m n => f n m) v
  simp only [mul_comm (f _ _)] at this
  rw [← this]
  ext k l
  simp only [contrL, contr, Matrix.of_apply]
  exact Finset.sum_congr rfl fun i _ => Finset.sum_congr rfl fun j _ => by rw [mat99_swap, mul_comm]

theorem dyad_mat99 (a b : Fin 9 → ℝ) (i j k l : Fin 3) : mat9 a i j * mat9 b k l = mat99 (fun m n => a m * b n) i j k l := by
  rw [mat9_sum, mat9_sum, Finset.sum_mul_sum, mat99]
  exact Finset.sum_congr rfl fun m _ => Finset.sum_congr rfl fun n _ => by ring

theorem cut2_of (r : Rep) {f g : Fin 9 → Fin 9 → ℝ} (h : ∀ m n : Fin 9, m.val < r.dim → n.val < r.dim → f m n = g m n) : cut2 r f = cut2 r g := by
  funext m n
  simp only [cut2]
  split
  · rename_i hmn; exact h m n hmn.1 hmn.2
  · rfl

theorem cut2_id (r : Rep) {g : Fin 9 → Fin 9 → ℝ} (h : ∀ m n : Fin 9, ¬ (m.val < r.dim ∧ n.val < r.dim) → g m n = 0) : cut2 r g = g := by
  funext m n
  simp only [cut2]
  split
  · rfl
  · rename_i hmn; exact (h m n hmn).symm

/-! ### Sums and double contractions -/

theorem C70_t4_add (c a b : Tensor4) (alpha beta : ℝ) (h1 : b.rep = a.rep) (h2 : c.rep = a.rep) :
    ∃ r, t4Add c alpha a beta b = ok r ∧ r.rep = a.rep ∧ r.std = alpha • a.std + beta • b.std := by
  have h9 : c.dim ≤ 9 := by rw [Tensor4.dim]; cases c.rep <;> simp [Rep.dim]
  refine ⟨_, by unfold t4Add; rw [if_neg (by simp [h1]), if_neg (by simp [h2]), Lab.C53_small_mat_add h9]; rfl, by exact h2, ?_⟩
  funext i j k l
  simp only [Pi.add_apply, Pi.smul_apply, smul_eq_mul]
  rw [std4_eq, std4_eq, std4_eq, ← mat99_lin, h1, ← cut2_lin]
  simp only [h2, Tensor4.dim]
  rw [cut2_of a.rep (g := fun m n => alpha * a.mat m n + beta * b.mat m n)]
  intro m n hm hn
  rw [if_pos ⟨hm, hn⟩, arr_fin, arr_fin]

theorem C70_t4_ddot_t4_update (ee cc dd : Tensor4) (alpha beta : ℝ) (h1 : cc.rep = dd.rep) (h2 : ee.rep = dd.rep) :
    ∃ r, t4DdotT4Update ee alpha cc dd beta = ok r ∧ r.rep = dd.rep ∧ r.std = alpha • contr4 cc.std dd.std + beta • ee.std := by
  have h9 : ee.dim ≤ 9 := by rw [Tensor4.dim]; cases ee.rep <;> simp [Rep.dim]
  refine ⟨_, by unfold t4DdotT4Update; rw [if_neg (by simp [h1]), if_neg (by simp [h2]), Lab.C53_small_mat_mat_mul h9]; rfl, by exact h2, ?_⟩
  funext i j k l
  simp only [Pi.add_apply, Pi.smul_apply, smul_eq_mul]
  rw [std4_eq, std4_eq, std4_eq, std4_eq, contr4_mat99, ← mat99_lin, h1]
  simp only [h2, Tensor4.dim]
  rw [cut2_of dd.rep (g := fun m n => alpha * (∑ p, cut2 dd.rep cc.mat m p * cut2 dd.rep dd.mat p n) + beta * cut2 dd.rep ee.mat m n)]
  · rw [cut2_id]
    intro m n hmn
    rw [Finset.sum_eq_zero]
    · simp [cut2, hmn]
    · intro p _
      simp only [cut2]
      rw [not_and_or] at hmn
      rcases hmn with h | h <;> simp [h]
  · intro m n hm hn
    rw [Tensor4.dim, h2] at h9
    rw [if_pos ⟨hm, hn⟩, arr_fin, sum_range_fin _ h9]
    simp only [cut2, hm, hn, true_and, and_true, and_self, if_true, arr_fin]
    congr 2
    exact Finset.sum_congr rfl fun p _ => by split <;> simp

theorem C70_t4_ddot_t4 (ee cc dd : Tensor4) (alpha : ℝ) (h1 : cc.rep = dd.rep) (h2 : ee.rep = dd.rep) :
    ∃ r, t4DdotT4 ee alpha cc dd = ok r ∧ r.rep = dd.rep ∧ r.std = alpha • contr4 cc.std dd.std := by
  obtain ⟨r, e, hr, hs⟩ := C70_t4_ddot_t4_update ee cc dd alpha 0 h1 h2
  exact ⟨r, e, hr, by rw [hs, zero_smul, add_zero]⟩

theorem C70_t2_dyad_t2 (dd : Tensor4) (a b : Tensor2) (alpha : ℝ) (h1 : a.rep = dd.rep) (h2 : b.rep = dd.rep) :
    ∃ r, t2DyadT2 dd alpha a b = ok r ∧ r.rep = dd.rep ∧ ∀ i j k l, r.std i j k l = alpha * (a.std i j * b.std k l) := by
  refine ⟨_, by unfold t2DyadT2; rw [if_neg (by simp [h1])]; exact if_neg (by simp [h2]), by rfl, fun i j k l => ?_⟩
  rw [std4_eq, std_eq, std_eq, dyad_mat99, h1, h2]
  have := mat99_lin alpha 0 (fun m n => cut dd.rep a.vec m * cut dd.rep b.vec n) 0 i j k l
  simp only [Pi.zero_apply, mul_zero, zero_mul, add_zero] at this
  rw [← this]
  simp only [Tensor4.dim, cut2_upto2]
  congr 1
  funext m n
  simp only [cut2, cut_eq]
  by_cases hm : m.val < dd.rep.dim <;> by_cases hn : n.val < dd.rep.dim <;> simp [hm, hn, mul_assoc]

theorem C70_t2_dyad_t2_update (dd : Tensor4) (a b : Tensor2) (alpha : ℝ) (h1 : a.rep = dd.rep) (h2 : b.rep = dd.rep) :
    ∃ r, t2DyadT2Update dd alpha a b = ok r ∧ r.rep = dd.rep ∧ ∀ i j k l, r.std i j k l = dd.std i j k l + alpha * (a.std i j * b.std k l) := by
  refine ⟨_, by unfold t2DyadT2Update; rw [if_neg (by simp [h1])]; exact if_neg (by simp [h2]), by rfl, fun i j k l => ?_⟩
  rw [std4_eq, std4_eq, std_eq, std_eq, dyad_mat99, h1, h2]
  have := mat99_lin 1 alpha (cut2 dd.rep dd.mat) (fun m n => cut dd.rep a.vec m * cut dd.rep b.vec n) i j k l
  simp only [one_mul] at this
  rw [← this]
  simp only [Tensor4.dim, cut2_upto2]
  congr 1
  funext m n
  simp only [cut2, cut_eq]
  by_cases hm : m.val < dd.rep.dim <;> by_cases hn : n.val < dd.rep.dim <;> simp [hm, hn, mul_assoc]

theorem cut_sum (r : Rep) (f : Fin 9 → Fin 9 → ℝ) (v : Fin 9 → ℝ) :
    cut r (fun m => sumTo r.dim fun n => f m n * v n) = fun m => ∑ n, cut2 r f m n * cut r v n := by
  funext m
  rw [cut_eq, sumTo_eq]
  by_cases hm : m.val < r.dim
  · rw [if_pos hm]
    refine Finset.sum_congr rfl fun n _ => ?_
    simp only [cut2, cut_eq, hm, true_and]
    split <;> simp
  · rw [if_neg hm]
    exact (Finset.sum_eq_zero fun n _ => by simp [cut2, hm]).symm

theorem C70_t4_ddot_t2_update (b a : Tensor2) (dd : Tensor4) (alpha beta : ℝ) (h1 : a.rep = dd.rep) (h2 : b.rep = dd.rep) :
    ∃ r, t4DdotT2Update b alpha dd a beta = ok r ∧ r.rep = dd.rep ∧ r.std = alpha • contr dd.std a.std + beta • b.std := by
  refine ⟨_, by unfold t4DdotT2Update; rw [if_neg (by simp [h1])]; exact if_neg (by simp [h2]), by exact h2, ?_⟩
  rw [std_eq, std_eq, std_eq, std4_eq, contr_mat99, ← mat9_smul, ← mat9_smul, ← mat9_add]
  simp only [Tensor2.dim, cut_upto, h1, h2]
  rw [cut_map₂ dd.rep (fun x y => alpha * x + beta * y) (by simp) (fun m => sumTo dd.rep.dim fun n => dd.mat m n * a.vec n) b.vec, cut_sum]

theorem C70_t4_ddot_t2 (b a : Tensor2) (dd : Tensor4) (alpha : ℝ) (h1 : a.rep = dd.rep) (h2 : b.rep = dd.rep) :
    ∃ r, t4DdotT2 b alpha dd a = ok r ∧ r.rep = dd.rep ∧ r.std = alpha • contr dd.std a.std := by
  refine ⟨_, by unfold t4DdotT2; rw [if_neg (by simp [h1])]; exact if_neg (by simp [h2]), by exact h2, ?_⟩
  rw [std_eq, std_eq, std4_eq, contr_mat99, ← mat9_smul]
  simp only [Tensor2.dim, cut_upto, h1, h2]
  rw [cut_map dd.rep (fun x => alpha * x) (by simp) (fun m => sumTo dd.rep.dim fun n => dd.mat m n * a.vec n), cut_sum]

theorem C70_t2_ddot_t4 (b a : Tensor2) (dd : Tensor4) (alpha : ℝ) (h1 : a.rep = dd.rep) (h2 : b.rep = dd.rep) :
    ∃ r, t2DdotT4 b alpha a dd = ok r ∧ r.rep = dd.rep ∧ r.std = alpha • contrL a.std dd.std := by
  refine ⟨_, by unfold t2DdotT4; rw [if_neg (by simp [h1])]; exact if_neg (by simp [h2]), by exact h2, ?_⟩
  rw [std_eq, std_eq, std4_eq, contrL_mat99, ← mat9_smul]
  simp only [Tensor2.dim, cut_upto, h1, h2]
  have := cut_sum dd.rep (fun m n => dd.mat n m) a.vec
  simp only [mul_comm (dd.mat _ _)] at this
  rw [cut_map dd.rep (fun x => alpha * x) (by simp) (fun n => sumTo dd.rep.dim fun m => a.vec m * dd.mat m n), this]
  congr 1
  funext n
  congr 1
  refine Finset.sum_congr rfl fun m _ => ?_
  rw [mul_comm]
  congr 1
  simp only [cut2, and_comm]

theorem ddot_mat9 (a b : Fin 9 → ℝ) : ∑ i, ∑ j, mat9 a i j * mat9 b i j = ∑ m, a m * b m := by
  rw [sum_mat9_mul, comp_mat9]

theorem foldl2_eq (d : Nat) (f : Fin 9 → Fin 9 → ℝ) (s : ℝ) :
    ((List.finRange 9).filter fun m => decide (m.val < d)).foldl (fun s m =>
      ((List.finRange 9).filter fun n => decide (n.val < d)).foldl (fun s n => s + f m n) s) s =
        s + ∑ m : Fin 9, ∑ n : Fin 9, if m.val < d ∧ n.val < d then f m n else 0 := by
  have : ∀ m s, ((List.finRange 9).filter fun n => decide (n.val < d)).foldl (fun s n => s + f m n) s =
      s + ∑ n : Fin 9, if n.val < d then f m n else 0 := fun m s => by rw [foldl_add_eq, filter_sum]
  simp only [this]
  rw [foldl_add_eq, filter_sum]
  congr 1
  refine Finset.sum_congr rfl fun m _ => ?_
  by_cases hm : m.val < d <;> simp [hm]

theorem C70_t2_ddot_t4_ddot_t2 (a b : Tensor2) (dd : Tensor4) (h1 : a.rep = dd.rep) (h2 : b.rep = dd.rep) :
    t2DdotT4DdotT2 a dd b = ok (∑ i, ∑ j, a.std i j * contr dd.std b.std i j) := by
  unfold t2DdotT4DdotT2
  rw [if_neg (by simp [h1]), if_neg (by simp [h2]), foldl2_eq, std_eq, std_eq, std4_eq, contr_mat99, ddot_mat9, zero_add, h1, h2]
  simp only [Tensor2.dim, h1]
  congr 1
  refine Finset.sum_congr rfl fun m _ => ?_
  rw [Finset.mul_sum]
  refine Finset.sum_congr rfl fun n _ => ?_
  simp only [cut_eq, cut2]
  by_cases hm : m.val < dd.rep.dim <;> by_cases hn : n.val < dd.rep.dim <;> simp [hm, hn, mul_assoc]

theorem C70_t4_ddot_t2_dyad_t2_ddot_t4 (ee dd : Tensor4) (a b : Tensor2) (alpha beta : ℝ) (h1 : a.rep = dd.rep) (h2 : b.rep = dd.rep)
    (h3 : ee.rep = dd.rep) : ∃ r, t4DdotT2DyadT2DdotT4 ee alpha dd beta a b = ok r ∧ r.rep = dd.rep ∧
      ∀ i j k l, r.std i j k l = alpha * dd.std i j k l + beta * (contr dd.std a.std i j * contrL b.std dd.std k l) := by
  refine ⟨_, by
    unfold t4DdotT2DyadT2DdotT4
    rw [if_neg (by simp [h1]), if_neg (by simp [h2])]
    exact if_neg (by simp [h3]), by exact h3, fun i j k l => ?_⟩
  rw [std4_eq, std4_eq, std_eq, std_eq, contr_mat99, contrL_mat99, dyad_mat99, h1, h2]
  simp only [h3, Tensor2.dim, h1, cut2_upto2]
  rw [← mat99_lin]
  congr 1
  funext m n
  simp only [foldl2_eq]
  by_cases hmn : m.val < dd.rep.dim ∧ n.val < dd.rep.dim
  · obtain ⟨hm, hn⟩ := hmn
    simp only [cut2, hm, hn, and_self, true_and, and_true, if_true]
    congr 1
    rw [Finset.sum_mul_sum, Finset.mul_sum]
    refine Finset.sum_congr rfl fun p _ => ?_
    rw [Finset.mul_sum]
    refine Finset.sum_congr rfl fun q _ => ?_
    rw [cut_eq, cut_eq]
    by_cases hp : p.val < dd.rep.dim <;> by_cases hq : q.val < dd.rep.dim <;> simp [hp, hq]
    ring
  · rw [cut2, if_neg hmn, cut2, if_neg hmn, mul_zero, zero_add]
    rw [not_and_or] at hmn
    rcases hmn with h | h
    · rw [Finset.sum_eq_zero (fun p _ => by simp [cut2, h])]
      simp
    · rw [Finset.sum_eq_zero (s := Finset.univ) (f := fun q => cut dd.rep b.vec q * cut2 dd.rep dd.mat q n) (fun p _ => by simp [cut2, h])]
      simp

/-! ### Products of second-order tensors -/

theorem std4_of_comp4 {t : Tensor4} {d : Array4} (h : ∀ m n : Fin 9, cut2 t.rep t.mat m n = comp4 d m n) : t.std = d := by
  rw [std4_eq, funext fun m => funext (h m), mat99_comp4]

theorem cut_general (a : Fin 9 → ℝ) : cut .General a = a := rfl

theorem cut2_general (f : Fin 9 → Fin 9 → ℝ) : cut2 .General f = f := by
  funext m n
  have := m.2
  have := n.2
  simp [cut2, Rep.dim]

/-- `t2_odyad_t2`: D_ijkl = s A_ik B_jl. -/
theorem C70_t2_odyad_t2 (dd : Tensor4) (s : ℝ) (aa bb : Tensor2) (h1 : dd.rep = .General) (h2 : bb.rep = aa.rep) :
    ∃ r, t2OdyadT2 dd s aa bb = ok r ∧ r.rep = .General ∧ ∀ i j k l, r.std i j k l = s * (aa.std i k * bb.std j l) := by
  have key : t2OdyadT2 dd s aa bb = ok ⟨dd.rep, odyadMat9 s (cut aa.rep aa.vec) (cut aa.rep bb.vec), dd.useLoops⟩ := by
    unfold t2OdyadT2 Tensor2.dim
    rw [if_neg (by simp [h1]), if_neg (by simp [h2])]
    cases hr : aa.rep <;> simp [Rep.dim, odyad4_eq, odyad6_eq, cut_general]
  refine ⟨_, key, h1, fun i j k l => ?_⟩
  rw [std_eq, std_eq, h2]
  refine congrFun (congrFun (congrFun (congrFun (std4_of_comp4 (d := fun i j k l => s * (mat9 (cut aa.rep aa.vec) i k * mat9 (cut aa.rep bb.vec) j l)) ?_) i) j) k) l
  intro m n
  simp only [h1]
  rw [cut2_general, odyad9_eq]

/-- `t2_udyad_t2`: D_ijkl = s A_il B_jk. -/
theorem C70_t2_udyad_t2 (dd : Tensor4) (s : ℝ) (aa bb : Tensor2) (h1 : dd.rep = .General) (h2 : bb.rep = aa.rep) :
    ∃ r, t2UdyadT2 dd s aa bb = ok r ∧ r.rep = .General ∧ ∀ i j k l, r.std i j k l = s * (aa.std i l * bb.std j k) := by
  have key : t2UdyadT2 dd s aa bb = ok ⟨dd.rep, udyadMat9 s (cut aa.rep aa.vec) (cut aa.rep bb.vec), dd.useLoops⟩ := by
    unfold t2UdyadT2 Tensor2.dim
    rw [if_neg (by simp [h1]), if_neg (by simp [h2])]
    cases hr : aa.rep <;> simp [Rep.dim, udyad4_eq, udyad6_eq, cut_general]
  refine ⟨_, key, h1, fun i j k l => ?_⟩
  rw [std_eq, std_eq, h2]
  refine congrFun (congrFun (congrFun (congrFun (std4_of_comp4 (d := fun i j k l => s * (mat9 (cut aa.rep aa.vec) i l * mat9 (cut aa.rep bb.vec) j k)) ?_) i) j) k) l
  intro m n
  simp only [h1]
  rw [cut2_general, udyad9_eq]

/-- Components of an array with the minor symmetries. -/
theorem comp4_minor (d : Array4) (hs : ∀ i j k l, d i j k l = d j i k l ∧ d i j k l = d i j l k) (m n : Fin 9) :
    comp4 d m n = if m.val < 6 ∧ n.val < 6 then
      (if (mToIj m).1 = (mToIj m).2 then 1 else SQRT_2) * (if (mToIj n).1 = (mToIj n).2 then 1 else SQRT_2) *
        d (mToIj m).1 (mToIj m).2 (mToIj n).1 (mToIj n).2 else 0 := by
  have hc : ∀ M : Matrix (Fin 3) (Fin 3) ℝ, (∀ i j, M i j = M j i) → ∀ m : Fin 9, comp M m = if m.val < 6 then
      (if (mToIj m).1 = (mToIj m).2 then 1 else SQRT_2) * M (mToIj m).1 (mToIj m).2 else 0 := by
    intro M hM m
    rw [comp_explicit, hM 1 0, hM 2 1, hM 2 0]
    fin_cases m <;> simp [mToIj] <;> kelvin
  rw [comp4, hc]
  · by_cases hm : m.val < 6
    · rw [if_pos hm, Matrix.of_apply, hc]
      · by_cases hn : n.val < 6
        · simp only [hm, hn, and_self, if_true, Matrix.of_apply, mul_assoc]
        · simp only [hm, hn, and_false, if_false, mul_zero]
      · intro k l
        exact (hs _ _ k l).2
    · simp only [hm, false_and, if_false]
  · intro i j
    rw [Matrix.of_apply, Matrix.of_apply]
    congr 1
    ext k l
    exact (hs i j k l).1

theorem sym_general (m n : Fin 9) (f : Fin 9 → Fin 9 → ℝ) : cut2 .Symmetric f m n = if m.val < 6 ∧ n.val < 6 then f m n else 0 := rfl

theorem std4_of_minor {t : Tensor4} {d : Array4} (hr : t.rep = .Symmetric) (hs : ∀ i j k l, d i j k l = d j i k l ∧ d i j k l = d i j l k)
    (h : ∀ m n : Fin 9, m.val < 6 → n.val < 6 → t.mat m n = comp4 d m n) : t.std = d := by
  refine std4_of_comp4 fun m n => ?_
  rw [hr, sym_general]
  split
  · rename_i hmn; exact h m n hmn.1 hmn.2
  · rename_i hmn; rw [comp4_minor d hs, if_neg hmn]

/-- `t2_ssd`: D_ijkl = s (A_ik A_jl + A_il A_jk). -/
theorem C70_t2_ssd (dd : Tensor4) (s : ℝ) (aa : Tensor2) (h1 : dd.rep = .Symmetric) :
    ∃ r, t2Ssd dd s aa = ok r ∧ r.rep = .Symmetric ∧
      ∀ i j k l, r.std i j k l = s * (aa.std i k * aa.std j l + aa.std i l * aa.std j k) := by
  have hsym : ∀ i j k l, s * (aa.std i k * aa.std j l + aa.std i l * aa.std j k) = s * (aa.std j k * aa.std i l + aa.std j l * aa.std i k) ∧
      s * (aa.std i k * aa.std j l + aa.std i l * aa.std j k) = s * (aa.std i l * aa.std j k + aa.std i k * aa.std j l) :=
    fun i j k l => ⟨by ring, by ring⟩
  unfold t2Ssd
  rw [if_neg (by simp [h1])]
  by_cases hu : dd.useLoops = true
  · rw [if_pos hu]
    refine ⟨_, rfl, h1, ?_⟩
    have : Tensor4.std ⟨dd.rep, upto2 6 (ssdLoops s aa) (upto2 dd.dim (fun _ _ => 0) dd.mat), dd.useLoops⟩ =
        fun i j k l => s * (aa.std i k * aa.std j l + aa.std i l * aa.std j k) := by
      refine std4_of_minor h1 hsym fun m n hm hn => ?_
      rw [comp4_minor _ hsym, if_pos ⟨hm, hn⟩]
      simp only [upto2, hm, hn, and_self, if_true, ssdLoops, C65_get_std]
      ring
    intro i j k l
    rw [this]
  · rw [if_neg hu]
    have key : ∀ x : Res Tensor4, x = (if aa.dim = 4 then ok ⟨dd.rep, ssdMat4 dd.mat s aa.vec, dd.useLoops⟩
        else if aa.dim = 6 then ok ⟨dd.rep, ssdMat6 dd.mat s aa.vec, dd.useLoops⟩
        else ok ⟨dd.rep, ssdMat9 dd.mat s aa.vec, dd.useLoops⟩) →
        x = ok ⟨dd.rep, ssdMat9 dd.mat s (cut aa.rep aa.vec), dd.useLoops⟩ := by
      rintro x rfl
      unfold Tensor2.dim
      cases hr : aa.rep <;> simp [Rep.dim, ssd4_eq, ssd6_eq, cut_general]
    refine ⟨_, key _ rfl, h1, ?_⟩
    have : Tensor4.std ⟨dd.rep, ssdMat9 dd.mat s (cut aa.rep aa.vec), dd.useLoops⟩ =
        fun i j k l => s * (aa.std i k * aa.std j l + aa.std i l * aa.std j k) := by
      refine std4_of_minor h1 hsym fun m n hm hn => ?_
      simp only [std_eq]
      exact ssd9_eq _ _ _ _ _ hm hn
    intro i j k l
    rw [this]

/-- `t2_qsd_t2`: D_ijkl = s (A_ik B_jl + A_il B_jk + B_ik A_jl + B_il A_jk). -/
theorem C70_t2_qsd_t2 (dd : Tensor4) (s : ℝ) (aa bb : Tensor2) (h1 : dd.rep = .Symmetric) (h2 : bb.rep = aa.rep) :
    ∃ r, t2QsdT2 dd s aa bb = ok r ∧ r.rep = .Symmetric ∧ ∀ i j k l, r.std i j k l =
      s * (aa.std i k * bb.std j l + aa.std i l * bb.std j k + bb.std i k * aa.std j l + bb.std i l * aa.std j k) := by
  let d : Array4 := fun i j k l => s * (aa.std i k * bb.std j l + aa.std i l * bb.std j k + bb.std i k * aa.std j l + bb.std i l * aa.std j k)
  have hsym : ∀ i j k l, d i j k l = d j i k l ∧ d i j k l = d i j l k := fun i j k l => ⟨by simp only [d]; ring, by simp only [d]; ring⟩
  unfold t2QsdT2
  rw [if_neg (by simp [h1]), if_neg (by simp [h2])]
  by_cases hu : dd.useLoops = true
  · rw [if_pos hu]
    refine ⟨_, rfl, h1, ?_⟩
    have : Tensor4.std ⟨dd.rep, upto2 6 (qsdLoops s aa bb) (upto2 dd.dim (fun _ _ => 0) dd.mat), dd.useLoops⟩ = d := by
      refine std4_of_minor h1 hsym fun m n hm hn => ?_
      rw [comp4_minor _ hsym, if_pos ⟨hm, hn⟩]
      simp only [upto2, hm, hn, and_self, if_true, qsdLoops, C65_get_std, d]
      ring
    intro i j k l
    rw [this]
  · rw [if_neg hu]
    have key : ∀ x : Res Tensor4, x = (if aa.dim = 4 then ok ⟨dd.rep, qsdMat4 dd.mat s aa.vec bb.vec, dd.useLoops⟩
        else if aa.dim = 6 then ok ⟨dd.rep, qsdMat6 dd.mat s aa.vec bb.vec, dd.useLoops⟩
        else ok ⟨dd.rep, qsdMat9 dd.mat s aa.vec bb.vec, dd.useLoops⟩) →
        x = ok ⟨dd.rep, qsdMat9 dd.mat s (cut aa.rep aa.vec) (cut aa.rep bb.vec), dd.useLoops⟩ := by
      rintro x rfl
      unfold Tensor2.dim
      cases hr : aa.rep <;> simp [Rep.dim, qsd4_eq, qsd6_eq, cut_general]
    refine ⟨_, key _ rfl, h1, ?_⟩
    have : Tensor4.std ⟨dd.rep, qsdMat9 dd.mat s (cut aa.rep aa.vec) (cut aa.rep bb.vec), dd.useLoops⟩ = d := by
      refine std4_of_minor h1 hsym fun m n hm hn => ?_
      simp only [d, std_eq, h2]
      exact qsd9_eq _ _ _ _ _ _ hm hn
    intro i j k l
    rw [this]

/-! ### Refusals -/

/-- Operands of other representations than the result panic. -/
theorem C70_mismatch (c dd : Tensor4) (a b : Tensor2) (x y : ℝ) (h : a.rep ≠ dd.rep ∨ b.rep ≠ dd.rep) :
    t2DyadT2 dd x a b = panic ∧ t2DyadT2Update dd x a b = panic ∧ t4DdotT2 b x dd a = panic ∧ t4DdotT2Update b x dd a y = panic ∧
      t2DdotT4 b x a dd = panic ∧ t2DdotT4DdotT2 a dd b = panic ∧ t4DdotT2DyadT2DdotT4 c x dd y a b = panic := by
  simp only [t2DyadT2, t2DyadT2Update, t4DdotT2, t4DdotT2Update, t2DdotT4, t2DdotT4DdotT2, t4DdotT2DyadT2DdotT4]
  by_cases h1 : a.rep = dd.rep
  · have h2 : b.rep ≠ dd.rep := by tauto
    simp [h1, h2]
  · simp [h1]

theorem C70_mismatch4 (c a b : Tensor4) (x y : ℝ) (h : a.rep ≠ b.rep ∨ c.rep ≠ a.rep) :
    t4Add c x a y b = panic ∧ t4DdotT4 c x a b = panic ∧ t4DdotT4Update c x a b y = panic := by
  simp only [t4Add, t4DdotT4, t4DdotT4Update]
  by_cases h1 : a.rep = b.rep
  · have h2 : c.rep ≠ b.rep := by rw [← h1]; tauto
    simp [h1, h2]
  · simp [h1, Ne.symm h1]

theorem C70_mismatch_products (dd : Tensor4) (aa bb : Tensor2) (s : ℝ) :
    (dd.rep ≠ .General ∨ bb.rep ≠ aa.rep → t2OdyadT2 dd s aa bb = panic ∧ t2UdyadT2 dd s aa bb = panic) ∧
      (dd.rep ≠ .Symmetric ∨ bb.rep ≠ aa.rep → t2QsdT2 dd s aa bb = panic) ∧ (dd.rep ≠ .Symmetric → t2Ssd dd s aa = panic) := by
  refine ⟨fun h => ?_, fun h => ?_, fun h => if_pos h⟩
  · simp only [t2OdyadT2, t2UdyadT2]
    by_cases h1 : dd.rep = .General
    · have h2 : bb.rep ≠ aa.rep := by tauto
      simp [h1, h2]
    · simp [h1]
  · simp only [t2QsdT2]
    by_cases h1 : dd.rep = .Symmetric
    · have h2 : bb.rep ≠ aa.rep := by tauto
      simp [h1, h2]
    · simp [h1]

/-! ### Cases -/

/-- I ⊗̄ I is the identity and I ⊗̲ I the transposition (`C70_t2_odyad_t2`, `C70_t2_udyad_t2`); the contraction with a matrix. -/
example (dd : Tensor4) (h : dd.rep = .General) (A : Matrix (Fin 3) (Fin 3) ℝ) (I : Tensor2) (hI : I.std = 1) :
    ∃ r u, t2OdyadT2 dd 1 I I = ok r ∧ t2UdyadT2 dd 1 I I = ok u ∧ contr r.std A = A ∧ contr u.std A = A.transpose := by
  obtain ⟨r, e, -, hr⟩ := C70_t2_odyad_t2 dd 1 I I h rfl
  obtain ⟨u, e', -, hu⟩ := C70_t2_udyad_t2 dd 1 I I h rfl
  refine ⟨r, u, e, e', ?_, ?_⟩
  · ext i j
    simp [contr, hr, hI, Matrix.one_apply]
  · ext i j
    simp [contr, hu, hI, Matrix.one_apply, Finset.sum_ite_eq]

/-- The stiffness σ = 2 tr(ε) I + 3 sym ε from `constant_jj` and `constant_pp_sym` with `t4_add` and `t4_ddot_t2`. -/
example : ∃ d e, t4Add (Tensor4.new .Symmetric) 2 (Tensor4.constantJj true) 3 (Tensor4.constantPpSym true) = ok d ∧
    t4DdotT2 (Tensor2.new .Symmetric) 1 d ⟨.Symmetric, ![1, 0, 0, SQRT_2, 0, 0, 7, 7, 7]⟩ = ok e ∧ e.std = !![5, 3, 0; 3, 2, 0; 0, 0, 2] := by
  have h1 : (Tensor4.constantJj true).rep = .Symmetric := by simp [Tensor4.constantJj, Tensor4.sets, Tensor4.set, Tensor4.new]
  have h2 : (Tensor4.constantPpSym true).rep = .Symmetric := by simp [Tensor4.constantPpSym, Tensor4.sets, Tensor4.set, Tensor4.new]
  obtain ⟨d, e1, hr, hs⟩ := C70_t4_add (Tensor4.new .Symmetric) (Tensor4.constantJj true) (Tensor4.constantPpSym true) 2 3 (by rw [h1, h2])
    (by rw [h1]; rfl)
  rw [h1] at hr
  obtain ⟨e, e2, -, he⟩ := C70_t4_ddot_t2 (Tensor2.new .Symmetric) ⟨.Symmetric, ![1, 0, 0, SQRT_2, 0, 0, 7, 7, 7]⟩ d 1 (by rw [hr]) (by rw [hr]; rfl)
  refine ⟨d, e, e1, e2, ?_⟩
  have h3 : ∀ A, contr d.std A = (2 : ℝ) • contr (Tensor4.constantJj true).std A + (3 : ℝ) • contr (Tensor4.constantPpSym true).std A := by
    intro A
    ext i j
    simp only [contr, hs, Matrix.of_apply, Matrix.add_apply, Matrix.smul_apply, smul_eq_mul, Finset.mul_sum, ← Finset.sum_add_distrib,
      Pi.add_apply, Pi.smul_apply]
    exact Finset.sum_congr rfl fun k _ => Finset.sum_congr rfl fun l _ => by ring
  rw [he, h3, C69_constant_jj, C69_constant_pp_sym, std_eq]
  have hs2 := sq2_ne
  ext i j
  fin_cases i <;> fin_cases j <;> simp [mat9, cut, Matrix.trace, Fin.sum_univ_three, hs2] <;> norm_num

end Russell.Tensor
