import Verif.Tensor.Kelvin4
import Verif.Tensor.Deriv1

/-!
# C69: the representation of fourth-order tensors
-/

namespace Russell.Tensor
open Russell Russell.Res

/-! ### The maps of indices -/

theorem ijklToMn_eq (i j k l : Fin 3) : ijklToMn i j k l = (ijToM i j, ijToM k l) := by decide +revert

theorem ijklToMnSym_eq (i j k l : Fin 3) : ijklToMnSym i j k l = (ijToMSym i j, ijToMSym k l) := by decide +revert

theorem mnToIjkl_eq (m n : Fin 9) : mnToIjkl m n = ((mToIj m).1, (mToIj m).2, (mToIj n).1, (mToIj n).2) := by decide +revert

theorem ijToM_mToIj (m : Fin 9) : ijToM (mToIj m).1 (mToIj m).2 = m := by decide +revert

theorem mToIj_ijToM (i j : Fin 3) : mToIj (ijToM i j) = (i, j) := by decide +revert

theorem sym_lt3 (i j : Fin 3) : (ijToMSym i j).val < 3 ↔ i = j := by decide +revert

theorem sym_gt2 (i j : Fin 3) : (ijToMSym i j).val > 2 ↔ i ≠ j := by decide +revert

theorem mem_allIjkl (x : Fin 3 × Fin 3 × Fin 3 × Fin 3) : x ∈ allIjkl := by
  obtain ⟨i, j, k, l⟩ := x
  simp [allIjkl]

theorem tri (i j : Fin 3) : (i < j ∧ i ≠ j ∧ j ≠ i ∧ ¬ j < i) ∨ i = j ∨ (j < i ∧ i ≠ j ∧ j ≠ i ∧ ¬ i < j) := by decide +revert

/-- `get_std` returns the standard components. -/
theorem C69_get_std (t : Tensor4) (i j k l : Fin 3) : t.getStd i j k l = t.std i j k l := by
  rw [std4_std, ← C65_get_std]
  simp only [← C65_get_std]
  unfold Tensor4.getStd Tensor2.getStd
  obtain ⟨r, f, u⟩ := t
  cases r
  · simp only [ijklToMn_eq]
    rcases tri i j with ⟨a, b, c, d⟩ | rfl | ⟨a, b, c, d⟩ <;> rcases tri k l with ⟨a', b', c', d'⟩ | rfl | ⟨a', b', c', d'⟩ <;> simp [*] <;> kelvin
  · simp only [ijklToMnSym_eq, sym_lt3, sym_gt2]
    by_cases h : i = j <;> by_cases g : k = l <;> simp [h, g]
    kelvin
  · simp only [ijklToMnSym_eq, sym_lt3, sym_gt2]
    by_cases a : (ijToMSym i j).val > 3 <;> by_cases b : (ijToMSym k l).val > 3 <;> simp only [a, b, if_true, if_false, or_self, or_true, true_or,
      zero_div, ite_self]
    by_cases h : i = j <;> by_cases g : k = l <;> simp [h, g]
    kelvin

/-! ### Which arrays can be represented -/

/-- Some components of the representation stand for the array. -/
def Representable4 (rep : Rep) (d : Array4) : Prop := ∃ f u, Tensor4.std ⟨rep, f, u⟩ = d

theorem comp_eq (M : Matrix (Fin 3) (Fin 3) ℝ) (m : Fin 9) : comp M m = if (mToIj m).1 = (mToIj m).2 then M (mToIj m).1 (mToIj m).2
    else if (mToIj m).1 < (mToIj m).2 then (M (mToIj m).1 (mToIj m).2 + M (mToIj m).2 (mToIj m).1) / SQRT_2
    else (M (mToIj m).2 (mToIj m).1 - M (mToIj m).1 (mToIj m).2) / SQRT_2 := by
  rw [comp_explicit]
  fin_cases m <;> simp [mToIj]

theorem comp_cut {r : Rep} {M : Matrix (Fin 3) (Fin 3) ℝ} (h1 : r ≠ .General → ∀ i j, M i j = M j i)
    (h2 : ∀ i j, ¬ InPlane r i j → M i j = 0) : cut r (comp M) = comp M := by
  rw [comp_explicit]
  cases r
  · rfl
  · have h := h1 (by simp)
    simp [cut, h 1 0, h 2 0, h 2 1]
  · have h := h1 (by simp)
    have e1 := h2 0 2 (by simp [InPlane])
    have e2 := h2 1 2 (by simp [InPlane])
    simp [cut, h 1 0, h 2 0, h 2 1, e1, e2]

theorem std_outPlane (t : Tensor2) {i j : Fin 3} (h : ¬ InPlane t.rep i j) : t.std i j = 0 := by
  rw [std_eq]
  obtain ⟨r, v⟩ := t
  cases r <;> simp [InPlane] at h
  fin_cases i <;> fin_cases j <;> simp at h <;> simp [cut, mat9]

/-- Minor-symmetric arrays, with zeros in 2D, are those that can be represented. -/
theorem representable4_iff (rep : Rep) (d : Array4) : Representable4 rep d ↔
    (rep ≠ .General → ∀ i j k l, d i j k l = d j i k l ∧ d i j k l = d i j l k) ∧
      ∀ i j k l, ¬ (InPlane rep i j ∧ InPlane rep k l) → d i j k l = 0 := by
  constructor
  · rintro ⟨f, u, rfl⟩
    refine ⟨fun h i j k l => ?_, fun i j k l h => ?_⟩
    · simp only [std4_std]
      refine ⟨(std_symm ⟨rep, _⟩ h).apply j i, ?_⟩
      congr 2
      funext m
      exact (std_symm ⟨rep, f m⟩ h).apply l k
    · rw [std4_std]
      by_cases hp : InPlane rep i j
      · have hq : ¬ InPlane rep k l := fun hq => h ⟨hp, hq⟩
        have : (fun m => Tensor2.std ⟨rep, f m⟩ k l) = fun _ => 0 := funext fun m => std_outPlane ⟨rep, f m⟩ hq
        rw [this]
        have : Tensor2.std ⟨rep, fun _ => 0⟩ = 0 := by simp [Tensor2.std]
        simp [this]
      · exact std_outPlane ⟨rep, _⟩ hp
  · intro ⟨h1, h2⟩
    refine ⟨comp4 d, false, ?_⟩
    rw [std4_eq]
    have e : cut2 rep (comp4 d) = comp4 d := by
      rw [cut2_eq]
      have e1 : ∀ i j, cut rep (comp (Matrix.of fun k l => d i j k l)) = comp (Matrix.of fun k l => d i j k l) :=
        fun i j => comp_cut (fun h k l => (h1 h i j k l).2) fun k l h => h2 i j k l fun g => h g.2
      have e2 : ∀ m, cut rep (comp4 d m) = comp4 d m := by
        intro m
        funext n
        rw [cut_eq]
        split
        · rfl
        · rename_i hn
          have : ∀ i j, comp (Matrix.of fun k l => d i j k l) n = 0 := by
            intro i j
            have := congrFun (e1 i j) n
            rw [cut_eq, if_neg hn] at this
            exact this.symm
          rw [comp4]
          simp only [this]
          simp [comp]
      simp only [e2]
      funext m n
      have := congrFun (comp_cut (r := rep) (M := Matrix.of fun i j => comp (Matrix.of fun k l => d i j k l) n) (fun h i j => ?_) (fun i j h => ?_)) m
      · exact this
      · simp only [Matrix.of_apply]
        congr 2
        funext k l
        exact (h1 h i j k l).1
      · simp only [Matrix.of_apply]
        have : (Matrix.of fun k l => d i j k l) = 0 := by
          ext k l
          exact h2 i j k l fun g => h g.1
        rw [this]
        simp [comp]
    simp only [e]
    exact mat99_comp4 d

/-- The standard components determine the Kelvin components in use. -/
theorem C69_unique {t u : Tensor4} (h : t.std = u.std) (hr : t.rep = u.rep) :
    ∀ m n : Fin 9, m.val < t.dim → n.val < t.dim → t.mat m n = u.mat m n := by
  intro m n hm hn
  rw [Tensor4.dim] at hm hn
  rw [std4_eq, std4_eq] at h
  have := congrFun (congrFun (mat99_inj h) m) n
  simp only [cut2, hm, hn, hr ▸ hm, hr ▸ hn, and_self, if_true] at this
  exact this

/-! ### Loops that set components -/

/-- A write to a component. -/
def Tensor4.write (t : Tensor4) : Option (Fin 9 × Fin 9 × ℝ) → Tensor4
  | none => t
  | some (m, n, v) => t.set m n v

theorem write_rep (t : Tensor4) (w : Option (Fin 9 × Fin 9 × ℝ)) : (t.write w).rep = t.rep := by
  cases w <;> rfl

theorem forAll_ok {ι : Type} (f : ι → Tensor4 → Res Tensor4) (w : ι → Option (Fin 9 × Fin 9 × ℝ)) (l : List ι)
    (h : ∀ x ∈ l, ∀ t, f x t = ok (t.write (w x))) (t : Tensor4) : ∃ t', forAll l f t = ok t' ∧ t'.rep = t.rep ∧ t'.useLoops = t.useLoops ∧
      ∀ m n v, (∀ x ∈ l, ∀ v', w x = some (m, n, v') → v' = v) → ((∃ x ∈ l, w x = some (m, n, v)) ∨ t.mat m n = v) → t'.mat m n = v := by
  induction l generalizing t with
  | nil => exact ⟨t, rfl, rfl, rfl, fun m n v _ h => by simpa using h⟩
  | cons x l ih =>
    obtain ⟨t', h1, h2, h3, h4⟩ := ih (fun y hy => h y (List.mem_cons_of_mem _ hy)) (t.write (w x))
    refine ⟨t', by rw [forAll, h x (by simp) t]; exact h1, by rw [h2, write_rep], ?_, fun m n v ha hb => ?_⟩
    · rw [h3]; cases w x <;> rfl
    · refine h4 m n v (fun y hy => ha y (List.mem_cons_of_mem _ hy)) ?_
      by_cases hl : ∃ y ∈ l, w y = some (m, n, v)
      · exact Or.inl hl
      · right
        by_cases hx : w x = some (m, n, v)
        · rw [hx]; simp [Tensor4.write, Tensor4.set]
        · have hm : t.mat m n = v := by
            rcases hb with ⟨y, hy, e⟩ | hb
            · rcases List.mem_cons.1 hy with rfl | hy
              · exact absurd e hx
              · exact absurd ⟨y, hy, e⟩ hl
            · exact hb
          cases hw : w x with
          | none => exact hm
          | some p =>
            obtain ⟨p, q, v'⟩ := p
            by_cases hpq : m = p ∧ n = q
            · obtain ⟨rfl, rfl⟩ := hpq
              have := ha x (by simp) v' hw
              rw [hw, this] at hx
              exact absurd rfl hx
            · show (if m = p ∧ n = q then v' else t.mat m n) = v
              rw [if_neg hpq, hm]

theorem forAll_err {ι : Type} (f : ι → Tensor4 → Res Tensor4) (bad : ι → Prop) (hok : ∀ x, ¬ bad x → ∀ t, ∃ t', f x t = ok t')
    (hbad : ∀ x, bad x → ∀ t, ∃ msg, f x t = err msg) (l : List ι) (h : ∃ x ∈ l, bad x) (t : Tensor4) : ∃ msg, forAll l f t = err msg := by
  induction l generalizing t with
  | nil => simp at h
  | cons x l ih =>
    by_cases hx : bad x
    · obtain ⟨msg, e⟩ := hbad x hx t
      exact ⟨msg, by rw [forAll, e]; rfl⟩
    · obtain ⟨t', e⟩ := hok x hx t
      obtain ⟨y, hy, hb⟩ := h
      have : ∃ x ∈ l, bad x := by
        rcases List.mem_cons.1 hy with rfl | hy
        · exact absurd hb hx
        · exact ⟨y, hy, hb⟩
      obtain ⟨msg, e'⟩ := ih this t'
      exact ⟨msg, by rw [forAll, e]; exact e'⟩

theorem setStdValue_eq (d : Array4) (m n : Fin 9) :
    Tensor4.setStdValue d (mToIj m).1 (mToIj m).2 (mToIj n).1 (mToIj n).2 = comp4 d m n := by
  unfold Tensor4.setStdValue
  rw [comp4, comp_eq]
  simp only [Matrix.of_apply, comp_eq]
  generalize (mToIj m).1 = i
  generalize (mToIj m).2 = j
  generalize (mToIj n).1 = k
  generalize (mToIj n).2 = l
  rcases tri i j with ⟨a, b, c, d⟩ | rfl | ⟨a, b, c, d⟩ <;> rcases tri k l with ⟨a', b', c', d'⟩ | rfl | ⟨a', b', c', d'⟩ <;> simp [*] <;> kelvin

/-- The input that the loop over `x` refuses. -/
def setStdBad (max : Nat) (d : Array4) (x : Fin 3 × Fin 3 × Fin 3 × Fin 3) : Prop :=
  if x.1 > x.2.1 ∨ x.2.2.1 > x.2.2.2 then
    d x.1 x.2.1 x.2.2.1 x.2.2.2 ≠ d x.2.1 x.1 x.2.2.1 x.2.2.2 ∨ d x.1 x.2.1 x.2.2.1 x.2.2.2 ≠ d x.1 x.2.1 x.2.2.2 x.2.2.1 ∨
      d x.1 x.2.1 x.2.2.1 x.2.2.2 ≠ d x.2.1 x.1 x.2.2.2 x.2.2.1
  else ((ijToM x.1 x.2.1).val > max ∨ (ijToM x.2.2.1 x.2.2.2).val > max) ∧ d x.1 x.2.1 x.2.2.1 x.2.2.2 ≠ 0

/-- The component that the loop over `x` sets. -/
noncomputable def setStdWrite (max : Nat) (d : Array4) (x : Fin 3 × Fin 3 × Fin 3 × Fin 3) : Option (Fin 9 × Fin 9 × ℝ) :=
  if x.1 > x.2.1 ∨ x.2.2.1 > x.2.2.2 ∨ (ijToM x.1 x.2.1).val > max ∨ (ijToM x.2.2.1 x.2.2.2).val > max then none
  else some (ijToM x.1 x.2.1, ijToM x.2.2.1 x.2.2.2, (if x.1 = x.2.1 then 1 else SQRT_2) * (if x.2.2.1 = x.2.2.2 then 1 else SQRT_2) *
    d x.1 x.2.1 x.2.2.1 x.2.2.2)

theorem setStdWrite_some {max : Nat} {d : Array4} {i j k l : Fin 3} {m n : Fin 9} {v : ℝ} (h : setStdWrite max d (i, j, k, l) = some (m, n, v)) :
    ijToM i j = m ∧ ijToM k l = n ∧ (if i = j then 1 else SQRT_2) * (if k = l then 1 else SQRT_2) * d i j k l = v := by
  rw [setStdWrite] at h
  by_cases hc : i > j ∨ k > l ∨ (ijToM i j).val > max ∨ (ijToM k l).val > max
  · rw [if_pos hc] at h
    exact absurd h (by simp)
  · rw [if_neg hc] at h
    simpa using h

theorem ijToM_lt3 (i j : Fin 3) : (ijToM i j).val < 3 ↔ i = j := by decide +revert

theorem ijToM_gt2 (i j : Fin 3) : (ijToM i j).val > 2 ↔ i ≠ j := by decide +revert

theorem setStdSym_ok (max : Nat) (d : Array4) (x : Fin 3 × Fin 3 × Fin 3 × Fin 3) (h : ¬ setStdBad max d x) (t : Tensor4) :
    Tensor4.setStdSym max d x t = ok (t.write (setStdWrite max d x)) := by
  unfold Tensor4.setStdSym setStdWrite
  rw [setStdBad] at h
  obtain ⟨i, j, k, l⟩ := x
  simp only [ijklToMn_eq, ijToM_lt3, ijToM_gt2] at h ⊢
  by_cases h1 : i > j ∨ k > l
  · rw [if_pos h1] at h ⊢
    rw [if_neg h, if_pos (by tauto)]
    rfl
  · rw [if_neg h1] at h ⊢
    by_cases h2 : (ijToM i j).val > max ∨ (ijToM k l).val > max
    · rw [if_pos h2, if_neg (by tauto), if_pos (by tauto)]
      rfl
    · rw [if_neg h2]
      have : ¬ (i > j ∨ k > l ∨ (ijToM i j).val > max ∨ (ijToM k l).val > max) := by tauto
      rw [if_neg this]
      by_cases h3 : i = j <;> by_cases h4 : k = l <;> simp only [h3, h4, if_true, if_false, and_self, and_true, and_false, true_and, false_and,
        ne_eq, not_true_eq_false, not_false_eq_true, Tensor4.write, one_mul, mul_one]
      rw [sq2_mul]

theorem setStdSym_bad (max : Nat) (d : Array4) (x : Fin 3 × Fin 3 × Fin 3 × Fin 3) (h : setStdBad max d x) (t : Tensor4) :
    ∃ msg, Tensor4.setStdSym max d x t = err msg := by
  unfold Tensor4.setStdSym
  rw [setStdBad] at h
  obtain ⟨i, j, k, l⟩ := x
  simp only [ijklToMn_eq] at h ⊢
  by_cases h1 : i > j ∨ k > l
  · rw [if_pos h1] at h ⊢
    exact ⟨_, if_pos h⟩
  · rw [if_neg h1] at h ⊢
    rw [if_pos h.1]
    exact ⟨_, if_pos h.2⟩

theorem inPlane_iff (i j : Fin 3) (h : i ≤ j) : InPlane .Symmetric2D i j ↔ (ijToM i j).val ≤ 3 := by
  simp only [InPlane, forall_const]
  decide +revert

theorem ijToM_le5 (i j : Fin 3) (h : i ≤ j) : (ijToM i j).val ≤ 5 := by decide +revert

/-- No index is refused exactly for the arrays that can be represented. -/
theorem setStdBad_iff (rep : Rep) (hr : rep ≠ .General) (d : Array4) :
    (∀ x, ¬ setStdBad (if rep.dim = 4 then 3 else 6) d x) ↔ Representable4 rep d := by
  rw [representable4_iff]
  constructor
  · intro h
    have hs : ∀ i j k l, d i j k l = d j i k l ∧ d i j k l = d i j l k := by
      intro i j k l
      have bad : ∀ i j k l, (i > j ∨ k > l) → d i j k l = d j i k l ∧ d i j k l = d i j l k ∧ d i j k l = d j i l k := by
        intro i j k l hx
        have := h (i, j, k, l)
        rw [setStdBad, if_pos hx] at this
        simp only [not_or, not_not] at this
        exact this
      constructor
      · rcases lt_trichotomy i j with a | a | a
        · exact (bad j i k l (Or.inl a)).1.symm
        · rw [a]
        · exact (bad i j k l (Or.inl a)).1
      · rcases lt_trichotomy k l with a | a | a
        · exact (bad i j l k (Or.inr a)).2.1.symm
        · rw [a]
        · exact (bad i j k l (Or.inr a)).2.1
    refine ⟨fun _ => hs, ?_⟩
    have key : ∀ i j k l, i ≤ j → k ≤ l → ¬ (InPlane rep i j ∧ InPlane rep k l) → d i j k l = 0 := by
      intro i j k l hi hk hn
      have hrep : rep = .Symmetric2D := by
        by_contra hc
        exact hn ⟨fun e => absurd e hc, fun e => absurd e hc⟩
      subst hrep
      rw [inPlane_iff i j hi, inPlane_iff k l hk] at hn
      have := h (i, j, k, l)
      rw [setStdBad, if_neg (by simp [hi, hk])] at this
      simp only [Rep.dim, if_true] at this
      by_contra h0
      exact this ⟨by omega, h0⟩
    have swap : ∀ i j, InPlane rep i j ↔ InPlane rep j i := by
      intro i j
      simp only [InPlane]
      constructor <;> intro h e <;> rcases h e with h | h <;> [left; right; left; right] <;> first | exact h.symm | exact ⟨h.2, h.1⟩
    intro i j k l hn
    rcases le_total i j with a | a <;> rcases le_total k l with b | b
    · exact key i j k l a b hn
    · rw [(hs i j k l).2]
      exact key i j l k a b (by rw [swap l k]; exact hn)
    · rw [(hs i j k l).1]
      exact key j i k l a b (by rw [swap j i]; exact hn)
    · rw [(hs i j k l).1, (hs j i k l).2]
      exact key j i l k a b (by rw [swap j i, swap l k]; exact hn)
  · intro ⟨h1, h2⟩ x hx
    obtain ⟨i, j, k, l⟩ := x
    rw [setStdBad] at hx
    simp only at hx
    split at hx
    · have a := h1 hr i j k l
      have b := h1 hr i j l k
      rcases hx with h | h | h
      · exact h a.1
      · exact h a.2
      · exact h (a.2.trans b.1)
    · rename_i hle
      simp only [not_or, not_lt] at hle
      obtain ⟨hx, h0⟩ := hx
      have : rep = .Symmetric2D := by
        cases rep
        · exact absurd rfl hr
        · have := ijToM_le5 i j hle.1
          have := ijToM_le5 k l hle.2
          simp [Rep.dim] at hx
          omega
        · rfl
      subst this
      refine h0 (h2 i j k l fun hp => ?_)
      rw [inPlane_iff i j hle.1, inPlane_iff k l hle.2] at hp
      simp [Rep.dim] at hx
      omega

theorem mToIj_le (m : Fin 9) (h : m.val < 6) : (mToIj m).1 ≤ (mToIj m).2 := by decide +revert

theorem comp4_sym (d : Array4) (h : ∀ i j k l, d i j k l = d j i k l ∧ d i j k l = d i j l k) (m n : Fin 9) (hm : m.val < 6) (hn : n.val < 6) :
    comp4 d m n = (if (mToIj m).1 = (mToIj m).2 then 1 else SQRT_2) * (if (mToIj n).1 = (mToIj n).2 then 1 else SQRT_2) *
      d (mToIj m).1 (mToIj m).2 (mToIj n).1 (mToIj n).2 := by
  rw [← setStdValue_eq]
  unfold Tensor4.setStdValue
  have a := mToIj_le m hm
  have b := mToIj_le n hn
  generalize (mToIj m).1 = i at *
  generalize (mToIj m).2 = j at *
  generalize (mToIj n).1 = k at *
  generalize (mToIj n).2 = l at *
  have e1 := (h i j k l).2
  have e2 := (h i j k l).1
  have e3 := (h i j l k).1
  rcases a.lt_or_eq with a | rfl <;> rcases b.lt_or_eq with b | rfl
  · simp only [a, b, a.ne, b.ne, if_false, and_self, if_true, false_and, and_false]
    rw [← e3, ← e1, ← e2]
    kelvin
  · simp only [a, a.ne, if_false, and_true, if_true, false_and, and_false, lt_self_iff_false]
    rw [← e2]
    kelvin
  · simp only [b, b.ne, if_false, and_true, if_true, false_and, and_false, true_and]
    rw [← e1]
    kelvin
  · simp

/-- `set_std_array` accepts exactly the arrays that the representation can hold, and the tensor then is that array. -/
theorem C69_set_std_array (t : Tensor4) (d : Array4) :
    (Representable4 t.rep d → ∃ t', t.setStdArray d = ok t' ∧ t'.rep = t.rep ∧ t'.std = d) ∧
      (¬ Representable4 t.rep d → ∃ msg, t.setStdArray d = err msg) := by
  have hd : ∀ rep : Rep, (rep.dim = 4 ∨ rep.dim = 6) ↔ rep ≠ .General := by intro r; cases r <;> simp [Rep.dim]
  unfold Tensor4.setStdArray
  simp only [hd]
  by_cases hr : t.rep = .General
  · simp only [hr, ne_eq, not_true_eq_false, if_false]
    have hrep : Representable4 .General d := (representable4_iff _ _).2 ⟨by simp, fun i j k l h => by simp [InPlane] at h⟩
    refine ⟨fun _ => ?_, fun h => absurd hrep h⟩
    obtain ⟨t', h1, h2, -, h4⟩ := forAll_ok (fun (x : Fin 3 × Fin 3 × Fin 3 × Fin 3) t =>
        ok (t.set (ijklToMn x.1 x.2.1 x.2.2.1 x.2.2.2).1 (ijklToMn x.1 x.2.1 x.2.2.1 x.2.2.2).2 (Tensor4.setStdValue d x.1 x.2.1 x.2.2.1 x.2.2.2)))
      (fun x => some (ijToM x.1 x.2.1, ijToM x.2.2.1 x.2.2.2, Tensor4.setStdValue d x.1 x.2.1 x.2.2.1 x.2.2.2)) allIjkl
      (fun x _ t => by rw [ijklToMn_eq]; rfl) t
    refine ⟨t', h1, by rw [h2, hr], ?_⟩
    rw [std4_eq, h2, hr]
    have : cut2 .General t'.mat = comp4 d := by
      funext m n
      rw [cut2, if_pos ⟨by simp [Rep.dim], by simp [Rep.dim]⟩]
      refine h4 m n _ ?_ (Or.inl ⟨((mToIj m).1, (mToIj m).2, (mToIj n).1, (mToIj n).2), mem_allIjkl _, by
        simp only [ijToM_mToIj, setStdValue_eq]⟩)
      rintro ⟨i, j, k, l⟩ - v' hx
      simp only [Option.some.injEq, Prod.mk.injEq] at hx
      obtain ⟨rfl, rfl, rfl⟩ := hx
      rw [← setStdValue_eq]
      simp only [mToIj_ijToM]
    rw [this, mat99_comp4]
  · simp only [ne_eq, hr, not_false_eq_true, if_true]
    constructor
    · intro h
      have hb := (setStdBad_iff t.rep hr d).2 h
      have hs := ((representable4_iff _ _).1 h).1 hr
      obtain ⟨t', h1, h2, -, h4⟩ := forAll_ok (Tensor4.setStdSym (if t.rep.dim = 4 then 3 else 6) d)
        (setStdWrite (if t.rep.dim = 4 then 3 else 6) d) allIjkl (fun x _ t => setStdSym_ok _ d x (hb x) t) t
      refine ⟨t', h1, h2, ?_⟩
      rw [std4_eq, h2]
      obtain ⟨f, u, hf⟩ := h
      rw [← hf, std4_eq]
      congr 1
      have hf' : cut2 t.rep f = comp4 d := by rw [← hf, std4_eq, comp4_mat99]
      rw [hf']
      funext m n
      rw [cut2]
      split
      · rename_i hmn
        have h6 : t.rep.dim ≤ 6 := by cases hc : t.rep <;> simp_all [Rep.dim]
        have hmax : m.val ≤ (if t.rep.dim = 4 then 3 else 6) ∧ n.val ≤ (if t.rep.dim = 4 then 3 else 6) := by
          cases hc : t.rep <;> simp_all [Rep.dim] <;> omega
        have a := mToIj_le m (by omega)
        have b := mToIj_le n (by omega)
        rw [comp4_sym d hs m n (by omega) (by omega)]
        refine h4 m n _ ?_ (Or.inl ⟨((mToIj m).1, (mToIj m).2, (mToIj n).1, (mToIj n).2), mem_allIjkl _, ?_⟩)
        · rintro ⟨i, j, k, l⟩ - v' hx
          obtain ⟨rfl, rfl, rfl⟩ := setStdWrite_some hx
          simp only [mToIj_ijToM]
        · rw [setStdWrite, if_neg]
          · simp only [ijToM_mToIj]
          · simp only [ijToM_mToIj, not_or, not_lt]
            exact ⟨a, b, hmax.1, hmax.2⟩
      · rename_i hmn
        rw [← hf', cut2, if_neg hmn]
    · intro h
      rw [← setStdBad_iff t.rep hr d] at h
      push Not at h
      obtain ⟨x, hx⟩ := h
      exact forAll_err _ (setStdBad _ d) (fun x hx t => ⟨_, setStdSym_ok _ d x hx t⟩) (setStdSym_bad _ d) _ ⟨x, mem_allIjkl x, hx⟩ t

theorem C69_from_std_array (rep : Rep) (d : Array4) :
    (Representable4 rep d → ∃ t, Tensor4.fromStdArray d rep = ok t ∧ t.rep = rep ∧ t.std = d) ∧
      (¬ Representable4 rep d → ∃ msg, Tensor4.fromStdArray d rep = err msg) :=
  C69_set_std_array (Tensor4.new rep) d

/-- `as_std_matrix`: the entry `mn` is the component `ijkl` of the map `MN_TO_IJKL`. -/
theorem C69_as_std_matrix (t : Tensor4) (i j k l : Fin 3) : t.asStdMatrix (ijToM i j) (ijToM k l) = t.std i j k l := by
  rw [Tensor4.asStdMatrix, C69_get_std, mnToIjkl_eq]
  simp only [mToIj_ijToM]

/-- `set_std_matrix` accepts the matrices of `as_std_matrix`, and is its inverse. -/
theorem C69_set_std_matrix (t : Tensor4) (inp : Fin 9 → Fin 9 → ℝ) :
    (∀ t', t.setStdMatrix inp = ok t' → t'.rep = t.rep ∧ t'.asStdMatrix = inp) ∧
      ((∃ u : Tensor4, u.rep = t.rep ∧ u.asStdMatrix = inp) → ∃ t', t.setStdMatrix inp = ok t') ∧
      ((¬ ∃ u : Tensor4, u.rep = t.rep ∧ u.asStdMatrix = inp) → ∃ msg, t.setStdMatrix inp = err msg) := by
  have h := C69_set_std_array t fun i j k l => inp (ijklToMn i j k l).1 (ijklToMn i j k l).2
  have back : ∀ u : Tensor4, u.std = (fun i j k l => inp (ijklToMn i j k l).1 (ijklToMn i j k l).2) ↔ u.asStdMatrix = inp := by
    intro u
    constructor
    · intro hu
      funext m n
      have := C69_as_std_matrix u (mToIj m).1 (mToIj m).2 (mToIj n).1 (mToIj n).2
      rw [hu] at this
      simpa only [ijklToMn_eq, ijToM_mToIj] using this
    · intro hu
      funext i j k l
      rw [← C69_as_std_matrix, hu, ijklToMn_eq]
  have rep : Representable4 t.rep (fun i j k l => inp (ijklToMn i j k l).1 (ijklToMn i j k l).2) ↔
      ∃ u : Tensor4, u.rep = t.rep ∧ u.asStdMatrix = inp := by
    constructor
    · rintro ⟨f, u, e⟩
      exact ⟨⟨t.rep, f, u⟩, rfl, (back _).1 e⟩
    · rintro ⟨⟨r, f, u⟩, hr, e⟩
      simp only at hr
      subst hr
      exact ⟨f, u, (back _).2 e⟩
  rw [rep] at h
  refine ⟨fun t' e => ?_, fun hu => ?_, fun hu => h.2 hu⟩
  · by_cases hu : ∃ u : Tensor4, u.rep = t.rep ∧ u.asStdMatrix = inp
    · obtain ⟨t'', e', h1, h2⟩ := h.1 hu
      have : t'' = t' := by
        have := e'.symm.trans e
        exact Res.ok.inj this
      subst this
      exact ⟨h1, (back _).1 h2⟩
    · obtain ⟨msg, e'⟩ := h.2 hu
      exact absurd (e'.symm.trans e) (by simp)
  · obtain ⟨t', e, -⟩ := h.1 hu
    exact ⟨t', e⟩

theorem matchSym (m : Fin 9) (p q : Fin 3) (h : m.val < 6) :
    ijToMSym p q = m ↔ (p = (mToIj m).1 ∧ q = (mToIj m).2) ∨ (p = (mToIj m).2 ∧ q = (mToIj m).1) := by decide +revert

theorem toStdBody_eq (t : Tensor4) (hr : t.rep ≠ .General) (dd : Array4) (m n : Fin 9) (hm : m.val < 6) (hn : n.val < 6) (p q r s : Fin 3) :
    t.toStdBody dd m n p q r s = if ijToMSym p q = m ∧ ijToMSym r s = n then t.std p q r s else dd p q r s := by
  have hs := ((representable4_iff t.rep t.std).1 ⟨t.mat, t.useLoops, rfl⟩).1 hr
  simp only [Tensor4.toStdBody, mnToIjkl_eq, matchSym m p q hm, matchSym n r s hn, C69_get_std]
  generalize (mToIj m).1 = i
  generalize (mToIj m).2 = j
  generalize (mToIj n).1 = k
  generalize (mToIj n).2 = l
  have e1 := (hs i j k l).1
  have e2 := (hs i j k l).2
  have e3 := (hs j i k l).2
  by_cases h : i ≠ j ∨ k ≠ l
  · rw [if_pos h]
    simp only [and_self, if_true, ite_self]
    by_cases c1 : p = j ∧ q = i ∧ r = l ∧ s = k
    · rw [if_pos c1]
      obtain ⟨rfl, rfl, rfl, rfl⟩ := c1
      rw [if_pos (by simp), e1, e3]
    · rw [if_neg c1]
      by_cases c2 : p = i ∧ q = j ∧ r = l ∧ s = k
      · rw [if_pos c2]
        obtain ⟨rfl, rfl, rfl, rfl⟩ := c2
        rw [if_pos (by simp), e2]
      · rw [if_neg c2]
        by_cases c3 : p = j ∧ q = i ∧ r = k ∧ s = l
        · rw [if_pos c3]
          obtain ⟨rfl, rfl, rfl, rfl⟩ := c3
          rw [if_pos (by simp), e1]
        · rw [if_neg c3]
          by_cases c4 : p = i ∧ q = j ∧ r = k ∧ s = l
          · rw [if_pos c4]
            obtain ⟨rfl, rfl, rfl, rfl⟩ := c4
            rw [if_pos (by simp)]
          · rw [if_neg c4, if_neg]
            rintro ⟨h | h, g | g⟩
            · exact c4 ⟨h.1, h.2, g.1, g.2⟩
            · exact c2 ⟨h.1, h.2, g.1, g.2⟩
            · exact c3 ⟨h.1, h.2, g.1, g.2⟩
            · exact c1 ⟨h.1, h.2, g.1, g.2⟩
  · rw [if_neg h]
    have h1 : i = j := by tauto
    have h2 : k = l := by tauto
    subst h1 h2
    by_cases hp : p = i ∧ q = i ∧ r = k ∧ s = k
    · obtain ⟨rfl, rfl, rfl, rfl⟩ := hp
      simp
    · rw [if_neg hp, if_neg (by tauto)]

/-- The components of the array that the loops of `to_std_array` write: all, or those in the plane. -/
theorem toStdArray_eq (t : Tensor4) (hr : t.rep ≠ .General) (dd : Array4) (p q r s : Fin 3) :
    t.toStdArray dd p q r s = if (ijToMSym p q).val < t.dim ∧ (ijToMSym r s).val < t.dim then t.std p q r s else dd p q r s := by
  have h6 : t.dim ≤ 6 := by rw [Tensor4.dim]; cases hc : t.rep <;> simp_all [Rep.dim]
  rw [Tensor4.toStdArray, if_pos (by omega)]
  have inner : ∀ (dd : Array4) (m : Fin 9), m.val < 6 → ∀ p q r s,
      ((List.finRange 9).filter fun n => decide (n.val < t.dim)).foldl (fun dd n => t.toStdBody dd m n) dd p q r s =
        if ijToMSym p q = m ∧ (ijToMSym r s).val < t.dim then t.std p q r s else dd p q r s := by
    intro dd m hm p q r s
    have key : ∀ (l : List (Fin 9)), (∀ n ∈ l, n.val < 6) → ∀ dd : Array4, l.foldl (fun dd n => t.toStdBody dd m n) dd p q r s =
        if ijToMSym p q = m ∧ ijToMSym r s ∈ l then t.std p q r s else dd p q r s := by
      intro l
      induction l with
      | nil => simp
      | cons n l ih =>
        intro hl dd
        rw [List.foldl_cons, ih (fun n hn => hl n (List.mem_cons_of_mem _ hn)), toStdBody_eq t hr dd m n hm (hl n (by simp))]
        by_cases a : ijToMSym p q = m <;> by_cases b : ijToMSym r s ∈ l <;> by_cases c : ijToMSym r s = n <;> simp [a, b, c]
    rw [key _ (fun n hn => by
      have := (List.mem_filter.1 hn).2
      simp only [decide_eq_true_eq] at this
      omega)]
    simp
  have key : ∀ (l : List (Fin 9)), (∀ m ∈ l, m.val < 6) → ∀ dd : Array4, l.foldl (fun dd m =>
      ((List.finRange 9).filter fun n => decide (n.val < t.dim)).foldl (fun dd n => t.toStdBody dd m n) dd) dd p q r s =
        if ijToMSym p q ∈ l ∧ (ijToMSym r s).val < t.dim then t.std p q r s else dd p q r s := by
    intro l
    induction l with
    | nil => simp
    | cons m l ih =>
      intro hl dd
      rw [List.foldl_cons, ih (fun n hn => hl n (List.mem_cons_of_mem _ hn)), inner dd m (hl m (by simp))]
      by_cases a : ijToMSym p q = m <;> by_cases b : ijToMSym p q ∈ l <;> by_cases c : (ijToMSym r s).val < t.dim <;> simp [a, b, c]
  rw [key _ (fun n hn => by
    have := (List.mem_filter.1 hn).2
    simp only [decide_eq_true_eq] at this
    omega)]
  simp

theorem inPlane_sym (i j : Fin 3) : InPlane .Symmetric2D i j ↔ (ijToMSym i j).val < 4 := by
  simp only [InPlane, forall_const]
  decide +revert

/-- `to_std_array` writes all standard components, in 2D for an array whose other components are zero. -/
theorem C69_to_std_array (t : Tensor4) (dd : Array4) (h : ∀ i j k l, ¬ (InPlane t.rep i j ∧ InPlane t.rep k l) → dd i j k l = 0) :
    t.toStdArray dd = t.std := by
  funext p q r s
  by_cases hr : t.rep = .General
  · rw [Tensor4.toStdArray, if_neg (by simp [Tensor4.dim, hr, Rep.dim]), C69_get_std]
  · rw [toStdArray_eq t hr]
    split
    · rfl
    · rename_i hn
      have hout : ¬ (InPlane t.rep p q ∧ InPlane t.rep r s) := by
        rw [Tensor4.dim] at hn
        cases hc : t.rep
        · exact absurd hc hr
        · rw [hc] at hn
          have h6 : ∀ i j : Fin 3, (ijToMSym i j).val < 6 := by decide
          exact absurd ⟨h6 p q, h6 r s⟩ hn
        · rw [hc] at hn
          rw [inPlane_sym, inPlane_sym]
          exact hn
      rw [h p q r s hout, ((representable4_iff t.rep t.std).1 ⟨t.mat, t.useLoops, rfl⟩).2 p q r s hout]

theorem C69_as_std_array (t : Tensor4) : t.asStdArray = t.std := C69_to_std_array t _ fun _ _ _ _ _ => rfl

/-- In 2D the other components of the given array are kept. -/
theorem C69_to_std_array_counterexample : ∃ (t : Tensor4) (dd : Array4), t.toStdArray dd ≠ t.std := by
  refine ⟨Tensor4.new .Symmetric2D, fun _ _ _ _ => 1, fun h => ?_⟩
  have := congrFun (congrFun (congrFun (congrFun h 0) 2) 0) 0
  rw [toStdArray_eq _ (by simp [Tensor4.new])] at this
  simp [ijToMSym, Tensor4.dim, Tensor4.new, Rep.dim, Tensor4.std] at this

theorem cut2_upto2 (r : Rep) (f old : Fin 9 → Fin 9 → ℝ) : cut2 r (upto2 r.dim f old) = cut2 r f := by
  funext m n
  simp only [cut2, upto2]
  split <;> rfl

theorem mat99_lin (a b : ℝ) (f g : Fin 9 → Fin 9 → ℝ) (i j k l : Fin 3) :
    mat99 (fun m n => a * f m n + b * g m n) i j k l = a * mat99 f i j k l + b * mat99 g i j k l := by
  simp only [mat99, Finset.mul_sum, ← Finset.sum_add_distrib]
  exact Finset.sum_congr rfl fun m _ => Finset.sum_congr rfl fun n _ => by ring

theorem cut2_lin (r : Rep) (a b : ℝ) (f g : Fin 9 → Fin 9 → ℝ) :
    cut2 r (fun m n => a * f m n + b * g m n) = fun m n => a * cut2 r f m n + b * cut2 r g m n := by
  funext m n
  simp only [cut2]
  split <;> simp

/-- `set_tensor`: α times the other tensor. -/
theorem C69_set_tensor (t other : Tensor4) (alpha : ℝ) (h : t.rep = other.rep) :
    ∃ t', t.setTensor alpha other = ok t' ∧ t'.rep = t.rep ∧ ∀ i j k l, t'.std i j k l = alpha * other.std i j k l := by
  refine ⟨_, by unfold Tensor4.setTensor; exact if_neg (by simp [h]), by rfl, fun i j k l => ?_⟩
  rw [std4_eq, std4_eq]
  simp only [Tensor4.dim, cut2_upto2]
  have := cut2_lin t.rep alpha 0 other.mat 0
  simp only [Pi.zero_apply, mul_zero, zero_mul, add_zero] at this
  rw [this, h]
  have := mat99_lin alpha 0 (cut2 other.rep other.mat) 0 i j k l
  simpa using this

/-- `update`: α times the other tensor is added. -/
theorem C69_update (t other : Tensor4) (alpha : ℝ) (h : t.rep = other.rep) :
    ∃ t', t.update alpha other = ok t' ∧ t'.rep = t.rep ∧ ∀ i j k l, t'.std i j k l = t.std i j k l + alpha * other.std i j k l := by
  refine ⟨_, by unfold Tensor4.update; exact if_neg (by simp [h]), by rfl, fun i j k l => ?_⟩
  rw [std4_eq, std4_eq, std4_eq]
  simp only [Tensor4.dim, cut2_upto2]
  have := cut2_lin t.rep 1 alpha t.mat other.mat
  simp only [one_mul] at this
  rw [this, h]
  have := mat99_lin 1 alpha (cut2 other.rep t.mat) (cut2 other.rep other.mat) i j k l
  simpa using this

/-- `sym_set_std` sets the component and those equal to it by minor symmetry, and no other. -/
theorem C69_sym_set_std (t : Tensor4) (i j k l : Fin 3) (value : ℝ) (h : t.rep ≠ .General) (hij : InPlane t.rep i j) (hkl : InPlane t.rep k l) :
    ∃ t', t.symSetStd i j k l value = ok t' ∧ t'.rep = t.rep ∧ ∀ p q r s, t'.std p q r s =
      if ((p = i ∧ q = j) ∨ (p = j ∧ q = i)) ∧ ((r = k ∧ s = l) ∨ (r = l ∧ s = k)) then value else t.std p q r s := by
  have same : ∀ p q i j : Fin 3, ((p = i ∧ q = j) ∨ (p = j ∧ q = i)) ↔ ijToMSym p q = ijToMSym i j := by decide
  have diag : ∀ p q i j : Fin 3, ijToMSym p q = ijToMSym i j → (p = q ↔ i = j) := by decide
  simp only [same]
  have hset : ∃ v, t.symSetStd i j k l value = ok (t.set (ijToMSym i j) (ijToMSym k l) v) ∧
      v = (if i = j then 1 else SQRT_2) * (if k = l then 1 else SQRT_2) * value := by
    simp only [Tensor4.symSetStd, h, if_false, ijklToMnSym_eq, sym_lt3, sym_gt2]
    by_cases a : i = j <;> by_cases b : k = l
    · exact ⟨_, if_pos ⟨a, b⟩, by simp [a, b]⟩
    · exact ⟨_, by rw [if_neg (by simp [b]), if_neg (by simp [a])], by simp [a, b, mul_comm]⟩
    · exact ⟨_, by rw [if_neg (by simp [a]), if_neg (by simp [b])], by simp [a, b, mul_comm]⟩
    · exact ⟨_, by rw [if_neg (by simp [b]), if_pos ⟨a, b⟩], by simp [a, b, sq2_mul, mul_comm]⟩
  obtain ⟨v, e, hv⟩ := hset
  refine ⟨_, e, rfl, fun p q r s => ?_⟩
  rw [← C69_get_std, ← C69_get_std]
  by_cases hm : ijToMSym p q = ijToMSym i j ∧ ijToMSym r s = ijToMSym k l
  · rw [if_pos hm]
    have hs := sq2_ne
    have d1 := diag _ _ _ _ hm.1
    have d2 := diag _ _ _ _ hm.2
    obtain ⟨rep, f, u⟩ := t
    cases rep
    · exact absurd rfl h
    · simp only [Tensor4.getStd, Tensor4.set, ijklToMnSym_eq, hm, sym_lt3, sym_gt2, hv, d1, d2]
      by_cases a : i = j <;> by_cases b : k = l <;> simp [a, b]
      all_goals field_simp
      rw [sq2_sq, mul_comm]
    · rw [inPlane_sym] at hij hkl
      have g1 : ¬ (ijToMSym i j).val > 3 := by omega
      have g2 : ¬ (ijToMSym k l).val > 3 := by omega
      simp only [Tensor4.getStd, Tensor4.set, ijklToMnSym_eq, hm, g1, g2, sym_lt3, sym_gt2, hv, d1, d2]
      by_cases a : i = j <;> by_cases b : k = l <;> simp [a, b]
      all_goals field_simp
      rw [sq2_sq, mul_comm]
  · rw [if_neg hm]
    obtain ⟨rep, f, u⟩ := t
    cases rep
    · exact absurd rfl h
    all_goals
      simp only [Tensor4.getStd, Tensor4.set, ijklToMnSym_eq, if_neg hm]

/-! ### Constant tensors -/

theorem contr_std (t : Tensor4) (A : Matrix (Fin 3) (Fin 3) ℝ) :
    contr t.std A = mat9 fun m => ∑ n, cut2 t.rep t.mat m n * comp A n := by
  conv_lhs => rw [← mat9_comp A]
  rw [std4_eq, contr_mat99]

/-- The tensor is determined by its contractions. -/
theorem contr_inj {c d : Array4} (h : ∀ A, contr c A = contr d A) : c = d := by
  funext i j k l
  have := congrFun (congrFun (h (unit k l)) i) j
  simpa [contr, unit, Matrix.of_apply, Finset.sum_ite_eq, ite_and] using this

end Russell.Tensor
