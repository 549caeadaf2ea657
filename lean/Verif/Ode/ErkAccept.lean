import Verif.Ode.ErkStep
import Mathlib.Tactic.IntervalCases
import Mathlib.Tactic.Ring
import Mathlib.Tactic.FieldSimp

/-!
# Acceptance of the steps of the explicit Runge-Kutta methods, dense output (C59)
-/

namespace Russell.Ode

open Russell Russell.Res Russell.Lab

set_option linter.unusedSectionVars false

variable {K σ : Type} [Field K] [LinearOrder K] [FloorSemiring K]

/-! ### Sums of terms -/

/-- The value of `sumTerms`. -/
def termSum (k : Nat → List K) (m : Nat) (l : List (K × Nat)) : K := (l.map fun t => t.1 * comp (k t.2) m).sum

theorem sumTerms_ok {k : List (List K)} {s n m : Nat} (hk : Rows k s n) (hm : m < n) {l : List (K × Nat)}
    (hl : ∀ t ∈ l, t.2 < s) : sumTerms k m l = ok (termSum (fun j => k.getD j []) m l) := by
  have aux : ∀ (l : List (K × Nat)) (a : K), (∀ t ∈ l, t.2 < s) →
      forList l a (fun t s => do let a ← get2 k t.2 m; ok (s + t.1 * a)) =
        ok (a + termSum (fun j => k.getD j []) m l) := by
    intro l
    induction l with
    | nil => intro a _; simp [forList, termSum]
    | cons t l ih =>
      intro a ht
      unfold forList
      dsimp only
      rw [hk.get2 (ht t List.mem_cons_self) hm, ok_bind, ok_bind, ih _ fun u hu => ht u (List.mem_cons_of_mem _ hu)]
      simp [termSum, add_assoc]
  cases l with
  | nil => unfold sumTerms; rw [lit_zero]; simp [termSum]
  | cons t l =>
    obtain ⟨c, i⟩ := t
    unfold sumTerms
    dsimp only
    rw [hk.get2 (i := i) (hl (c, i) List.mem_cons_self) hm, ok_bind, aux _ _ fun u hu => hl u (List.mem_cons_of_mem _ hu)]
    simp [termSum]

theorem getD_append {α : Type} (a b : List α) (d : α) (j : Nat) :
    (a ++ b).getD j d = if j < a.length then a.getD j d else b.getD (j - a.length) d := by
  simp only [List.getD_eq_getElem?_getD, List.getElem?_append]
  split <;> rfl

theorem rows_append {a b : List (List K)} {s s' n : Nat} (ha : Rows a s n) (hb : Rows b s' n) : Rows (a ++ b) (s + s') n := by
  refine ⟨by rw [List.length_append, ha.len, hb.len], ?_⟩
  intro r hr
  rcases List.mem_append.1 hr with h | h
  · exact ha.row r h
  · exact hb.row r h

/-! ### DoPri5 -/

/-- The coefficients of the interpolation polynomial of DoPri5 (Hairer, Nørsett and Wanner). -/
def dense5Coef (y : List K) (h : K) (w : List K) (k : Nat → List K) (r m : Nat) : K :=
  let yd := comp w m - comp y m
  let bs := h * comp (k 0) m - yd
  match r with
  | 0 => comp y m
  | 1 => yd
  | 2 => bs
  | 3 => yd - h * comp (k 6) m - bs
  | _ => h * ∑ j ∈ Finset.range 7, coef doPri5D 0 j * comp (k j) m

theorem dense5Body_post {n : Nat} {y w : List K} {h : K} {k : List (List K)} (hk : Rows k 7 n) (hy : y.length = n)
    (hw : w.length = n) {m : Nat} (hm : m < n) {d : List (List K)} (hd : Rows d 5 n)
    (hI : ∀ r q, r < 5 → q < m → comp (d.getD r []) q = dense5Coef y h w (fun j => k.getD j []) r q) :
    Post (dense5Body y h w k m d) fun d' => Rows d' 5 n ∧
      ∀ r q, r < 5 → q < m + 1 → comp (d'.getD r []) q = dense5Coef y h w (fun j => k.getD j []) r q := by
  unfold dense5Body
  rw [vget_comp hw hm, ok_bind, vget_comp hy hm, ok_bind]
  dsimp only
  rw [hk.get2 (by omega) hm, ok_bind]
  obtain ⟨d0, g0, r0, c0⟩ := hd.set2 (i := 0) (by omega) hm (comp y m)
  rw [g0, ok_bind]
  obtain ⟨d1, g1, r1, c1⟩ := r0.set2 (i := 1) (by omega) hm (comp w m - comp y m)
  rw [g1, ok_bind]
  obtain ⟨d2, g2, r2, c2⟩ := r1.set2 (i := 2) (by omega) hm (h * comp (k.getD 0 []) m - (comp w m - comp y m))
  rw [g2, ok_bind, hk.get2 (by omega) hm, ok_bind]
  obtain ⟨d3, g3, r3, c3⟩ := r2.set2 (i := 3) (by omega) hm
    (comp w m - comp y m - h * comp (k.getD 6 []) m - (h * comp (k.getD 0 []) m - (comp w m - comp y m)))
  rw [g3, ok_bind, sumTerms_ok hk hm (by simp), ok_bind]
  obtain ⟨d4, g4, r4, c4⟩ := r3.set2 (i := 4) (by omega) hm (termSum (fun j => k.getD j []) m
    [(coef doPri5D 0 0, 0), (coef doPri5D 0 2, 2), (coef doPri5D 0 3, 3), (coef doPri5D 0 4, 4),
      (coef doPri5D 0 5, 5), (coef doPri5D 0 6, 6)] * h)
  rw [g4]
  refine post_ok ⟨r4, ?_⟩
  intro r q hr hq
  rw [c4, c3, c2, c1, c0]
  rcases Nat.lt_succ_iff_lt_or_eq.1 hq with h' | h'
  · have : q ≠ m := by omega
    simp only [this, and_false, if_false]
    exact hI r q hr h'
  · subst h'
    interval_cases r
    · simp [dense5Coef]
    · simp [dense5Coef]
    · simp [dense5Coef]
    · simp [dense5Coef]
    · have e1 : (coef doPri5D 0 1 : K) = 0 := by
        unfold coef; rw [lit_eq]; simp [doPri5D]
      simp only [true_and, and_true, if_true, dense5Coef, termSum, Finset.sum_range_succ, Finset.sum_range_zero, e1]
      simp
      ring

/-- The weights of the interpolation of DoPri5 at `θ`. -/
def dense5Weight (b : Nat → K) (θ : K) (j : Nat) : K :=
  θ * (b j + (1 - θ) * ((if j = 0 then 1 else 0) - b j + θ * (2 * b j - (if j = 6 then 1 else 0) - (if j = 0 then 1 else 0) +
    (1 - θ) * coef doPri5D 0 j)))

/-- The interpolation polynomial is a Runge-Kutta result with these weights. -/
theorem dense5_value {n : Nat} {y w : List K} {h : K} {k : Nat → List K} {b : Nat → K} (hw : w = lin n y h 7 b k) (θ : K)
    {m : Nat} (hm : m < n) :
    dense5Coef y h w k 0 m + θ * (dense5Coef y h w k 1 m + (1 - θ) * (dense5Coef y h w k 2 m +
      θ * (dense5Coef y h w k 3 m + (1 - θ) * dense5Coef y h w k 4 m))) =
      comp (lin n y h 7 (dense5Weight b θ) k) m := by
  rw [comp_lin _ _ _ _ _ hm]
  unfold dense5Coef
  dsimp only
  rw [hw, comp_lin _ _ _ _ _ hm]
  simp only [Finset.sum_range_succ, Finset.sum_range_zero, dense5Weight]
  simp
  ring

/-! ### DoPri8 -/

/-- The coefficients of the interpolation polynomial of DoPri8; `kk` holds the stages and the three additional ones. -/
def dense8Coef (y : List K) (h : K) (w : List K) (kk : Nat → List K) (r m : Nat) : K :=
  let yd := comp w m - comp y m
  let bs := h * comp (kk 0) m - yd
  match r with
  | 0 => comp y m
  | 1 => yd
  | 2 => bs
  | 3 => yd - h * comp (kk 11) m - bs
  | r + 4 => h * termSum kk m (dense8Terms r)

/-- The vector of an additional stage. -/
def dense8Vec (n : Nat) (y : List K) (h : K) (kk : Nat → List K) (i : Nat) : List K :=
  (List.range n).map fun m => comp y m + h * termSum kk m (dense8Stage i)

theorem dense8Body_post {n : Nat} {y w : List K} {h : K} {kk : List (List K)} (hk : Rows kk 15 n) (hy : y.length = n)
    (hw : w.length = n) {m : Nat} (hm : m < n) {d : List (List K)} (hd : Rows d 8 n)
    (hI : ∀ r q, r < 8 → q < m → comp (d.getD r []) q = dense8Coef y h w (fun j => kk.getD j []) r q) :
    Post (dense8Body y h w kk m d) fun d' => Rows d' 8 n ∧
      ∀ r q, r < 8 → q < m + 1 → comp (d'.getD r []) q = dense8Coef y h w (fun j => kk.getD j []) r q := by
  unfold dense8Body
  have hT : ∀ r, ∀ t ∈ (dense8Terms r : List (K × Nat)), t.2 < 15 := by intro r; simp [dense8Terms]
  rw [vget_comp hw hm, ok_bind, vget_comp hy hm, ok_bind]
  dsimp only
  rw [hk.get2 (by omega) hm, ok_bind]
  obtain ⟨d0, g0, r0, c0⟩ := hd.set2 (i := 0) (by omega) hm (comp y m)
  rw [g0, ok_bind]
  obtain ⟨d1, g1, r1, c1⟩ := r0.set2 (i := 1) (by omega) hm (comp w m - comp y m)
  rw [g1, ok_bind]
  obtain ⟨d2, g2, r2, c2⟩ := r1.set2 (i := 2) (by omega) hm (h * comp (kk.getD 0 []) m - (comp w m - comp y m))
  rw [g2, ok_bind, hk.get2 (by omega) hm, ok_bind]
  obtain ⟨d3, g3, r3, c3⟩ := r2.set2 (i := 3) (by omega) hm
    (comp w m - comp y m - h * comp (kk.getD 11 []) m - (h * comp (kk.getD 0 []) m - (comp w m - comp y m)))
  rw [g3, ok_bind, sumTerms_ok hk hm (hT 0), ok_bind]
  obtain ⟨d4, g4, r4, c4⟩ := r3.set2 (i := 4) (by omega) hm (h * termSum (fun j => kk.getD j []) m (dense8Terms 0))
  rw [g4, ok_bind, sumTerms_ok hk hm (hT 1), ok_bind]
  obtain ⟨d5, g5, r5, c5⟩ := r4.set2 (i := 5) (by omega) hm (h * termSum (fun j => kk.getD j []) m (dense8Terms 1))
  rw [g5, ok_bind, sumTerms_ok hk hm (hT 2), ok_bind]
  obtain ⟨d6, g6, r6, c6⟩ := r5.set2 (i := 6) (by omega) hm (h * termSum (fun j => kk.getD j []) m (dense8Terms 2))
  rw [g6, ok_bind, sumTerms_ok hk hm (hT 3), ok_bind]
  obtain ⟨d7, g7, r7, c7⟩ := r6.set2 (i := 7) (by omega) hm (h * termSum (fun j => kk.getD j []) m (dense8Terms 3))
  rw [g7]
  refine post_ok ⟨r7, ?_⟩
  intro r q hr hq
  rw [c7, c6, c5, c4, c3, c2, c1, c0]
  rcases Nat.lt_succ_iff_lt_or_eq.1 hq with h' | h'
  · have : q ≠ m := by omega
    simp only [this, and_false, if_false]
    exact hI r q hr h'
  · subst h'
    interval_cases r <;> simp [dense8Coef]

theorem denseStage_post {n : Nat} {y : List K} (hy : y.length = n) (h : K) {k : List (List K)} {s : Nat} (hk : Rows k s n)
    {terms : List (K × Nat)} (ht : ∀ t ∈ terms, t.2 < s) {yd : List K} (hyd : yd.length = n) :
    Post (denseStage n y h k terms yd) fun r =>
      r = (List.range n).map fun m => comp y m + h * termSum (fun j => k.getD j []) m terms := by
  unfold denseStage
  refine Post.mono (post_forRange (fun m (r : List K) => r.length = n ∧
    ∀ q, q < m → comp r q = comp y q + h * termSum (fun j => k.getD j []) q terms) (Nat.zero_le _)
    ⟨hyd, fun q hq => absurd hq (Nat.not_lt_zero q)⟩ ?_) ?_
  · rintro m r - hm ⟨h1, h2⟩
    rw [vget_comp hy hm, ok_bind, sumTerms_ok hk hm ht, ok_bind]
    obtain ⟨g1, g2, g3⟩ := vset_comp h1 hm (comp y m + h * termSum (fun j => k.getD j []) m terms)
    rw [g1]
    refine post_ok ⟨g2, ?_⟩
    intro q hq
    rw [g3]
    rcases Nat.lt_succ_iff_lt_or_eq.1 hq with h' | h'
    · rw [if_neg (by omega)]; exact h2 q h'
    · rw [if_pos h', h']
  · rintro r ⟨h1, h2⟩
    apply ext_comp h1 (by simp)
    intro m hm
    rw [h2 m hm, comp_map_range _ _ hm]

variable {fns : MathFns K} {sys : System K σ} {F : K → List K → List K} {e : Erk K} {t : Coefs K}

/-- The stages and the additional stages of DoPri8. -/
def Extra8 (n : Nat) (F : K → List K → List K) (x : K) (y : List K) (h : K) (kk : Nat → List K) (i : Nat) : Prop :=
  ∀ l, l < i → kk (12 + l) = F (x + lit (doPri8CD.getD l 0) * h) (dense8Vec n y h kk l)

theorem dense8Stage_lt (i : Nat) : ∀ t ∈ (dense8Stage i : List (K × Nat)), t.2 < 12 + i ∧ t.2 < 14 := by
  match i with
  | 0 => simp [dense8Stage]
  | 1 => simp [dense8Stage]
  | i + 2 => simp [dense8Stage]; omega

theorem termSum_congr {k k' : Nat → List K} {m : Nat} {l : List (K × Nat)} (h : ∀ t ∈ l, k t.2 = k' t.2) :
    termSum k m l = termSum k' m l := by
  unfold termSum
  congr 1
  apply List.map_congr_left
  intro t ht
  rw [h t ht]

theorem dense8Eval_post (hF : Computes sys F) {x : K} {y : List K} (hy : y.length = sys.ndim) (h : K) {k : List (List K)}
    (hk : Rows k 12 sys.ndim) {i : Nat} (hi : i < 3) {o : ErkDense K} (hn : o.ndim = sys.ndim) (hkd : Rows o.kd 3 sys.ndim)
    (hyd : o.yd.length = sys.ndim) (args : σ) (hE : Extra8 sys.ndim F x y h (fun j => (k ++ o.kd).getD j []) i) :
    Post (dense8Eval sys x y h k i o args) fun r => r.1.ndim = sys.ndim ∧ r.1.method = o.method ∧ r.1.d = o.d ∧
      Rows r.1.kd 3 sys.ndim ∧ r.1.yd.length = sys.ndim ∧
      Extra8 sys.ndim F x y h (fun j => (k ++ r.1.kd).getD j []) (i + 1) := by
  unfold dense8Eval
  rw [hn]
  refine Post.bind (denseStage_post hy h (rows_append hk hkd) (fun t ht => by have := (dense8Stage_lt i t ht).2; omega) hyd) ?_
  rintro yd rfl
  rw [(hkd.get hi).1, ok_bind]
  refine Post.bind (hF.call _ _ _ _ (hkd.get hi).2 (by simp)) ?_
  rintro ⟨kdi, args'⟩ hr
  dsimp only at hr ⊢
  subst hr
  obtain ⟨g1, g2, g3⟩ := hkd.set hi (hF.len (x + lit (doPri8CD.getD i 0) * h)
    ((List.range sys.ndim).map fun m => comp y m + h * termSum (fun j => (k ++ o.kd).getD j []) m (dense8Stage i)) (by simp))
  rw [g1, ok_bind]
  refine post_ok ⟨rfl, rfl, rfl, g2, by simp, ?_⟩
  dsimp only
  generalize hkd' : o.kd.set i (F (x + lit (doPri8CD.getD i 0) * h)
    ((List.range sys.ndim).map fun m => comp y m + h * termSum (fun j => (k ++ o.kd).getD j []) m (dense8Stage i))) = kd' at g2 g3
  have hval : ∀ j, (k ++ kd').getD j [] = if j = 12 + i then F (x + lit (doPri8CD.getD i 0) * h)
    ((List.range sys.ndim).map fun m => comp y m + h * termSum (fun j => (k ++ o.kd).getD j []) m (dense8Stage i))
      else (k ++ o.kd).getD j [] := by
    intro j
    rw [getD_append, getD_append, hk.len, g3]
    by_cases hj : j < 12
    · rw [if_pos hj, if_neg (by omega), if_pos hj]
    · rw [if_neg hj, if_neg hj]
      by_cases h2 : j = 12 + i
      · rw [if_pos (by omega), if_pos h2]
      · rw [if_neg (by omega), if_neg h2]
  have hvec : ∀ l, l ≤ i → dense8Vec sys.ndim y h (fun j => (k ++ kd').getD j []) l =
      dense8Vec sys.ndim y h (fun j => (k ++ o.kd).getD j []) l := by
    intro l hl
    unfold dense8Vec
    congr 1
    funext m
    congr 2
    apply termSum_congr
    intro t ht
    have := (dense8Stage_lt l t ht).1
    rw [hval, if_neg (by omega)]
  intro l hl
  rw [hvec l (by omega)]
  dsimp only
  rw [hval]
  by_cases h2 : l = i
  · subst h2; rw [if_pos rfl]; rfl
  · rw [if_neg (by omega)]
    exact hE l (by omega)

/-- What `update` stores for the interpolation. -/
def DenseData (n : Nat) (F : K → List K → List K) (x : K) (y : List K) (h : K) (w : List K) (k : Nat → List K)
    (o : ErkDense K) : Prop :=
  (o.method = .DoPri5 → ∀ r m, r < 5 → m < n → comp (o.d.getD r []) m = dense5Coef y h w k r m) ∧
  (o.method = .DoPri8 → ∃ kk : Nat → List K, (∀ j, j < 12 → kk j = k j) ∧ Extra8 n F x y h kk 3 ∧
    ∀ r m, r < 8 → m < n → comp (o.d.getD r []) m = dense8Coef y h w kk r m)

theorem denseUpdate_post (hF : Computes sys F) {x : K} {y w : List K} (hy : y.length = sys.ndim) (hw : w.length = sys.ndim)
    (h : K) {k : List (List K)} {s : Nat} (hk : Rows k s sys.ndim) {o : ErkDense K} {method : Method}
    (hO : o.Holds sys.ndim method) (h5 : method = .DoPri5 → s = 7) (h8 : method = .DoPri8 → s = 12) (args : σ) :
    Post (o.update sys x y h w k args) fun r => r.1.Holds sys.ndim method ∧
      DenseData sys.ndim F x y h w (fun j => k.getD j []) r.1 ∧ r.2.1 = if method = .DoPri8 then 3 else 0 := by
  unfold ErkDense.update
  rw [hO.method]
  split
  · rename_i hm
    have hs := h5 hm
    subst hs
    rw [hO.ndim]
    refine Post.bind (post_forRange (fun m d => Rows d 5 sys.ndim ∧
      ∀ r q, r < 5 → q < m → comp (d.getD r []) q = dense5Coef y h w (fun j => k.getD j []) r q) (Nat.zero_le _)
      ⟨hO.five hm, fun r q _ hq => absurd hq (Nat.not_lt_zero q)⟩
      (fun m d _ hm hd => dense5Body_post hk hy hw hm hd.1 hd.2)) ?_
    rintro d ⟨hd1, hd2⟩
    refine post_ok ⟨⟨rfl, rfl, fun _ => hd1, fun h => ?_⟩, ⟨fun _ => hd2, fun h => ?_⟩, ?_⟩
    · rw [hm] at h; cases h
    · dsimp only at h; rw [hm] at h; cases h
    · rw [hm]; rfl
  · rename_i hm5
    split
    · rename_i hm
      have hs := h8 hm
      subst hs
      obtain ⟨q1, q2, q3⟩ := hO.eight hm
      refine Post.bind (dense8Eval_post hF (x := x) hy h hk (i := 0) (by omega) hO.ndim q2 q3 args
        (fun l hl => absurd hl (Nat.not_lt_zero l))) ?_
      rintro ⟨o1, args1⟩ ⟨a1, a2, a3, a4, a5, a6⟩
      dsimp only at a1 a2 a3 a4 a5 a6 ⊢
      refine Post.bind (dense8Eval_post hF (x := x) hy h hk (i := 1) (by omega) a1 a4 a5 args1 a6) ?_
      rintro ⟨o2, args2⟩ ⟨b1, b2, b3, b4, b5, b6⟩
      dsimp only at b1 b2 b3 b4 b5 b6 ⊢
      refine Post.bind (dense8Eval_post hF (x := x) hy h hk (i := 2) (by omega) b1 b4 b5 args2 b6) ?_
      rintro ⟨o3, args3⟩ ⟨c1, c2, c3, c4, c5, c6⟩
      dsimp only at c1 c2 c3 c4 c5 c6 ⊢
      rw [c1]
      have hd0 : Rows o3.d 8 sys.ndim := by rw [c3, b3, a3]; exact q1
      refine Post.bind (post_forRange (fun m d => Rows d 8 sys.ndim ∧
        ∀ r q, r < 8 → q < m → comp (d.getD r []) q = dense8Coef y h w (fun j => (k ++ o3.kd).getD j []) r q) (Nat.zero_le _)
        ⟨hd0, fun r q _ hq => absurd hq (Nat.not_lt_zero q)⟩
        (fun m d _ hm hd => dense8Body_post (rows_append hk c4) hy hw hm hd.1 hd.2)) ?_
      rintro d ⟨hd1, hd2⟩
      have hmeth : o3.method = method := by rw [c2, b2, a2]; exact hO.method
      refine post_ok ⟨⟨hmeth, rfl, fun h => ?_, fun _ => ⟨hd1, c4, c5⟩⟩, ⟨fun h => ?_, fun _ => ?_⟩, ?_⟩
      · rw [hm] at h; cases h
      · have h' := hmeth.symm.trans h; rw [hm] at h'; cases h'
      · refine ⟨fun j => (k ++ o3.kd).getD j [], ?_, c6, hd2⟩
        intro j hj
        dsimp only
        rw [getD_append, hk.len, if_pos hj]
      · rfl
    · rename_i hm8
      refine post_ok ⟨hO, ⟨fun h => ?_, fun h => ?_⟩, rfl⟩
      · exact absurd (hO.method.symm.trans h) hm5
      · exact absurd (hO.method.symm.trans h) hm8

theorem saveDense_post (hF : Computes sys F) (hH : e.Holds sys.ndim t) {x : K} {y : List K} (hy : y.length = sys.ndim) (h : K)
    (work : Workspace K) (args : σ) :
    Post (e.saveDense sys work x y h args) fun r =>
      (∃ o', r.1 = { e with dense_out := o' } ∧ (o'.isSome = e.dense_out.isSome) ∧
        ∀ o, o' = some o → o.Holds sys.ndim e.params.method ∧ DenseData sys.ndim F x y h e.w (fun j => e.k.getD j []) o) ∧
      ∃ n, r.2.1 = work.addFunction n := by
  unfold Erk.saveDense
  cases ho : e.dense_out with
  | none =>
    dsimp only
    refine post_ok ⟨⟨none, ?_, rfl, fun o h => by cases h⟩, 0, rfl⟩
    cases e; simp_all
  | some o =>
    dsimp only
    refine Post.bind (denseUpdate_post hF (x := x) hy hH.w h hH.k (hH.dense o ho) hH.five (fun h => (hH.eight h).1) args) ?_
    rintro ⟨o', n, args'⟩ ⟨q1, q2, -⟩
    dsimp only at q1 q2 ⊢
    exact post_ok ⟨⟨some o', rfl, rfl, fun o h => by cases h; exact ⟨q1, q2⟩⟩, n, rfl⟩

/-- `k0 := ks`. -/
theorem shift_post (hH : e.Holds sys.ndim t) : Post (e.shift sys.ndim) fun e' => ∃ k', e' = { e with k := k' } ∧
    Rows k' t.s sys.ndim ∧ (e.info.first_step_same_as_last = true → k'.getD 0 [] = e.k.getD (t.s - 1) []) := by
  unfold Erk.shift
  have hs := hH.pos
  split
  · rename_i hsame
    refine Post.bind (post_forRange (fun m k => Rows k t.s sys.ndim ∧
      (∀ q, q < m → comp (k.getD 0 []) q = comp (e.k.getD (t.s - 1) []) q) ∧
      (∀ q, comp (k.getD (t.s - 1) []) q = comp (e.k.getD (t.s - 1) []) q)) (Nat.zero_le _)
      ⟨hH.k, fun q hq => absurd hq (Nat.not_lt_zero q), fun q => rfl⟩ ?_) ?_
    · rintro m k - hm ⟨h1, h2, h3⟩
      rw [show subUsize e.nstage 1 = ok (t.s - 1) by unfold subUsize; rw [hH.nstage, if_pos (by omega)], ok_bind,
        h1.get2 (by omega) hm, ok_bind]
      obtain ⟨k', g1, g2, g3⟩ := h1.set2 (i := 0) (by omega) hm (comp (k.getD (t.s - 1) []) m)
      rw [g1]
      refine post_ok ⟨g2, ?_, ?_⟩
      · intro q hq
        rw [g3]
        by_cases hqm : q = m
        · subst hqm; rw [if_pos ⟨rfl, rfl⟩]; exact h3 q
        · rw [if_neg (fun h => hqm h.2)]; exact h2 q (by omega)
      · intro q
        rw [g3]
        by_cases hc : t.s - 1 = 0 ∧ q = m
        · rw [if_pos hc, hc.2]; exact h3 m
        · rw [if_neg hc]; exact h3 q
    · rintro k ⟨h1, h2, h3⟩
      refine post_ok ⟨k, rfl, h1, fun _ => ?_⟩
      exact ext_comp (h1.get (by omega)).2 (hH.k.get (by omega)).2 h2
  · rename_i hsame
    exact post_ok ⟨e.k, by cases e; rfl, hH.k, fun h => absurd h hsame⟩

theorem detect_post (work : Workspace K) (x : K) (p : ErkParams K) :
    Post (detectStiffness work x p) fun w => w.stats = work.stats ∧ w.follows_reject_step = work.follows_reject_step ∧
      w.h_new = work.h_new ∧ w.rel_error = work.rel_error ∧ w.iterations_diverging = work.iterations_diverging := by
  unfold detectStiffness
  dsimp only
  split
  · exact post_ok ⟨rfl, rfl, rfl, rfl, rfl⟩
  · split
    · split
      · split
        · exact post_err _
        · exact post_ok ⟨rfl, rfl, rfl, rfl, rfl⟩
      · exact post_ok ⟨rfl, rfl, rfl, rfl, rfl⟩
    · split
      · exact post_ok ⟨rfl, rfl, rfl, rfl, rfl⟩
      · exact post_ok ⟨rfl, rfl, rfl, rfl, rfl⟩

theorem stiffSums_post {n : Nat} {ka kb va vb : List K} (h1 : ka.length = n) (h2 : kb.length = n) (h3 : va.length = n)
    (h4 : vb.length = n) : Post (stiffSums n ka kb va vb) fun s =>
      s = (∑ m ∈ Finset.range n, (comp ka m - comp kb m) ^ 2, ∑ m ∈ Finset.range n, (comp va m - comp vb m) ^ 2) := by
  unfold stiffSums
  refine Post.mono (post_forRange (fun n s =>
      s = (∑ m ∈ Finset.range n, (comp ka m - comp kb m) ^ 2, ∑ m ∈ Finset.range n, (comp va m - comp vb m) ^ 2))
      (Nat.zero_le _) (by rw [lit_zero]; simp) ?_) fun s hs => hs
  rintro m s - hm rfl
  rw [vget_comp h1 hm, ok_bind, vget_comp h2 hm, ok_bind, vget_comp h3 hm, ok_bind, vget_comp h4 hm, ok_bind]
  apply post_ok
  rw [Finset.sum_range_succ, Finset.sum_range_succ]
  simp only [sq]

/-- What the new workspace shares with the old one. -/
def SameWork (w w' : Workspace K) : Prop :=
  (∃ n, w'.stats = (w.addFunction n).stats) ∧ w'.follows_reject_step = w.follows_reject_step ∧ w'.h_new = w.h_new ∧
    w'.iterations_diverging = w.iterations_diverging

theorem setRho_same (work : Workspace K) (h : K) (s : K × K) : (setRho fns work h s).stats = work.stats ∧
    (setRho fns work h s).follows_reject_step = work.follows_reject_step ∧ (setRho fns work h s).h_new = work.h_new ∧
    (setRho fns work h s).iterations_diverging = work.iterations_diverging := by
  unfold setRho
  split <;> exact ⟨rfl, rfl, rfl, rfl⟩

theorem stiffness_post (hF : Computes sys F) (hH : e.Holds sys.ndim t) (work : Workspace K) (x : K) {y : List K}
    (hy : y.length = sys.ndim) (h : K) (args : σ) :
    Post (e.stiffness fns sys work x y h args) fun r =>
      (∃ k', r.1 = { e with k := k' } ∧ Rows k' t.s sys.ndim ∧
        (e.info.first_step_same_as_last = true → k' = e.k)) ∧ SameWork work r.2.1 := by
  unfold Erk.stiffness
  have hself : e = { e with k := e.k } := by cases e; rfl
  have h0 : SameWork work work := ⟨⟨0, rfl⟩, rfl, rfl, rfl⟩
  split
  · split
    · rename_i hm
      have hs := hH.five hm
      obtain ⟨a1, a2⟩ := hH.k.get (i := 6) (by omega)
      obtain ⟨b1, b2⟩ := hH.k.get (i := 5) (by omega)
      obtain ⟨c1, c2⟩ := hH.v.get (i := 6) (by omega)
      obtain ⟨d1, d2⟩ := hH.v.get (i := 5) (by omega)
      rw [a1, ok_bind, b1, ok_bind, c1, ok_bind, d1, ok_bind]
      refine Post.bind (stiffSums_post a2 b2 c2 d2) ?_
      intro s _
      refine Post.bind (detect_post _ _ _) ?_
      rintro w ⟨q1, q2, q3, -, q5⟩
      obtain ⟨p1, p2, p3, p4⟩ := setRho_same (fns := fns) work h s
      exact post_ok ⟨⟨e.k, hself, hH.k, fun _ => rfl⟩, ⟨0, by dsimp only; rw [q1, p1]; rfl⟩, by dsimp only; rw [q2, p2],
        by dsimp only; rw [q3, p3], by dsimp only; rw [q5, p4]⟩
    · split
      · rename_i hm
        obtain ⟨hs, hsame⟩ := hH.eight hm
        obtain ⟨a1, a2⟩ := hH.k.get (i := 10) (by omega)
        rw [a1, ok_bind]
        refine Post.bind (hF.call _ _ _ _ a2 hy) ?_
        rintro ⟨k10, args'⟩ hr
        dsimp only at hr ⊢
        subst hr
        obtain ⟨g1, g2, g3⟩ := hH.k.set (i := 10) (by omega) (hF.len x y hy)
        obtain ⟨b1, b2⟩ := g2.get (i := 11) (by omega)
        obtain ⟨d1, d2⟩ := hH.v.get (i := 11) (by omega)
        rw [g1, ok_bind, b1, ok_bind, d1, ok_bind]
        refine Post.bind (stiffSums_post (hF.len x y hy) b2 hy d2) ?_
        intro s _
        refine Post.bind (detect_post _ _ _) ?_
        rintro w ⟨q1, q2, q3, -, q5⟩
        obtain ⟨p1, p2, p3, p4⟩ := setRho_same (fns := fns) (work.addFunction 1) h s
        refine post_ok ⟨⟨_, rfl, g2, fun h => ?_⟩, ⟨1, by dsimp only; rw [q1, p1]⟩, by dsimp only; rw [q2, p2]; rfl,
          by dsimp only; rw [q3, p3]; rfl, by dsimp only; rw [q5, p4]; rfl⟩
        rw [hsame] at h; cases h
      · exact post_ok ⟨⟨e.k, hself, hH.k, fun _ => rfl⟩, h0⟩
  · exact post_ok ⟨⟨e.k, hself, hH.k, fun _ => rfl⟩, h0⟩

/-- What `accept` does after a completed step. -/
theorem accept_post (hF : Computes sys F) (hH : e.Holds sys.ndim t) {x : K} {y : List K} {h : K}
    (hD : Done sys.ndim t F x y h e) (work : Workspace K) (args : σ) :
    Post (e.accept fns sys work x y h args) fun r => r.1.Holds sys.ndim t ∧ r.2.2.1 = x + h ∧ r.2.2.2.1 = e.w ∧
      (e.info.first_step_same_as_last = true → r.1.k.getD 0 [] = F (x + h) e.w) ∧
      (∃ k o', r.1 = { e with k := k, dense_out := o' } ∧ o'.isSome = e.dense_out.isSome) ∧
      (∀ o, r.1.dense_out = some o → DenseData sys.ndim F x y h e.w (fun j => e.k.getD j []) o) ∧
      (∃ n, r.2.1.stats = (work.addFunction n).stats) ∧ r.2.1.follows_reject_step = work.follows_reject_step ∧
      (r.2.1.h_new = if e.info.embedded = true then e.acceptedStep fns work h else work.h_new) ∧
      r.2.1.iterations_diverging = work.iterations_diverging := by
  have hs := hH.pos
  have hlast : e.info.first_step_same_as_last = true → e.k.getD (t.s - 1) [] = F (x + h) e.w := by
    intro hsame
    obtain ⟨g1, g2, g3⟩ := hH.same hsame
    have := hD.stages (t.s - 1) (by omega)
    dsimp only at this
    rw [this, g1, mul_one, hD.w]
    congr 1
    apply ext_comp (lin_length ..) (lin_length ..)
    intro m hm
    rw [comp_lin _ _ _ _ _ hm, comp_lin _ _ _ _ _ hm]
    conv_rhs => rw [show t.s = t.s - 1 + 1 by omega, Finset.sum_range_succ]
    rw [g3, zero_mul, add_zero]
    congr 2
    apply Finset.sum_congr rfl
    intro j hj
    rw [g2 j (Finset.mem_range.1 hj)]
  unfold Erk.accept
  refine Post.bind (saveDense_post hF hH hD.len h work args) ?_
  rintro ⟨e1, work1, args1⟩ ⟨⟨o', h1, h2, h3⟩, n1, h4⟩
  dsimp only at h1 h2 h3 h4 ⊢
  have hH1 : e1.Holds sys.ndim t := by
    rw [h1]
    exact ⟨hH.nstage, hH.pos, hH.aa, hH.bb, hH.cc, hH.c0, hH.ee, hH.same, hH.five, hH.eight, fun o ho => (h3 o ho).1, hH.k,
      hH.v, hH.w⟩
  have e1w : e1.w = e.w := by rw [h1]
  have e1k : e1.k = e.k := by rw [h1]
  rw [show copyInto y e1.w = ok e.w by unfold copyInto; rw [if_neg (by rw [e1w, hH.w, hD.len]; simp), e1w], ok_bind]
  refine Post.bind (shift_post hH1) ?_
  rintro e2 ⟨k', k1, k2, k3⟩
  have hH2 : e2.Holds sys.ndim t := by
    rw [k1]
    exact ⟨hH1.nstage, hH1.pos, hH1.aa, hH1.bb, hH1.cc, hH1.c0, hH1.ee, hH1.same, hH1.five, hH1.eight, hH1.dense, k2,
      hH1.v, hH1.w⟩
  have hinfo : e2.info = e.info := by rw [k1, h1]
  have hk0 : e.info.first_step_same_as_last = true → k'.getD 0 [] = F (x + h) e.w := by
    intro hsame
    rw [k3 (by rw [h1]; exact hsame), e1k]
    exact hlast hsame
  rw [hinfo]
  split
  · rename_i hemb
    refine post_ok ⟨hH2, rfl, rfl, ?_, ⟨k', o', by rw [k1, h1], h2⟩, ?_, ⟨n1, by rw [h4]⟩, by rw [h4]; rfl, ?_, by rw [h4]; rfl⟩
    · intro hsame
      dsimp only
      rw [k1]; exact hk0 hsame
    · intro o ho
      dsimp only at ho
      rw [k1, h1] at ho
      exact (h3 o ho).2
    · dsimp only; rw [h4]; rfl
  · rename_i hemb
    rw [not_not] at hemb
    refine Post.bind (stiffness_post (fns := fns) hF hH2 _ (x + h) hH.w h args1) ?_
    rintro ⟨e3, work3, args3⟩ ⟨⟨k3', r1, r2, r3⟩, ⟨n3, s1⟩, s2, s3, s4⟩
    dsimp only at r1 r2 r3 s1 s2 s3 s4 ⊢
    have hacc : e2.acceptedStep fns work1 h = e.acceptedStep fns work h := by
      rw [k1, h1, h4]; rfl
    refine post_ok ⟨?_, rfl, rfl, ?_, ⟨k3', o', by rw [r1, k1, h1], h2⟩, ?_, ⟨n1 + n3, ?_⟩, by rw [s2, h4]; rfl, ?_, by rw [s4, h4]; rfl⟩
    · rw [r1]
      exact ⟨hH2.nstage, hH2.pos, hH2.aa, hH2.bb, hH2.cc, hH2.c0, hH2.ee, hH2.same, hH2.five, hH2.eight, hH2.dense, r2,
        hH2.v, hH2.w⟩
    · intro hsame
      dsimp only
      rw [r1]
      dsimp only
      rw [r3 (by rw [hinfo]; exact hsame), k1]
      exact hk0 hsame
    · intro o ho
      dsimp only at ho
      rw [r1, k1, h1] at ho
      exact (h3 o ho).2
    · dsimp only
      rw [s1, h4]
      simp [Workspace.addFunction, Nat.add_assoc]
    · dsimp only; rw [if_pos hemb, s3]; exact hacc

end Russell.Ode
