import Verif.Pde.SpcMap2dRows
import Verif.Pde.SpcEnergy

/-!
# Spectral collocation on mapped domains: theorems (C95)
-/

namespace Russell.Pde

open Russell Res Russell.Sparse Russell.Lab Polynomial Filter Topology

noncomputable section

/-! ### Loops that never return an error -/

/-- never an error -/
def NoErr {α : Type} (r : Res α) : Prop := ∀ msg, r ≠ err msg

theorem noErr_ok {α : Type} (a : α) : NoErr (ok a) := fun _ h => by cases h
theorem noErr_panic {α : Type} : NoErr (Res.panic : Res α) := fun _ h => by cases h

theorem NoErr.bind {α β : Type} {r : Res α} {f : α → Res β} (h : NoErr r) (hf : ∀ a, r = ok a → NoErr (f a)) : NoErr (r >>= f) := by
  cases hr : r with
  | ok a => exact hf a hr
  | err m => exact absurd hr (h m)
  | panic => exact noErr_panic

theorem noErr_unwrap {α : Type} (r : Res α) : NoErr r.unwrap := by
  cases r <;> intro m hm <;> cases hm

theorem noErr_unwrapM {σ : Type} (r : MRes σ) : NoErr (unwrapM r) := by
  cases r <;> intro m hm <;> cases hm

theorem noErr_vget {α : Type} (l : List α) (i : Nat) : NoErr (vget l i) := by
  unfold vget
  intro m hm
  split at hm <;> cases hm

theorem noErr_vset {α : Type} (l : List α) (i : Nat) (x : α) : NoErr (vset l i x) := by
  unfold vset
  intro m hm
  split at hm <;> cases hm

theorem noErr_iu (h : EquationHandler) (e : Nat) : NoErr (h.iu e) := by
  unfold EquationHandler.iu
  refine (noErr_vget _ _).bind fun a _ => ?_
  split
  · exact noErr_panic
  · exact noErr_ok _

theorem noErr_ip (h : EquationHandler) (e : Nat) : NoErr (h.ip e) := by
  unfold EquationHandler.ip
  refine (noErr_vget _ _).bind fun a _ => ?_
  split
  · exact noErr_panic
  · exact noErr_ok _

theorem noErr_forRange {σ : Type} {hi : Nat} {f : Nat → σ → Res σ} (h : ∀ k s, k < hi → NoErr (f k s)) (s : σ) : NoErr (forRange 0 hi s f) := by
  induction hi with
  | zero => rw [forRange_empty (by omega)]; exact noErr_ok _
  | succ n ih =>
    rw [forRange_succ_right (by omega)]
    exact (ih fun k s hk => h k s (by omega)).bind fun s' _ => h n s' (by omega)

theorem forRange_panic {σ : Type} {hi : Nat} {f : Nat → σ → Res σ} (h : ∀ k s, k < hi → NoErr (f k s)) {k : Nat} (hk : k < hi) (hp : ∀ s, f k s = Res.panic) (s : σ) :
    forRange 0 hi s f = Res.panic := by
  induction hi with
  | zero => omega
  | succ n ih =>
    rw [forRange_succ_right (by omega)]
    by_cases hkn : k = n
    · subst hkn
      have := noErr_forRange (hi := k) (fun k' s hk' => h k' s (by omega)) s
      cases hr : forRange 0 k s f with
      | ok a => rw [ok_bind, hp]
      | err m => exact absurd hr (this m)
      | panic => rfl
    · rw [ih (fun k s hk => h k s (by omega)) (by omega), panic_bind]

theorem noErr_forList {σ : Type} {l : List Nat} {f : Nat → σ → Res σ} (h : ∀ k s, k ∈ l → NoErr (f k s)) (s : σ) : NoErr (forList l s f) := by
  induction l generalizing s with
  | nil => exact noErr_ok _
  | cons a l ih =>
    simp only [forList]
    exact (h a s (by simp)).bind fun s' _ => ih (fun k s hk => h k s (by simp [hk])) s'

theorem forList_panic {σ : Type} {l : List Nat} {f : Nat → σ → Res σ} (h : ∀ k s, k ∈ l → NoErr (f k s)) {k : Nat} (hk : k ∈ l) (hp : ∀ s, f k s = Res.panic) (s : σ) :
    forList l s f = Res.panic := by
  induction l generalizing s with
  | nil => simp at hk
  | cons a l ih =>
    simp only [forList]
    by_cases hka : k = a
    · subst hka; rw [hp, panic_bind]
    · have hk' : k ∈ l := by simpa [hka] using hk
      cases hr : f a s with
      | ok s' => rw [ok_bind]; exact ih (fun k s hk => h k s (by simp [hk])) hk' s'
      | err m => exact absurd hr (h a s (by simp) m)
      | panic => rfl

section Mats

variable {h : EquationHandler} {vl : Nat → Nat → Res ℝ} {nnz nc extra : Nat}

theorem noErr_put (m n : Nat) (v : ℝ) (s : Coo ℝ × Coo ℝ) : NoErr (putVal h m n v s) := by
  unfold putVal
  refine (noErr_iu _ _).bind fun row _ => (noErr_vget _ _).bind fun p _ => ?_
  cases p
  · exact (noErr_iu _ _).bind fun _ _ => (noErr_unwrapM _).bind fun _ _ => noErr_ok _
  · exact (noErr_ip _ _).bind fun _ _ => (noErr_unwrapM _).bind fun _ _ => noErr_ok _

theorem mats_sps_panic (hne : ∀ m n, m ∈ h.unknown → n < nc → NoErr (vl m n)) {m : Nat} (hm : m ∈ h.unknown) (hc : 0 < nc) (hp : ∀ n, vl m n = Res.panic) :
    spcMatricesSps h nnz nc vl extra = Res.panic := by
  have hstep : ∀ m s, m ∈ h.unknown → NoErr (forRange 0 nc s fun n s => do let v ← vl m n; putVal h m n v s) :=
    fun m s hm => noErr_forRange (fun n s hn => (hne m n hm hn).bind fun v _ => noErr_put m n v s) s
  unfold spcMatricesSps
  dsimp only
  cases h1 : (Coo.new (α := ℝ) h.nu h.nu (nnz + extra) Sym.no).unwrap with
  | err m => exact absurd h1 (noErr_unwrap _ m)
  | panic => rfl
  | ok a =>
    rw [ok_bind]
    cases h2 : (Coo.new (α := ℝ) h.nu h.np nnz Sym.no).unwrap with
    | err m => exact absurd h2 (noErr_unwrap _ m)
    | panic => rfl
    | ok b =>
      rw [ok_bind]
      refine forList_panic (fun k s hk => hstep k s hk) hm (fun s => ?_) _
      exact forRange_panic (fun n s hn => (hne m n hm hn).bind fun v _ => noErr_put m n v s) hc (fun s => by rw [hp, panic_bind]) s

theorem mats_lmm_panic (hne : ∀ m n, m < h.neq → n < nc → NoErr (vl m n)) {m : Nat} (hm : m < h.neq) (hc : 0 < nc) (hp : ∀ n, vl m n = Res.panic) (getc : Bool) :
    spcMatricesLmm h nnz nc vl extra getc = Res.panic := by
  have hstep : ∀ m s, m < h.neq → NoErr (forRange 0 nc s fun n (s : Coo ℝ) => do let v ← vl m n; unwrapM (s.put m n v)) :=
    fun m s hm => noErr_forRange (fun n s hn => (hne m n hm hn).bind fun v _ => noErr_unwrapM _) s
  unfold spcMatricesLmm
  dsimp only
  cases h1 : (Coo.new (α := ℝ) (h.neq + h.np) (h.neq + h.np) (nnz + extra + 2 * h.np) Sym.no).unwrap with
  | err m => exact absurd h1 (noErr_unwrap _ m)
  | panic => rfl
  | ok a =>
    rw [ok_bind, forRange_panic (fun k s hk => hstep k s hk) hm (fun s => ?_), panic_bind]
    exact forRange_panic (fun n s hn => (hne m n hm hn).bind fun v _ => noErr_unwrapM _) hc (fun s => by rw [hp, panic_bind]) s

theorem mats_sps_congr {vl' : Nat → Nat → Res ℝ} (he : ∀ m n, m ∈ h.unknown → n < nc → vl m n = vl' m n) :
    spcMatricesSps h nnz nc vl extra = spcMatricesSps h nnz nc vl' extra := by
  unfold spcMatricesSps
  dsimp only
  congr 1
  funext a
  congr 1
  funext b
  apply forList_congr'
  intro m hm s
  apply forRange_congr'
  intro n s _ hn
  rw [he m n hm hn]

theorem mats_lmm_congr {vl' : Nat → Nat → Res ℝ} (he : ∀ m n, m < h.neq → n < nc → vl m n = vl' m n) (getc : Bool) :
    spcMatricesLmm h nnz nc vl extra getc = spcMatricesLmm h nnz nc vl' extra getc := by
  unfold spcMatricesLmm
  dsimp only
  congr 1
  funext a
  congr 1
  apply forRange_congr'
  intro m s _ hm
  apply forRange_congr'
  intro n s _ hn
  rw [he m n hm hn]

end Mats

/-- the node is on no side with essential conditions -/
def Free (nr ns : Nat) (E : Side → Prop) (i j : Nat) : Prop := ∀ s, E s → ¬ On nr ns s i j

/-- image of a node -/
def nodeAt (m : Transfinite2d) (nr ns i j : Nat) : Pl := m.point (cgl nr i) (cgl ns j)

/-- The collocation equations for `u` on the reference square.  Near the image of node `(i, j)` the function on the physical domain is `φ i j`; `nrm` are the normals.  The differential
equation holds at the inner nodes and the values are prescribed at the nodes on essential sides; at the other nodes the flow (`gridFlow`) is the given one. -/
def SpcCollM (m : Transfinite2d) (nr ns : Nat) (k alpha : ℝ) (source : ℝ → ℝ → ℝ) (E : Side → Prop) (ess nat : Side → ℝ → ℝ → ℝ) (u : ℝ → ℝ → ℝ)
    (φ : Nat → Nat → Pl → ℝ) (nrm : Side → Nat → Nat → Pl) : Prop :=
  Coll2 nr ns E (fun i j => u (cgl nr i) (cgl ns j))
    (fun i j => -k * lap (φ i j) (nodeAt m nr ns i j) + alpha * φ i j (nodeAt m nr ns i j))
    (fun i j => source (nodeAt m nr ns i j 0) (nodeAt m nr ns i j 1))
    (fun s i j => ess s (nodeAt m nr ns i j 0) (nodeAt m nr ns i j 1))
    (fun s i j => gridFlow m k (φ i j) (nrm s i j) (cgl nr i) (cgl ns j) s)
    (fun s i j => nat s (nodeAt m nr ns i j 0) (nodeAt m nr ns i j 1))

section Main

variable {S : SpcMap2d} {m : Transfinite2d} {nr ns : Nat} {T N : Nat → Bool} {eF nF : Nat → ℝ → ℝ → ℝ} {k : ℝ} {P : List Nat} {d1r d2r d1s d2s : Nat → Nat → ℝ}
  {eops : List (EOp ℝ)} {nops : List (Side × (ℝ → ℝ → ℝ))}

/-- the entries -/
def SpcMap2d.entry (S : SpcMap2d) (lp : Lapack ℝ) (alpha : ℝ) (m n : Nat) : ℝ := match S.val lp alpha m n with | ok v => v | _ => 0

/-- `z` of `spc2_solve` -/
def zM (m : Transfinite2d) (nr ns i j : Nat) : ℝ × ℝ := (nodeAt m nr ns i j 0, nodeAt m nr ns i j 1)

theorem spcM_map (I : S.Is m nr ns T N eF nF k P d1r d2r d1s d2s) (i j : Nat) : ok (S.mapCoord (cgl nr i, cgl ns j)) = ok (zM m nr ns i j) := by
  unfold SpcMap2d.mapCoord
  rw [I.map]
  rfl

theorem metrics_ell (H : MapOk m) {me : Metrics ℝ} {r s : ℝ} (hm : MetricsAt m r s me) : ∃ l1 l2, me.ell 0 = ok l1 ∧ me.ell 1 = ok l2 := by
  have hu : BiPoly 1 1 (fun _ _ => (0 : ℝ)) := ⟨fun _ _ => 0, fun x y => by simp⟩
  have hφ : Phys m (fun _ _ => 0) r s (fun _ => 0) := ⟨contDiffAt_const, Eventually.of_forall fun _ => rfl⟩
  obtain ⟨_, l1, l2, e1, e2, _⟩ := phys_derivs H hm hu hφ
  exact ⟨l1, l2, e1, e2⟩

/-- the entries at a regular node and at a singular one -/
theorem val_cases (I : S.Is m nr ns T N eF nF k P d1r d2r d1s d2s) (H : MapOk m) (lp : Lapack ℝ) (alpha : ℝ) {i j : Nat} (hi : i < nr) (hj : j < ns) :
    (Regular m (cgl nr i) (cgl ns j) → ∀ n, n < nr * ns → S.val lp alpha (i + j * nr) n = ok (S.entry lp alpha (i + j * nr) n)) ∧
    (¬ Regular m (cgl nr i) (cgl ns j) → ∀ n, S.val lp alpha (i + j * nr) n = Res.panic) := by
  obtain ⟨h1, h2⟩ := calc_metrics I H lp hi hj
  constructor
  · intro hr n hn
    obtain ⟨me, hme, hm⟩ := h1 hr
    obtain ⟨l1, l2, e1, e2⟩ := metrics_ell H hm
    unfold SpcMap2d.entry
    rw [spcM_val I alpha hi hj hme e1 e2 hn]
  · intro hr n
    exact spcM_val_panic I alpha (h2 hr) n

theorem val_noErr (I : S.Is m nr ns T N eF nF k P d1r d2r d1s d2s) (H : MapOk m) (lp : Lapack ℝ) (alpha : ℝ) {p n : Nat} (hp : p < nr * ns) (hn : n < nr * ns) :
    NoErr (S.val lp alpha p n) := by
  obtain ⟨i, j, hi, hj, rfl⟩ := ij_of I.base.grid.hx hp
  obtain ⟨h1, h2⟩ := val_cases I H lp alpha hi hj
  by_cases hr : Regular m (cgl nr i) (cgl ns j)
  · rw [h1 hr n hn]; exact noErr_ok _
  · rw [h2 hr n]; exact noErr_panic

theorem mem_unknown (I : S.Is m nr ns T N eF nF k P d1r d2r d1s d2s) {i j : Nat} (hi : i < nr) (hj : j < ns) :
    i + j * nr ∈ S.equations.unknown ↔ Free nr ns (fun s => T s.index = true) i j := by
  rw [I.base.canon.lists.1, mem_unkn, I.base.mem hi hj]
  unfold Free
  push Not
  exact ⟨fun h => h.2, fun h => ⟨ij_lt hi hj, h⟩⟩

/-- all unknown nodes are regular: the matrices of the partitioned system are those of `entry` -/
theorem matsS (I : S.Is m nr ns T N eF nF k P d1r d2r d1s d2s) (H : MapOk m) (lp : Lapack ℝ) (alpha : ℝ) (nnz extra : Nat) :
    ((∀ i j, i < nr → j < ns → Free nr ns (fun s => T s.index = true) i j → Regular m (cgl nr i) (cgl ns j)) →
      spcMatricesSps S.equations nnz (nr * ns) (S.val lp alpha) extra = spcMatricesSps S.equations nnz (nr * ns) (fun p n => ok (S.entry lp alpha p n)) extra) ∧
    ((∃ i j, i < nr ∧ j < ns ∧ Free nr ns (fun s => T s.index = true) i j ∧ ¬ Regular m (cgl nr i) (cgl ns j)) →
      spcMatricesSps S.equations nnz (nr * ns) (S.val lp alpha) extra = Res.panic) := by
  have hlt : ∀ p, p ∈ S.equations.unknown → p < nr * ns := by
    intro p hp
    rw [I.base.canon.lists.1] at hp
    exact (mem_unkn.1 hp).1
  have hs := I.base.size
  constructor
  · intro hr
    apply mats_sps_congr
    intro p n hp hn
    obtain ⟨i, j, hi, hj, rfl⟩ := ij_of I.base.grid.hx (hlt p hp)
    exact (val_cases I H lp alpha hi hj).1 (hr i j hi hj ((mem_unknown I hi hj).1 hp)) n hn
  · rintro ⟨i, j, hi, hj, hf, hr⟩
    exact mats_sps_panic (fun p n hp hn => val_noErr I H lp alpha (hlt p hp) hn) ((mem_unknown I hi hj).2 hf) (by omega) ((val_cases I H lp alpha hi hj).2 hr)

theorem matsL (I : S.Is m nr ns T N eF nF k P d1r d2r d1s d2s) (H : MapOk m) (lp : Lapack ℝ) (alpha : ℝ) (nnz extra : Nat) (getc : Bool) :
    ((∀ i j, i < nr → j < ns → Regular m (cgl nr i) (cgl ns j)) →
      spcMatricesLmm S.equations nnz (nr * ns) (S.val lp alpha) extra getc = spcMatricesLmm S.equations nnz (nr * ns) (fun p n => ok (S.entry lp alpha p n)) extra getc) ∧
    ((∃ i j, i < nr ∧ j < ns ∧ ¬ Regular m (cgl nr i) (cgl ns j)) → spcMatricesLmm S.equations nnz (nr * ns) (S.val lp alpha) extra getc = Res.panic) := by
  have hs := I.base.size
  constructor
  · intro hr
    apply mats_lmm_congr
    intro p n hp hn
    rw [I.base.canon.hneq] at hp
    obtain ⟨i, j, hi, hj, rfl⟩ := ij_of I.base.grid.hx hp
    exact (val_cases I H lp alpha hi hj).1 (hr i j hi hj) n hn
  · rintro ⟨i, j, hi, hj, hr⟩
    exact mats_lmm_panic (h := S.equations) (vl := S.val lp alpha) (m := i + j * nr) (fun p n hp hn => val_noErr I H lp alpha (by rwa [I.base.canon.hneq] at hp) hn) (by rw [I.base.canon.hneq]; exact ij_lt hi hj) (by omega)
      ((val_cases I H lp alpha hi hj).2 hr) getc

theorem solveM_eq (I : S.Is m nr ns T N eF nF k P d1r d2r d1s d2s) (lp : Lapack ℝ) (solver : Coo ℝ → List ℝ → Res (List ℝ)) (alpha : ℝ) (source : ℝ → ℝ → ℝ) :
    S.solveSps lp solver alpha source = spc2SolveSps S.grid S.ebcs S.nbcs (spcMatricesSps S.equations (nr * nr * ns * ns) (nr * ns) (S.val lp alpha) 0) S.equations
      (fun rs => ok (S.mapCoord rs)) solver (Function.uncurry source) ∧
    S.solveLmm lp solver alpha source = spc2SolveLmm S.grid S.ebcs S.nbcs (spcMatricesLmm S.equations (nr * nr * ns * ns) (nr * ns) (S.val lp alpha) 0 false) S.equations
      (fun rs => ok (S.mapCoord rs)) solver (Function.uncurry source) := by
  unfold SpcMap2d.solveSps SpcMap2d.solveLmm SpcMap2d.getMatricesSps SpcMap2d.getMatricesLmm SpcMap2d.getVectorsSps SpcMap2d.getVectorsLmm SpcMap2d.data spc2SolveSps spc2SolveLmm
  rw [I.base.grid.enx, I.base.grid.eny, I.base.canon.hneq]
  exact ⟨rfl, rfl⟩

theorem spcM_funs (I : S.Is m nr ns T N eF nF k P d1r d2r d1s d2s) :
    (∀ s : Side, vget S.ebcs.functions s.index = ok (eF s.index)) ∧ ∀ s : Side, vget S.nbcs.functions s.index = ok (nF s.index) :=
  ⟨fun s => I.base.funs.vget (by cases s <;> decide), fun s => I.base.nat.vget (by cases s <;> decide)⟩

theorem nodalM_of {W : Nat → ℝ} {u : ℝ → ℝ → ℝ} (hx : 2 ≤ nr) (h : ∀ i j, i < nr → j < ns → u (cgl nr i) (cgl ns j) = W (i + j * nr)) :
    ∀ p, p < nr * ns → nodalM nr ns u p = W p := by
  intro p hp
  obtain ⟨i, j, hi, hj, rfl⟩ := ij_of hx hp
  rw [nodalM_ij ns u hi, h i j hi hj]

/-- right-hand sides and prescribed values -/
def RM (S : SpcMap2d) (m : Transfinite2d) (nr ns : Nat) (nF : Nat → ℝ → ℝ → ℝ) (source : ℝ → ℝ → ℝ) : Nat → ℝ :=
  S.data.R (fun s x => nF s x.1 x.2) (fun p => zM m nr ns (p % nr) (p / nr)) (Function.uncurry source)
/-- right-hand sides and prescribed values -/
def DM (m : Transfinite2d) (nr ns : Nat) (T : Nat → Bool) (eF : Nat → ℝ → ℝ → ℝ) : Nat → ℝ :=
  dval T (sideNodes nr ns) (fun s (x : ℝ × ℝ) => eF s x.1 x.2) (fun p => zM m nr ns (p % nr) (p / nr)) 4

theorem spcM_coll (I : S.Is m nr ns T N eF nF k P d1r d2r d1s d2s) (H : MapOk m) (hv : ∀ s : Side, N s.index = !(T s.index)) (lp : Lapack ℝ) (alpha : ℝ)
    (source : ℝ → ℝ → ℝ) {u : ℝ → ℝ → ℝ} (hu : BiPoly nr ns u)
    (hreg : ∀ i j, i < nr → j < ns → Free nr ns (fun s => T s.index = true) i j → Regular m (cgl nr i) (cgl ns j))
    {φ : Nat → Nat → Pl → ℝ} (hφ : ∀ i j, i < nr → j < ns → Free nr ns (fun s => T s.index = true) i j → Phys m u (cgl nr i) (cgl ns j) (φ i j))
    {nrm : Side → Nat → Nat → Pl}
    (hn : ∀ s i j, i < nr → j < ns → Free nr ns (fun s => T s.index = true) i j → On nr ns s i j → IsNormal m s (cgl nr i) (cgl ns j) (nrm s i j)) :
    IsColl (nr * ns) P (S.entry lp alpha) (RM S m nr ns nF source) (DM m nr ns T eF) (nodalM nr ns u) ↔
    SpcCollM m nr ns k alpha source (fun s => T s.index = true) (fun s => eF s.index) (fun s => nF s.index) u φ nrm := by
  have hx := I.base.grid.hx
  unfold RM DM SpcMap2d.data
  rw [spc2_coll I.base (Function.uncurry source) (z := zM m nr ns) (W := nodalM nr ns u)
    (pde := fun i j => -k * lap (φ i j) (nodeAt m nr ns i j) + alpha * φ i j (nodeAt m nr ns i j))
    (flow := fun s i j => gridFlow m k (φ i j) (nrm s i j) (cgl nr i) (cgl ns j) s) (by
      intro i j hi hj hs
      obtain ⟨me, hme, hm⟩ := (calc_metrics I H lp hi hj).1 (hreg i j hi hj hs)
      obtain ⟨l1, l2, e1, e2⟩ := metrics_ell H hm
      rw [Finset.sum_congr rfl (g := fun n => spcVM me l1 l2 nr ns N k alpha d1r d2r d1s d2s i j n * nodalM nr ns u n) (by
        intro n hn
        unfold SpcMap2d.entry
        rw [spcM_val I alpha hi hj hme e1 e2 (Finset.mem_range.1 hn)]),
        spcM_row I H alpha hu hi hj hm (hφ i j hi hj hs) (nrm := fun s => nrm s i j) (fun s ho => hn s i j hi hj hs ho) e1 e2]
      have := enB_iff hv hs
      by_cases ho : ∃ s, On nr ns s i j
      · rw [if_pos ho, if_pos (this.2 ho)]
      · rw [if_neg ho, if_neg (fun hh => ho (this.1 hh))]; rfl)]
  unfold SpcCollM
  constructor
  · rintro ⟨h1, h2, h3⟩
    refine ⟨h1, ?_, h3⟩
    intro i j hi hj s hs ho hl
    have := h2 i j hi hj s hs ho hl
    rwa [nodalM_ij ns u hi] at this
  · rintro ⟨h1, h2, h3⟩
    refine ⟨h1, ?_, h3⟩
    intro i j hi hj s hs ho hl
    rw [nodalM_ij ns u hi]
    exact h2 i j hi hj s hs ho hl

/-- **C95** The results of `solve_sps` and `solve_lmm` are the nodal values of a polynomial `u` on the reference square that satisfies the collocation equations on the physical domain
(`SpcCollM`).  A result is returned only if the mapping is regular at the nodes where an equation is used; near their images the function `φ` with `φ ∘ x = u` exists. -/
theorem C95_solve (Hs : SpcSetupM m nr ns eops nops k S) (H : MapOk m) {lp : Lapack ℝ} {solver : Coo ℝ → List ℝ → Res (List ℝ)} (hsol : Solves solver) {alpha : ℝ}
    {source : ℝ → ℝ → ℝ} {r : List ℝ} (hr : S.solveSps lp solver alpha source = ok r ∨ S.solveLmm lp solver alpha source = ok r) :
    ∃ ess nat : Side → ℝ → ℝ → ℝ, (∀ s, vget S.ebcs.functions s.index = ok (ess s)) ∧ (∀ s, vget S.nbcs.functions s.index = ok (nat s)) ∧ ∃ u, BiPoly nr ns u ∧
      r.length = nr * ns ∧ (∀ i j, i < nr → j < ns → r[i + j * nr]? = some (u (cgl nr i) (cgl ns j))) ∧
      (∀ i j, i < nr → j < ns → Free nr ns (Ess eops) i j → Regular m (cgl nr i) (cgl ns j) ∧ (∃ φ, Phys m u (cgl nr i) (cgl ns j) φ) ∧
        ∀ s, ∃ n, IsNormal m s (cgl nr i) (cgl ns j) n) ∧
      ∀ (φ : Nat → Nat → Pl → ℝ) (nrm : Side → Nat → Nat → Pl),
        (∀ i j, i < nr → j < ns → Free nr ns (Ess eops) i j → Phys m u (cgl nr i) (cgl ns j) (φ i j)) →
        (∀ s i j, i < nr → j < ns → Free nr ns (Ess eops) i j → On nr ns s i j → IsNormal m s (cgl nr i) (cgl ns j) (nrm s i j)) →
        SpcCollM m nr ns k alpha source (Ess eops) ess nat u φ nrm := by
  obtain ⟨T, N, eF, nF, P, d1r, d2r, d1s, d2s, I, hT, hN⟩ := spc_setupM_is Hs
  have hx := I.base.grid.hx
  have hy := I.base.grid.hy
  obtain ⟨f1, f2⟩ := spcM_funs I
  refine ⟨_, _, f1, f2, ?_⟩
  have hE : (fun s : Side => T s.index = true) = Ess eops := funext fun s => propext (hT s)
  rw [(solveM_eq I lp solver alpha source).1, (solveM_eq I lp solver alpha source).2] at hr
  have hreg : ∀ i j, i < nr → j < ns → Free nr ns (fun s => T s.index = true) i j → Regular m (cgl nr i) (cgl ns j) := by
    intro i j hi hj hf
    by_contra hn
    rcases hr with hr | hr
    · rw [(matsS I H lp alpha _ 0).2 ⟨i, j, hi, hj, hf, hn⟩] at hr
      unfold spc2SolveSps spcFinishSps at hr
      cases hv : S.ebcs.validate S.nbcs <;> rw [hv] at hr <;> cases hr
    · rw [(matsL I H lp alpha _ 0 false).2 ⟨i, j, hi, hj, hn⟩] at hr
      unfold spc2SolveLmm spcFinishLmm at hr
      cases hv : S.ebcs.validate S.nbcs <;> rw [hv] at hr <;> cases hr
  have hr' : spc2SolveSps S.grid S.ebcs S.nbcs (spcMatricesSps S.equations (nr * nr * ns * ns) (nr * ns) (fun p n => ok (S.entry lp alpha p n)) 0) S.equations
      (fun rs => ok (S.mapCoord rs)) solver (Function.uncurry source) = ok r ∨
    spc2SolveLmm S.grid S.ebcs S.nbcs (spcMatricesLmm S.equations (nr * nr * ns * ns) (nr * ns) (fun p n => ok (S.entry lp alpha p n)) 0 false) S.equations
      (fun rs => ok (S.mapCoord rs)) solver (Function.uncurry source) = ok r := by
    rcases hr with hr | hr
    · rw [(matsS I H lp alpha _ 0).1 hreg] at hr
      exact Or.inl hr
    · have hall : ∀ i j, i < nr → j < ns → Regular m (cgl nr i) (cgl ns j) := by
        intro i j hi hj
        by_contra hn
        rw [(matsL I H lp alpha _ 0 false).2 ⟨i, j, hi, hj, hn⟩] at hr
        unfold spc2SolveLmm spcFinishLmm at hr
        cases hv : S.ebcs.validate S.nbcs <;> rw [hv] at hr <;> cases hr
      rw [(matsL I H lp alpha _ 0 false).1 hall] at hr
      exact Or.inr hr
  obtain ⟨hval, W, hW, hc⟩ := spc2_solve I.base (mp := fun rs => ok (S.mapCoord rs)) (z := zM m nr ns) (fun i j _ _ => spcM_map I i j)
    (vl := fun p n => ok (S.entry lp alpha p n)) (V := S.entry lp alpha) (fun p n _ _ => rfl) hsol hr'
  have hv := I.base.validate.1 hval
  obtain ⟨u, hu, hW'⟩ := cgl_interpM hx hy (fun i j => W (i + j * nr))
  rw [← hE]
  refine ⟨u, hu, hW.len, ?_, ?_, ?_⟩
  · intro i j hi hj
    rw [hW.get _ (ij_lt hi hj), hW' i j hi hj]
  · intro i j hi hj hf
    obtain ⟨me, hme, hm⟩ := (calc_metrics I H lp hi hj).1 (hreg i j hi hj hf)
    exact ⟨hreg i j hi hj hf, phys_exists H hm hu, fun s => (nfac_eq H hm s).2⟩
  · intro φ nrm hφ hn
    exact (spcM_coll I H hv lp alpha source hu hreg hφ hn).1 ((isColl_congr_W I.base.lt (fun p hp => (nodalM_of hx hW' p hp).symm)).1 hc)

/-- **C95** On sides that the grid lines meet at a right angle the flow of the collocation equations is the flow along the normal. -/
theorem C95_orthogonal {r s : ℝ} {side : Side} {n : Pl} (hn : IsNormal m side r s n) (hr : Regular m r s) (ho : dot (tanR m r s) (tanS m r s) = 0) (k : ℝ) (φ : Pl → ℝ) :
    gridFlow m k φ n r s side = -k * fderiv ℝ φ (m.point r s) n := by
  have hdet : tanR m r s 0 * tanS m r s 1 - tanS m r s 0 * tanR m r s 1 ≠ 0 := by
    intro h0
    unfold Regular at hr
    rw [h0] at hr
    norm_num at hr
  have key : ∀ a b : Pl, a 0 * b 1 - b 0 * a 1 ≠ 0 → dot a b = 0 → dot n b = 0 → dot n a ≠ 0 →
      fderiv ℝ φ (m.point r s) a / dot n a = fderiv ℝ φ (m.point r s) n := by
    intro a b hab h1 h2 h3
    have h4 := hn.one
    rw [fderiv_dot φ _ a, fderiv_dot φ _ n, div_eq_iff h3]
    unfold dot at *
    have hD : a 0 * n 1 - a 1 * n 0 = 0 := by
      apply (mul_eq_zero.1 (?_ : (a 0 * b 1 - b 0 * a 1) * (a 0 * n 1 - a 1 * n 0) = 0)).resolve_left hab
      linear_combination (a 0 * a 0 + a 1 * a 1) * h2 - (a 0 * n 0 + a 1 * n 1) * h1
    have e0 : a 0 = (n 0 * a 0 + n 1 * a 1) * n 0 := by linear_combination (-(a 0)) * h4 + n 1 * hD
    have e1 : a 1 = (n 0 * a 0 + n 1 * a 1) * n 1 := by linear_combination (-(a 1)) * h4 - n 0 * hD
    linear_combination fderiv ℝ φ (m.point r s) (unit 0) * e0 + fderiv ℝ φ (m.point r s) (unit 1) * e1
  have hc : dot n (cross m side r s) ≠ 0 := by
    intro h0
    have := hn.out
    rw [h0] at this
    simp at this
  have h2 := hn.orth
  unfold gridFlow
  congr 1
  cases side
  · exact key _ _ hdet ho h2 hc
  · exact key _ _ hdet ho h2 hc
  · refine key _ (tanR m r s) ?_ ?_ h2 hc
    · intro h; apply hdet; show _ = _; unfold cross at h; linear_combination -h
    · rw [← ho]; unfold dot cross; ring
  · refine key _ (tanR m r s) ?_ ?_ h2 hc
    · intro h; apply hdet; show _ = _; unfold cross at h; linear_combination -h
    · rw [← ho]; unfold dot cross; ring

/-- **C95** If a polynomial satisfies the collocation equations and the linear solver finds a solution whenever there is one, `solve_lmm` succeeds provided that the mapping is regular at
all nodes, and `solve_sps` provided that it is at the unknown nodes and that there are unknown and prescribed nodes. -/
theorem C95_complete (Hs : SpcSetupM m nr ns eops nops k S) (H : MapOk m) (lp : Lapack ℝ) (hval : S.ebcs.validate S.nbcs = ok ()) {alpha : ℝ} {source : ℝ → ℝ → ℝ}
    {ess nat : Side → ℝ → ℝ → ℝ} (hf : ∀ s, vget S.ebcs.functions s.index = ok (ess s)) (hg : ∀ s, vget S.nbcs.functions s.index = ok (nat s))
    (hreg : ∀ i j, i < nr → j < ns → Free nr ns (Ess eops) i j → Regular m (cgl nr i) (cgl ns j))
    {u : ℝ → ℝ → ℝ} (hu : BiPoly nr ns u) {φ : Nat → Nat → Pl → ℝ} {nrm : Side → Nat → Nat → Pl}
    (hφ : ∀ i j, i < nr → j < ns → Free nr ns (Ess eops) i j → Phys m u (cgl nr i) (cgl ns j) (φ i j))
    (hn : ∀ s i j, i < nr → j < ns → Free nr ns (Ess eops) i j → On nr ns s i j → IsNormal m s (cgl nr i) (cgl ns j) (nrm s i j))
    (hc : SpcCollM m nr ns k alpha source (Ess eops) ess nat u φ nrm)
    {solver : Coo ℝ → List ℝ → Res (List ℝ)} (hsol : Solves solver) (hcomp : Complete solver) :
    ((∀ i j, i < nr → j < ns → Regular m (cgl nr i) (cgl ns j)) → ∃ r, S.solveLmm lp solver alpha source = ok r) ∧
    (S.equations.nu ≠ 0 → S.equations.np ≠ 0 → ∃ r, S.solveSps lp solver alpha source = ok r) := by
  obtain ⟨T, N, eF, nF, P, d1r, d2r, d1s, d2s, I, hT, hN⟩ := spc_setupM_is Hs
  have hv := I.base.validate.1 hval
  obtain ⟨f1, f2⟩ := spcM_funs I
  have e1 : ess = fun s : Side => eF s.index := funext fun s => by have := hf s; rw [f1 s] at this; exact (Res.ok.inj this).symm
  have e2 : nat = fun s : Side => nF s.index := funext fun s => by have := hg s; rw [f2 s] at this; exact (Res.ok.inj this).symm
  have hE : (fun s : Side => T s.index = true) = Ess eops := funext fun s => propext (hT s)
  rw [← hE] at hreg hφ hn hc
  rw [e1, e2, ← spcM_coll I H hv lp alpha source hu hreg hφ hn] at hc
  rw [(solveM_eq I lp solver alpha source).1, (solveM_eq I lp solver alpha source).2]
  have := spc2_complete I.base (mp := fun rs => ok (S.mapCoord rs)) (z := zM m nr ns) (fun i j _ _ => spcM_map I i j)
    (vl := fun p n => ok (S.entry lp alpha p n)) (V := S.entry lp alpha) (fun p n _ _ => rfl) hval hsol hcomp hc
  rw [(matsS I H lp alpha _ 0).1 hreg]
  refine ⟨fun hall => ?_, this.2⟩
  rw [(matsL I H lp alpha _ 0 false).1 hall]
  exact this.1

/-- **C95** Consistent boundary conditions and a linear solver that does not panic: `solve_lmm` panics exactly when the mapping is singular at a node, and `solve_sps` exactly when no side is
essential, or every node is on an essential side, or the mapping is singular at an unknown node. -/
theorem C95_panics (Hs : SpcSetupM m nr ns eops nops k S) (H : MapOk m) (lp : Lapack ℝ) (hval : S.ebcs.validate S.nbcs = ok ())
    {solver : Coo ℝ → List ℝ → Res (List ℝ)} (hsol : Solves solver) (hnp : ∀ A v, solver A v ≠ Res.panic) (alpha : ℝ) (source : ℝ → ℝ → ℝ) :
    (S.solveLmm lp solver alpha source = Res.panic ↔ ∃ i j, i < nr ∧ j < ns ∧ ¬ Regular m (cgl nr i) (cgl ns j)) ∧
    (S.solveSps lp solver alpha source = Res.panic ↔
      (∀ s, ¬ Ess eops s) ∨ (∀ i j, i < nr → j < ns → ∃ s, Ess eops s ∧ On nr ns s i j) ∨
      ∃ i j, i < nr ∧ j < ns ∧ Free nr ns (Ess eops) i j ∧ ¬ Regular m (cgl nr i) (cgl ns j)) := by
  obtain ⟨T, N, eF, nF, P, d1r, d2r, d1s, d2s, I, hT, hN⟩ := spc_setupM_is Hs
  have hE : (fun s : Side => T s.index = true) = Ess eops := funext fun s => propext (hT s)
  rw [(solveM_eq I lp solver alpha source).1, (solveM_eq I lp solver alpha source).2]
  have := spc2_panics I.base (mp := fun rs => ok (S.mapCoord rs)) (z := zM m nr ns) (fun i j _ _ => spcM_map I i j)
    (vl := fun p n => ok (S.entry lp alpha p n)) (V := S.entry lp alpha) (fun p n _ _ => rfl) hval hsol hnp (Function.uncurry source)
  constructor
  · by_cases hs : ∃ i j, i < nr ∧ j < ns ∧ ¬ Regular m (cgl nr i) (cgl ns j)
    · refine ⟨fun _ => hs, fun _ => ?_⟩
      rw [(matsL I H lp alpha _ 0 false).2 hs]
      unfold spc2SolveLmm spcFinishLmm
      rw [hval]; rfl
    · refine ⟨fun h => ?_, fun h => absurd h hs⟩
      push Not at hs
      rw [(matsL I H lp alpha _ 0 false).1 hs] at h
      exact absurd h this.1
  · rw [← hE]
    by_cases hs : ∃ i j, i < nr ∧ j < ns ∧ Free nr ns (fun s : Side => T s.index = true) i j ∧ ¬ Regular m (cgl nr i) (cgl ns j)
    · refine ⟨fun _ => Or.inr (Or.inr hs), fun _ => ?_⟩
      rw [(matsS I H lp alpha _ 0).2 hs]
      unfold spc2SolveSps spcFinishSps
      rw [hval]; rfl
    · rw [(matsS I H lp alpha _ 0).1 (by push Not at hs; exact hs), this.2]
      simp only [Bool.not_eq_true]
      constructor
      · rintro (h | h)
        · exact Or.inl h
        · exact Or.inr (Or.inl h)
      · rintro (h | h | h)
        · exact Or.inl h
        · exact Or.inr h
        · exact absurd h hs

/-- **C95** The two systems, for any polynomial, if the mapping is regular at all nodes: its values at the unknown nodes solve the partitioned system and its values at the other nodes are
the prescribed ones exactly when it satisfies the collocation equations; and this is also when its nodal values are the first part of a solution of the system with multipliers. -/
theorem C95_systems (Hs : SpcSetupM m nr ns eops nops k S) (H : MapOk m) (lp : Lapack ℝ) (hval : S.ebcs.validate S.nbcs = ok ())
    (hreg : ∀ i j, i < nr → j < ns → Regular m (cgl nr i) (cgl ns j)) (alpha : ℝ) (source : ℝ → ℝ → ℝ) (extra : Nat) :
    ∃ (ess nat : Side → ℝ → ℝ → ℝ) (z ac fb z' ff : List ℝ), (∀ s, vget S.ebcs.functions s.index = ok (ess s)) ∧ (∀ s, vget S.nbcs.functions s.index = ok (nat s)) ∧
      S.getVectorsSps source = ok (z, ac, fb) ∧ S.getVectorsLmm source = ok (z', ff) ∧
    (S.equations.nu ≠ 0 → S.equations.np ≠ 0 → ∃ kk kc A α Bm β, S.getMatricesSps lp alpha extra = ok (kk, kc) ∧
      kk.asDense = ok A ∧ IsDense A S.equations.nu S.equations.nu α ∧ kc.asDense = ok Bm ∧ IsDense Bm S.equations.nu S.equations.np β ∧
      ∀ u φ nrm, BiPoly nr ns u →
        (∀ i j, i < nr → j < ns → Phys m u (cgl nr i) (cgl ns j) (φ i j)) →
        (∀ s i j, i < nr → j < ns → On nr ns s i j → IsNormal m s (cgl nr i) (cgl ns j) (nrm s i j)) →
        (((∀ i, i < S.equations.nu → ∑ j ∈ Finset.range S.equations.nu, α i j * nodalM nr ns u (S.equations.unknown.getD j 0) +
          ∑ j ∈ Finset.range S.equations.np, β i j * ac.getD j 0 = fb.getD i 0) ∧
        ∀ j, j < S.equations.np → nodalM nr ns u (S.equations.prescribed.getD j 0) = ac.getD j 0) ↔
        SpcCollM m nr ns k alpha source (Ess eops) ess nat u φ nrm)) ∧
    ∃ mm M μ, S.getMatricesLmm lp alpha extra false = ok (mm, none) ∧
      mm.asDense = ok M ∧ IsDense M (nr * ns + S.equations.np) (nr * ns + S.equations.np) μ ∧
      ∀ u φ nrm, BiPoly nr ns u →
        (∀ i j, i < nr → j < ns → Phys m u (cgl nr i) (cgl ns j) (φ i j)) →
        (∀ s i j, i < nr → j < ns → On nr ns s i j → IsNormal m s (cgl nr i) (cgl ns j) (nrm s i j)) →
        ((∃ y : Nat → ℝ, (∀ p, p < nr * ns → y p = nodalM nr ns u p) ∧ ∀ i, i < nr * ns + S.equations.np →
          ∑ j ∈ Finset.range (nr * ns + S.equations.np), μ i j * y j = ff.getD i 0) ↔
        SpcCollM m nr ns k alpha source (Ess eops) ess nat u φ nrm) := by
  obtain ⟨T, N, eF, nF, P, d1r, d2r, d1s, d2s, I, hT, hN⟩ := spc_setupM_is Hs
  have hv := I.base.validate.1 hval
  have hE : (fun s : Side => T s.index = true) = Ess eops := funext fun s => propext (hT s)
  obtain ⟨hs1, hs2⟩ := I.base.size
  obtain ⟨f1, f2⟩ := spcM_funs I
  have hd := spc2_data I.base (mp := fun rs => ok (S.mapCoord rs)) (z := zM m nr ns) (fun i j _ _ => spcM_map I i j)
  obtain ⟨ac, fb, ev, v⟩ := hd.vectorsSps (by omega) (Function.uncurry source)
  obtain ⟨ff, ev', v'⟩ := hd.vectorsLmm (by omega) (Function.uncurry source)
  refine ⟨_, _, _, ac, fb, _, ff, f1, f2, ev, ev', ?_⟩
  obtain ⟨r1, r2⟩ := spc_systems I.base.canon I.base.lt (by omega) (by omega) (val := fun p n => ok (S.entry lp alpha p n)) (V := S.entry lp alpha) (fun p n _ _ => rfl) extra v v'
  obtain ⟨_, _, l3, l4⟩ := I.base.canon.lists
  have hcoll : ∀ u φ nrm, BiPoly nr ns u → (∀ i j, i < nr → j < ns → Phys m u (cgl nr i) (cgl ns j) (φ i j)) →
      (∀ s i j, i < nr → j < ns → On nr ns s i j → IsNormal m s (cgl nr i) (cgl ns j) (nrm s i j)) →
      (IsColl (nr * ns) P (S.entry lp alpha) (RM S m nr ns nF source) (DM m nr ns T eF) (nodalM nr ns u) ↔
        SpcCollM m nr ns k alpha source (Ess eops) (fun s => eF s.index) (fun s => nF s.index) u φ nrm) := by
    intro u φ nrm hu hφ hn
    rw [← hE]
    exact spcM_coll I H hv lp alpha source hu (fun i j hi hj _ => hreg i j hi hj) (fun i j hi hj _ => hφ i j hi hj) (fun s i j hi hj _ => hn s i j hi hj)
  unfold SpcMap2d.getMatricesSps SpcMap2d.getMatricesLmm
  rw [I.base.grid.enx, I.base.grid.eny, I.base.canon.hneq, spc2_nnz, (matsS I H lp alpha _ extra).1 (fun i j hi hj _ => hreg i j hi hj), (matsL I H lp alpha _ extra false).1 hreg]
  constructor
  · intro hu hp
    obtain ⟨kk, kc, A, α, Bm, β, e1, e2, e3, e4, e5, e6⟩ := r1 (by rw [← l3]; omega) (by rw [← l4]; omega)
    refine ⟨kk, kc, A, α, Bm, β, e1, e2, e3, e4, e5, ?_⟩
    intro u φ nrm hu hφ hn
    rw [← hcoll u φ nrm hu hφ hn]
    exact e6 (nodalM nr ns u)
  · obtain ⟨mm, M, μ, e1, e2, e3, e4⟩ := r2
    refine ⟨mm, M, μ, e1, e2, e3, ?_⟩
    intro u φ nrm hu hφ hn
    rw [← hcoll u φ nrm hu hφ hn]
    exact e4 (nodalM nr ns u)

/-- **C95** The flow vectors computed from the nodal values of a polynomial are the values of `-k ∇φ` on the physical domain; a vector of the wrong length is an error, and a node where the
mapping is singular leads to a panic. -/
theorem C95_flow (Hs : SpcSetupM m nr ns eops nops k S) (H : MapOk m) (lp : Lapack ℝ) :
    (∀ v : List ℝ, v.length ≠ nr * ns → ∃ msg, S.calculateFlowVectors lp v = err msg) ∧
    (∀ v : List ℝ, v.length = nr * ns → (∃ i j, i < nr ∧ j < ns ∧ ¬ Regular m (cgl nr i) (cgl ns j)) → S.calculateFlowVectors lp v = Res.panic) ∧
    ∀ u (φ : Nat → Nat → Pl → ℝ), BiPoly nr ns u → (∀ i j, i < nr → j < ns → Regular m (cgl nr i) (cgl ns j)) → (∀ i j, i < nr → j < ns → Phys m u (cgl nr i) (cgl ns j) (φ i j)) →
      S.calculateFlowVectors lp ((List.range (nr * ns)).map (nodalM nr ns u)) =
      ok ((List.range (nr * ns)).map (fun p => -k * fderiv ℝ (φ (p % nr) (p / nr)) (nodeAt m nr ns (p % nr) (p / nr)) (unit 0)),
        (List.range (nr * ns)).map (fun p => -k * fderiv ℝ (φ (p % nr) (p / nr)) (nodeAt m nr ns (p % nr) (p / nr)) (unit 1))) := by
  obtain ⟨T, N, eF, nF, P, d1r, d2r, d1s, d2s, I, hT, hN⟩ := spc_setupM_is Hs
  have hx := I.base.grid.hx
  unfold SpcMap2d.calculateFlowVectors
  dsimp only
  rw [I.base.canon.hneq]
  obtain ⟨D, eD, hD⟩ := I.dd1r
  obtain ⟨D', eD', hD'⟩ := I.dd1s
  refine ⟨?_, ?_, ?_⟩
  · intro v hv
    rw [if_pos hv]; exact ⟨_, rfl⟩
  · rintro v hv ⟨i, j, hi, hj, hr⟩
    rw [if_neg (by omega)]
    refine forRange_panic ?_ (ij_lt hi hj) (fun s => by rw [(calc_metrics I H lp hi hj).2 hr, panic_bind]) _
    intro p s hp
    obtain ⟨i, j, hi, hj, rfl⟩ := ij_of hx hp
    by_cases hr : Regular m (cgl nr i) (cgl ns j)
    · obtain ⟨me, hme, _⟩ := (calc_metrics I H lp hi hj).1 hr
      rw [hme, ok_bind]
      refine (noErr_forRange (fun n s hn => ?_) _).bind fun w _ => ?_
      · refine (noErr_vget _ _).bind fun _ _ => (noErr_unwrap _).bind fun D _ => (noErr_unwrap _).bind fun D' _ => ?_
        exact (noErr_vget _ _).bind fun _ _ => (noErr_vget _ _).bind fun _ _ => noErr_ok _
      · exact (noErr_vset _ _ _).bind fun _ _ => (noErr_vset _ _ _).bind fun _ _ => noErr_ok _
    · rw [(calc_metrics I H lp hi hj).2 hr, panic_bind]; exact noErr_panic
  · intro u φ hu hreg hφ
    rw [if_neg (by simp)]
    have hv : Lab.IsVec ((List.range (nr * ns)).map (nodalM nr ns u)) (nr * ns) (nodalM nr ns u) :=
      ⟨by simp, by intro i hi; simp [hi]⟩
    generalize (List.range (nr * ns)).map (nodalM nr ns u) = v at hv
    unfold Grid2d.getIJ
    rw [I.base.grid.enx, eD, unwrap_ok, eD', unwrap_ok, I.cond]
    dsimp only
    obtain ⟨w, ew, hw1, hw2⟩ := forRange_spec (lo := 0) (hi := nr * ns) (s := (List.replicate (nr * ns) (0 : ℝ), List.replicate (nr * ns) (0 : ℝ)))
      (f := fun m ww => do
        let me ← S.calculateMetrics lp m
        let w ← forRange 0 (nr * ns) ((0 : ℝ), (0 : ℝ)) fun n w => do
          let akl ← vget v n
          let dd1r ← ok D
          let dd1s ← ok D'
          let d1r ← dd1r.get (m % nr) (n % nr)
          let d1s ← dd1s.get (m / nr) (n / nr)
          ok (w.1 + -k * (d1r * delta (m / nr) (n / nr) * me.g_ctr 0 0 + delta (m % nr) (n % nr) * d1s * me.g_ctr 1 0) * akl,
            w.2 + -k * (d1r * delta (m / nr) (n / nr) * me.g_ctr 0 1 + delta (m % nr) (n % nr) * d1s * me.g_ctr 1 1) * akl)
        let wwx ← vset ww.1 m w.1
        let wwy ← vset ww.2 m w.2
        ok (wwx, wwy))
      (I := fun t w => Lab.IsVec w.1 (nr * ns) (fun p => if p < t then -k * fderiv ℝ (φ (p % nr) (p / nr)) (nodeAt m nr ns (p % nr) (p / nr)) (unit 0) else 0) ∧
        Lab.IsVec w.2 (nr * ns) (fun p => if p < t then -k * fderiv ℝ (φ (p % nr) (p / nr)) (nodeAt m nr ns (p % nr) (p / nr)) (unit 1) else 0)) (Nat.zero_le _) (by
        constructor
        · apply (Lab.isVec_replicate _ (0 : ℝ)).congr
          intro i _; simp
        · apply (Lab.isVec_replicate _ (0 : ℝ)).congr
          intro i _; simp) (by
        intro p w _ hp hw
        obtain ⟨i, j, hi, hj, rfl⟩ := ij_of hx hp
        obtain ⟨me, hme, hm⟩ := (calc_metrics I H lp hi hj).1 (hreg i j hi hj)
        rw [mod_ij hi, div_ij hi, hme, ok_bind]
        obtain ⟨wx, e1, h1, h2⟩ := forRange_spec (lo := 0) (hi := nr * ns) (s := ((0 : ℝ), (0 : ℝ)))
          (f := fun n w => do
            let akl ← vget v n
            let dd1r ← ok D
            let dd1s ← ok D'
            let d1r ← dd1r.get i (n % nr)
            let d1s ← dd1s.get j (n / nr)
            ok (w.1 + -k * (d1r * delta j (n / nr) * me.g_ctr 0 0 + delta i (n % nr) * d1s * me.g_ctr 1 0) * akl,
              w.2 + -k * (d1r * delta j (n / nr) * me.g_ctr 0 1 + delta i (n % nr) * d1s * me.g_ctr 1 1) * akl))
          (I := fun t w => w.1 = ∑ n ∈ Finset.range t, -k * (me.g_ctr 0 0 * ((if j = n / nr then d1r i (n % nr) else 0) * nodalM nr ns u n) +
              me.g_ctr 1 0 * ((if i = n % nr then d1s j (n / nr) else 0) * nodalM nr ns u n)) ∧
            w.2 = ∑ n ∈ Finset.range t, -k * (me.g_ctr 0 1 * ((if j = n / nr then d1r i (n % nr) else 0) * nodalM nr ns u n) +
              me.g_ctr 1 1 * ((if i = n % nr then d1s j (n / nr) else 0) * nodalM nr ns u n))) (Nat.zero_le _) (by simp) (by
            intro n w _ hn hw
            obtain ⟨q, l, hq, hl, rfl⟩ := ij_of hx hn
            rw [mod_ij hq, div_ij hq, hv.vget hn, ok_bind, ok_bind, ok_bind, hD.get i q hi hq, ok_bind, hD'.get j l hj hl, ok_bind]
            refine ⟨_, rfl, ?_, ?_⟩
            · rw [Finset.sum_range_succ, hw.1, mod_ij hq, div_ij hq]
              unfold delta
              by_cases c1 : j = l <;> by_cases c2 : i = q <;> simp only [c1, c2, if_true, if_false] <;> ring
            · rw [Finset.sum_range_succ, hw.2, mod_ij hq, div_ij hq]
              unfold delta
              by_cases c1 : j = l <;> by_cases c2 : i = q <;> simp only [c1, c2, if_true, if_false] <;> ring)
        rw [e1, ok_bind]
        obtain ⟨w1, e2, g1⟩ := hw.1.vset hp wx.1
        obtain ⟨w2, e3, g2⟩ := hw.2.vset hp wx.2
        rw [e2, ok_bind, e3, ok_bind]
        have hg := (phys_derivs H hm hu (hφ i j hi hj)).1
        rw [← Finset.mul_sum, Finset.sum_add_distrib, ← Finset.mul_sum, ← Finset.mul_sum, sumM_r1 I.diff1r hu hi hj, sumM_s1 I.diff1s hu hi hj] at h1 h2
        refine ⟨_, rfl, g1.congr ?_, g2.congr ?_⟩
        · intro q hq
          by_cases him : q = i + j * nr
          · subst him
            rw [if_pos rfl, if_pos (by omega), h1, mod_ij hi, div_ij hi]
            unfold nodeAt
            rw [hg 0]
            simp
            left; ring
          · by_cases hlt : q < i + j * nr
            · rw [if_neg him, if_pos hlt, if_pos (by omega)]
            · rw [if_neg him, if_neg hlt, if_neg (by omega)]
        · intro q hq
          by_cases him : q = i + j * nr
          · subst him
            rw [if_pos rfl, if_pos (by omega), h2, mod_ij hi, div_ij hi]
            unfold nodeAt
            rw [hg 1]
            simp
            left; ring
          · by_cases hlt : q < i + j * nr
            · rw [if_neg him, if_pos hlt, if_pos (by omega)]
            · rw [if_neg him, if_neg hlt, if_neg (by omega)])
    rw [ew]
    have fin : ∀ (w : List ℝ) (f : Nat → ℝ), Lab.IsVec w (nr * ns) (fun m => if m < nr * ns then f m else 0) → w = (List.range (nr * ns)).map f := by
      intro w f hw
      apply List.ext_getElem?
      intro m
      by_cases hm : m < nr * ns
      · rw [hw.get m hm, if_pos hm]; simp [hm]
      · rw [List.getElem?_eq_none (by rw [hw.len]; omega)]; simp; omega
    rw [← fin _ _ hw1, ← fin _ _ hw2]

end Main

/-! ### An oblique domain -/

/-- an `SpcMap2d` with consistent conditions -/
theorem spcSetupM' (m : Transfinite2d) (nr ns : Nat) (h1 : 2 ≤ nr) (h2 : nr ≤ 2049) (h3 : 2 ≤ ns) (h4 : ns ≤ 2049) (k : ℝ) {eops : List (EOp ℝ)} {nops : List (Side × (ℝ → ℝ → ℝ))}
    (hp : ¬ Per eops .Xmin) (hp' : ¬ Per eops .Ymin) (hv : ∀ s : Side, (Ess eops s ∧ ¬ Nat' nops s) ∨ (¬ Ess eops s ∧ Nat' nops s)) :
    ∃ S, SpcSetupM m nr ns eops nops k S ∧ S.ebcs.validate S.nbcs = ok () ∧ runE eops = ok S.ebcs ∧ runN nops = ok S.nbcs := by
  obtain ⟨e, n, ee, en, h⟩ := spcM_new m h1 h2 h3 h4 eops nops k
  rcases h with ⟨h, _⟩ | ⟨_, _, S, T, N, eF, nF, P, d1x, d2x, d1y, d2y, eS, rfl, rfl, I, hT, hN⟩
  · tauto
  · refine ⟨S, ⟨_, _, ee, en, eS⟩, ?_, ee, en⟩
    rw [I.base.validate]
    intro s
    have := hv s
    rw [← hT, ← hN] at this
    cases hTs : T s.index <;> cases hNs : N s.index <;> simp_all

/-- the boundary of a parallelogram -/
def skewB : List Curve := [fun s => ![s - 1, s], fun s => ![s + 1, s], fun r => ![r - 1, -1], fun r => ![r + 1, 1]]
/-- first derivatives -/
def skewB1 : List Curve := [fun _ => ![1, 1], fun _ => ![1, 1], fun _ => ![1, 0], fun _ => ![1, 0]]
/-- second derivatives -/
def skewB2 : List Curve := [fun _ => ![0, 0], fun _ => ![0, 0], fun _ => ![0, 0], fun _ => ![0, 0]]

/-- the mapping on the parallelogram -/
def skew : Transfinite2d := ⟨skewB, skewB1, some skewB2, ![-2, -1], ![0, -1], ![2, 1], ![0, 1]⟩

example : Transfinite2d.new skewB skewB1 (some skewB2) = ok skew := by
  unfold Transfinite2d.new
  simp [skewB, skewB1, skewB2, skew, fnAt]
  norm_num

theorem skew_ok : MapOk skew := by
  refine ⟨?_, ?_, ?_⟩
  · intro k hk t i
    have c : ∀ (a b : ℝ), HasDerivAt (fun t : ℝ => a * t + b) a t := fun a b => by simpa using ((hasDerivAt_id t).const_mul a).add_const b
    interval_cases k <;> fin_cases i <;> simp [skew, skewB, skewB1, fnAt]
    all_goals first
      | exact hasDerivAt_id t
      | exact (hasDerivAt_id t).sub_const 1
      | exact (hasDerivAt_id t).add_const 1
      | exact hasDerivAt_const t _
  · intro k hk t i
    interval_cases k <;> fin_cases i <;> simp [skew, skewB1, skewB2, fnAt] <;> exact hasDerivAt_const t _
  · intro k hk i
    interval_cases k <;> fin_cases i <;> simp [skew, skewB2, fnAt] <;> fun_prop

theorem skew_point (r s : ℝ) : skew.point r s = ![r + s, s] := by
  funext i
  fin_cases i <;> simp [Transfinite2d.point, skew, skewB, fnAt] <;> ring

theorem skew_tan (r s : ℝ) : tanR skew r s = ![1, 0] ∧ tanS skew r s = ![1, 1] := by
  constructor
  · funext i
    unfold tanR
    simp only [skew_point]
    fin_cases i <;> simp
  · funext i
    unfold tanS
    simp only [skew_point]
    fin_cases i <;> simp

theorem skew_regular (r s : ℝ) : Regular skew r s := by
  unfold Regular
  rw [(skew_tan r s).1, (skew_tan r s).2]
  norm_num

theorem skew_normal {r s : ℝ} {n : Pl} (h : IsNormal skew .Xmax r s n) : n 0 = √2 / 2 ∧ n 1 = -(√2 / 2) := by
  obtain ⟨h1, h2, h3⟩ := h
  unfold dot at h1 h2 h3
  unfold along at h2
  unfold cross outward at h3
  dsimp only at h2 h3
  rw [(skew_tan r s).2] at h2
  rw [(skew_tan r s).1] at h3
  simp at h2 h3
  have e : n 1 = -(n 0) := by linarith
  rw [e] at h1
  have hs : (√2 / 2) ^ 2 = (n 0) ^ 2 := by
    rw [div_pow, Real.sq_sqrt (by norm_num)]; linarith
  have h0 : 0 ≤ √2 / 2 := by positivity
  have := (pow_left_inj₀ h0 h3.le two_ne_zero).1 hs
  exact ⟨this.symm, by rw [e, this]⟩

/-- the height of a point -/
def height (x : Pl) : ℝ := x 1

theorem height_fderiv (x v : Pl) : fderiv ℝ height x v = v 1 := by
  have : HasFDerivAt height pr1 x := pr1.hasFDerivAt
  rw [this.fderiv]; rfl

theorem height_lap (x : Pl) : lap height x = 0 := by
  have : fderiv ℝ height = fun _ => pr1 := by
    funext x
    exact (pr1.hasFDerivAt : HasFDerivAt height pr1 x).fderiv
  unfold lap
  rw [this]
  simp

/-- the conditions of the counterexample -/
def skewE : List (EOp ℝ) := [.set .Xmin fun _ y => y, .set .Ymin fun _ y => y, .set .Ymax fun _ y => y]

theorem skewE_ess (s : Side) : Ess skewE s ↔ s ≠ .Xmax := by
  unfold skewE
  rw [show ([.set .Xmin fun _ y => y, .set .Ymin fun _ y => y, .set .Ymax fun _ y => y] : List (EOp ℝ)) =
    (([] ++ [.set .Xmin fun _ y => y]) ++ [.set .Ymin fun _ y => y]) ++ [.set .Ymax fun _ y => y] from rfl]
  unfold Ess
  rw [since_append, since_append, since_append]
  have := since_nil (fun o : EOp ℝ => o.sets s) (fun o : EOp ℝ => o.makesPeriodic s)
  cases s <;> simp [EOp.sets, EOp.makesPeriodic, since_nil]

theorem skewE_per (s : Side) : ¬ Per skewE s := by
  unfold skewE
  rw [show ([.set .Xmin fun _ y => y, .set .Ymin fun _ y => y, .set .Ymax fun _ y => y] : List (EOp ℝ)) =
    (([] ++ [.set .Xmin fun _ y => y]) ++ [.set .Ymin fun _ y => y]) ++ [.set .Ymax fun _ y => y] from rfl]
  unfold Per
  rw [since_append, since_append, since_append]
  cases s <;> simp [EOp.makesPeriodic, since_nil]

theorem cgl2 : cgl 2 0 = -1 ∧ cgl 2 1 = 1 := by
  constructor <;> simp [cgl]

theorem cglr3 : cgl 3 0 = -1 ∧ cgl 3 1 = 0 ∧ cgl 3 2 = 1 := by
  obtain ⟨c0, c1, c2⟩ := cgl3
  rw [cglNode_eq] at c0 c1 c2
  refine ⟨by linarith, by linarith, by linarith⟩

theorem skew_phys {nr ns : Nat} {u : ℝ → ℝ → ℝ} (hu : BiPoly nr ns u) (r s : ℝ) : Phys skew u r s (fun x => u (x 0 - x 1) (x 1)) := by
  refine ⟨?_, Eventually.of_forall fun η => ?_⟩
  · obtain ⟨c, hc⟩ := hu
    simp only [hc]
    refine ContDiff.contDiffAt ?_
    fun_prop
  · rw [skew_point]; simp

theorem skew_free {i j : Nat} (hi : i < 2) (hj : j < 3) (hf : Free 2 3 (Ess skewE) i j) : i = 1 ∧ j = 1 := by
  have h0 := hf .Xmin ((skewE_ess _).2 (by simp))
  have h1 := hf .Ymin ((skewE_ess _).2 (by simp))
  have h2 := hf .Ymax ((skewE_ess _).2 (by simp))
  simp only [On] at h0 h1 h2
  omega

/-- slope of a polynomial that is linear in the first variable -/
theorem ux_two {ns : Nat} {u : ℝ → ℝ → ℝ} (hu : BiPoly 2 ns u) (x y : ℝ) : ux u x y = (u 1 y - u (-1) y) / 2 := by
  obtain ⟨p, hp, ep⟩ := hu.x y
  rw [ux_poly ep, ep, ep]
  have : p.degree ≤ 1 := by
    rw [Polynomial.degree_le_iff_coeff_zero]
    intro n hn
    refine Polynomial.coeff_eq_zero_of_degree_lt (hp.trans_le ?_)
    have : 1 < n := by exact_mod_cast hn
    exact_mod_cast this
  rw [Polynomial.eq_X_add_C_of_degree_le_one this]
  simp

/-- the flow at the unknown node -/
theorem skew_flow {me : Metrics ℝ} (hm : MetricsAt skew 1 0 me) {u : ℝ → ℝ → ℝ} (hu : BiPoly 2 3 u) {φ : Pl → ℝ} (hφ : Phys skew u 1 0 φ) {n : Pl} (hn : IsNormal skew .Xmax 1 0 n) :
    gridFlow skew 1 φ n 1 0 .Xmax = -((u 1 0 - u (-1) 0) / 2 / (√2 / 2)) := by
  unfold gridFlow
  rw [show cross skew .Xmax 1 0 = tanR skew 1 0 from rfl, (fderiv_tan skew_ok hm hu hφ).1, ux_two hu, (skew_tan 1 0).1]
  unfold dot
  rw [(skew_normal hn).1]
  simp

theorem half_sq : √2 / 2 * (√2 / 2) = 1 / 2 := by
  have := Real.mul_self_sqrt (show (0 : ℝ) ≤ 2 by norm_num)
  linarith

/-- the only possible result -/
theorem skew_unique {S : SpcMap2d} (Hs : SpcSetupM skew 2 3 skewE [(.Xmax, fun _ _ => √2 / 2)] 1 S) {lp : Lapack ℝ}
    (he : S.ebcs.functions = [fun _ y => y, fun _ _ => 0, fun _ y => y, fun _ y => y]) (hn : S.nbcs.functions = [fun _ _ => 0, fun _ _ => √2 / 2, fun _ _ => 0, fun _ _ => 0])
    {me : Metrics ℝ} (hm : MetricsAt skew 1 0 me) (r : List ℝ)
    (hr : S.solveSps lp chooseSolver 0 (fun _ _ => 0) = ok r ∨ S.solveLmm lp chooseSolver 0 (fun _ _ => 0) = ok r) : r = [-1, -1, 0, -1, 1, 1] := by
  obtain ⟨c0, c1, c2⟩ := cglr3
  obtain ⟨b0, b1⟩ := cgl2
  obtain ⟨ess, nat, hf, hg, u, hu, hlen, hget, hex, hall⟩ := C95_solve Hs skew_ok chooseSolver_solves.1 hr
  obtain ⟨_, _, hnx⟩ := hex 1 1 (by omega) (by omega) (by
    intro s hs ho
    rw [skewE_ess] at hs
    cases s <;> simp [On] at ho hs)
  obtain ⟨nv, hnv⟩ := hnx .Xmax
  have hC := hall (fun _ _ x => u (x 0 - x 1) (x 1)) (fun _ _ _ => nv) (fun i j _ _ _ => skew_phys hu _ _) (by
    intro s i j hi hj hf ho
    obtain ⟨rfl, rfl⟩ := skew_free hi hj hf
    cases s <;> simp [On] at ho
    exact hnv)
  have hess : ∀ s, s ≠ Side.Xmax → ess s = fun _ y => y := by
    intro s hs
    have := hf s
    rw [he] at this
    cases s <;> first | exact (Res.ok.inj this).symm | exact absurd rfl hs
  have hnat : nat .Xmax = fun _ _ => √2 / 2 := by
    have := hg .Xmax
    rw [hn] at this
    exact (Res.ok.inj this).symm
  have hval' : ∀ i j (s : Side), i < 2 → j < 3 → s ≠ Side.Xmax → On 2 3 s i j → (∀ t, t ≠ Side.Xmax → On 2 3 t i j → t.index ≤ s.index) →
      u (cgl 2 i) (cgl 3 j) = cgl 3 j := by
    intro i j s hi hj hs ho hl
    have := hC.value i j hi hj s ((skewE_ess s).2 hs) ho (fun t ht => hl t ((skewE_ess t).1 ht))
    rw [hess s hs] at this
    simpa [nodeAt, skew_point] using this
  have v00 := hval' 0 0 .Ymin (by omega) (by omega) (by simp) (by simp [On]) (by intro t ht ho; cases t <;> first | decide | (simp [On] at ho; done) | exact absurd rfl ht)
  have v10 := hval' 1 0 .Ymin (by omega) (by omega) (by simp) (by simp [On]) (by intro t ht ho; cases t <;> first | decide | (simp [On] at ho; done) | exact absurd rfl ht)
  have v01 := hval' 0 1 .Xmin (by omega) (by omega) (by simp) (by simp [On]) (by intro t ht ho; cases t <;> first | decide | (simp [On] at ho; done) | exact absurd rfl ht)
  have v02 := hval' 0 2 .Ymax (by omega) (by omega) (by simp) (by simp [On]) (by intro t ht ho; cases t <;> first | decide | (simp [On] at ho; done) | exact absurd rfl ht)
  have v12 := hval' 1 2 .Ymax (by omega) (by omega) (by simp) (by simp [On]) (by intro t ht ho; cases t <;> first | decide | (simp [On] at ho; done) | exact absurd rfl ht)
  have f11 := hC.flow 1 1 (by omega) (by omega) ⟨.Xmax, by simp [On]⟩ (by
    intro s hs ho
    rw [skewE_ess] at hs
    cases s <;> simp [On] at ho hs)
  unfold sumOn at f11
  norm_num at f11
  rw [b1, c1, hnat] at f11
  rw [b1, c1] at hnv
  have := skew_flow hm hu (skew_phys hu 1 0) hnv
  rw [this] at f11
  rw [b0, c1] at v01
  rw [b0, c0] at v00
  rw [b1, c0] at v10
  rw [b0, c2] at v02
  rw [b1, c2] at v12
  rw [v01] at f11
  have e11 : u 1 0 = -1 := by
    have f11' : -((u 1 0 - 0) / 2 / (√2 / 2)) = √2 / 2 := f11
    have hpos : (0 : ℝ) < √2 / 2 := by positivity
    rw [neg_eq_iff_eq_neg, div_eq_iff hpos.ne', neg_mul, half_sq] at f11'
    linarith
  apply List.ext_getElem?
  intro p
  by_cases hp : p < 6
  · have g := hget (p % 2) (p / 2) (by omega) (by omega)
    rw [show p % 2 + p / 2 * 2 = p by omega] at g
    rw [g]
    clear hC hex hall hget hval' hf hg hess hnat f11 this
    interval_cases p <;> simp [b0, b1, c0, c1, c2, v00, v10, v01, v02, v12, e11]
  · rw [List.getElem?_eq_none (by rw [hlen]; omega), List.getElem?_eq_none (by simp; omega)]

/-- **C95** `solve_sps` and `solve_lmm` impose the flow along the grid lines that meet a side instead of the flow along its normal
(/repo/russell_pde/src/spc_map_2d.rs:598-618 and 698-718): on a parallelogram, the data of the function `y` with its flow across the right side yield values that are not those of `y`. -/
theorem C95_oblique_counterexample : ∃ S, SpcSetupM skew 2 3 skewE [(.Xmax, fun _ _ => √2 / 2)] 1 S ∧ S.ebcs.validate S.nbcs = ok () ∧
    (∀ x, -1 * lap height x = 0) ∧ (∀ r s n, IsNormal skew .Xmax r s n → -1 * fderiv ℝ height (skew.point r s) n = √2 / 2) ∧
    (List.range 6).map (fun p => height (nodeAt skew 2 3 (p % 2) (p / 2))) = [-1, -1, 0, 0, 1, 1] ∧
    ∀ lp, S.solveLmm lp chooseSolver 0 (fun _ _ => 0) = ok [-1, -1, 0, -1, 1, 1] ∧ S.solveSps lp chooseSolver 0 (fun _ _ => 0) = ok [-1, -1, 0, -1, 1, 1] := by
  obtain ⟨S, Hs, hval, ee, en⟩ := spcSetupM' skew 2 3 (by omega) (by omega) (by omega) (by omega) 1 (eops := skewE) (nops := [(.Xmax, fun _ _ => √2 / 2)])
    (skewE_per _) (skewE_per _) (by
      intro s
      rw [skewE_ess]
      cases s <;> simp [Nat'])
  obtain ⟨c0, c1, c2⟩ := cglr3
  obtain ⟨b0, b1⟩ := cgl2
  refine ⟨S, Hs, hval, ?_, ?_, ?_, ?_⟩
  · intro x; rw [height_lap]; norm_num
  · intro r s n hn
    rw [height_fderiv, (skew_normal hn).2]; ring
  · simp [List.range_succ, height, nodeAt, skew_point, c0, c1, c2]
  · intro lp
    have he : S.ebcs.functions = [fun _ y => y, fun _ _ => 0, fun _ y => y, fun _ y => y] := by
      rw [← Res.ok.inj (show ok _ = ok S.ebcs from ee)]; rfl
    have hn : S.nbcs.functions = [fun _ _ => 0, fun _ _ => √2 / 2, fun _ _ => 0, fun _ _ => 0] := by
      rw [← Res.ok.inj (show ok _ = ok S.nbcs from en)]; rfl
    obtain ⟨T, N, eF, nF, P, d1r, d2r, d1s, d2s, I, hT, hN⟩ := spc_setupM_is Hs
    obtain ⟨me, hme, hm⟩ := (calc_metrics I skew_ok lp (i := 1) (j := 1) (by omega) (by omega)).1 (skew_regular _ _)
    rw [b1, c1] at hm
    have hpos : (0 : ℝ) < √2 / 2 := by positivity
    -- there is a result
    have hu0 : BiPoly 2 3 (fun r s => s - (1 + r) * (1 - s ^ 2) / 2) := by
      refine ⟨fun k l => if k = 0 then (if l = 0 then -1 / 2 else if l = 1 then 1 else 1 / 2) else (if l = 0 then -1 / 2 else if l = 1 then 0 else 1 / 2), ?_⟩
      intro x y
      simp [Finset.sum_range_succ]
      ring
    obtain ⟨nv, hnv⟩ := (nfac_eq skew_ok hm .Xmax).2
    obtain ⟨r1, r2⟩ := C95_complete Hs skew_ok lp hval (alpha := 0) (source := fun _ _ => 0) (ess := fun s => match s with | .Xmax => fun _ _ => 0 | _ => fun _ y => y)
      (nat := fun s => match s with | .Xmax => fun _ _ => √2 / 2 | _ => fun _ _ => 0)
      (by intro s; rw [he]; cases s <;> rfl) (by intro s; rw [hn]; cases s <;> rfl) (fun _ _ _ _ _ => skew_regular _ _) hu0
      (φ := fun _ _ x => (fun r s => s - (1 + r) * (1 - s ^ 2) / 2) (x 0 - x 1) (x 1)) (nrm := fun _ _ _ => nv) (fun _ _ _ _ _ => skew_phys hu0 _ _) (by
        intro s i j hi hj hf ho
        obtain ⟨rfl, rfl⟩ := skew_free hi hj hf
        cases s <;> simp [On] at ho
        rw [b1, c1]
        exact hnv) ⟨by intro i j _ _ _ _; omega, by
        intro i j hi hj s hs ho _
        rw [skewE_ess] at hs
        have hi' : i = 0 ∨ i = 1 := by omega
        have hj' : j = 0 ∨ j = 1 ∨ j = 2 := by omega
        cases s <;> simp [On] at ho hs <;> subst ho
        · simp [nodeAt, skew_point, b0]
        · simp [nodeAt, skew_point, c0]
        · simp [nodeAt, skew_point, c2], by
        intro i j hi hj _ hf
        obtain ⟨rfl, rfl⟩ := skew_free hi hj hf
        unfold sumOn
        norm_num
        rw [b1, c1]
        have := skew_flow hm hu0 (skew_phys hu0 1 0) hnv
        refine this.trans ?_
        rw [neg_eq_iff_eq_neg, div_eq_iff hpos.ne', neg_mul, half_sq]
        norm_num⟩ chooseSolver_solves.1 chooseSolver_solves.2
    obtain ⟨r, hr⟩ := r1 fun _ _ _ _ => skew_regular _ _
    obtain ⟨r', hr'⟩ := r2 (by
        rw [I.base.canon.lists.2.2.1, Ne, (spc2_counts I.base).2]
        intro hh
        obtain ⟨s, hs, ho⟩ := hh 1 1 (by omega) (by omega)
        rw [hT, skewE_ess] at hs
        cases s <;> simp [On] at ho hs) (by
        rw [I.base.canon.lists.2.2.2, Ne, (spc2_counts I.base).1]
        intro hh
        have := (hT .Xmin).2 ((skewE_ess _).2 (by simp))
        rw [hh .Xmin] at this
        simp at this)
    rw [hr, hr', skew_unique Hs he hn hm r (Or.inr hr), skew_unique Hs he hn hm r' (Or.inl hr')]
    exact ⟨rfl, rfl⟩

/-- the flow of `y` on the parallelogram -/
example : ∃ S, SpcSetupM skew 2 3 skewE [(.Xmax, fun _ _ => √2 / 2)] 1 S ∧ ∀ lp, S.calculateFlowVectors lp [-1, -1, 0, 0, 1, 1] = ok ([0, 0, 0, 0, 0, 0], [-1, -1, -1, -1, -1, -1]) := by
  obtain ⟨S, Hs, hval, ee, en⟩ := spcSetupM' skew 2 3 (by omega) (by omega) (by omega) (by omega) 1 (eops := skewE) (nops := [(.Xmax, fun _ _ => √2 / 2)])
    (skewE_per _) (skewE_per _) (by
      intro s
      rw [skewE_ess]
      cases s <;> simp [Nat'])
  obtain ⟨c0, c1, c2⟩ := cglr3
  refine ⟨S, Hs, fun lp => ?_⟩
  have hu : BiPoly 2 3 (fun _ s => s) := by
    refine ⟨fun k l => if k = 0 ∧ l = 1 then 1 else 0, ?_⟩
    intro x y
    simp [Finset.sum_range_succ]
  have := (C95_flow Hs skew_ok lp).2.2 _ (fun _ _ => height) hu (fun _ _ _ _ => skew_regular _ _) (fun i j _ _ =>
    ⟨(pr1.contDiff : ContDiff ℝ 2 height).contDiffAt, Eventually.of_forall fun η => by rw [skew_point]; simp [height]⟩)
  simp only [height_fderiv] at this
  simpa [List.range_succ, nodalM, c0, c1, c2, unit] using this

/-- a square -/
def squareMap : Transfinite2d := ⟨[fun s => ![-1, s], fun s => ![1, s], fun r => ![r, -1], fun r => ![r, 1]], [fun _ => ![0, 1], fun _ => ![0, 1], fun _ => ![1, 0], fun _ => ![1, 0]],
  none, ![-1, -1], ![1, -1], ![1, 1], ![-1, 1]⟩

/-- `C95_orthogonal` on a square -/
example (r s : ℝ) : IsNormal squareMap .Xmax r s ![1, 0] ∧ Regular squareMap r s ∧ dot (tanR squareMap r s) (tanS squareMap r s) = 0 := by
  have hp : ∀ r s, squareMap.point r s = ![r, s] := by
    intro r s
    funext i
    fin_cases i <;> simp [Transfinite2d.point, squareMap, fnAt] <;> ring
  have h1 : tanR squareMap r s = ![1, 0] := by
    funext i; unfold tanR; simp only [hp]; fin_cases i <;> simp
  have h2 : tanS squareMap r s = ![0, 1] := by
    funext i; unfold tanS; simp only [hp]; fin_cases i <;> simp
  refine ⟨⟨?_, ?_, ?_⟩, ?_, ?_⟩
  · simp [dot]
  · unfold along; dsimp only; rw [h2]; simp [dot]
  · unfold cross; dsimp only; rw [h1]; simp [dot, outward]
  · unfold Regular; rw [h1, h2]; norm_num
  · rw [h1, h2]; simp [dot]

/-- a triangle: the left side is mapped to a point -/
def triangle : Transfinite2d := ⟨[fun _ => ![-1, 0], fun s => ![1, s], fun r => ![r, -((1 + r) / 2)], fun r => ![r, (1 + r) / 2]],
  [fun _ => ![0, 0], fun _ => ![0, 1], fun _ => ![1, -(1 / 2)], fun _ => ![1, 1 / 2]],
  some [fun _ => ![0, 0], fun _ => ![0, 0], fun _ => ![0, 0], fun _ => ![0, 0]], ![-1, 0], ![1, -1], ![1, 1], ![-1, 0]⟩

theorem triangle_ok : MapOk triangle := by
  have hh : ∀ t : ℝ, HasDerivAt (fun r : ℝ => (1 + r) / 2) (1 / 2) t := fun t => ((hasDerivAt_id t).const_add 1).div_const 2
  refine ⟨?_, ?_, ?_⟩
  · intro k hk t i
    interval_cases k <;> fin_cases i <;> simp [triangle, fnAt]
    all_goals first
      | exact hasDerivAt_id t
      | exact hasDerivAt_const t _
      | exact (hh t).neg.congr_deriv (by norm_num)
      | exact (hh t).congr_deriv (by norm_num)
  · intro k hk t i
    interval_cases k <;> fin_cases i <;> simp [triangle, fnAt] <;> exact hasDerivAt_const t _
  · intro k hk i
    interval_cases k <;> fin_cases i <;> simp [triangle, fnAt] <;> fun_prop

theorem triangle_det (r s : ℝ) : tanR triangle r s 0 * tanS triangle r s 1 - tanS triangle r s 0 * tanR triangle r s 1 = (1 + r) / 2 := by
  have hp : ∀ r s, triangle.point r s = ![r, s * ((1 + r) / 2)] := by
    intro r s
    funext i
    fin_cases i <;> simp [Transfinite2d.point, triangle, fnAt] <;> ring
  have h1 : tanR triangle r s 0 = 1 := by unfold tanR; simp only [hp]; simp
  have h2 : tanS triangle r s 0 = 0 := by unfold tanS; simp only [hp]; simp
  have h3 : tanS triangle r s 1 = (1 + r) / 2 := by
    unfold tanS; simp only [hp]; simp
  rw [h1, h2, h3]; ring

/-- on the triangle, with values prescribed on all sides, the method with multipliers panics and the partitioned one does not -/
example : ∃ S, SpcSetupM triangle 3 3 (allSides fun x _ => x) [] 1 S ∧ S.ebcs.validate S.nbcs = ok () ∧
    ∀ lp, S.solveLmm lp chooseSolver 0 (fun _ _ => 0) = Res.panic ∧ S.solveSps lp chooseSolver 0 (fun _ _ => 0) ≠ Res.panic := by
  obtain ⟨S, Hs, hval, ee, en⟩ := spcSetupM' triangle 3 3 (by omega) (by omega) (by omega) (by omega) 1 (eops := allSides fun x _ => x) (nops := [])
    (allSides_per _ _) (allSides_per _ _) (fun s => Or.inl ⟨allSides_ess _ s, by simp [Nat']⟩)
  obtain ⟨c0, c1, c2⟩ := cglr3
  refine ⟨S, Hs, hval, fun lp => ?_⟩
  obtain ⟨h1, h2⟩ := C95_panics Hs triangle_ok lp hval (solver := chooseSolver) chooseSolver_solves.1 (by
      intro A v
      unfold chooseSolver
      split <;> simp) 0 (fun _ _ => 0)
  refine ⟨h1.2 ⟨0, 0, by omega, by omega, ?_⟩, fun hp => ?_⟩
  · unfold Regular
    rw [triangle_det, c0]
    norm_num
  · rcases h2.1 hp with h | h | ⟨i, j, hi, hj, hf, hr⟩
    · exact h .Xmin (allSides_ess _ _)
    · obtain ⟨s, _, ho⟩ := h 1 1 (by omega) (by omega)
      cases s <;> simp [On] at ho
    · have hi0 : i ≠ 0 := fun h => hf .Xmin (allSides_ess _ _) h
      have hi2 : i ≠ 2 := fun h => hf .Xmax (allSides_ess _ _) h
      obtain rfl : i = 1 := by omega
      apply hr
      unfold Regular
      rw [triangle_det, c1]
      norm_num

end

end Russell.Pde
