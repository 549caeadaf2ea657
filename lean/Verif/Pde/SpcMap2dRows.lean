import Verif.Pde.SpcMap2d

/-!
# Spectral collocation on mapped domains: construction and rows (C95)
-/

namespace Russell.Pde

open Russell Res Russell.Sparse Russell.Lab Polynomial Filter Topology

noncomputable section

/-- an `SpcMap2d` obtained with the public functions -/
structure SpcSetupM (m : Transfinite2d) (nr ns : Nat) (eops : List (EOp ℝ)) (nops : List (Side × (ℝ → ℝ → ℝ))) (k : ℝ) (S : SpcMap2d) : Prop where
  made : ∃ e n, runE eops = ok e ∧ runN nops = ok n ∧ SpcMap2d.new m nr ns e n k = ok S

/-- what is known about an `SpcMap2d` -/
structure SpcMap2d.Is (S : SpcMap2d) (m : Transfinite2d) (nr ns : Nat) (T N : Nat → Bool) (eF nF : Nat → ℝ → ℝ → ℝ) (k : ℝ) (P : List Nat)
    (d1r d2r d1s d2s : Nat → Nat → ℝ) : Prop where
  base : Spc2Is S.grid S.ebcs S.nbcs S.equations nr ns T N eF nF P
  map : S.map = m
  ndim : S.metrics.ndim = 2
  homog : S.metrics.homogeneous = false
  cond : S.mk = -k
  dd1r : ∃ D, S.interp_r.getDd1 = ok D ∧ IsDense D nr nr d1r
  dd2r : ∃ D, S.interp_r.getDd2 = ok D ∧ IsDense D nr nr d2r
  dd1s : ∃ D, S.interp_s.getDd1 = ok D ∧ IsDense D ns ns d1s
  dd2s : ∃ D, S.interp_s.getDd2 = ok D ∧ IsDense D ns ns d2s
  diff1r : Diff1 nr d1r
  diff2r : Diff2 nr d2r
  diff1s : Diff1 ns d1s
  diff2s : Diff2 ns d2s

/-- what `new` does -/
theorem spcM_new (m : Transfinite2d) {nr ns : Nat} (hx : 2 ≤ nr) (hx2 : nr ≤ 2049) (hy : 2 ≤ ns) (hy2 : ns ≤ 2049) (eops : List (EOp ℝ))
    (nops : List (Side × (ℝ → ℝ → ℝ))) (k : ℝ) :
    ∃ e n, runE eops = ok e ∧ runN nops = ok n ∧
    (((Per eops .Xmin ∨ Per eops .Ymin) ∧ ∃ msg, SpcMap2d.new m nr ns e n k = err msg) ∨
      (¬ Per eops .Xmin ∧ ¬ Per eops .Ymin ∧ ∃ S T N eF nF P d1r d2r d1s d2s, SpcMap2d.new m nr ns e n k = ok S ∧ S.ebcs = e ∧ S.nbcs = n ∧
        S.Is m nr ns T N eF nF k P d1r d2r d1s d2s ∧
        (∀ s : Side, T s.index = true ↔ Ess eops s) ∧ (∀ s : Side, N s.index = true ↔ Nat' nops s))) := by
  have pre : ∀ (e : EssentialBcs2d ℝ) (n : NaturalBcs2d ℝ) (g : Grid2d ℝ), Grid2d.newCgl nr ns = ok g → SpcMap2d.new m nr ns e n k =
      (if e.periodic_along_x ∨ e.periodic_along_y then err "essential BCs cannot be periodic"
      else do
        let nodes ← e.getNodes g
        let equations ← (EquationHandler.new g.size).recompute nodes
        let interp_r ← (Lab.Interp.new (nr - 1) none).unwrap
        let interp_s ← (Lab.Interp.new (ns - 1) none).unwrap
        let interp_r ← interp_r.calcDd1
        let interp_s ← interp_s.calcDd1
        let interp_r ← interp_r.calcDd2
        let interp_s ← interp_s.calcDd2
        ok { grid := g, ebcs := e, nbcs := n, mk := -k, equations := equations, interp_r := interp_r, interp_s := interp_s, metrics := Metrics.new 2 false, map := m }) := by
    intro e n g hg
    unfold SpcMap2d.new
    rw [if_neg (by omega), if_neg (by omega)]
    dsimp only
    rw [if_neg (by omega), hg, unwrap_ok, ok_bind]
  by_cases hp : ¬ Per eops .Xmin ∧ ¬ Per eops .Ymin
  · obtain ⟨g, e, n, nodes, h, T, N, eF, nF, eg, ee, en, e1, e2, B, hT, hN⟩ := spc2_make hx hx2 hy hy2 eops nops hp.1 hp.2
    obtain ⟨s, t, u, d1r, d2r, i1, i2, i3, i4, i5, i6, i7⟩ := interp_none hx hx2
    obtain ⟨s', t', u', d1s, d2s, j1, j2, j3, j4, j5, j6, j7⟩ := interp_none hy hy2
    refine ⟨e, n, ee, en, Or.inr ⟨hp.1, hp.2, ?_⟩⟩
    rw [pre e n g eg, B.px, B.py, if_neg (by simp), e1, ok_bind, e2, ok_bind, i1, unwrap_ok, ok_bind, j1, unwrap_ok, ok_bind, i2, ok_bind, j2, ok_bind, i3, ok_bind,
      j3, ok_bind]
    exact ⟨_, T, N, eF, nF, nodes, d1r, d2r, d1s, d2s, rfl, rfl, rfl, ⟨B, rfl, rfl, rfl, rfl, i4, i5, j4, j5, i6, i7, j6, j7⟩, hT, hN⟩
  · obtain ⟨e, ee, es⟩ := runE_state eops
    obtain ⟨n, en, _⟩ := runN_state nops
    obtain ⟨g, eg, _⟩ := C46_cgl_2d hx hy
    have hor : Per eops .Xmin ∨ Per eops .Ymin := by tauto
    refine ⟨e, n, ee, en, Or.inl ⟨hor, ?_⟩⟩
    rw [pre e n g eg, if_pos (by rw [es.px, es.py]; exact hor)]
    exact ⟨_, rfl⟩

theorem spcM_bad {m : Transfinite2d} {nr ns : Nat} (h : ¬ (2 ≤ nr ∧ nr ≤ 2049 ∧ 2 ≤ ns ∧ ns ≤ 2049)) (e : EssentialBcs2d ℝ) (n : NaturalBcs2d ℝ) (k : ℝ) :
    ∃ msg, SpcMap2d.new m nr ns e n k = err msg := by
  unfold SpcMap2d.new
  by_cases h2 : nr < 2
  · rw [if_pos h2]; exact ⟨_, rfl⟩
  · rw [if_neg h2]
    by_cases h3 : ns < 2
    · rw [if_pos h3]; exact ⟨_, rfl⟩
    · rw [if_neg h3]
      dsimp only
      rw [if_pos (by omega)]
      exact ⟨_, rfl⟩

/-- **C95** `SpcMap2d::new` for any history of boundary conditions: fewer than two or more than 2049 points along an axis, and periodic conditions, are errors; everything else is
accepted, and the prescribed nodes are those on essential sides. -/
theorem C95_new (m : Transfinite2d) (nr ns : Nat) (eops : List (EOp ℝ)) (nops : List (Side × (ℝ → ℝ → ℝ))) (k : ℝ) :
    ∃ e n, runE eops = ok e ∧ runN nops = ok n ∧
      (2 ≤ nr ∧ nr ≤ 2049 ∧ 2 ≤ ns ∧ ns ≤ 2049 ∧ ¬ Per eops .Xmin ∧ ¬ Per eops .Ymin →
        ∃ S, SpcMap2d.new m nr ns e n k = ok S ∧
          (∀ p, p ∈ S.equations.prescribed ↔ ∃ i j s, i < nr ∧ j < ns ∧ p = i + j * nr ∧ Ess eops s ∧ On nr ns s i j) ∧
          ∀ p, p ∈ S.equations.unknown ↔ p < nr * ns ∧ p ∉ S.equations.prescribed) ∧
      (¬ (2 ≤ nr ∧ nr ≤ 2049 ∧ 2 ≤ ns ∧ ns ≤ 2049 ∧ ¬ Per eops .Xmin ∧ ¬ Per eops .Ymin) → ∃ msg, SpcMap2d.new m nr ns e n k = err msg) := by
  by_cases hx : 2 ≤ nr ∧ nr ≤ 2049 ∧ 2 ≤ ns ∧ ns ≤ 2049
  · obtain ⟨x1, x2, x3, x4⟩ := hx
    obtain ⟨e, n, ee, en, h⟩ := spcM_new m x1 x2 x3 x4 eops nops k
    refine ⟨e, n, ee, en, ?_⟩
    rcases h with ⟨hp, msg, hm⟩ | ⟨hp, hp', S, T, N, eF, nF, P, d1r, d2r, d1s, d2s, eS, _, _, H, hT, _⟩
    · exact ⟨fun h => absurd hp (by tauto), fun _ => ⟨msg, hm⟩⟩
    · refine ⟨fun _ => ?_, fun h => absurd ⟨x1, x2, x3, x4, hp, hp'⟩ h⟩
      obtain ⟨l1, l2, _, _⟩ := H.base.canon.lists
      refine ⟨S, eS, ?_, ?_⟩
      · intro p
        rw [l2, mem_presc]
        constructor
        · rintro ⟨hm, hmP⟩
          obtain ⟨i, j, hi, hj, rfl⟩ := ij_of x1 hm
          obtain ⟨s, hs, ho⟩ := (H.base.mem hi hj).1 hmP
          exact ⟨i, j, s, hi, hj, rfl, (hT s).1 hs, ho⟩
        · rintro ⟨i, j, s, hi, hj, rfl, hs, ho⟩
          exact ⟨ij_lt hi hj, (H.base.mem hi hj).2 ⟨s, (hT s).2 hs, ho⟩⟩
      · intro p
        rw [l1, l2, mem_unkn, mem_presc]
        tauto
  · obtain ⟨e, ee, _⟩ := runE_state eops
    obtain ⟨n, en, _⟩ := runN_state nops
    exact ⟨e, n, ee, en, fun h => absurd ⟨h.1, h.2.1, h.2.2.1, h.2.2.2.1⟩ hx, fun _ => spcM_bad hx e n k⟩

theorem spc_setupM_is {m : Transfinite2d} {nr ns : Nat} {eops : List (EOp ℝ)} {nops : List (Side × (ℝ → ℝ → ℝ))} {k : ℝ} {S : SpcMap2d}
    (H : SpcSetupM m nr ns eops nops k S) : ∃ T N eF nF P d1r d2r d1s d2s, S.Is m nr ns T N eF nF k P d1r d2r d1s d2s ∧
      (∀ s : Side, T s.index = true ↔ Ess eops s) ∧ (∀ s : Side, N s.index = true ↔ Nat' nops s) := by
  obtain ⟨e, n, ee, en, hS⟩ := H.made
  have hx : 2 ≤ nr ∧ nr ≤ 2049 ∧ 2 ≤ ns ∧ ns ≤ 2049 := by
    by_contra hx
    obtain ⟨msg, hm⟩ := spcM_bad (m := m) hx e n k
    rw [hm] at hS; cases hS
  obtain ⟨e', n', ee', en', h⟩ := spcM_new m hx.1 hx.2.1 hx.2.2.1 hx.2.2.2 eops nops k
  rw [ee] at ee'; cases ee'
  rw [en] at en'; cases en'
  rcases h with ⟨hp, msg, hm⟩ | ⟨_, _, S', T, N, eF, nF, P, d1r, d2r, d1s, d2s, eS, _, _, H, h⟩
  · rw [hm] at hS; cases hS
  · rw [eS] at hS; cases hS
    exact ⟨T, N, eF, nF, P, d1r, d2r, d1s, d2s, H, h⟩

section Rows

variable {S : SpcMap2d} {m : Transfinite2d} {nr ns : Nat} {T N : Nat → Bool} {eF nF : Nat → ℝ → ℝ → ℝ} {k : ℝ} {P : List Nat} {d1r d2r d1s d2s : Nat → Nat → ℝ}
  {me : Metrics ℝ} {i j : Nat}

/-- the metrics at the nodes -/
theorem calc_metrics (I : S.Is m nr ns T N eF nF k P d1r d2r d1s d2s) (H : MapOk m) (lp : Lapack ℝ) (hi : i < nr) (hj : j < ns) :
    (Regular m (cgl nr i) (cgl ns j) → ∃ me, S.calculateMetrics lp (i + j * nr) = ok me ∧ MetricsAt m (cgl nr i) (cgl ns j) me) ∧
    (¬ Regular m (cgl nr i) (cgl ns j) → S.calculateMetrics lp (i + j * nr) = Res.panic) := by
  have e : S.calculateMetrics lp (i + j * nr) = match S.metrics.calculate2d lp zeroDet (List.ofFn fun d => xr m d ![cgl nr i, cgl ns j]) (List.ofFn fun d => xs m d ![cgl nr i, cgl ns j])
      (some (List.ofFn (x2 m ![cgl nr i, cgl ns j]).1)) (some (List.ofFn (x2 m ![cgl nr i, cgl ns j]).2.1)) (some (List.ofFn (x2 m ![cgl nr i, cgl ns j]).2.2)) with
      | (me, ok _) => ok me
      | _ => Res.panic := by
    unfold SpcMap2d.calculateMetrics
    rw [spc2_coord I.base hi hj, ok_bind, I.map]
    dsimp only
    rw [x2_some]
    rfl
  rw [e]
  have hz : (0 : ℝ) ≤ zeroDet := by unfold zeroDet; norm_num
  have hreg : Regular m (cgl nr i) (cgl ns j) ↔
      zeroDet < (jac2 (List.ofFn fun d => xr m d ![cgl nr i, cgl ns j]) (List.ofFn fun d => xs m d ![cgl nr i, cgl ns j])).det ^ 2 := by
    rw [jac_det H]; rfl
  rw [hreg]
  rcases C90_metrics_2d (lp := lp) hz I.ndim (dr := List.ofFn fun d => xr m d ![cgl nr i, cgl ns j]) (ds := List.ofFn fun d => xs m d ![cgl nr i, cgl ns j]) (by simp) (by simp)
    (rr := List.ofFn (x2 m ![cgl nr i, cgl ns j]).1) (ss := List.ofFn (x2 m ![cgl nr i, cgl ns j]).2.1) (rs := List.ofFn (x2 m ![cgl nr i, cgl ns j]).2.2)
    (fun _ => ⟨rfl, rfl, rfl⟩) with ⟨h1, me, h2, h3, h4⟩ | ⟨h1, h2⟩
  · refine ⟨fun _ => ⟨me, ?_, h3, h4.trans I.homog⟩, fun hn => absurd h1 hn⟩
    rw [h2]
  · refine ⟨fun hn => absurd h1 (not_le.2 hn), fun _ => ?_⟩
    generalize S.metrics.calculate2d lp zeroDet _ _ _ _ _ = w at h2
    obtain ⟨w1, w2⟩ := w
    simp only at h2
    rw [h2]

/-- entries of the flow rows -/
def flowVM (me : Metrics ℝ) (k : ℝ) (d1r d1s : Nat → Nat → ℝ) (i j p l : Nat) : Side → ℝ
  | .Xmin => -k * nfac me .Xmin * if j = l then d1r i p else 0
  | .Xmax => -k * nfac me .Xmax * if j = l then d1r i p else 0
  | .Ymin => -k * nfac me .Ymin * if i = p then d1s j l else 0
  | .Ymax => -k * nfac me .Ymax * if i = p then d1s j l else 0

/-- entries of the matrix -/
def spcVM (me : Metrics ℝ) (l1 l2 : ℝ) (nr ns : Nat) (N : Nat → Bool) (k alpha : ℝ) (d1r d2r d1s d2s : Nat → Nat → ℝ) (i j n : Nat) : ℝ :=
  if enB N nr ns i j = true then sumOn nr ns i j (flowVM me k d1r d1s i j (n % nr) (n / nr))
  else -k * (me.gg_mat 0 0 * (if j = n / nr then d2r i (n % nr) else 0) + me.gg_mat 1 1 * (if i = n % nr then d2s j (n / nr) else 0) +
    2 * me.gg_mat 0 1 * (d1r i (n % nr) * d1s j (n / nr)) - l1 * (if j = n / nr then d1r i (n % nr) else 0) - l2 * (if i = n % nr then d1s j (n / nr) else 0)) +
    if i + j * nr = n then alpha else 0

theorem spcM_val (I : S.Is m nr ns T N eF nF k P d1r d2r d1s d2s) {lp : Lapack ℝ} (alpha : ℝ) (hi : i < nr) (hj : j < ns) (hme : S.calculateMetrics lp (i + j * nr) = ok me)
    {l1 l2 : ℝ} (e1 : me.ell 0 = ok l1) (e2 : me.ell 1 = ok l2) {n : Nat} (hn : n < nr * ns) :
    S.val lp alpha (i + j * nr) n = ok (spcVM me l1 l2 nr ns N k alpha d1r d2r d1s d2s i j n) := by
  have hx := I.base.grid.hx
  obtain ⟨D1, q1, h1⟩ := I.dd1r
  obtain ⟨D2, q2, h2⟩ := I.dd2r
  obtain ⟨D3, q3, h3⟩ := I.dd1s
  obtain ⟨D4, q4, h4⟩ := I.dd2s
  obtain ⟨p, l, hp, hl, rfl⟩ := ij_of hx hn
  unfold SpcMap2d.val Grid2d.getIJ
  dsimp only
  rw [I.base.grid.enx, I.base.grid.eny, hme, ok_bind, e1, ok_bind, e2, ok_bind, q1, unwrap_ok, ok_bind, q3, unwrap_ok, ok_bind, q2, unwrap_ok, ok_bind, q4, unwrap_ok, ok_bind,
    mod_ij hi, mod_ij hp, div_ij hi, div_ij hp, I.base.enabled, ok_bind, I.cond]
  unfold spcVM
  rw [mod_ij hp, div_ij hp]
  by_cases hb : enB N nr ns i j = true
  · rw [if_pos hb, if_pos hb, addIf_ok (d := -k * nfac me .Xmin * d1r i p) (by rw [h1.get i p hi hp, ok_bind]; congr 1; unfold nfac; ring), ok_bind,
      addIf_ok (d := -k * nfac me .Xmax * d1r i p) (by rw [h1.get i p hi hp, ok_bind]; congr 1; unfold nfac; ring), ok_bind,
      addIf_ok (d := -k * nfac me .Ymin * d1s j l) (by rw [h3.get j l hj hl, ok_bind]; congr 1; unfold nfac; ring), ok_bind,
      addIf_ok (d := -k * nfac me .Ymax * d1s j l) (by rw [h3.get j l hj hl, ok_bind]; congr 1; unfold nfac; ring)]
    congr 1
    unfold sumOn flowVM
    rw [zero_add, ite_and_mul, ite_and_mul, ite_and_mul, ite_and_mul]
    simp only [mul_ite, mul_zero]
  · rw [if_neg hb, if_neg hb, h2.get i p hi hp, ok_bind, h4.get j l hj hl, ok_bind, h1.get i p hi hp, ok_bind, h3.get j l hj hl, ok_bind, addIf_ok (d := alpha) rfl]
    congr 2
    unfold delta
    by_cases c1 : j = l <;> by_cases c2 : i = p <;> simp only [c1, c2, if_true, if_false] <;> ring

theorem spcM_val_panic (I : S.Is m nr ns T N eF nF k P d1r d2r d1s d2s) {lp : Lapack ℝ} (alpha : ℝ) {p : Nat} (hme : S.calculateMetrics lp p = Res.panic) (n : Nat) :
    S.val lp alpha p n = Res.panic := by
  unfold SpcMap2d.val Grid2d.getIJ
  dsimp only
  rw [hme, panic_bind]

variable {u : ℝ → ℝ → ℝ}

/-- the flow leaving through a side as computed -/
def gridFlow (m : Transfinite2d) (k : ℝ) (φ : Pl → ℝ) (n : Pl) (r s : ℝ) (side : Side) : ℝ :=
  -k * (fderiv ℝ φ (m.point r s) (cross m side r s) / dot n (cross m side r s))

/-- one row applied to the nodal values of a polynomial -/
theorem spcM_row (I : S.Is m nr ns T N eF nF k P d1r d2r d1s d2s) (H : MapOk m) (alpha : ℝ) (hu : BiPoly nr ns u) (hi : i < nr) (hj : j < ns)
    (hm : MetricsAt m (cgl nr i) (cgl ns j) me) {φ : Pl → ℝ} (hφ : Phys m u (cgl nr i) (cgl ns j) φ) {nrm : Side → Pl}
    (hn : ∀ s, On nr ns s i j → IsNormal m s (cgl nr i) (cgl ns j) (nrm s)) {l1 l2 : ℝ} (e1 : me.ell 0 = ok l1) (e2 : me.ell 1 = ok l2) :
    ∑ n ∈ Finset.range (nr * ns), spcVM me l1 l2 nr ns N k alpha d1r d2r d1s d2s i j n * nodalM nr ns u n =
      if enB N nr ns i j = true then sumOn nr ns i j (fun s => gridFlow m k φ (nrm s) (cgl nr i) (cgl ns j) s)
      else -k * lap φ (m.point (cgl nr i) (cgl ns j)) + alpha * φ (m.point (cgl nr i) (cgl ns j)) := by
  unfold spcVM
  by_cases hb : enB N nr ns i j = true
  · simp only [if_pos hb]
    rw [sumOn_sum]
    obtain ⟨t1, t2⟩ := fderiv_tan H hm hu hφ
    have key : ∀ s, On nr ns s i j → ∑ n ∈ Finset.range (nr * ns), flowVM me k d1r d1s i j (n % nr) (n / nr) s * nodalM nr ns u n =
        gridFlow m k φ (nrm s) (cgl nr i) (cgl ns j) s := by
      intro s hs
      have hf := (nfac_eq H hm s).1 _ (hn s hs)
      have sx : ∀ c : ℝ, ∑ n ∈ Finset.range (nr * ns), (c * if j = n / nr then d1r i (n % nr) else 0) * nodalM nr ns u n = c * ux u (cgl nr i) (cgl ns j) := by
        intro c
        rw [← sumM_r1 I.diff1r hu hi hj, Finset.mul_sum]
        exact Finset.sum_congr rfl fun n _ => by ring
      have sy : ∀ c : ℝ, ∑ n ∈ Finset.range (nr * ns), (c * if i = n % nr then d1s j (n / nr) else 0) * nodalM nr ns u n = c * uy u (cgl nr i) (cgl ns j) := by
        intro c
        rw [← sumM_s1 I.diff1s hu hi hj, Finset.mul_sum]
        exact Finset.sum_congr rfl fun n _ => by ring
      unfold gridFlow
      cases s
      · refine (sx (-k * nfac me .Xmin)).trans ?_
        rw [show cross m .Xmin = tanR m from rfl, t1, hf, show cross m .Xmin = tanR m from rfl]; ring
      · refine (sx (-k * nfac me .Xmax)).trans ?_
        rw [show cross m .Xmax = tanR m from rfl, t1, hf, show cross m .Xmax = tanR m from rfl]; ring
      · refine (sy (-k * nfac me .Ymin)).trans ?_
        rw [show cross m .Ymin = tanS m from rfl, t2, hf, show cross m .Ymin = tanS m from rfl]; ring
      · refine (sy (-k * nfac me .Ymax)).trans ?_
        rw [show cross m .Ymax = tanS m from rfl, t2, hf, show cross m .Ymax = tanS m from rfl]; ring
    unfold sumOn
    congr 1
    · congr 1
      · congr 1
        · by_cases h0 : i = 0
          · rw [if_pos h0, if_pos h0]; exact key .Xmin h0
          · rw [if_neg h0, if_neg h0]
        · by_cases h0 : i = nr - 1
          · rw [if_pos h0, if_pos h0]; exact key .Xmax h0
          · rw [if_neg h0, if_neg h0]
      · by_cases h0 : j = 0
        · rw [if_pos h0, if_pos h0]; exact key .Ymin h0
        · rw [if_neg h0, if_neg h0]
    · by_cases h0 : j = ns - 1
      · rw [if_pos h0, if_pos h0]; exact key .Ymax h0
      · rw [if_neg h0, if_neg h0]
  · simp only [if_neg hb]
    obtain ⟨_, l1', l2', f1, f2, hl⟩ := phys_derivs H hm hu hφ
    rw [e1] at f1; cases f1
    rw [e2] at f2; cases f2
    have hval : φ (m.point (cgl nr i) (cgl ns j)) = u (cgl nr i) (cgl ns j) := hφ.same.self_of_nhds
    rw [hl, hval, ← sumM_r1 I.diff1r hu hi hj, ← sumM_s1 I.diff1s hu hi hj, ← sumM_r2 I.diff2r hu hi hj, ← sumM_s2 I.diff2s hu hi hj, ← sumM_rs I.diff1r I.diff1s hu hi hj]
    have : ∑ n ∈ Finset.range (nr * ns), (if i + j * nr = n then alpha else 0) * nodalM nr ns u n = alpha * u (cgl nr i) (cgl ns j) := by
      rw [Finset.sum_eq_single (i + j * nr)]
      · rw [if_pos rfl, nodalM_ij ns u hi]
      · intro n _ hn; rw [if_neg (Ne.symm hn), zero_mul]
      · intro h; exact absurd (Finset.mem_range.2 (ij_lt hi hj)) h
    rw [← this]
    simp only [Finset.mul_sum, ← Finset.sum_add_distrib, ← Finset.sum_sub_distrib]
    exact Finset.sum_congr rfl fun n _ => by ring

end Rows

end

end Russell.Pde
