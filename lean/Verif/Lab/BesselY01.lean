import Verif.Lab.BesselYSer

/-!
# Bessel functions `Y₀` and `Y₁` (property C118)

/repo/russell_lab/src/math/bessel_0.rs and bessel_1.rs. Arithmetic, `sin`, `cos`, `ln` and `sqrt` are the real ones; `SQRT_PI` is `√π` and `PI` is `π`.
The coefficients are the decimals of the source.
-/

namespace Russell.Lab

open Russell Real Set Filter Topology

/-- `bessel_y0` for `x ≥ 2` (bessel_0.rs:217-241) -/
noncomputable def besY0Large (x : ℝ) : Res ℝ := do
  let s := sin x
  let c := cos x
  let ss := s - c
  let cc := s + c
  let z := -cos (x + x)
  let cc' := if x < besMax / 2 ∧ s * c < 0 then z / ss else cc
  let ss' := if x < besMax / 2 ∧ ¬ s * c < 0 then z / cc else ss
  if 2 ^ 129 < x then .ok (1 / √π * ss' / √x)
  else do
    let u ← besPzero x
    let v ← besQzero x
    .ok (1 / √π * (u * ss' + v * cc') / √x)

/-- `u / v` for `x < 2` (bessel_0.rs:247-250) -/
noncomputable def besY0Rat (x : ℝ) : ℝ :=
  let z := x * x
  let u := (-7.38042951086872317523e-02) + z * (1.76666452509181115538e-01 + z * ((-1.38185671945596898896e-02) + z * (3.47453432093683650238e-04 + z * ((-3.81407053724364161125e-06) + z * (1.95590137035022920206e-08 + z * (-3.98205194132103398453e-11))))))
  let v := 1 + z * (1.27304834834123699328e-02 + z * (7.60068627350353253702e-05 + z * (2.59150851840457805467e-07 + z * (4.41110311332675467403e-10))))
  u / v

/-- `bessel_y0` for `0 < x < 2` (bessel_0.rs:243-250) -/
noncomputable def besY0Small (x : ℝ) : Res FArg :=
  if x ≤ 1 / 2 ^ 27 then .ok (.fin ((-7.38042951086872317523e-02) + 2 / π * log x))
  else match besselJ0F (.fin x) with
    | .ok (.fin j) => .ok (.fin (besY0Rat x + 2 / π * j * log x))
    | r => r

/-- `bessel_y0` (bessel_0.rs:178-251) -/
noncomputable def besselY0F : FArg → Res FArg
  | .nan => .ok .nan
  | .posInf => .ok (.fin 0)
  | .negInf => .ok .nan
  | .negZero => .ok .negInf
  | .fin x =>
    if x < 0 then .ok .nan
    else if x = 0 then .ok .negInf
    else if 2 ≤ x then (do let y ← besY0Large x; .ok (.fin y))
    else besY0Small x

/-- `bessel_y1` for `x ≥ 2` (bessel_1.rs:220-244) -/
noncomputable def besY1Large (x : ℝ) : Res ℝ := do
  let s := sin x
  let c := cos x
  let ss := -s - c
  let cc := s - c
  let z := cos (x + x)
  let cc' := if x < besMax / 2 ∧ s * c > 0 then z / ss else cc
  let ss' := if x < besMax / 2 ∧ ¬ s * c > 0 then z / cc else ss
  if 2 ^ 129 < x then .ok (1 / √π * ss' / √x)
  else do
    let u ← besPone x
    let v ← besQone x
    .ok (1 / √π * (u * ss' + v * cc') / √x)

/-- `u / v` for `x < 2` (bessel_1.rs:250-253) -/
noncomputable def besY1Rat (x : ℝ) : ℝ :=
  let z := x * x
  let u := (-1.96057090646238940668e-01) + z * (5.04438716639811282616e-02 + z * ((-1.91256895875763547298e-03) + z * (2.35252600561610495928e-05 + z * (-9.19099158039878874504e-08))))
  let v := 1 + z * (1.99167318236649903973e-02 + z * (2.02552581025135171496e-04 + z * (1.35608801097516229404e-06 + z * (6.22741452364621501295e-09 + z * (1.66559246207992079114e-11)))))
  u / v

/-- `bessel_y1` for `0 < x < 2` (bessel_1.rs:246-253) -/
noncomputable def besY1Small (x : ℝ) : Res FArg :=
  if x ≤ 1 / 2 ^ 54 then .ok (.fin (-(2 / π) / x))
  else match besselJ1F (.fin x) with
    | .ok (.fin j) => .ok (.fin (x * besY1Rat x + 2 / π * (j * log x - 1 / x)))
    | r => r

/-- `bessel_y1` (bessel_1.rs:181-254) -/
noncomputable def besselY1F : FArg → Res FArg
  | .nan => .ok .nan
  | .posInf => .ok (.fin 0)
  | .negInf => .ok .nan
  | .negZero => .ok .negInf
  | .fin x =>
    if x < 0 then .ok .nan
    else if x = 0 then .ok .negInf
    else if 2 ≤ x then (do let y ← besY1Large x; .ok (.fin y))
    else besY1Small x

/-! ## Large arguments -/

theorem asyY_far {x : ℝ} (h : 8 ≤ x) :
    |asyA (π / 2) (rfEval bU08) (rfEval bG08) x - (sin x - cos x)| ≤ 4 / x ∧ |asyB (π / 2) (rfEval bU18) (rfEval bG18) x - (-sin x - cos x)| ≤ 4 / x := by
  have := asy_far (π / 2) h
  rw [(sin_quarter x).1, (sin_quarter x).2] at this
  rw [show sin x - cos x = -cos x + sin x by ring, show -sin x - cos x = -cos x - sin x by ring]
  exact this

theorem besY0Large_acc {x : ℝ} (h : 2 ≤ x) : ∃ y, besY0Large x = .ok y ∧ |y - besselY 0 x| ≤ 2 / 10 ^ 14 / √x := by
  have hx : 0 < x := by linarith
  obtain ⟨k1, k2⟩ := j0_cc x
  have main : ∀ U G : RF, besPzero x = .ok (rfEval U (1 / x ^ 2)) → besQzero x = .ok (rfEval G (1 / x ^ 2) / x) → |asyA (π / 2) (rfEval U) (rfEval G) x - bessW besselY 0 (√π) x| ≤ 35 / 10 ^ 15 →
      (2 ^ 129 < x → U = bU08 ∧ G = bG08) → ∃ y, besY0Large x = .ok y ∧ |y - besselY 0 x| ≤ 2 / 10 ^ 14 / √x := by
    intro U G e1 e2 hb h8
    simp only [besY0Large, k1, k2, e1, e2]
    by_cases hl : 2 ^ 129 < x
    · obtain ⟨rfl, rfl⟩ := h8 hl
      obtain ⟨b1, b2⟩ := big_four hl
      refine ⟨_, if_pos hl, bess_unscale hx (η := 354 / 10 ^ 16) ?_ le_rfl⟩
      have a1 := abs_le.1 ((asyY_far b2).1.trans b1)
      have a2 := abs_le.1 hb
      rw [abs_le]
      constructor <;> linarith [a1.1, a1.2, a2.1, a2.2]
    · refine ⟨_, if_neg hl, bess_unscale hx ?_ (show (35 / 10 ^ 15 : ℝ) ≤ _ by norm_num)⟩
      convert hb using 3
      unfold asyA
      rw [(sin_quarter x).1, (sin_quarter x).2]
      ring
  rcases besPzero_cases h with ⟨c, e1, e2⟩ | ⟨c, e1, e2⟩ | ⟨c, e1, e2⟩ | ⟨c, e1, e2⟩
  · exact main _ _ e1 e2 (asy_err besselY_pair besselY_two h (.inl ⟨c, rfl, rfl, rfl, rfl⟩)).1 (fun _ => ⟨rfl, rfl⟩)
  · exact main _ _ e1 e2 (asy_err besselY_pair besselY_two h (.inr (.inl ⟨c.1, c.2, rfl, rfl, rfl, rfl⟩))).1 (fun hl => absurd hl (not_lt.2 (c.2.trans (by norm_num))))
  · exact main _ _ e1 e2 (asy_err besselY_pair besselY_two h (.inr (.inr (.inl ⟨c.1, c.2, rfl, rfl, rfl, rfl⟩)))).1 (fun hl => absurd hl (not_lt.2 (c.2.trans (by norm_num))))
  · exact main _ _ e1 e2 (asy_err besselY_pair besselY_two h (.inr (.inr (.inr ⟨c, rfl, rfl, rfl, rfl⟩)))).1 (fun hl => absurd hl (not_lt.2 (c.trans (by norm_num))))

theorem besY1Large_acc {x : ℝ} (h : 2 ≤ x) : ∃ y, besY1Large x = .ok y ∧ |y - besselY 1 x| ≤ 2 / 10 ^ 14 / √x := by
  have hx : 0 < x := by linarith
  obtain ⟨k1, k2⟩ := j1_cc x
  have main : ∀ U G : RF, besPone x = .ok (rfEval U (1 / x ^ 2)) → besQone x = .ok (rfEval G (1 / x ^ 2) / x) → |asyB (π / 2) (rfEval U) (rfEval G) x - bessW besselY 1 (√π) x| ≤ 35 / 10 ^ 15 →
      (2 ^ 129 < x → U = bU18 ∧ G = bG18) → ∃ y, besY1Large x = .ok y ∧ |y - besselY 1 x| ≤ 2 / 10 ^ 14 / √x := by
    intro U G e1 e2 hb h8
    simp only [besY1Large, k1, k2, e1, e2]
    by_cases hl : 2 ^ 129 < x
    · obtain ⟨rfl, rfl⟩ := h8 hl
      obtain ⟨b1, b2⟩ := big_four hl
      refine ⟨_, if_pos hl, bess_unscale hx (η := 354 / 10 ^ 16) ?_ le_rfl⟩
      have a1 := abs_le.1 ((asyY_far b2).2.trans b1)
      have a2 := abs_le.1 hb
      rw [abs_le]
      constructor <;> linarith [a1.1, a1.2, a2.1, a2.2]
    · refine ⟨_, if_neg hl, bess_unscale hx ?_ (show (35 / 10 ^ 15 : ℝ) ≤ _ by norm_num)⟩
      convert hb using 3
      unfold asyB
      rw [(sin_quarter x).1, (sin_quarter x).2]
      ring
  rcases besPone_cases h with ⟨c, e1, e2⟩ | ⟨c, e1, e2⟩ | ⟨c, e1, e2⟩ | ⟨c, e1, e2⟩
  · exact main _ _ e1 e2 (asy_err besselY_pair besselY_two h (.inl ⟨c, rfl, rfl, rfl, rfl⟩)).2 (fun _ => ⟨rfl, rfl⟩)
  · exact main _ _ e1 e2 (asy_err besselY_pair besselY_two h (.inr (.inl ⟨c.1, c.2, rfl, rfl, rfl, rfl⟩))).2 (fun hl => absurd hl (not_lt.2 (c.2.trans (by norm_num))))
  · exact main _ _ e1 e2 (asy_err besselY_pair besselY_two h (.inr (.inr (.inl ⟨c.1, c.2, rfl, rfl, rfl, rfl⟩)))).2 (fun hl => absurd hl (not_lt.2 (c.2.trans (by norm_num))))
  · exact main _ _ e1 e2 (asy_err besselY_pair besselY_two h (.inr (.inr (.inr ⟨c, rfl, rfl, rfl, rfl⟩)))).2 (fun hl => absurd hl (not_lt.2 (c.trans (by norm_num))))

/-! ## Arguments below two -/

theorem mul_near2 {a b a' b' δ ε A B : ℝ} (ha : |a - a'| ≤ δ) (hb : |b - b'| ≤ ε) (hB : |b| ≤ B) (hA : |a'| ≤ A) : |a * b - a' * b'| ≤ δ * B + A * ε := by
  rw [show a * b - a' * b' = (a - a') * b + a' * (b - b') by ring]
  refine (abs_add_le _ _).trans ?_
  rw [abs_mul, abs_mul]
  have h1 := (abs_nonneg _).trans ha
  have h2 := (abs_nonneg _).trans hA
  gcongr

theorem half_sq {x : ℝ} (h0 : 0 < x) (h2 : x ≤ 2) : (x / 2) ^ 2 ≤ 1 := pow_le_one₀ (by positivity) (by linarith)

theorem besselJ_0_one {x : ℝ} (h0 : 0 < x) (h2 : x ≤ 2) : |besselJ 0 x - 1| ≤ x ^ 2 / 2 := by
  have hs := besTerm_summable (-1) 0 (x / 2)
  have hJ : besselJ 0 x = ∑ i ∈ Finset.range 1, besTerm (-1) 0 (x / 2) i + ∑' m, besTerm (-1) 0 (x / 2) (m + 1) := (hs.sum_add_tsum_nat_add 1).symm
  have ht := bes_tail (σ := -1) (by simp) 0 1 (h := x / 2) (by push_cast; linarith [half_sq h0 h2])
  have e : |besTerm (-1) 0 (x / 2) 1| = x ^ 2 / 4 := by
    unfold besTerm
    norm_num [Nat.factorial, abs_div]
    rw [div_pow]
    norm_num
  have e2 : ∑ i ∈ Finset.range 1, besTerm (-1) 0 (x / 2) i = 1 := by simp [besTerm]
  rw [hJ, e2, add_sub_cancel_left]
  linarith

theorem yS0_abs {x : ℝ} (h0 : 0 < x) (h2 : x ≤ 2) : |yS0 x| ≤ x ^ 2 / 2 := by
  have hs := wTerm_summable hW_bound 0 (x / 2)
  have hJ : yS0 x = ∑ i ∈ Finset.range 1, wTerm hW 0 (x / 2) i + ∑' m, wTerm hW 0 (x / 2) (m + 1) := (hs.sum_add_tsum_nat_add 1).symm
  have ht := wTerm_tail hW_nonneg hW_double (n := 0) (M := 1) le_rfl (half_sq h0 h2)
  have e : |wTerm hW 0 (x / 2) 1| = x ^ 2 / 4 := by
    unfold wTerm besTerm
    rw [hW_one]
    norm_num [Nat.factorial, abs_div]
    rw [div_pow]
    norm_num
  have e2 : ∑ i ∈ Finset.range 1, wTerm hW 0 (x / 2) i = 0 := by simp [wTerm, hW_zero]
  rw [hJ, e2, zero_add]
  linarith

theorem besselJ_1_abs {x : ℝ} (h0 : 0 < x) (h2 : x ≤ 2) : |besselJ 1 x| ≤ x := by
  have hs := besTerm_summable (-1) 1 (x / 2)
  have hJ : besselJ 1 x = ∑ i ∈ Finset.range 1, besTerm (-1) 1 (x / 2) i + ∑' m, besTerm (-1) 1 (x / 2) (m + 1) := (hs.sum_add_tsum_nat_add 1).symm
  have hh := half_sq h0 h2
  have ht := abs_le.1 (bes_tail (σ := -1) (by simp) 1 1 (h := x / 2) (by push_cast; linarith))
  have e : |besTerm (-1) 1 (x / 2) 1| = x / 2 * ((x / 2) ^ 2 / 2) := by
    unfold besTerm
    norm_num [Nat.factorial, abs_div, abs_of_pos h0]
    ring
  have e2 : ∑ i ∈ Finset.range 1, besTerm (-1) 1 (x / 2) i = x / 2 := by simp [besTerm]
  rw [e] at ht
  rw [hJ, e2, abs_le]
  constructor <;> nlinarith [ht.1, ht.2]

theorem yS1_abs {x : ℝ} (h0 : 0 < x) (h2 : x ≤ 2) : |yS1 x| ≤ x := by
  have hs := wTerm_summable hA_bound 1 (x / 2)
  have hJ : yS1 x = ∑ i ∈ Finset.range 1, wTerm hA 1 (x / 2) i + ∑' m, wTerm hA 1 (x / 2) (m + 1) := (hs.sum_add_tsum_nat_add 1).symm
  have hh := half_sq h0 h2
  have ht := abs_le.1 (wTerm_tail hA_nonneg hA_double (n := 1) (M := 1) le_rfl hh)
  have e : |wTerm hA 1 (x / 2) 1| = 5 / 4 * (x / 2 * ((x / 2) ^ 2 / 2)) := by
    unfold wTerm besTerm hA
    simp only [Nat.reduceAdd, hW_one, hW_2]
    norm_num [Nat.factorial, abs_div, abs_of_pos h0]
    ring
  have e2 : ∑ i ∈ Finset.range 1, wTerm hA 1 (x / 2) i = x / 4 := by
    simp only [Finset.sum_range_succ, Finset.sum_range_zero, wTerm, hA, zero_add, hW_zero, hW_one, besTerm]
    norm_num [Nat.factorial]
    ring
  rw [e] at ht
  rw [hJ, e2, abs_le]
  constructor <;> nlinarith [ht.1, ht.2]

def bYR0 : RF := ([-738042951086872317523000000000, 1766664525091811155380000000000, -138185671945596898896000000000, 3474534320936836502380000000, -38140705372436416112500000, 195590137035022920206000, -398205194132103398453], [10000000000000000000000000000000, 127304834834123699328000000000, 760068627350353253702000000, 2591508518404578054670000, 4411103113326754674030])

/-- the power series with rational approximations of the constants -/
def bYT0 : List ℤ := [-1968832163067669260286604510724349406425907200000, 4737887379741390172042790717445253072158720000000, -428795440576789162533022532020458495777177600000, 14367974818669185566294109448348480045056000000, -253292462301895320649636283086202417971200000, 2763267469100467575906689414508083517849600, -20522360005799047803809918293146756710400, 110535375750389800136115315019245158400, -451703714588530068592328997191270400, 1448810924487424523942383181721600, -3745020540006029901279590966016, 7968662326810859284055565504, -14202131124811131149333969]

def bYZ0p : List ℤ := [44073931335096931933828939776000000000000000000000000000000000000000000000000000000, 23546393705795065571055538065888729496161789935616000000000000000000000000000000000, -647714626343664348066441482619714194092580935827456000000000000000000000000000000, -791141153761599010144357071145547015193470919518453760000000000000000000000000000, 1557121505588163192857263981913110687760918134913142620160000000000000000000000000, -1831363575745527302651251085441599919500343108746346496000000000000000000000000000, 1344709353620648155860347744618237491178020203713034977280000000000000000000000000, -635521012757150761852321856662853364335901674725756108800000000000000000000000000, 193764895643133458672755508896975095196340020044669911040000000000000000000000000, -37007485855279147837929222005715896263603560704463737978880000000000000000000000, 4082705408811009505423097910161690471508310175686781829120000000000000000000000, -211120485917144294665176946977285123039296856678101483520000000000000000000000, 2119505004817651289502967255762557161669416424729477120000000000000000000000, -9343320280235059970592600051185702321686549659233280000000000000000000000, 66634097727581799261294050857763898113888160220844800000000000000000000, 16543525906018356862037771873121310095032525688800000000000000000000, 626470648205291848760973169365616972922011250700000000000000000000]

theorem bYZ0p_lit : addL (smulL 6135569709577279786450944000000000000000000000000000 bYR0.2) (smulL (10000000000000000000) (addL (smulL 26676390041640346897612800000000000000000000000000 bYR0.1) (smulL (-1) (mulL bYT0 bYR0.2)))) = bYZ0p := by decide +kernel

theorem bYZ0p_chk : chkChain bYZ0p 16 0 [64] = true := by decide +kernel

def bYZ0m : List ℤ := [78637462856448663795189940224000000000000000000000000000000000000000000000000000000, -21984218328813089737009305902614658973606258671616000000000000000000000000000000000, 657041534438005965283938397365976938023399725203456000000000000000000000000000000, 791172954523934279391563570735725362449364729735413760000000000000000000000000000, -1557121451458901896957922260859110435951801700301573980160000000000000000000000000, 1831363575745527302651251085441599919500343108746346496000000000000000000000000000, -1344709353620648155860347744618237491178020203713034977280000000000000000000000000, 635521012757150761852321856662853364335901674725756108800000000000000000000000000, -193764895643133458672755508896975095196340020044669911040000000000000000000000000, 37007485855279147837929222005715896263603560704463737978880000000000000000000000, -4082705408811009505423097910161690471508310175686781829120000000000000000000000, 211120485917144294665176946977285123039296856678101483520000000000000000000000, -2119505004817651289502967255762557161669416424729477120000000000000000000000, 9343320280235059970592600051185702321686549659233280000000000000000000000, -66634097727581799261294050857763898113888160220844800000000000000000000, -16543525906018356862037771873121310095032525688800000000000000000000, -626470648205291848760973169365616972922011250700000000000000000000]

theorem bYZ0m_lit : addL (smulL 6135569709577279786450944000000000000000000000000000 bYR0.2) (smulL (-10000000000000000000) (addL (smulL 26676390041640346897612800000000000000000000000000 bYR0.1) (smulL (-1) (mulL bYT0 bYR0.2)))) = bYZ0m := by decide +kernel

theorem bYZ0m_chk : chkChain bYZ0m 16 0 [64] = true := by decide +kernel

theorem bYR0_pos {z : ℝ} (h0 : 0 ≤ z) : 0 < polyEval bYR0.2 z := by
  simp only [bYR0, polyEval]
  push_cast
  positivity

theorem bYR0_near {z : ℝ} (h0 : 0 ≤ z) (h1 : z ≤ 4) : |rfEval bYR0 z - polyEval bYT0 z / 26676390041640346897612800000000000000000000000000| ≤ 230 / 10 ^ 19 := by
  have hq := bYR0_pos h0
  have c1 := chkChain_sound (by norm_num) 0 [64] (by simp) (bYZ0p_lit ▸ bYZ0p_chk) (x := z) (by norm_num; linarith) (by norm_num; linarith)
  have c2 := chkChain_sound (by norm_num) 0 [64] (by simp) (bYZ0m_lit ▸ bYZ0m_chk) (x := z) (by norm_num; linarith) (by norm_num; linarith)
  simp only [polyEval_add, polyEval_smul, polyEval_mul] at c1 c2
  unfold rfEval
  generalize polyEval bYR0.2 z = Q at *
  generalize polyEval bYR0.1 z = P at *
  generalize polyEval bYT0 z = T at *
  rw [div_sub_div _ _ hq.ne' (by norm_num), abs_div, abs_of_pos (show (0 : ℝ) < Q * 26676390041640346897612800000000000000000000000000 by positivity), div_le_iff₀ (by positivity), abs_le]
  push_cast at c1 c2
  constructor <;> linarith

theorem bYT0_comb (z : ℝ) : polyEval bYT0 z / 26676390041640346897612800000000000000000000000000 = (-73804295108687225274) / 10 ^ 21 * (polyEval bT0 z / 3849406932415634472960000) - 636619772367581343076 / 10 ^ 21 * (polyEval bH0 z / 106705560166561387590451200000) := by
  simp only [bYT0, bT0, bH0, polyEval]
  push_cast
  norm_num only
  ring

theorem besY0Rat_eq (x : ℝ) : besY0Rat x = rfEval bYR0 (x ^ 2) := by
  have e2 : polyEval bYR0.2 (x ^ 2) = 10000000000000000000000000000000 * (1 + x * x * (1.27304834834123699328e-02 + x * x * (7.60068627350353253702e-05 + x * x * (2.59150851840457805467e-07 + x * x * (4.41110311332675467403e-10))))) := by
    simp only [bYR0, polyEval]; push_cast; norm_num only; ring
  have e1 : polyEval bYR0.1 (x ^ 2) = 10000000000000000000000000000000 * ((-7.38042951086872317523e-02) + x * x * (1.76666452509181115538e-01 + x * x * ((-1.38185671945596898896e-02) + x * x * (3.47453432093683650238e-04 + x * x * ((-3.81407053724364161125e-06) + x * x * (1.95590137035022920206e-08 + x * x * (-3.98205194132103398453e-11))))))) := by
    simp only [bYR0, polyEval]; push_cast; norm_num only; ring
  rw [rfEval, e1, e2, mul_div_mul_left _ _ (by norm_num)]
  rfl

def bYR1 : RF := ([-980285453231194703340000000000, 252219358319905641308000000000, -9562844793788177364900000000, 117626300280805247964000000, -459549579019939437252000], [5000000000000000000000000000000, 99583659118324951986500000000, 1012762905125675857480000000, 6780440054875811470200000, 31137072618231075064750, 83279623103996039557])

/-- the power series with rational approximations of the constants -/
def bYT1 : List ℤ := [-1767772252131807930644681343652703063232636518400000, 490041459623983208641131139457891885444077977600000, -26646864709043448908902361632534939730077286400000, 645974877076549018606271316828907310048870400000, -8950564635681821122261158294675482008879104000, 80535362948258720640145723552823798818406400, -509260901952567915610897134731377036492800, 2388936750610877569411375623295972147200, -8648278819260833268060707445759590400, 24900621737139118293638155350681600, -58396053406583640877948177691904, 113716507726860415400256518688, -186833592133798374295099937]

def bYZ1p : List ℤ := [13857643022989002611666095964160000000000000000000000000000000000000000000000000000000, 1665292812981883774510124986047979511799903751766016000000000000000000000000000000000, -2828665636781190129453892558546573210869704563548487680000000000000000000000000000000, 9057846609932064368882319838312711575577042415912799436800000000000000000000000000000, -14910096829353471591161703412324846236835154794723500097536000000000000000000000000000, 14114223061634122924271732903998741411399024637726458524991488000000000000000000000000, -8156413410300959915374466217591032377400708417014559756255232000000000000000000000000, 2933267704812026527150672924536358254381497114140799032885248000000000000000000000000, -644824338877749405166724257089763873512317930850692615897088000000000000000000000000, 80748404550249223253614703659117845139029066627934607014625280000000000000000000000, -4771621980996572731128020308022283594203987184154699826331648000000000000000000000, 66939791316511596619327295961229379918404235599409588944896000000000000000000000, -497536208949372603842758620037514606839852302623263483904000000000000000000000, 2442815848872797471087094999421827722721233006154046528000000000000000000000, -8372620701325297480188088101599397377353237344988672000000000000000000000, 25892161311785585247131380067414378735087715349985280000000000000000000, -36528167784005426670065650410717135098743618204660000000000000000000, 155594311360684478074317132705392560395202079090000000000000000000]

theorem bYZ1p_lit : addL (smulL 2073822561837120567820419072000000000000000000000000000 bYR1.2) (smulL (10000000000000000000) (addL (smulL 9016619834074437251393126400000000000000000000000000 bYR1.1) (smulL (-1) (mulL bYT1 bYR1.2)))) = bYZ1p := by decide +kernel

theorem bYZ1p_chk : chkChain bYZ1p 16 0 [64] = true := by decide +kernel

def bYZ1m : List ℤ := [6880582595382203066538094755840000000000000000000000000000000000000000000000000000000, -1252255134842125408058899577000165208502485978710016000000000000000000000000000000000, 2832866217906072797037535173724835410512757655265607680000000000000000000000000000000, -9057818487072934397718902051728846992037192359033490636800000000000000000000000000000, 14910096958498999001658557994329458521272815993592569921536000000000000000000000000000, -14114223061288708601603015061061456009038623719558400062783488000000000000000000000000, 8156413410300959915374466217591032377400708417014559756255232000000000000000000000000, -2933267704812026527150672924536358254381497114140799032885248000000000000000000000000, 644824338877749405166724257089763873512317930850692615897088000000000000000000000000, -80748404550249223253614703659117845139029066627934607014625280000000000000000000000, 4771621980996572731128020308022283594203987184154699826331648000000000000000000000, -66939791316511596619327295961229379918404235599409588944896000000000000000000000, 497536208949372603842758620037514606839852302623263483904000000000000000000000, -2442815848872797471087094999421827722721233006154046528000000000000000000000, 8372620701325297480188088101599397377353237344988672000000000000000000000, -25892161311785585247131380067414378735087715349985280000000000000000000, 36528167784005426670065650410717135098743618204660000000000000000000, -155594311360684478074317132705392560395202079090000000000000000000]

theorem bYZ1m_lit : addL (smulL 2073822561837120567820419072000000000000000000000000000 bYR1.2) (smulL (-10000000000000000000) (addL (smulL 9016619834074437251393126400000000000000000000000000 bYR1.1) (smulL (-1) (mulL bYT1 bYR1.2)))) = bYZ1m := by decide +kernel

theorem bYZ1m_chk : chkChain bYZ1m 16 0 [64] = true := by decide +kernel

theorem bYR1_pos {z : ℝ} (h0 : 0 ≤ z) : 0 < polyEval bYR1.2 z := by
  simp only [bYR1, polyEval]
  push_cast
  positivity

theorem bYR1_near {z : ℝ} (h0 : 0 ≤ z) (h1 : z ≤ 4) : |rfEval bYR1 z - polyEval bYT1 z / 9016619834074437251393126400000000000000000000000000| ≤ 230 / 10 ^ 19 := by
  have hq := bYR1_pos h0
  have c1 := chkChain_sound (by norm_num) 0 [64] (by simp) (bYZ1p_lit ▸ bYZ1p_chk) (x := z) (by norm_num; linarith) (by norm_num; linarith)
  have c2 := chkChain_sound (by norm_num) 0 [64] (by simp) (bYZ1m_lit ▸ bYZ1m_chk) (x := z) (by norm_num; linarith) (by norm_num; linarith)
  simp only [polyEval_add, polyEval_smul, polyEval_mul] at c1 c2
  unfold rfEval
  generalize polyEval bYR1.2 z = Q at *
  generalize polyEval bYR1.1 z = P at *
  generalize polyEval bYT1 z = T at *
  rw [div_sub_div _ _ hq.ne' (by norm_num), abs_div, abs_of_pos (show (0 : ℝ) < Q * 9016619834074437251393126400000000000000000000000000 by positivity), div_le_iff₀ (by positivity), abs_le]
  push_cast at c1 c2
  constructor <;> linarith

theorem bYT1_comb (z : ℝ) : polyEval bYT1 z / 9016619834074437251393126400000000000000000000000000 = (-73804295108687225274) / 10 ^ 21 * (polyEval bT1 z / 100084580242806496296960000) - 636619772367581343076 / 10 ^ 21 * (polyEval bH1 z / 36066479336297749005572505600000) := by
  simp only [bYT1, bT1, bH1, polyEval]
  push_cast
  norm_num only
  ring

theorem besY1Rat_eq (x : ℝ) : besY1Rat x = rfEval bYR1 (x ^ 2) := by
  have e2 : polyEval bYR1.2 (x ^ 2) = 5000000000000000000000000000000 * (1 + x * x * (1.99167318236649903973e-02 + x * x * (2.02552581025135171496e-04 + x * x * (1.35608801097516229404e-06 + x * x * (6.22741452364621501295e-09 + x * x * (1.66559246207992079114e-11)))))) := by
    simp only [bYR1, polyEval]; push_cast; norm_num only; ring
  have e1 : polyEval bYR1.1 (x ^ 2) = 5000000000000000000000000000000 * ((-1.96057090646238940668e-01) + x * x * (5.04438716639811282616e-02 + x * x * ((-1.91256895875763547298e-03) + x * x * (2.35252600561610495928e-05 + x * x * (-9.19099158039878874504e-08))))) := by
    simp only [bYR1, polyEval]; push_cast; norm_num only; ring
  rw [rfEval, e1, e2, mul_div_mul_left _ _ (by norm_num)]
  rfl

/-- the part of `Y₀` without the logarithm of `x` -/
theorem besY0Rat_near {x : ℝ} (h0 : 0 < x) (h2 : x < 2) : |besY0Rat x - (2 / π * (eulerMascheroniConstant - log 2) * besselJ 0 x - 2 / π * yS0 x)| ≤ 3 / 10 ^ 17 := by
  have hz : x ^ 2 ≤ 4 := by nlinarith
  have n1 := abs_le.1 (bYR0_near (sq_nonneg x) hz)
  have hx : |x| ≤ 2 := by rw [abs_of_pos h0]; exact h2.le
  have b1 : |besselJ 0 x| ≤ 3 := by
    have := abs_le.1 (besselJ_0_one h0 h2.le)
    rw [abs_le]; constructor <;> linarith [this.1, this.2]
  have b2 : |yS0 x| ≤ 2 := (yS0_abs h0 h2.le).trans (by linarith)
  have n2 := abs_le.1 (mul_near2 yConst_near ((abs_sub_comm _ _).trans_le (bT0_near hx)) b1 (show |(-73804295108687225274 : ℝ) / 10 ^ 21| ≤ 1 by norm_num [abs_div]))
  have n3 := abs_le.1 (mul_near2 two_div_pi_near ((abs_sub_comm _ _).trans_le (bH0_near hx)) b2 (show |(636619772367581343076 : ℝ) / 10 ^ 21| ≤ 1 by norm_num [abs_div]))
  rw [besY0Rat_eq]
  rw [bYT0_comb] at n1
  generalize 2 / π * (eulerMascheroniConstant - log 2) * besselJ 0 x = v1 at *
  generalize 2 / π * yS0 x = v2 at *
  generalize polyEval bT0 (x ^ 2) / 3849406932415634472960000 = v3 at *
  generalize polyEval bH0 (x ^ 2) / 106705560166561387590451200000 = v4 at *
  rw [abs_le]
  norm_num only at n1 n2 n3 ⊢
  constructor <;> linarith [n1.1, n1.2, n2.1, n2.2, n3.1, n3.2]

/-- the part of `Y₁` without the logarithm of `x` and without the pole -/
theorem besY1Rat_near {x : ℝ} (h0 : 0 < x) (h2 : x < 2) : |x * besY1Rat x - (2 / π * (eulerMascheroniConstant - log 2) * besselJ 1 x - 2 / π * yS1 x)| ≤ 3 / 10 ^ 17 * x := by
  have hz : x ^ 2 ≤ 4 := by nlinarith
  have n0 := mul_le_mul_of_nonneg_left (bYR1_near (sq_nonneg x) hz) h0.le
  rw [← abs_of_pos h0, ← abs_mul, abs_of_pos h0] at n0
  have n1 := abs_le.1 n0
  have hx : |x| ≤ 2 := by rw [abs_of_pos h0]; exact h2.le
  have t1 := bT1_near hx
  have t2 := bH1_near hx
  rw [abs_of_pos h0] at t1 t2
  have n2 := abs_le.1 (mul_near2 yConst_near ((abs_sub_comm _ _).trans_le (t1)) (besselJ_1_abs h0 h2.le) (show |(-73804295108687225274 : ℝ) / 10 ^ 21| ≤ 1 by norm_num [abs_div]))
  have n3 := abs_le.1 (mul_near2 two_div_pi_near ((abs_sub_comm _ _).trans_le (t2)) (yS1_abs h0 h2.le) (show |(636619772367581343076 : ℝ) / 10 ^ 21| ≤ 1 by norm_num [abs_div]))
  rw [besY1Rat_eq]
  rw [bYT1_comb, mul_sub, mul_sub] at n1
  rw [show ∀ a : ℝ, x * ((-73804295108687225274) / 10 ^ 21 * a) = (-73804295108687225274) / 10 ^ 21 * (x * a) by intro a; ring, show ∀ a : ℝ, x * (636619772367581343076 / 10 ^ 21 * a) = 636619772367581343076 / 10 ^ 21 * (x * a) by intro a; ring] at n1
  generalize 2 / π * (eulerMascheroniConstant - log 2) * besselJ 1 x = v1 at *
  generalize 2 / π * yS1 x = v2 at *
  generalize x * (polyEval bT1 (x ^ 2) / 100084580242806496296960000) = v3 at *
  generalize x * (polyEval bH1 (x ^ 2) / 36066479336297749005572505600000) = v4 at *
  rw [abs_le]
  norm_num only at n1 n2 n3 ⊢
  constructor <;> linarith [n1.1, n1.2, n2.1, n2.2, n3.1, n3.2]

theorem besselY_0_split {x : ℝ} (h0 : 0 < x) : besselY 0 x = 2 / π * log x * besselJ 0 x + (2 / π * (eulerMascheroniConstant - log 2) * besselJ 0 x - 2 / π * yS0 x) := by
  simp only [besselY, log_div h0.ne' two_ne_zero]
  ring

theorem besselY_1_split {x : ℝ} (h0 : 0 < x) : besselY 1 x = 2 / π * (log x * besselJ 1 x - 1 / x) + (2 / π * (eulerMascheroniConstant - log 2) * besselJ 1 x - 2 / π * yS1 x) := by
  simp only [besselY, log_div h0.ne' two_ne_zero]
  ring

theorem two_div_pi_pos : 0 < 2 / π ∧ 2 / π ≤ 7 / 10 := by
  refine ⟨by positivity, ?_⟩
  rw [div_le_iff₀ pi_pos]
  linarith [pi_gt_three]

theorem besY0Small_acc {x : ℝ} (h0 : 0 < x) (h2 : x < 2) : ∃ y, besY0Small x = .ok (.fin y) ∧ |y - besselY 0 x| ≤ 3 / 10 ^ 17 + 2 / 10 ^ 17 * |log x| := by
  obtain ⟨p1, p2⟩ := two_div_pi_pos
  unfold besY0Small
  by_cases ht : x ≤ 1 / 2 ^ 27
  · refine ⟨_, if_pos ht, ?_⟩
    have hx2 : x ^ 2 ≤ 1 / 2 ^ 54 := by
      have : x ^ 2 ≤ (1 / 2 ^ 27) ^ 2 := by gcongr
      exact this.trans (by norm_num)
    have a1 := besselJ_0_one h0 h2.le
    have a2 := yS0_abs h0 h2.le
    have a3 := abs_le.1 yConst_near
    rw [besselY_0_split h0]
    generalize 2 / π * (eulerMascheroniConstant - log 2) = c at *
    have e : (-7.38042951086872317523e-02) + 2 / π * log x - (2 / π * log x * besselJ 0 x + (c * besselJ 0 x - 2 / π * yS0 x)) =
        -(2 / π * log x * (besselJ 0 x - 1)) + (((-7.38042951086872317523e-02) - c) + (-(c * (besselJ 0 x - 1)) + 2 / π * yS0 x)) := by ring
    rw [e]
    have b1 : |2 / π * log x * (besselJ 0 x - 1)| ≤ 2 / 10 ^ 17 * |log x| := by
      rw [abs_mul, abs_mul, abs_of_pos p1]
      calc 2 / π * |log x| * |besselJ 0 x - 1| ≤ 7 / 10 * |log x| * (x ^ 2 / 2) := by gcongr
        _ ≤ 7 / 10 * |log x| * (1 / 2 ^ 54 / 2) := by gcongr
        _ ≤ _ := by norm_num; nlinarith [abs_nonneg (log x)]
    have b2 : |2 / π * yS0 x| ≤ 195 / 10 ^ 19 := by
      rw [abs_mul, abs_of_pos p1]
      calc 2 / π * |yS0 x| ≤ 7 / 10 * (1 / 2 ^ 54 / 2) := by gcongr; linarith
        _ ≤ _ := by norm_num
    have b3 : |c * (besselJ 0 x - 1)| ≤ 28 / 10 ^ 19 := by
      rw [abs_mul]
      have hc : |c| ≤ 1 / 10 := by
        norm_num at a3
        rw [abs_le]; constructor <;> linarith [a3.1, a3.2]
      calc |c| * |besselJ 0 x - 1| ≤ 1 / 10 * (1 / 2 ^ 54 / 2) := by gcongr; linarith
        _ ≤ _ := by norm_num
    have b4 : |(-7.38042951086872317523e-02) - c| ≤ 76 / 10 ^ 19 := by
      norm_num at a3 ⊢
      rw [abs_le]; constructor <;> linarith [a3.1, a3.2]
    refine (abs_add_le _ _).trans ?_
    rw [abs_neg]
    have := (abs_add_le ((-7.38042951086872317523e-02) - c) (-(c * (besselJ 0 x - 1)) + 2 / π * yS0 x)).trans (add_le_add b4 ((abs_add_le _ _).trans (add_le_add (abs_neg (c * (besselJ 0 x - 1)) ▸ b3) b2)))
    norm_num at this b1 ⊢
    linarith
  · have hx : |x| = x := abs_of_pos h0
    obtain ⟨j, hj, hja, _⟩ := C117_j0_accurate x
    rw [hx] at hja
    refine ⟨_, by rw [if_neg ht, hj], ?_⟩
    have n := besY0Rat_near h0 h2
    rw [besselY_0_split h0]
    generalize 2 / π * (eulerMascheroniConstant - log 2) * besselJ 0 x - 2 / π * yS0 x = v at *
    rw [show besY0Rat x + 2 / π * j * log x - (2 / π * log x * besselJ 0 x + v) = (besY0Rat x - v) + 2 / π * (log x * (j - besselJ 0 x)) by ring]
    refine (abs_add_le _ _).trans (add_le_add n ?_)
    rw [abs_mul, abs_mul, abs_of_pos p1]
    calc 2 / π * (|log x| * |j - besselJ 0 x|) ≤ 1 * (|log x| * (2 / 10 ^ 17)) := by gcongr; linarith; exact hja h2
      _ = _ := by ring

theorem besY1Small_acc {x : ℝ} (h0 : 0 < x) (h2 : x < 2) : ∃ y, besY1Small x = .ok (.fin y) ∧ (1 / 2 ^ 54 < x → |y - besselY 1 x| ≤ (3 / 10 ^ 17 + 1 / 10 ^ 17 * |log x|) * x) ∧
    (x ≤ 1 / 2 ^ 54 → |y - besselY 1 x| ≤ (1 + |log x|) * x) := by
  obtain ⟨p1, p2⟩ := two_div_pi_pos
  unfold besY1Small
  by_cases ht : x ≤ 1 / 2 ^ 54
  · refine ⟨_, if_pos ht, fun h => absurd ht (not_le.2 h), fun _ => ?_⟩
    have a1 := besselJ_1_abs h0 h2.le
    have a2 := yS1_abs h0 h2.le
    have a3 := abs_le.1 yConst_near
    rw [besselY_1_split h0]
    generalize 2 / π * (eulerMascheroniConstant - log 2) = c at *
    have hc : |c| ≤ 1 / 10 := by
      norm_num at a3
      rw [abs_le]; constructor <;> linarith [a3.1, a3.2]
    have e : -(2 / π) / x - (2 / π * (log x * besselJ 1 x - 1 / x) + (c * besselJ 1 x - 2 / π * yS1 x)) = -(2 / π * log x * besselJ 1 x) + (-(c * besselJ 1 x) + 2 / π * yS1 x) := by ring
    rw [e]
    have b1 : |2 / π * log x * besselJ 1 x| ≤ |log x| * x := by
      rw [abs_mul, abs_mul, abs_of_pos p1]
      calc 2 / π * |log x| * |besselJ 1 x| ≤ 1 * |log x| * x := by gcongr; linarith
        _ = _ := by ring
    have b2 : |2 / π * yS1 x| ≤ 7 / 10 * x := by
      rw [abs_mul, abs_of_pos p1]
      gcongr
    have b3 : |c * besselJ 1 x| ≤ 1 / 10 * x := by
      rw [abs_mul]
      gcongr
    refine (abs_add_le _ _).trans ?_
    rw [abs_neg]
    have := (abs_add_le (-(c * besselJ 1 x)) (2 / π * yS1 x)).trans (add_le_add (abs_neg (c * besselJ 1 x) ▸ b3) b2)
    linarith
  · have hx : |x| = x := abs_of_pos h0
    obtain ⟨j, hj, hja, _⟩ := C117_j1_accurate x
    rw [hx] at hja
    refine ⟨_, by rw [if_neg ht, hj], fun _ => ?_, fun h => absurd h ht⟩
    have n := besY1Rat_near h0 h2
    rw [besselY_1_split h0]
    generalize 2 / π * (eulerMascheroniConstant - log 2) * besselJ 1 x - 2 / π * yS1 x = v at *
    rw [show x * besY1Rat x + 2 / π * (j * log x - 1 / x) - (2 / π * (log x * besselJ 1 x - 1 / x) + v) = (x * besY1Rat x - v) + 2 / π * (log x * (j - besselJ 1 x)) by ring, add_mul]
    refine (abs_add_le _ _).trans (add_le_add n ?_)
    rw [abs_mul, abs_mul, abs_of_pos p1]
    have hj2 := hja h2
    calc 2 / π * (|log x| * |j - besselJ 1 x|) ≤ 1 * (|log x| * (5 / 10 ^ 18 * x)) := by gcongr; linarith
      _ ≤ _ := by
        have : 0 ≤ |log x| * x := by positivity
        norm_num
        linarith

/-! ## Property C118 -/

/-- `bessel_y0` returns a number that is close to `Y₀` for every positive argument -/
theorem C118_y0_accurate {x : ℝ} (h0 : 0 < x) : ∃ y, besselY0F (.fin x) = .ok (.fin y) ∧ (x < 2 → |y - besselY 0 x| ≤ 3 / 10 ^ 17 + 2 / 10 ^ 17 * |log x|) ∧ (2 ≤ x → |y - besselY 0 x| ≤ 2 / 10 ^ 14 / √x) := by
  by_cases h2 : 2 ≤ x
  · obtain ⟨y, hy, ha⟩ := besY0Large_acc h2
    refine ⟨y, ?_, fun h => absurd h2 (not_le.2 h), fun _ => ha⟩
    simp only [besselY0F, if_neg (not_lt.2 h0.le), if_neg h0.ne', if_pos h2, hy]
    rfl
  · obtain ⟨y, hy, ha⟩ := besY0Small_acc h0 (not_le.1 h2)
    refine ⟨y, ?_, fun _ => ha, fun h => absurd h h2⟩
    simp only [besselY0F, if_neg (not_lt.2 h0.le), if_neg h0.ne', if_neg h2, hy]

example : ∃ y, besselY0F (.fin 5) = .ok (.fin y) ∧ |y - besselY 0 5| ≤ 2 / 10 ^ 14 / √5 := by
  obtain ⟨y, h1, _, h3⟩ := C118_y0_accurate (x := 5) (by norm_num)
  exact ⟨y, h1, h3 (by norm_num)⟩

/-- `bessel_y1` returns a number that is close to `Y₁` for every positive argument -/
theorem C118_y1_accurate {x : ℝ} (h0 : 0 < x) : ∃ y, besselY1F (.fin x) = .ok (.fin y) ∧ (x ≤ 1 / 2 ^ 54 → |y - besselY 1 x| ≤ (1 + |log x|) * x) ∧
    (1 / 2 ^ 54 < x → x < 2 → |y - besselY 1 x| ≤ (3 / 10 ^ 17 + 1 / 10 ^ 17 * |log x|) * x) ∧ (2 ≤ x → |y - besselY 1 x| ≤ 2 / 10 ^ 14 / √x) := by
  by_cases h2 : 2 ≤ x
  · obtain ⟨y, hy, ha⟩ := besY1Large_acc h2
    refine ⟨y, ?_, fun h => absurd (h2.trans h) (by norm_num), fun _ h => absurd h2 (not_le.2 h), fun _ => ha⟩
    simp only [besselY1F, if_neg (not_lt.2 h0.le), if_neg h0.ne', if_pos h2, hy]
    rfl
  · obtain ⟨y, hy, ha, hb⟩ := besY1Small_acc h0 (not_le.1 h2)
    refine ⟨y, ?_, hb, fun h _ => ha h, fun h => absurd h h2⟩
    simp only [besselY1F, if_neg (not_lt.2 h0.le), if_neg h0.ne', if_neg h2, hy]

example : ∃ y, besselY1F (.fin 1) = .ok (.fin y) ∧ |y - besselY 1 1| ≤ 3 / 10 ^ 17 := by
  obtain ⟨y, h1, _, h3, _⟩ := C118_y1_accurate (x := 1) (by norm_num)
  exact ⟨y, h1, by simpa using h3 (by norm_num) (by norm_num)⟩

/-- the documented special values -/
theorem C118_special : besselY0F .nan = .ok .nan ∧ besselY0F .posInf = .ok (.fin 0) ∧ besselY0F .negInf = .ok .nan ∧ besselY0F (.fin 0) = .ok .negInf ∧ besselY0F .negZero = .ok .negInf ∧
    besselY1F .nan = .ok .nan ∧ besselY1F .posInf = .ok (.fin 0) ∧ besselY1F .negInf = .ok .nan ∧ besselY1F (.fin 0) = .ok .negInf ∧ besselY1F .negZero = .ok .negInf ∧
    ∀ x : ℝ, x < 0 → besselY0F (.fin x) = .ok .nan ∧ besselY1F (.fin x) = .ok .nan := by
  refine ⟨rfl, rfl, rfl, by simp [besselY0F], rfl, rfl, rfl, rfl, by simp [besselY1F], rfl, fun x hx => ?_⟩
  simp [besselY0F, besselY1F, hx]

theorem besselY_bound {x : ℝ} (h : 8 ≤ x) : |besselY 0 x| ≤ 4 / √x ∧ |besselY 1 x| ≤ 4 / √x := by
  have hx : 0 < x := by linarith
  have hs := sqrt_pos.2 hx
  have hp := sqrt_pos.2 pi_pos
  have hpi := sqrt_pi_gt
  obtain ⟨a1, a2⟩ := asy_err besselY_pair besselY_two (by linarith) (.inl ⟨h, rfl, rfl, rfl, rfl⟩)
  obtain ⟨f1, f2⟩ := asyY_far h
  obtain ⟨s1, s2⟩ := sc_abs x
  have s3 : |-sin x - cos x| ≤ 2 := by rw [show -sin x - cos x = -(sin x + cos x) by ring, abs_neg]; exact s1
  have h4 : 4 / x ≤ 1 := by rw [div_le_one hx]; linarith
  have key : ∀ n a c, |a - bessW besselY n (√π) x| ≤ 35 / 10 ^ 15 → |a - c| ≤ 4 / x → |c| ≤ 2 → |besselY n x| ≤ 4 / √x := by
    intro n a c h1 h2 h3
    have hb : |bessW besselY n (√π) x| ≤ 4 := by
      have h1 := abs_le.1 h1
      have h2 := abs_le.1 (h2.trans h4)
      have h3 := abs_le.1 h3
      rw [abs_le]
      constructor <;> linarith [h1.1, h1.2, h2.1, h2.2, h3.1, h3.2]
    unfold bessW at hb
    rw [abs_mul, abs_mul, abs_of_pos hp, abs_of_pos hs] at hb
    rw [le_div_iff₀ hs]
    have : 0 ≤ √x * |besselY n x| := by positivity
    nlinarith
  exact ⟨key 0 _ _ a1 f1 s2, key 1 _ _ a2 f2 s3⟩

/-- the values returned at infinity and at zero are the limits of `Y₀` and `Y₁` -/
theorem C118_limits : Tendsto (besselY 0) atTop (𝓝 0) ∧ Tendsto (besselY 1) atTop (𝓝 0) ∧ Tendsto (besselY 0) (𝓝[>] 0) atBot ∧ Tendsto (besselY 1) (𝓝[>] 0) atBot := by
  have h4 : Tendsto (fun x : ℝ => 4 / √x) atTop (𝓝 0) := tendsto_sqrt_atTop.const_div_atTop 4
  have t0 : Tendsto (besselY 0) atTop (𝓝 0) := squeeze_zero_norm' (eventually_atTop.2 ⟨8, fun x hx => (besselY_bound hx).1⟩) h4
  have t1 : Tendsto (besselY 1) atTop (𝓝 0) := squeeze_zero_norm' (eventually_atTop.2 ⟨8, fun x hx => (besselY_bound hx).2⟩) h4
  obtain ⟨p1, p2⟩ := two_div_pi_pos
  have near : Ioo (0 : ℝ) 1 ∈ 𝓝[>] (0 : ℝ) := Ioo_mem_nhdsGT one_pos
  have a3 := abs_le.1 yConst_near
  refine ⟨t0, t1, ?_, ?_⟩
  · have hlog : Tendsto (fun x : ℝ => 1 + (2 / π / 2) * log x) (𝓝[>] 0) atBot := tendsto_atBot_add_const_left _ _ (tendsto_log_nhdsGT_zero.const_mul_atBot (by positivity))
    refine tendsto_atBot_mono' _ ?_ hlog
    filter_upwards [near] with x hx
    have hl : log x ≤ 0 := log_nonpos hx.1.le hx.2.le
    have hx2 : x ^ 2 ≤ 1 := pow_le_one₀ hx.1.le hx.2.le
    have b1 := abs_le.1 (besselJ_0_one hx.1 (by linarith [hx.2]))
    have b2 := abs_le.1 (yS0_abs hx.1 (by linarith [hx.2]))
    rw [besselY_0_split hx.1]
    generalize 2 / π * (eulerMascheroniConstant - log 2) = c at *
    have hc : c ≤ 0 := by norm_num at a3; linarith [a3.2]
    have hJ : 1 / 2 ≤ besselJ 0 x := by linarith [b1.1]
    have g1 : 2 / π * log x * besselJ 0 x ≤ 2 / π / 2 * log x := by
      have : 2 / π * log x ≤ 0 := mul_nonpos_of_nonneg_of_nonpos p1.le hl
      nlinarith
    have g2 : c * besselJ 0 x ≤ 0 := mul_nonpos_of_nonpos_of_nonneg hc (by linarith)
    have g3 : -(2 / π * yS0 x) ≤ 1 := by nlinarith [b2.1]
    linarith
  · have hinv : Tendsto (fun x : ℝ => 3 + (-(2 / π)) * x⁻¹) (𝓝[>] 0) atBot := tendsto_atBot_add_const_left _ _ (tendsto_inv_nhdsGT_zero.const_mul_atTop_of_neg (by linarith))
    refine tendsto_atBot_mono' _ ?_ hinv
    filter_upwards [near] with x hx
    have hl : log x ≤ 0 := log_nonpos hx.1.le hx.2.le
    have b1 := abs_le.1 (besselJ_1_abs hx.1 (by linarith [hx.2]))
    have b2 := abs_le.1 (yS1_abs hx.1 (by linarith [hx.2]))
    have hxl : -1 ≤ x * log x := by
      have := add_one_le_exp (-log x)
      rw [exp_neg, exp_log hx.1] at this
      have h3 := mul_le_mul_of_nonneg_left this hx.1.le
      rw [mul_inv_cancel₀ hx.1.ne'] at h3
      nlinarith [hx.1]
    rw [besselY_1_split hx.1]
    generalize 2 / π * (eulerMascheroniConstant - log 2) = c at *
    have hc : |c| ≤ 1 := by norm_num at a3; rw [abs_le]; constructor <;> linarith [a3.1, a3.2]
    have g0 : log x * besselJ 1 x ≤ 1 := by nlinarith [b1.1]
    have g2 : c * besselJ 1 x ≤ 1 := by
      refine (le_abs_self _).trans ?_
      rw [abs_mul]
      have := besselJ_1_abs hx.1 (by linarith [hx.2] : x ≤ 2)
      nlinarith [abs_nonneg c, abs_nonneg (besselJ 1 x), hx.2]
    have g3 : -(2 / π * yS1 x) ≤ 1 := by nlinarith [b2.1, hx.2]
    have g4 : 2 / π * (log x * besselJ 1 x) ≤ 1 := by nlinarith
    rw [one_div, mul_sub]
    linarith

/-- the specification is not arbitrary: the differential equations and the Wronskian with `J₀`, `J₁` -/
theorem C118_spec {x : ℝ} (hx : 0 < x) : HasDerivAt (besselY 0) (-besselY 1 x) x ∧ HasDerivAt (besselY 1) (besselY 0 x - besselY 1 x / x) x ∧
    besselJ 1 x * besselY 0 x - besselJ 0 x * besselY 1 x = 2 / (π * x) :=
  ⟨besselY_zero_deriv hx, besselY_one_deriv hx, besselY_wronskian hx⟩

end Russell.Lab
