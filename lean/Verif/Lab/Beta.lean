import Verif.Lab.BetaAsy
import Verif.Lab.LnGamma

/-!
Property C113: the beta function of russell_lab and its logarithm (/repo/russell_lab/src/math/beta.rs).

The model evaluates the code in real arithmetic; `gamma` and `ln_gamma` are the models of `Lab/Gamma.lean` and `Lab/LnGamma.lean`.
-/

namespace Russell.Lab

open Real Set Filter Topology

/-- `f64::abs` -/
noncomputable def eabs (x : EReal) : EReal := max x (-x)

/-- `f64::exp` -/
noncomputable def eexp : EReal → EReal
  | ⊤ => ⊤
  | ⊥ => 0
  | (x : ℝ) => (exp x : ℝ)

/-- `x as i32` for a number: truncation and saturation -/
noncomputable def asI32 (x : ℝ) : ℤ := max (-2 ^ 31) (min (2 ^ 31 - 1) (if 0 ≤ x then ⌊x⌋ else ⌈x⌉))

/-- `gamma(x)` where it is not NaN -/
noncomputable def gaV (x : ℝ) : EReal := (gammaF (.fin x)).getD 0

/-- the first component of `ln_gamma(x)`, never NaN for a number -/
noncomputable def lgV (x : ℝ) : EReal := (lnGammaF (.fin x)).1.getD 0

/-- `GAMMA_MAX` (beta.rs:23) -/
noncomputable def betaGmax : ℝ := 171.624376956302725

/-- `LN_MAX` (beta.rs:25) -/
noncomputable def betaLmax : ℝ := 7.09782712893383996732e2

/-- `ln_beta_asymptotic` (beta.rs:313-320) -/
noncomputable def betaAsy (a b : ℝ) : EReal × ℤ := (lgV b + (betaAsyTerms a b : ℝ), (lnGammaF (.fin b)).2)

/-- the quotient of the gamma values (beta.rs:163-171) -/
noncomputable def betaRatio (ga gb gc : EReal) : EReal :=
  if eabs (eabs gb - eabs gc) < eabs (eabs ga - eabs gc) then gb / gc * ga else ga / gc * gb

/-- the swap (beta.rs:124) -/
noncomputable def betaSwap (a b : ℝ) : ℝ × ℝ := if |a| < |b| then (b, a) else (a, b)

/-- `beta` after the treatment of nonpositive integers (beta.rs:123-172); `∞ - ∞` does not occur for arguments above `-2^52` -/
noncomputable def betaTail (a b : ℝ) : EReal :=
  open Classical in
  let aa := (betaSwap a b).1;
  let bb := (betaSwap a b).2;
  if 10 ^ 6 * |bb| < |aa| ∧ 10 ^ 6 < aa then (((betaAsy aa bb).2 : ℝ) : EReal) * eexp (betaAsy aa bb).1
  else
    let cc := aa + bb;
    if betaGmax < |cc| ∨ betaGmax < |aa| ∨ betaGmax < |bb| then
      let sign := (lnGammaF (.fin aa)).2 * (lnGammaF (.fin bb)).2 * (lnGammaF (.fin cc)).2;
      let ll := lgV aa + lgV bb - lgV cc;
      if betaLmax < ll then ((sign : ℝ) : EReal) * ⊤ else ((sign : ℝ) : EReal) * eexp ll
    else if ∃ n : ℕ, cc = -(n + 1) then 0
    else betaRatio (gaV aa) (gaV bb) (gaV cc)

/-- `beta_negative_integer` (beta.rs:288-296) with the recursive call as parameter -/
noncomputable def betaNegInt (rec : ℝ → ℝ → EReal) (a b : ℝ) : EReal :=
  if b = asI32 b ∧ 0 < 1 - a - b then (if asI32 b % 2 = 0 then 1 else -1) * rec (1 - a - b) b else ⊤

/-- `beta` for numbers (beta.rs:97-172), with a bound of the depth of the recursion -/
noncomputable def betaN : ℕ → ℝ → ℝ → EReal
  | 0, _, _ => 0
  | n + 1, a, b =>
    if a ≤ 0 ∧ a = ⌊a⌋ then if a = asI32 a then betaNegInt (betaN n) a b else ⊤
    else if b ≤ 0 ∧ b = ⌊b⌋ then if b = asI32 b then betaNegInt (betaN n) b a else ⊤
    else betaTail a b

/-- the number of an argument -/
def FArg.num : FArg → Option ℝ
  | .fin x => some x
  | .negZero => some 0
  | _ => none

/-- `beta` (beta.rs:86-172); `none` is NaN -/
noncomputable def betaF (x y : FArg) : Option EReal :=
  match x.num, y.num with
  | some a, some b => some (betaN 3 a b)
  | _, _ => none

/-- `ln_beta` after the treatment of nonpositive integers (beta.rs:234-284) -/
noncomputable def lnBetaTail (a b : ℝ) : EReal :=
  open Classical in
  let aa := (betaSwap a b).1;
  let bb := (betaSwap a b).2;
  if 10 ^ 6 * |bb| < |aa| ∧ 10 ^ 6 < aa then (((betaAsy aa bb).2 : ℝ) : EReal) * (betaAsy aa bb).1
  else
    let cc := aa + bb;
    if betaGmax < |cc| ∨ betaGmax < |aa| ∨ betaGmax < |bb| then lgV aa + lgV bb - lgV cc
    else if ∃ n : ℕ, cc = -(n + 1) then ⊥
    else
      let ans := betaRatio (gaV aa) (gaV bb) (gaV cc);
      if eabs ans < ((10 * (1 / 2 ^ 52) : ℝ) : EReal) then ⊥
      else if ans < 0 then ((log (-ans).toReal : ℝ) : EReal) else ((log ans.toReal : ℝ) : EReal)

/-- `ln_beta_negative_integer` (beta.rs:299-306) with the recursive call as parameter -/
noncomputable def lnBetaNegInt (rec : ℝ → ℝ → EReal) (a b : ℝ) : EReal :=
  if b = asI32 b ∧ 0 < 1 - a - b then rec (1 - a - b) b else ⊤

/-- `ln_beta` for numbers (beta.rs:208-284), with a bound of the depth of the recursion -/
noncomputable def lnBetaN : ℕ → ℝ → ℝ → EReal
  | 0, _, _ => 0
  | n + 1, a, b =>
    if a ≤ 0 ∧ a = ⌊a⌋ then if a = asI32 a then lnBetaNegInt (lnBetaN n) a b else ⊤
    else if b ≤ 0 ∧ b = ⌊b⌋ then if b = asI32 b then lnBetaNegInt (lnBetaN n) b a else ⊤
    else lnBetaTail a b

/-- `ln_beta` (beta.rs:197-284) -/
noncomputable def lnBetaF (x y : FArg) : Option EReal :=
  match x.num, y.num with
  | some a, some b => some (lnBetaN 3 a b)
  | _, _ => none

/-- Euler's beta function -/
noncomputable def eulerB (a b : ℝ) : ℝ := Gamma a * Gamma b / Gamma (a + b)

/-- `x` is no pole of the gamma function -/
def NoPole (x : ℝ) : Prop := ∀ m : ℕ, x ≠ -m

/-! ### the recursion -/

theorem npi_iff {a : ℝ} : (a ≤ 0 ∧ a = ⌊a⌋) ↔ ∃ m : ℕ, a = -m := by
  constructor
  · rintro ⟨h0, h⟩
    refine ⟨(-⌊a⌋).toNat, ?_⟩
    have h1 : (⌊a⌋ : ℝ) ≤ 0 := by rw [← h]; exact h0
    have h2 : ⌊a⌋ ≤ 0 := by exact_mod_cast h1
    have h3 : (((-⌊a⌋).toNat : ℤ) : ℝ) = ((-⌊a⌋ : ℤ) : ℝ) := by rw [Int.toNat_of_nonneg (by omega)]
    have h4 : (((-⌊a⌋).toNat : ℕ) : ℝ) = -(⌊a⌋ : ℝ) := by exact_mod_cast h3
    rw [h4, neg_neg]; exact h
  · rintro ⟨m, rfl⟩
    refine ⟨by simp, ?_⟩
    have : ⌊(-(m : ℝ))⌋ = -(m : ℤ) := by
      rw [show (-(m : ℝ)) = ((-(m : ℤ) : ℤ) : ℝ) by push_cast; ring, Int.floor_intCast]
    rw [this]; push_cast; ring

theorem not_npi {a : ℝ} (h : NoPole a) : ¬ (a ≤ 0 ∧ a = ⌊a⌋) := by
  rw [npi_iff]; rintro ⟨m, hm⟩; exact h m hm

theorem npi {m : ℕ} : (-(m : ℝ)) ≤ 0 ∧ (-(m : ℝ)) = ⌊(-(m : ℝ))⌋ := npi_iff.2 ⟨m, rfl⟩

theorem betaN_tail {a b : ℝ} (ha : NoPole a) (hb : NoPole b) (n : ℕ) : betaN (n + 1) a b = betaTail a b := by
  rw [betaN, if_neg (not_npi ha), if_neg (not_npi hb)]

theorem lnBetaN_tail {a b : ℝ} (ha : NoPole a) (hb : NoPole b) (n : ℕ) : lnBetaN (n + 1) a b = lnBetaTail a b := by
  rw [lnBetaN, if_neg (not_npi ha), if_neg (not_npi hb)]

theorem betaNegInt_pole (rec : ℝ → ℝ → EReal) {a b : ℝ} (h : 1 - b ≤ a) : betaNegInt rec a b = ⊤ := by
  rw [betaNegInt, if_neg]
  rintro ⟨-, h2⟩
  linarith

theorem lnBetaNegInt_pole (rec : ℝ → ℝ → EReal) {a b : ℝ} (h : 1 - b ≤ a) : lnBetaNegInt rec a b = ⊤ := by
  rw [lnBetaNegInt, if_neg]
  rintro ⟨-, h2⟩
  linarith

/-- **the recursion ends**: at most two nested calls are made -/
theorem C113_beta_terminates (n : ℕ) (a b : ℝ) : betaN (n + 2) a b = betaN 2 a b ∧ lnBetaN (n + 2) a b = lnBetaN 2 a b := by
  have key : ∀ (k : ℕ) {p q : ℝ}, p ≤ 0 → 0 < 1 - p - q → betaN (k + 1) (1 - p - q) q = betaN 1 (1 - p - q) q
      ∧ lnBetaN (k + 1) (1 - p - q) q = lnBetaN 1 (1 - p - q) q := by
    intro k p q hp hq
    have h1 : ¬ (1 - p - q ≤ 0 ∧ 1 - p - q = ⌊1 - p - q⌋) := fun h => absurd h.1 (not_le.2 hq)
    constructor
    · rw [betaN, betaN, if_neg h1, if_neg h1, betaNegInt_pole _ (by linarith), betaNegInt_pole _ (by linarith)]
    · rw [lnBetaN, lnBetaN, if_neg h1, if_neg h1, lnBetaNegInt_pole _ (by linarith), lnBetaNegInt_pole _ (by linarith)]
  have key2 : ∀ {p q : ℝ}, p ≤ 0 → betaNegInt (betaN (n + 1)) p q = betaNegInt (betaN 1) p q ∧ lnBetaNegInt (lnBetaN (n + 1)) p q = lnBetaNegInt (lnBetaN 1) p q := by
    intro p q hp
    unfold betaNegInt lnBetaNegInt
    constructor
    · split_ifs with h h2
      · rw [(key n hp h.2).1]
      · rw [(key n hp h.2).1]
      · rfl
    · split_ifs with h
      · rw [(key n hp h.2).2]
      · rfl
  constructor
  · rw [betaN, betaN]
    split_ifs with h1 h2 h3 h4
    · exact (key2 h1.1).1
    · rfl
    · exact (key2 h3.1).1
    · rfl
    · rfl
  · rw [lnBetaN, lnBetaN]
    split_ifs with h1 h2 h3 h4
    · exact (key2 h1.1).2
    · rfl
    · exact (key2 h3.1).2
    · rfl
    · rfl

/-! ### the branch of the gamma values -/

theorem betaRatio_eq (ga gb gc : EReal) : betaRatio ga gb gc = ga * gb / gc := by
  unfold betaRatio
  simp only [EReal.div_eq_inv_mul]
  split_ifs
  · rw [mul_assoc, mul_comm gb]
  · rw [mul_assoc]

theorem betaSwap_add (a b : ℝ) : (betaSwap a b).1 + (betaSwap a b).2 = a + b := by
  unfold betaSwap; split_ifs
  · exact add_comm b a
  · rfl

theorem betaSwap_cases (a b : ℝ) : (betaSwap a b = (a, b) ∧ |b| ≤ |a|) ∨ (betaSwap a b = (b, a) ∧ |a| ≤ |b|) := by
  unfold betaSwap; split_ifs with h
  · exact Or.inr ⟨rfl, h.le⟩
  · exact Or.inl ⟨rfl, not_lt.1 h⟩

theorem eulerB_comm (a b : ℝ) : eulerB a b = eulerB b a := by
  unfold eulerB; rw [mul_comm (Gamma a), add_comm a b]

theorem rel_of_abs {r v e : ℝ} (hv : v ≠ 0) (h : |r - v| ≤ e * |v|) : ∃ x, |x| ≤ e ∧ r = v * (1 + x) := by
  refine ⟨(r - v) / v, ?_, by field_simp; ring⟩
  rwa [abs_div, div_le_iff₀ (abs_pos.2 hv)]

theorem gaV_acc {x : ℝ} (hx : NoPole x) (h : |x| ≤ betaGmax) : ∃ e : ℝ, |e| ≤ 21 / 10 ^ 17 ∧ gaV x = ((Gamma x * (1 + e) : ℝ) : EReal) := by
  obtain ⟨r, h1, h2⟩ := C111_gamma_accurate hx (h.trans (by unfold betaGmax; norm_num))
  obtain ⟨e, he, rfl⟩ := rel_of_abs (Gamma_ne_zero hx) h2
  exact ⟨e, he, by rw [gaV, h1]; rfl⟩

theorem betaRatio_acc {a b : ℝ} (ha : NoPole a) (hb : NoPole b) (hc : NoPole (a + b)) (h1 : |a| ≤ betaGmax) (h2 : |b| ≤ betaGmax) (h3 : |a + b| ≤ betaGmax) :
    ∃ e : ℝ, |e| ≤ 64 / 10 ^ 17 ∧ betaRatio (gaV a) (gaV b) (gaV (a + b)) = ((eulerB a b * (1 + e) : ℝ) : EReal) := by
  obtain ⟨x, hx, ex⟩ := gaV_acc ha h1
  obtain ⟨y, hy, ey⟩ := gaV_acc hb h2
  obtain ⟨z, hz, ez⟩ := gaV_acc hc h3
  rw [betaRatio_eq, ex, ey, ez, ← EReal.coe_mul, ← EReal.coe_div]
  have x1 := abs_le.1 hx
  have y1 := abs_le.1 hy
  have z1 := abs_le.1 hz
  have hz0 : 0 < 1 + z := by norm_num at *; linarith
  have hG := Gamma_ne_zero hc
  refine ⟨(1 + x) * (1 + y) / (1 + z) - 1, ?_, ?_⟩
  · have hxy : |x * y| ≤ 1 / 10 ^ 30 := by
      rw [abs_mul]
      calc |x| * |y| ≤ 21 / 10 ^ 17 * (21 / 10 ^ 17) := mul_le_mul hx hy (abs_nonneg _) (by norm_num)
        _ ≤ _ := by norm_num
    have p := abs_le.1 hxy
    rw [show (1 + x) * (1 + y) / (1 + z) - 1 = (x + y + x * y - z) / (1 + z) by field_simp; ring, abs_div, abs_of_pos hz0, div_le_iff₀ hz0, abs_le]
    generalize x * y = w at *
    norm_num at *
    constructor <;> linarith
  · congr 1
    unfold eulerB
    field_simp
    ring

theorem betaTail_gamma {a b : ℝ} (h1 : |a| ≤ betaGmax) (h2 : |b| ≤ betaGmax) (h3 : |a + b| ≤ betaGmax) (hc : ∀ n : ℕ, a + b ≠ -(n + 1)) :
    betaTail a b = betaRatio (gaV a) (gaV b) (gaV (a + b)) ∧ lnBetaTail a b = (
      let ans := betaRatio (gaV a) (gaV b) (gaV (a + b));
      if eabs ans < ((10 * (1 / 2 ^ 52) : ℝ) : EReal) then ⊥
      else if ans < 0 then ((log (-ans).toReal : ℝ) : EReal) else ((log ans.toReal : ℝ) : EReal)) := by
  have g : betaGmax < 10 ^ 6 := by unfold betaGmax; norm_num
  have comm : betaRatio (gaV b) (gaV a) (gaV (a + b)) = betaRatio (gaV a) (gaV b) (gaV (a + b)) := by
    rw [betaRatio_eq, betaRatio_eq, mul_comm (gaV b)]
  have hc' : ¬ ∃ n : ℕ, a + b = -(n + 1) := by rintro ⟨n, hn⟩; exact hc n hn
  have e := betaSwap_add a b
  unfold betaTail lnBetaTail
  dsimp only
  rw [e]
  rcases betaSwap_cases a b with ⟨h, -⟩ | ⟨h, -⟩
  · simp only [h]
    rw [if_neg (by rintro ⟨-, h'⟩; linarith [le_abs_self a]), if_neg (by rintro (h' | h' | h') <;> linarith), if_neg hc',
      if_neg (by rintro ⟨-, h'⟩; linarith [le_abs_self a]), if_neg (by rintro (h' | h' | h') <;> linarith), if_neg hc']
    exact ⟨rfl, rfl⟩
  · simp only [h]
    rw [if_neg (by rintro ⟨-, h'⟩; linarith [le_abs_self b]), if_neg (by rintro (h' | h' | h') <;> linarith), if_neg hc',
      if_neg (by rintro ⟨-, h'⟩; linarith [le_abs_self b]), if_neg (by rintro (h' | h' | h') <;> linarith), if_neg hc', comm]
    exact ⟨rfl, rfl⟩

/-- **accuracy of `beta`**: as long as the arguments and their sum are not above `GAMMA_MAX` in absolute value, the result is `Γ(a)Γ(b)/Γ(a+b)` with a relative error of at
most `6.4e-16`, for both signs of the arguments (apart from the poles) -/
theorem C113_beta_accurate {a b : ℝ} (ha : NoPole a) (hb : NoPole b) (hc : NoPole (a + b)) (h1 : |a| ≤ betaGmax) (h2 : |b| ≤ betaGmax) (h3 : |a + b| ≤ betaGmax) :
    ∃ r : ℝ, betaF (.fin a) (.fin b) = some (r : EReal) ∧ |r - Gamma a * Gamma b / Gamma (a + b)| ≤ 64 / 10 ^ 17 * |Gamma a * Gamma b / Gamma (a + b)| := by
  obtain ⟨e, he, hr⟩ := betaRatio_acc ha hb hc h1 h2 h3
  refine ⟨eulerB a b * (1 + e), ?_, ?_⟩
  · show betaF (.fin a) (.fin b) = some ((eulerB a b * (1 + e) : ℝ) : EReal)
    simp only [betaF, FArg.num]
    rw [betaN_tail ha hb, (betaTail_gamma h1 h2 h3 (fun n hn => hc (n + 1) (by push_cast; linarith))).1, hr]
  · change |eulerB a b * (1 + e) - eulerB a b| ≤ 64 / 10 ^ 17 * |eulerB a b|
    rw [show eulerB a b * (1 + e) - eulerB a b = e * eulerB a b by ring, abs_mul]
    exact mul_le_mul_of_nonneg_right he (abs_nonneg _)

theorem noPole_half (n : ℤ) : NoPole (n + 1 / 2) := by
  intro m hm
  have h2 : (2 * n + 1 : ℝ) = -(2 * m) := by linarith
  have h3 : 2 * n + 1 = -(2 * (m : ℤ)) := by exact_mod_cast h2
  omega

theorem noPole_pos {x : ℝ} (h : 0 < x) : NoPole x := by
  intro m hm
  have : (0 : ℝ) ≤ m := Nat.cast_nonneg m
  linarith

example : ∃ r : ℝ, betaF (.fin (-3 / 2)) (.fin 2) = some (r : EReal) ∧ |r - Gamma (-3 / 2) * Gamma 2 / Gamma (-3 / 2 + 2)| ≤ 64 / 10 ^ 17 * |Gamma (-3 / 2) * Gamma 2 / Gamma (-3 / 2 + 2)| := by
  refine C113_beta_accurate ?_ (noPole_pos (by norm_num)) (noPole_pos (by norm_num)) ?_ ?_ ?_
  · have := noPole_half (-2)
    norm_num at this ⊢
    exact this
  · rw [abs_of_neg (by norm_num)]; unfold betaGmax; norm_num
  · rw [abs_of_pos (by norm_num)]; unfold betaGmax; norm_num
  · rw [abs_of_pos (by norm_num)]; unfold betaGmax; norm_num

/-- **the results listed in the documentation**: `B(1, x) = 1/x` and `B(x, 1 - x) = π / sin(πx)` hold up to the same relative error -/
theorem C113_beta_notable {x : ℝ} (hx : NoPole x) (h1 : |x| ≤ 170) :
    (∃ r : ℝ, betaF (.fin 1) (.fin x) = some (r : EReal) ∧ |r - 1 / x| ≤ 64 / 10 ^ 17 * |1 / x|)
    ∧ (NoPole (1 - x) → ∃ r : ℝ, betaF (.fin x) (.fin (1 - x)) = some (r : EReal) ∧ |r - π / sin (π * x)| ≤ 64 / 10 ^ 17 * |π / sin (π * x)|) := by
  have hx0 : x ≠ 0 := by simpa using hx 0
  obtain ⟨l, u⟩ := abs_le.1 h1
  have hG := Gamma_ne_zero hx
  have np1 : NoPole (1 + x) := by
    intro m hm
    exact hx (m + 1) (by push_cast; linarith)
  constructor
  · obtain ⟨r, e, hr⟩ := C113_beta_accurate (a := 1) (b := x) (noPole_pos one_pos) hx np1 (by rw [abs_one]; unfold betaGmax; norm_num)
      (h1.trans (by unfold betaGmax; norm_num)) (by rw [abs_le]; unfold betaGmax; constructor <;> norm_num <;> linarith)
    refine ⟨r, e, ?_⟩
    have : Gamma 1 * Gamma x / Gamma (1 + x) = 1 / x := by
      rw [Gamma_one, add_comm, Gamma_add_one hx0]; field_simp
    rwa [this] at hr
  · intro h2
    obtain ⟨r, e, hr⟩ := C113_beta_accurate (a := x) (b := 1 - x) hx h2 (by rw [add_sub_cancel]; exact noPole_pos one_pos)
      (h1.trans (by unfold betaGmax; norm_num)) (by rw [abs_le]; unfold betaGmax; constructor <;> norm_num <;> linarith)
      (by rw [add_sub_cancel, abs_one]; unfold betaGmax; norm_num)
    refine ⟨r, e, ?_⟩
    rwa [add_sub_cancel, Gamma_one, div_one, Gamma_mul_Gamma_one_sub] at hr

example : NoPole (-1 / 2) ∧ NoPole (1 - -1 / 2) := by
  refine ⟨?_, noPole_pos (by norm_num)⟩
  have := noPole_half (-1)
  norm_num at this ⊢
  exact this

/-! ### symmetry -/

theorem betaTail_comm (a b : ℝ) : betaTail a b = betaTail b a ∧ lnBetaTail a b = lnBetaTail b a := by
  by_cases hab : |a| = |b|
  · have e1 : betaSwap a b = (a, b) := by rw [betaSwap, if_neg (by rw [hab]; exact lt_irrefl _)]
    have e2 : betaSwap b a = (b, a) := by rw [betaSwap, if_neg (by rw [hab]; exact lt_irrefl _)]
    have n1 : ¬ (10 ^ 6 * |b| < |a| ∧ 10 ^ 6 < a) := by rintro ⟨h, -⟩; rw [hab] at h; linarith [abs_nonneg b]
    have n2 : ¬ (10 ^ 6 * |a| < |b| ∧ 10 ^ 6 < b) := by rintro ⟨h, -⟩; rw [hab] at h; linarith [abs_nonneg b]
    unfold betaTail lnBetaTail
    dsimp only
    rw [betaSwap_add, betaSwap_add, add_comm b a]
    simp only [e1, e2]
    rw [if_neg n1, if_neg n2, if_neg n1, if_neg n2, add_comm (lgV b), mul_comm (lnGammaF (.fin b)).2, betaRatio_eq, betaRatio_eq, mul_comm (gaV b)]
    have e3 : (betaGmax < |a + b| ∨ betaGmax < |b| ∨ betaGmax < |a|) ↔ (betaGmax < |a + b| ∨ betaGmax < |a| ∨ betaGmax < |b|) := by tauto
    simp only [e3]
    trivial
  · have e : betaSwap a b = betaSwap b a := by
      unfold betaSwap
      rcases lt_or_gt_of_ne hab with h | h
      · rw [if_pos h, if_neg (not_lt.2 h.le)]
      · rw [if_neg (not_lt.2 h.le), if_pos h]
    unfold betaTail lnBetaTail
    rw [e]
    exact ⟨rfl, rfl⟩

/-- **symmetry**: `B(a, b) = B(b, a)` unless both arguments are nonpositive integers -/
theorem C113_beta_symm {a b : ℝ} (h : NoPole a ∨ NoPole b) : betaF (.fin a) (.fin b) = betaF (.fin b) (.fin a) ∧ lnBetaF (.fin a) (.fin b) = lnBetaF (.fin b) (.fin a) := by
  have key : ∀ {a b : ℝ}, NoPole a → betaF (.fin a) (.fin b) = betaF (.fin b) (.fin a) ∧ lnBetaF (.fin a) (.fin b) = lnBetaF (.fin b) (.fin a) := by
    intro a b ha
    have e := betaTail_comm a b
    simp only [betaF, lnBetaF, FArg.num, betaN, lnBetaN]
    by_cases hb : b ≤ 0 ∧ b = ⌊b⌋
    · simp only [if_neg (not_npi ha), if_pos hb]
      trivial
    · simp only [if_neg (not_npi ha), if_neg hb, e]
      trivial
  rcases h with h | h
  · exact key h
  · exact ⟨(key h).1.symm, (key h).2.symm⟩

theorem asI32_int {k : ℤ} (h1 : -2 ^ 31 ≤ k) (h2 : k < 2 ^ 31) : asI32 (k : ℝ) = k := by
  unfold asI32
  have : (if 0 ≤ (k : ℝ) then ⌊(k : ℝ)⌋ else ⌈(k : ℝ)⌉) = k := by split_ifs <;> simp
  rw [this, min_eq_right (by omega), max_eq_right h1]

theorem asI32_neg {n : ℕ} (h : n ≤ 2 ^ 31) : asI32 (-(n : ℝ)) = -(n : ℤ) := by
  have := asI32_int (k := -(n : ℤ)) (by omega) (by omega)
  push_cast at this
  exact this

theorem asI32_nat {n : ℕ} (h : n < 2 ^ 31) : asI32 (n : ℝ) = (n : ℤ) := by
  have := asI32_int (k := (n : ℤ)) (by omega) (by omega)
  push_cast at this
  exact this

/-- **deviation**: the documentation lists `B(a, b) = B(b, a)`; for two nonpositive integers of different parity the results are infinities of opposite signs -/
theorem C113_beta_symm_counterexample : betaF (.fin (-1)) (.fin (-2)) = some ⊤ ∧ betaF (.fin (-2)) (.fin (-1)) = some ⊥ := by
  have n1 : (-1 : ℝ) ≤ 0 ∧ (-1 : ℝ) = ⌊(-1 : ℝ)⌋ := by simpa using npi (m := 1)
  have n2 : (-2 : ℝ) ≤ 0 ∧ (-2 : ℝ) = ⌊(-2 : ℝ)⌋ := by simpa using npi (m := 2)
  have i1 : asI32 (-1) = -1 := by simpa using asI32_neg (n := 1) (by norm_num)
  have i2 : asI32 (-2) = -2 := by simpa using asI32_neg (n := 2) (by norm_num)
  have r1 : ∀ b : ℝ, b ≤ 0 ∧ b = ⌊b⌋ → b = asI32 b → ∀ n, betaN (n + 1) 4 b = ⊤ ∨ 1 - b > 4 := by
    intro b hb hi n
    by_cases h : 1 - b > 4
    · exact Or.inr h
    · left; rw [betaN, if_neg (by rintro ⟨h, -⟩; norm_num at h), if_pos hb, if_pos hi, betaNegInt_pole _ (by linarith)]
  constructor
  · simp only [betaF, FArg.num]
    rw [betaN, if_pos n1, if_pos (by rw [i1]; norm_num), betaNegInt, if_pos ⟨by rw [i2]; norm_num, by norm_num⟩, i2, if_pos (by norm_num), show (1 - -1 - -2 : ℝ) = 4 by norm_num,
      (r1 (-2) n2 (by rw [i2]; norm_num) 1).resolve_right (by norm_num), one_mul]
  · simp only [betaF, FArg.num]
    rw [betaN, if_pos n2, if_pos (by rw [i2]; norm_num), betaNegInt, if_pos ⟨by rw [i1]; norm_num, by norm_num⟩, i1, if_neg (by norm_num), show (1 - -2 - -1 : ℝ) = 4 by norm_num,
      (r1 (-1) n1 (by rw [i1]; norm_num) 1).resolve_right (by norm_num)]
    simp

/-! ### the branches of the logarithms -/

theorem lgV_acc {x : ℝ} (hx : NoPole x) (h : |x| < 2 ^ 52) :
    ∃ r : ℝ, lgV x = (r : EReal) ∧ (lnGammaF (.fin x)).2 = (if Gamma x < 0 then -1 else 1) ∧ abs (r - log |Gamma x|) ≤ 72 / 10 ^ 16
      ∧ (¬ LgGap |x| → abs (r - log |Gamma x|) ≤ 16 / 10 ^ 17) := by
  have hx0 : x ≠ 0 := by simpa using hx 0
  by_cases ht : |x| < 1 / 2 ^ 70
  · obtain ⟨r, h1, h2⟩ := C112_ln_gamma_tiny hx0 ht
    exact ⟨r, by rw [lgV, h1]; rfl, by rw [h1], h2.trans (by norm_num), fun _ => h2.trans (by norm_num)⟩
  · obtain ⟨r, h1, h2, h3⟩ := C112_ln_gamma_accurate hx ((le_abs_self x).trans_lt (h.trans (by norm_num))) (by linarith [neg_abs_le x]) (not_lt.1 ht)
    exact ⟨r, by rw [lgV, h1]; rfl, by rw [h1], h2, h3⟩

/-- the sign of a real number as the code has it -/
noncomputable def sg (v : ℝ) : ℝ := if v < 0 then -1 else 1

theorem sg_mul {u v : ℝ} (hu : u ≠ 0) (hv : v ≠ 0) : sg (u * v) = sg u * sg v := by
  unfold sg
  rcases lt_or_gt_of_ne hu with h1 | h1 <;> rcases lt_or_gt_of_ne hv with h2 | h2
  · rw [if_neg (by nlinarith), if_pos h1, if_pos h2]; norm_num
  · rw [if_pos (by nlinarith), if_pos h1, if_neg (by linarith)]; norm_num
  · rw [if_pos (by nlinarith), if_neg (by linarith), if_pos h2]; norm_num
  · rw [if_neg (by nlinarith), if_neg (by linarith), if_neg (by linarith)]; norm_num

theorem sg_inv (v : ℝ) : sg v⁻¹ = sg v := by
  unfold sg; simp only [inv_lt_zero]

theorem sg_cast (v : ℝ) : (((if v < 0 then -1 else 1 : ℤ) : ℤ) : ℝ) = sg v := by
  unfold sg; split_ifs <;> norm_num

theorem sg_eulerB {a b : ℝ} (ha : NoPole a) (hb : NoPole b) (hc : NoPole (a + b)) : sg (eulerB a b) = sg (Gamma a) * sg (Gamma b) * sg (Gamma (a + b)) := by
  have h1 := Gamma_ne_zero ha
  have h2 := Gamma_ne_zero hb
  have h3 := Gamma_ne_zero hc
  rw [eulerB, div_eq_mul_inv, sg_mul (mul_ne_zero h1 h2) (inv_ne_zero h3), sg_mul h1 h2, sg_inv]

theorem log_eulerB {a b : ℝ} (ha : NoPole a) (hb : NoPole b) (hc : NoPole (a + b)) : log |eulerB a b| = log |Gamma a| + log |Gamma b| - log |Gamma (a + b)| := by
  have h1 := abs_ne_zero.2 (Gamma_ne_zero ha)
  have h2 := abs_ne_zero.2 (Gamma_ne_zero hb)
  have h3 := abs_ne_zero.2 (Gamma_ne_zero hc)
  rw [eulerB, abs_div, abs_mul, log_div (mul_ne_zero h1 h2) h3, log_mul h1 h2]

/-- the sum of logarithms -/
theorem lnSum_acc {a b : ℝ} (hab : |b| ≤ |a|) (ha : NoPole a) (hb : NoPole b) (hc : NoPole (a + b)) (h1 : |a| < 2 ^ 52) (h3 : |a + b| < 2 ^ 52)
    (hg : betaGmax < |a + b| ∨ betaGmax < |a| ∨ betaGmax < |b|) :
    ∃ ll : ℝ, lgV a + lgV b - lgV (a + b) = (ll : EReal) ∧ abs (ll - log |eulerB a b|) ≤ 76 / 10 ^ 16 := by
  obtain ⟨x, ex, -, x1, x2⟩ := lgV_acc ha h1
  obtain ⟨y, ey, -, y1, y2⟩ := lgV_acc hb (hab.trans_lt h1)
  obtain ⟨z, ez, -, z1, z2⟩ := lgV_acc hc h3
  refine ⟨x + y - z, by rw [ex, ey, ez]; norm_cast, ?_⟩
  have gmax : betaGmax > 171 := by unfold betaGmax; norm_num
  have gapB : ∀ {t : ℝ}, LgGap t → t < 2 := by rintro t (h | h) <;> linarith [h.2]
  have ha85 : 80 < |a| := by
    rcases hg with h | h | h
    · have := abs_add_le a b; linarith
    · linarith
    · linarith
  have hx := x2 (fun h => by have := gapB h; linarith)
  rw [log_eulerB ha hb hc]
  have X := abs_le.1 hx
  by_cases hbg : LgGap |b|
  · have hz := z2 (fun h => by
      have h1 := gapB h
      have h2 := gapB hbg
      have h3 : |a| ≤ |a + b| + |b| := by
        have := abs_sub (a + b) b
        rwa [add_sub_cancel_right] at this
      linarith)
    have Y := abs_le.1 y1
    have Z := abs_le.1 hz
    rw [abs_le]
    norm_num at *
    constructor <;> linarith
  · have Y := abs_le.1 (y2 hbg)
    have Z := abs_le.1 z1
    rw [abs_le]
    norm_num at *
    constructor <;> linarith

theorem asy_acc {a b : ℝ} (hb : NoPole b) (h1 : |a| < 2 ^ 52) (h : 10 ^ 6 * |b| < |a| ∧ 10 ^ 6 < a) :
    ∃ ll : ℝ, (betaAsy a b).1 = (ll : EReal) ∧ (((betaAsy a b).2 : ℤ) : ℝ) = sg (eulerB a b) ∧ sg (eulerB a b) = sg (Gamma b)
      ∧ abs (ll - log |eulerB a b|) ≤ 77 / 10 ^ 16 + 2 / 10 ^ 24 * |b| := by
  obtain ⟨hs, ha⟩ := h
  have ha0 : 0 < a := by linarith
  rw [abs_of_pos ha0] at h1 hs
  have hab : 0 < a + b := by linarith [neg_abs_le b, abs_nonneg b]
  have pa := noPole_pos ha0
  have pc := noPole_pos hab
  have gA := Gamma_pos_of_pos ha0
  have gC := Gamma_pos_of_pos hab
  obtain ⟨y, ey, sy, y1, -⟩ := lgV_acc hb (x := b) (by linarith [abs_nonneg b])
  have hT := betaAsyTerms_acc ha hs
  have hsg : sg (eulerB a b) = sg (Gamma b) := by
    rw [sg_eulerB pa hb pc]
    have s1 : sg (Gamma a) = 1 := by rw [sg, if_neg (by linarith)]
    have s2 : sg (Gamma (a + b)) = 1 := by rw [sg, if_neg (by linarith)]
    rw [s1, s2]; ring
  refine ⟨y + betaAsyTerms a b, by rw [betaAsy, ey]; norm_cast, ?_, hsg, ?_⟩
  · rw [hsg, betaAsy]
    dsimp only
    rw [sy, sg_cast]
  · rw [log_eulerB pa hb pc, abs_of_pos gA, abs_of_pos gC]
    have := abs_le.1 y1
    have := abs_le.1 hT
    have hB := abs_nonneg b
    generalize |b| = β at *
    rw [abs_le]
    norm_num at *
    constructor <;> linarith

theorem eexp_coe (x : ℝ) : eexp (x : EReal) = (exp x : ℝ) := rfl

theorem betaTail_large {a b : ℝ} (hab : |b| ≤ |a|) (ha : NoPole a) (hb : NoPole b) (hc : NoPole (a + b)) (h1 : |a| < 2 ^ 52) (h3 : |a + b| < 2 ^ 52)
    (hg : betaGmax < |a + b| ∨ betaGmax < |a| ∨ betaGmax < |b|) :
    ∃ ll : ℝ, abs (ll - log |eulerB a b|) ≤ 77 / 10 ^ 16 + 2 / 10 ^ 24 * |b|
      ∧ (betaTail a b = ((sg (eulerB a b) * exp ll : ℝ) : EReal) ∨ (betaLmax < ll ∧ betaTail a b = (sg (eulerB a b) : EReal) * ⊤))
      ∧ (lnBetaTail a b = (ll : EReal) ∨ (10 ^ 6 * |b| < a ∧ 10 ^ 6 < a ∧ lnBetaTail a b = ((sg (Gamma b) * ll : ℝ) : EReal))) := by
  have e1 : betaSwap a b = (a, b) := by rw [betaSwap, if_neg (not_lt.2 hab)]
  unfold betaTail lnBetaTail
  simp only [e1]
  by_cases hasy : 10 ^ 6 * |b| < |a| ∧ 10 ^ 6 < a
  · obtain ⟨ll, e, s, s', hll⟩ := asy_acc hb h1 hasy
    refine ⟨ll, hll, ?_⟩
    rw [if_pos hasy, if_pos hasy, e, eexp_coe, s]
    refine ⟨Or.inl (by norm_cast), Or.inr ⟨?_, hasy.2, by rw [s']; norm_cast⟩⟩
    have := hasy.1
    rwa [abs_of_pos (show 0 < a by linarith [hasy.2])] at this
  · obtain ⟨ll, e, hll⟩ := lnSum_acc hab ha hb hc h1 h3 hg
    refine ⟨ll, hll.trans (by have := abs_nonneg b; norm_num; linarith), ?_⟩
    obtain ⟨-, -, sa, -⟩ := lgV_acc ha h1
    obtain ⟨-, -, sb, -⟩ := lgV_acc hb (hab.trans_lt h1)
    obtain ⟨-, -, sc, -⟩ := lgV_acc hc h3
    rw [if_neg hasy, if_neg hasy, if_pos hg, if_pos hg, e, sa, sb, sc, eexp_coe]
    have s : ((((if Gamma a < 0 then -1 else 1) * (if Gamma b < 0 then -1 else 1) * (if Gamma (a + b) < 0 then -1 else 1) : ℤ) : ℤ) : ℝ) = sg (eulerB a b) := by
      rw [sg_eulerB ha hb hc]; push_cast; rfl
    rw [s]
    refine ⟨?_, Or.inl rfl⟩
    split_ifs with hl
    · exact Or.inr ⟨by exact_mod_cast hl, rfl⟩
    · exact Or.inl (by norm_cast)

/-- **accuracy of `beta` beyond `GAMMA_MAX`**: the result has the sign of `B(a, b)` and its logarithm is accurate to `7.7e-15` (plus `2e-24` times the smaller argument);
an infinity is returned only if the logarithm exceeds `LN_MAX` -/
theorem C113_beta_large {a b : ℝ} (ha : NoPole a) (hb : NoPole b) (hc : NoPole (a + b)) (h1 : |a| < 2 ^ 52) (h2 : |b| < 2 ^ 52) (h3 : |a + b| < 2 ^ 52)
    (hg : betaGmax < |a + b| ∨ betaGmax < |a| ∨ betaGmax < |b|) :
    ∃ ll : ℝ, abs (ll - log |Gamma a * Gamma b / Gamma (a + b)|) ≤ 77 / 10 ^ 16 + 2 / 10 ^ 24 * min |a| |b|
      ∧ (betaF (.fin a) (.fin b) = some ((sg (Gamma a * Gamma b / Gamma (a + b)) * exp ll : ℝ) : EReal)
        ∨ (betaLmax < ll ∧ betaF (.fin a) (.fin b) = some ((sg (Gamma a * Gamma b / Gamma (a + b)) : EReal) * ⊤))) := by
  change ∃ ll : ℝ, abs (ll - log |eulerB a b|) ≤ 77 / 10 ^ 16 + 2 / 10 ^ 24 * min |a| |b| ∧ (betaF (.fin a) (.fin b) = some ((sg (eulerB a b) * exp ll : ℝ) : EReal)
        ∨ (betaLmax < ll ∧ betaF (.fin a) (.fin b) = some ((sg (eulerB a b) : EReal) * ⊤)))
  simp only [betaF, FArg.num]
  rw [betaN_tail ha hb]
  rcases le_total |b| |a| with hab | hab
  · obtain ⟨ll, p, q, -⟩ := betaTail_large hab ha hb hc h1 h3 hg
    refine ⟨ll, by rwa [min_eq_right hab], ?_⟩
    rcases q with q | ⟨q1, q2⟩
    · exact Or.inl (by rw [q])
    · exact Or.inr ⟨q1, by rw [q2]⟩
  · rw [add_comm] at hc h3 hg
    obtain ⟨ll, p, q, -⟩ := betaTail_large hab hb ha hc h2 h3 (by tauto)
    rw [eulerB_comm b a] at p q
    refine ⟨ll, by rwa [min_eq_left hab], ?_⟩
    rw [(betaTail_comm a b).1]
    rcases q with q | ⟨q1, q2⟩
    · exact Or.inl (by rw [q])
    · exact Or.inr ⟨q1, by rw [q2]⟩

example : NoPole (-300 - 1 / 2) ∧ NoPole 200 ∧ NoPole (-300 - 1 / 2 + 200) ∧ betaGmax < |(200 : ℝ)| := by
  refine ⟨?_, noPole_pos (by norm_num), ?_, by rw [abs_of_pos (by norm_num)]; unfold betaGmax; norm_num⟩
  · have := noPole_half (-301)
    norm_num at this ⊢
    exact this
  · have := noPole_half (-101)
    norm_num at this ⊢
    exact this

theorem eabs0 : eabs 0 = 0 := by rw [eabs, neg_zero, max_self]

/-- **zeros**: if only `a + b` is a nonpositive integer, the result is `0`, as it is the case for `Γ(a)Γ(b)/Γ(a+b)` by continuity; `ln_beta` is `-∞` -/
theorem C113_beta_zero {a b : ℝ} (ha : NoPole a) (hb : NoPole b) {m : ℕ} (hc : a + b = -m) (h1 : |a| < 2 ^ 52) (h2 : |b| < 2 ^ 52) :
    betaF (.fin a) (.fin b) = some 0 ∧ lnBetaF (.fin a) (.fin b) = some ⊥ := by
  have key : ∀ {a b : ℝ}, |b| ≤ |a| → NoPole a → NoPole b → a + b = -m → |a| < 2 ^ 52 → betaTail a b = 0 ∧ lnBetaTail a b = ⊥ := by
    intro a b hab ha hb hc h1
    have e1 : betaSwap a b = (a, b) := by rw [betaSwap, if_neg (not_lt.2 hab)]
    have hm0 : (0 : ℝ) ≤ m := Nat.cast_nonneg m
    have hasy : ¬ (10 ^ 6 * |b| < |a| ∧ 10 ^ 6 < a) := by
      rintro ⟨p, q⟩
      rw [abs_of_pos (show 0 < a by linarith)] at p
      linarith [neg_abs_le b, abs_nonneg b]
    obtain ⟨x, ex, -⟩ := lgV_acc ha h1
    obtain ⟨y, ey, -⟩ := lgV_acc hb (hab.trans_lt h1)
    have ez : lgV (a + b) = ⊤ := by rw [lgV, hc, C112_ln_gamma_special.2.2.2.2.1 m]; rfl
    unfold betaTail lnBetaTail
    dsimp only
    rw [betaSwap_add]
    simp only [e1]
    rw [if_neg hasy, if_neg hasy, ex, ey, ez]
    have hbot : (x : EReal) + (y : EReal) - ⊤ = ⊥ := by
      rw [← EReal.coe_add, sub_eq_add_neg, EReal.neg_top, EReal.add_bot]
    rw [hbot]
    split_ifs with c1 c2 c3 c4 c5
    · simp at c2
    · exact ⟨by rw [show eexp ⊥ = 0 from rfl, mul_zero], rfl⟩
    · exact ⟨rfl, rfl⟩
    all_goals
      have hm : m = 0 := by
        by_contra hm
        exact c3 ⟨m - 1, by rw [hc, Nat.cast_pred (Nat.pos_of_ne_zero hm)]; ring⟩
      have gz : gaV (a + b) = ⊤ := by rw [gaV, hc, hm, Nat.cast_zero, neg_zero, C111_gamma_special.2.2.2.2.1]; rfl
      have rz : betaRatio (gaV a) (gaV b) (gaV (a + b)) = 0 := by rw [betaRatio_eq, gz, EReal.div_top]
    · exact ⟨rz, rfl⟩
    · exact absurd (by rw [rz, eabs0]; exact_mod_cast (by positivity : (0 : ℝ) < 10 * (1 / 2 ^ 52))) c4
    · exact absurd (by rw [rz, eabs0]; exact_mod_cast (by positivity : (0 : ℝ) < 10 * (1 / 2 ^ 52))) c4
  simp only [betaF, lnBetaF, FArg.num]
  rw [betaN_tail ha hb, lnBetaN_tail ha hb]
  rcases le_total |b| |a| with hab | hab
  · obtain ⟨p, q⟩ := key hab ha hb hc h1
    rw [p, q]; exact ⟨rfl, rfl⟩
  · obtain ⟨p, q⟩ := key hab hb ha (by rw [add_comm]; exact hc) h2
    rw [(betaTail_comm a b).1, (betaTail_comm a b).2, p, q]; exact ⟨rfl, rfl⟩

example : betaF (.fin (1 / 2)) (.fin (-5 / 2)) = some 0 :=
  (C113_beta_zero (a := 1 / 2) (b := -5 / 2) (m := 2) (noPole_pos (by norm_num)) (by have := noPole_half (-3); norm_num at this ⊢; exact this) (by norm_num)
    (by rw [abs_of_pos] <;> norm_num) (by rw [abs_of_neg] <;> norm_num)).1

/-- **nonpositive integers**: for `1 ≤ m ≤ n` the result at `(-n, m)` is `(-1)^m B(n + 1 - m, m)`, and this is the limit of `Γ(a)Γ(m)/Γ(a+m)` for `a → -n` -/
theorem C113_beta_neg_integer {n m : ℕ} (h1 : 1 ≤ m) (h2 : m ≤ n) (hn : n < 2 ^ 31) :
    betaF (.fin (-n)) (.fin m) = (betaF (.fin (n + 1 - m)) (.fin m)).map ((-1) ^ m * ·)
    ∧ Tendsto (fun a : ℝ => Gamma a * Gamma m / Gamma (a + m)) (𝓝[≠] (-n)) (𝓝 ((-1) ^ m * (Gamma (n + 1 - m) * Gamma m / Gamma (n + 1 - m + m)))) := by
  have hm0 : (0 : ℝ) < m := by exact_mod_cast h1
  have hmn : (m : ℝ) ≤ n := by exact_mod_cast h2
  constructor
  · simp only [betaF, FArg.num, Option.map_some]
    rw [betaN, if_pos npi, if_pos (by rw [asI32_neg hn.le]; push_cast; ring), betaNegInt, asI32_nat (lt_of_le_of_lt h2 hn), if_pos ⟨by norm_cast, by linarith⟩,
      show (1 - -(n : ℝ) - m) = n + 1 - m by ring, betaN_tail (noPole_pos (by linarith)) (noPole_pos hm0), betaN_tail (noPole_pos (by linarith)) (noPole_pos hm0)]
    congr 2
    rcases Nat.even_or_odd m with he | ho
    · rw [he.neg_one_pow, if_pos (by obtain ⟨k, rfl⟩ := he; omega)]
    · rw [ho.neg_one_pow, if_neg (by obtain ⟨k, rfl⟩ := ho; omega)]
  · -- the quotient is the reciprocal of a product
    have prodG : ∀ (k : ℕ) {a : ℝ}, (∀ j : ℕ, j < k → a + j ≠ 0) → Gamma (a + k) = (∏ j ∈ Finset.range k, (a + j)) * Gamma a := by
      intro k
      induction k with
      | zero => intro a _; simp
      | succ k ih =>
        intro a h
        rw [Finset.prod_range_succ, Nat.cast_succ, ← add_assoc, Gamma_add_one (h k (Nat.lt_succ_self k)), ih fun j hj => h j (hj.trans (Nat.lt_succ_self k))]
        ring
    have hprod : (∏ j ∈ Finset.range m, (-(n : ℝ) + j)) * ((-1) ^ m * Gamma (n + 1 - m)) = Gamma (n + 1 - m + m) := by
      have e : (∏ j ∈ Finset.range m, (-(n : ℝ) + j)) = (-1) ^ m * ∏ j ∈ Finset.range m, ((n : ℝ) + 1 - m + j) := by
        have hp : ((-1 : ℝ) ^ m) = ∏ _j ∈ Finset.range m, (-1 : ℝ) := by simp
        rw [← Finset.prod_range_reflect (fun j => ((n : ℝ) + 1 - m + j)), hp, ← Finset.prod_mul_distrib]
        refine Finset.prod_congr rfl fun j hj => ?_
        have hj' := Finset.mem_range.1 hj
        rw [Nat.cast_sub (by omega), Nat.cast_sub (by omega)]
        push_cast; ring
      rw [e, prodG m (a := (n : ℝ) + 1 - m) (fun j _ => by have : (0 : ℝ) ≤ j := Nat.cast_nonneg j; linarith)]
      have : ((-1 : ℝ) ^ m) * (-1) ^ m = 1 := by rw [← mul_pow]; norm_num
      linear_combination ((∏ j ∈ Finset.range m, ((n : ℝ) + 1 - m + j)) * Gamma (n + 1 - m)) * this
    have hP0 : (∏ j ∈ Finset.range m, (-(n : ℝ) + j)) ≠ 0 := by
      refine Finset.prod_ne_zero_iff.2 fun j hj => ?_
      have hj' : (j : ℝ) < m := by exact_mod_cast Finset.mem_range.1 hj
      intro h; linarith
    have hlim : (-1) ^ m * (Gamma (n + 1 - m) * Gamma m / Gamma (n + 1 - m + m)) = Gamma m / ∏ j ∈ Finset.range m, (-(n : ℝ) + j) := by
      have g1 := (Gamma_pos_of_pos (show (0 : ℝ) < n + 1 - m by linarith)).ne'
      rw [← hprod]
      have : ((-1 : ℝ) ^ m) ≠ 0 := pow_ne_zero _ (by norm_num)
      field_simp
    rw [hlim]
    have hcont : ContinuousAt (fun a : ℝ => Gamma m / ∏ j ∈ Finset.range m, (a + j)) (-n) := by
      refine ContinuousAt.div continuousAt_const ?_ hP0
      exact (continuous_finsetProd _ fun j _ => by fun_prop).continuousAt
    refine Tendsto.congr' ?_ (hcont.tendsto.mono_left nhdsWithin_le_nhds)
    have hev : ∀ᶠ a : ℝ in 𝓝[≠] (-(n : ℝ)), |a + n| < 1 := by
      have : Tendsto (fun a : ℝ => |a + n|) (𝓝 (-(n : ℝ))) (𝓝 |(-(n : ℝ)) + n|) := (by fun_prop : Continuous fun a : ℝ => |a + n|).tendsto _
      rw [neg_add_cancel, abs_zero] at this
      exact (this.mono_left nhdsWithin_le_nhds).eventually (gt_mem_nhds one_pos)
    filter_upwards [hev, self_mem_nhdsWithin] with a ha hne
    have hnp : NoPole a := by
      intro k hk
      rw [hk] at ha hne
      have h' : ((|(n : ℤ) - k| : ℤ) : ℝ) < 1 := by
        push_cast
        rw [show (n : ℝ) - k = -(k : ℝ) + n by ring]; exact ha
      have h'' : |(n : ℤ) - k| < 1 := by exact_mod_cast h'
      have : (n : ℤ) - k = 0 := Int.abs_lt_one_iff.1 h''
      have hkn : k = n := by omega
      exact hne (by rw [hkn]; rfl)
    rw [prodG m fun j _ hj => hnp j (by linarith)]
    have g := Gamma_ne_zero hnp
    rw [mul_comm (Gamma a) (Gamma m), mul_div_mul_right _ _ g]

example : betaF (.fin (-(3 : ℕ))) (.fin (1 : ℕ)) = (betaF (.fin ((3 : ℕ) + 1 - (1 : ℕ))) (.fin (1 : ℕ))).map ((-1) ^ 1 * ·) :=
  (C113_beta_neg_integer (n := 3) (m := 1) le_rfl (by norm_num) (by norm_num)).1

/-- **accuracy of `ln_beta`**: in the branch of the gamma values the error is at most `1.3e-15` as long as `|B(a, b)|` is not below `11 ε` -/
theorem C113_ln_beta_accurate {a b : ℝ} (ha : NoPole a) (hb : NoPole b) (hc : NoPole (a + b)) (h1 : |a| ≤ betaGmax) (h2 : |b| ≤ betaGmax) (h3 : |a + b| ≤ betaGmax)
    (hB : 11 / 2 ^ 52 ≤ |Gamma a * Gamma b / Gamma (a + b)|) :
    ∃ r : ℝ, lnBetaF (.fin a) (.fin b) = some (r : EReal) ∧ abs (r - log |Gamma a * Gamma b / Gamma (a + b)|) ≤ 128 / 10 ^ 17 := by
  change 11 / 2 ^ 52 ≤ |eulerB a b| at hB
  change ∃ r : ℝ, lnBetaF (.fin a) (.fin b) = some (r : EReal) ∧ abs (r - log |eulerB a b|) ≤ 128 / 10 ^ 17
  obtain ⟨e, he, hr⟩ := betaRatio_acc ha hb hc h1 h2 h3
  have e1 := abs_le.1 he
  have hpos : 0 < 1 + e := by norm_num at *; linarith
  have hB0 : 0 < |eulerB a b| := lt_of_lt_of_le (by positivity) hB
  have habs : |eulerB a b * (1 + e)| = |eulerB a b| * (1 + e) := by rw [abs_mul, abs_of_pos hpos]
  refine ⟨log |eulerB a b * (1 + e)|, ?_, ?_⟩
  · simp only [lnBetaF, FArg.num]
    rw [lnBetaN_tail ha hb, (betaTail_gamma h1 h2 h3 (fun n hn => hc (n + 1) (by push_cast; linarith))).2, hr]
    dsimp only
    have hea : eabs ((eulerB a b * (1 + e) : ℝ) : EReal) = ((|eulerB a b * (1 + e)| : ℝ) : EReal) := by
      rw [eabs, abs, ← EReal.coe_neg]
      exact (EReal.coe_strictMono.monotone.map_max).symm
    rw [if_neg]
    · split_ifs with hn
      · have hn' : eulerB a b * (1 + e) < 0 := by exact_mod_cast hn
        rw [← EReal.coe_neg, EReal.toReal_coe, abs_of_neg hn']
      · have hn' : ¬ eulerB a b * (1 + e) < 0 := fun h => hn (by exact_mod_cast h)
        rw [EReal.toReal_coe, abs_of_nonneg (not_lt.1 hn')]
    · rw [hea, habs]
      intro h
      have h' : |eulerB a b| * (1 + e) < 10 * (1 / 2 ^ 52) := by exact_mod_cast h
      have : 11 / 2 ^ 52 * (999 / 1000) ≤ |eulerB a b| * (1 + e) := mul_le_mul hB (by norm_num at *; linarith) (by norm_num) hB0.le
      norm_num at *
      linarith
  · rw [habs, log_mul hB0.ne' hpos.ne', add_sub_cancel_left]
    have := abs_log_le (t := 1 + e) (e := 64 / 10 ^ 17) (by norm_num) (by rwa [add_sub_cancel_left])
    exact this.trans (by norm_num)

/-- **accuracy of `ln_beta` beyond `GAMMA_MAX`** outside the asymptotic branch and, for positive `Γ(b)`, inside of it -/
theorem C113_ln_beta_large {a b : ℝ} (hab : |b| ≤ |a|) (ha : NoPole a) (hb : NoPole b) (hc : NoPole (a + b)) (h1 : |a| < 2 ^ 52) (h3 : |a + b| < 2 ^ 52)
    (hg : betaGmax < |a + b| ∨ betaGmax < |a| ∨ betaGmax < |b|) (hasy : 10 ^ 6 * |b| < a ∧ 10 ^ 6 < a → 0 < Gamma b) :
    ∃ r : ℝ, lnBetaF (.fin a) (.fin b) = some (r : EReal) ∧ abs (r - log |Gamma a * Gamma b / Gamma (a + b)|) ≤ 77 / 10 ^ 16 + 2 / 10 ^ 24 * |b| := by
  obtain ⟨ll, p, -, q⟩ := betaTail_large hab ha hb hc h1 h3 hg
  refine ⟨ll, ?_, p⟩
  simp only [lnBetaF, FArg.num]
  rw [lnBetaN_tail ha hb]
  rcases q with q | ⟨q1, q2, q⟩
  · rw [q]
  · rw [q, sg, if_neg (not_lt.2 (hasy ⟨q1, q2⟩).le), one_mul]

example : ∃ r : ℝ, lnBetaF (.fin (10 ^ 7)) (.fin 3) = some (r : EReal) ∧ abs (r - log |Gamma (10 ^ 7) * Gamma 3 / Gamma (10 ^ 7 + 3)|) ≤ 77 / 10 ^ 16 + 2 / 10 ^ 24 * |(3 : ℝ)| := by
  have e1 : |((10 : ℝ) ^ 7)| = 10 ^ 7 := abs_of_pos (by norm_num)
  have e2 : |((10 : ℝ) ^ 7 + 3)| = 10 ^ 7 + 3 := abs_of_pos (by norm_num)
  have e3 : |(3 : ℝ)| = 3 := abs_of_pos (by norm_num)
  refine C113_ln_beta_large ?_ (noPole_pos (by norm_num)) (noPole_pos (by norm_num)) (noPole_pos (by norm_num)) ?_ ?_ ?_ fun _ => Gamma_pos_of_pos (by norm_num)
  · rw [e1, e3]; norm_num
  · rw [e1]; norm_num
  · rw [e2]; norm_num
  · right; left; rw [e1]; unfold betaGmax; norm_num

/-- **deviation**: in the asymptotic branch `ln_beta` multiplies the logarithm by the sign of `Γ(b)`. At `(2·10⁶, -1/2)` the result is negative, below `-1`, while `ln |B|` is above `1` -/
theorem C113_ln_beta_sign_counterexample : ∃ r : ℝ, lnBetaF (.fin (2 * 10 ^ 6)) (.fin (-1 / 2)) = some (r : EReal) ∧ r < -1
    ∧ 1 < log |Gamma (2 * 10 ^ 6) * Gamma (-1 / 2) / Gamma (2 * 10 ^ 6 + -1 / 2)| := by
  have e1 : |(2 * 10 ^ 6 : ℝ)| = 2 * 10 ^ 6 := abs_of_pos (by norm_num)
  have e2 : |(-1 / 2 : ℝ)| = 1 / 2 := by rw [abs_of_neg (by norm_num)]; norm_num
  have hb : NoPole (-1 / 2) := by have := noPole_half (-1); norm_num at this ⊢; exact this
  have hasy : 10 ^ 6 * |(-1 / 2 : ℝ)| < |(2 * 10 ^ 6 : ℝ)| ∧ (10 : ℝ) ^ 6 < 2 * 10 ^ 6 := by rw [e1, e2]; norm_num
  obtain ⟨ll, h1, h2, h3, h4⟩ := asy_acc hb (by rw [e1]; norm_num) hasy
  have hT := betaAsyTerms_acc (a := 2 * 10 ^ 6) (b := -1 / 2) (by norm_num) (by rw [e2]; norm_num)
  have hpi := pi_gt_three
  have hG : Gamma (-1 / 2) = -(2 * √π) := by
    have := Gamma_add_one (s := (-1 / 2 : ℝ)) (by norm_num)
    rw [show (-1 / 2 + 1 : ℝ) = 1 / 2 by norm_num, Gamma_one_half_eq] at this
    linarith
  have hsq : 1 ≤ √π := one_le_sqrt.2 (by linarith)
  have hlog : 1.25 < log |eulerB (2 * 10 ^ 6) (-1 / 2)| := by
    have gA := Gamma_pos_of_pos (show (0 : ℝ) < 2 * 10 ^ 6 by norm_num)
    have gC := Gamma_pos_of_pos (show (0 : ℝ) < 2 * 10 ^ 6 + -1 / 2 by norm_num)
    rw [log_eulerB (noPole_pos (by norm_num)) hb (noPole_pos (by norm_num)), hG, abs_neg, abs_of_pos (show 0 < 2 * √π by positivity), abs_of_pos gA, abs_of_pos gC]
    have l1 : 0 ≤ log (2 * √π) := log_nonneg (by linarith)
    have l2 : 3 < log (2 * 10 ^ 6) := by
      rw [lt_log_iff_exp_lt (by norm_num)]
      have := exp_one_lt_d9
      calc exp 3 = exp 1 ^ 3 := by rw [← exp_nat_mul]; norm_num
        _ ≤ 3 ^ 3 := pow_le_pow_left₀ (exp_pos _).le (by linarith) 3
        _ < _ := by norm_num
    unfold betaAsyTerms at hT
    rw [e2] at hT
    have := abs_le.1 hT
    generalize log (2 * 10 ^ 6) = L at *
    generalize log (2 * √π) = M at *
    generalize log (Gamma (2 * 10 ^ 6)) = P at *
    generalize log (Gamma (2 * 10 ^ 6 + -1 / 2)) = Q at *
    norm_num at *
    linarith
  have hs : sg (Gamma (-1 / 2)) = -1 := by rw [sg, hG, if_pos (by linarith)]
  have e3 : betaSwap (2 * 10 ^ 6) (-1 / 2) = (2 * 10 ^ 6, -1 / 2) := by rw [betaSwap, e1, e2, if_neg (by norm_num)]
  refine ⟨-ll, ?_, ?_, ?_⟩
  · simp only [lnBetaF, FArg.num]
    rw [lnBetaN_tail (noPole_pos (by norm_num)) hb]
    unfold lnBetaTail
    simp only [e3]
    rw [if_pos hasy, h2, h3, hs, h1, ← EReal.coe_mul, neg_one_mul]
  · rw [e2] at h4
    have := (abs_le.1 h4).1
    norm_num at *
    linarith
  · change 1 < log |eulerB (2 * 10 ^ 6) (-1 / 2)|
    norm_num at *
    linarith

/-- **deviation**: `ln_beta` returns `-∞` where `|B|` is below `10 ε` although the logarithm is an ordinary number: at `(30, 30)` the value of `B` is about `5.6e-19` -/
theorem C113_ln_beta_small_counterexample : lnBetaF (.fin 30) (.fin 30) = some ⊥ ∧ Gamma 30 * Gamma 30 / Gamma (30 + 30) = (Nat.factorial 29 : ℝ) ^ 2 / Nat.factorial 59
    ∧ -45 < log (Gamma 30 * Gamma 30 / Gamma (30 + 30)) := by
  have g30 : Gamma 30 = (Nat.factorial 29 : ℝ) := by rw [← Gamma_nat_eq_factorial]; norm_num
  have g60 : Gamma (30 + 30) = (Nat.factorial 59 : ℝ) := by rw [← Gamma_nat_eq_factorial]; norm_num
  have hv : Gamma 30 * Gamma 30 / Gamma (30 + 30) = (Nat.factorial 29 : ℝ) ^ 2 / Nat.factorial 59 := by rw [g30, g60, sq]
  have hlow : (1 : ℝ) / 10 ^ 19 < (Nat.factorial 29 : ℝ) ^ 2 / Nat.factorial 59 := by norm_num [Nat.factorial]
  have hup : (Nat.factorial 29 : ℝ) ^ 2 / Nat.factorial 59 < 1 / 10 ^ 18 := by norm_num [Nat.factorial]
  refine ⟨?_, hv, ?_⟩
  · have p : NoPole (30 : ℝ) := noPole_pos (by norm_num)
    have p2 : NoPole (30 + 30 : ℝ) := noPole_pos (by norm_num)
    have b1 : |(30 : ℝ)| ≤ betaGmax := by rw [abs_of_pos (by norm_num)]; unfold betaGmax; norm_num
    have b2 : |(30 + 30 : ℝ)| ≤ betaGmax := by rw [abs_of_pos (by norm_num)]; unfold betaGmax; norm_num
    obtain ⟨e, he, hr⟩ := betaRatio_acc p p p2 b1 b1 b2
    have e1 := abs_le.1 he
    simp only [lnBetaF, FArg.num]
    rw [lnBetaN_tail p p, (betaTail_gamma b1 b1 b2 (fun n hn => p2 (n + 1) (by push_cast; linarith))).2, hr]
    dsimp only
    rw [if_pos]
    rw [eulerB, hv]
    generalize (Nat.factorial 29 : ℝ) ^ 2 / Nat.factorial 59 = v at *
    have hv0 : 0 < v := lt_trans (by norm_num) hlow
    have hpos : 0 < v * (1 + e) := mul_pos hv0 (by norm_num at *; linarith)
    rw [eabs, ← EReal.coe_neg, max_eq_left (by exact_mod_cast (by linarith))]
    have : v * (1 + e) < 10 * (1 / 2 ^ 52) := by
      calc v * (1 + e) ≤ v * 2 := mul_le_mul_of_nonneg_left (by norm_num at *; linarith) hv0.le
        _ < _ := by norm_num at *; linarith
    exact_mod_cast this
  · rw [hv, lt_log_iff_exp_lt (lt_trans (by norm_num) hlow)]
    refine lt_trans ?_ hlow
    have h1 : (exp 1 : ℝ) ^ 45 = exp 45 := by rw [← exp_nat_mul]; norm_num
    have h2 := exp_one_gt_d9
    have h3 : (2.7 : ℝ) ^ 45 ≤ exp 45 := by rw [← h1]; exact pow_le_pow_left₀ (by norm_num) (by linarith) 45
    rw [exp_neg, ← one_div]
    refine one_div_lt_one_div_of_lt (by norm_num) (lt_of_lt_of_le ?_ h3)
    norm_num

/-- **special cases**: NaN for a NaN or an infinity; `+∞` at the poles -/
theorem C113_beta_special : (∀ x y : FArg, x.num = none ∨ y.num = none → betaF x y = none ∧ lnBetaF x y = none)
    ∧ ∀ (n : ℕ) (b : ℝ), NoPole b → (∀ m : ℕ, m ≤ n → b ≠ m) → betaF (.fin (-n)) (.fin b) = some ⊤ ∧ lnBetaF (.fin (-n)) (.fin b) = some ⊤ := by
  constructor
  · rintro x y (h | h)
    · simp only [betaF, lnBetaF, h]; trivial
    · simp only [betaF, lnBetaF, h]; rcases x.num with _ | a <;> trivial
  · intro n b hb hm
    have key : ¬ (b = asI32 b ∧ 0 < 1 - -(n : ℝ) - b) := by
      rintro ⟨h1, h2⟩
      obtain ⟨k, hk⟩ : ∃ k : ℤ, b = k := ⟨_, h1⟩
      have h3 : (k : ℝ) < n + 1 := by rw [← hk]; linarith
      have h4 : k < n + 1 := by exact_mod_cast h3
      rcases Int.le_total k 0 with h0 | h0
      · refine hb (-k).toNat ?_
        have : (((-k).toNat : ℤ) : ℝ) = ((-k : ℤ) : ℝ) := by rw [Int.toNat_of_nonneg (by omega)]
        have h5 : (((-k).toNat : ℕ) : ℝ) = -(k : ℝ) := by exact_mod_cast this
        rw [h5, hk]; ring
      · refine hm k.toNat (by omega) ?_
        have : ((k.toNat : ℤ) : ℝ) = (k : ℝ) := by rw [Int.toNat_of_nonneg h0]
        have h5 : ((k.toNat : ℕ) : ℝ) = (k : ℝ) := by exact_mod_cast this
        rw [h5, hk]
    simp only [betaF, lnBetaF, FArg.num]
    rw [betaN, lnBetaN, if_pos npi, if_pos npi, betaNegInt, lnBetaNegInt, if_neg key, if_neg key]
    split_ifs <;> exact ⟨rfl, rfl⟩

end Russell.Lab
