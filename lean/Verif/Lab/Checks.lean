import Verif.Lab.FloatMod
import Verif.Lab.NumMatrix
import Verif.Sparse.Spec

/-!
# The comparison functions used by tests, on bit patterns (property C104)

`approx_eq`, `array_approx_eq`, `complex_approx_eq`, `complex_array_approx_eq`, `mat_approx_eq`, `complex_mat_approx_eq` and
`assert_alike` of russell_lab, with the rounding of the subtraction and with NaN and infinities.
-/

namespace Russell.Ieee

open Russell Russell.Res Russell.Lab Russell.Sparse

/-! ## Models -/

/-- subtraction of arbitrary numbers -/
def fsubX (x y : Nat) : Nat :=
  if isNan x ∨ isNan y then nanBits
  else if isInf x then (if isInf y ∧ sgn x = sgn y then nanBits else x)
  else if isInf y then fneg y
  else fsub x y

/-- `f64::abs` -/
def fabs (x : Nat) : Nat := ub x

/-- `a > b` -/
def fgt (a b : Nat) : Prop := flt b a
instance (a b : Nat) : Decidable (fgt a b) := inferInstanceAs (Decidable (flt b a))

/-- `approx_eq` (/repo/russell_lab/src/check/approx_eq.rs:41-63) for `f64` -/
def approxEq (a b tol : Nat) : Res Unit :=
  if isNan a then panic
  else if isNan b then panic
  else if isInf a then panic
  else if isInf b then panic
  else if fgt (fabs (fsubX a b)) tol then panic
  else ok ()

/-- the checks for one pair in `array_approx_eq` (/repo/russell_lab/src/check/array_approx_eq.rs:45-62) -/
def arrayApproxStep (u v : List Nat) (tol : Nat) (i : Nat) : Res Unit := do
  let ui ← vget u i
  let vi ← vget v i
  if isNan ui then panic
  else if isNan vi then panic
  else if isInf ui then panic
  else if isInf vi then panic
  else if fgt (fabs (fsubX ui vi)) tol then panic
  else ok ()

/-- `array_approx_eq`, `vec_approx_eq` (/repo/russell_lab/src/check/array_approx_eq.rs:36-64,
/repo/russell_lab/src/vector/vec_approx_eq.rs:37-42) -/
def arrayApproxEq (u v : List Nat) (tol : Nat) : Res Unit :=
  if u.length ≠ v.length then panic
  else forRange 0 u.length () fun i _ => arrayApproxStep u v tol i

/-- the tests for NaN and infinity in the complex functions (/repo/russell_lab/src/check/complex_approx_eq.rs:63-90) -/
def complexFinite (a b : Nat × Nat) : Res Unit :=
  if isNan a.1 then panic
  else if isNan b.1 then panic
  else if isInf a.1 then panic
  else if isInf b.1 then panic
  else if isNan a.2 then panic
  else if isNan b.2 then panic
  else if isInf a.2 then panic
  else if isInf b.2 then panic
  else ok ()

/-- `complex_approx_eq` (/repo/russell_lab/src/check/complex_approx_eq.rs:56-101) -/
def complexApproxEq (a b : Nat × Nat) (tol : Nat) : Res Unit := do
  let _ ← complexFinite a b
  if fgt (fabs (fsubX a.1 b.1)) tol then panic
  else if fgt (fabs (fsubX a.2 b.2)) tol then panic
  else ok ()

/-- `complex_array_approx_eq`, `complex_vec_approx_eq` (/repo/russell_lab/src/check/complex_array_approx_eq.rs:51-102,
/repo/russell_lab/src/vector/complex_vec_approx_eq.rs:51-56); the checks of a pair are those of `complex_approx_eq` -/
def complexArrayApproxEq (u v : List (Nat × Nat)) (tol : Nat) : Res Unit :=
  if u.length ≠ v.length then panic
  else forRange 0 u.length () fun i _ => do
    let ui ← vget u i
    let vi ← vget v i
    complexApproxEq ui vi tol

/-- the checks of a difference in `mat_approx_eq` (/repo/russell_lab/src/matrix/mat_approx_eq.rs:64-75) -/
def diffCheck (diff tol : Nat) : Res Unit :=
  if isNan diff then panic
  else if isInf diff then panic
  else if fgt diff tol then panic
  else ok ()

/-- `mat_approx_eq` (/repo/russell_lab/src/matrix/mat_approx_eq.rs:49-78) -/
def matApproxEqBits (a b : NumMatrix Nat) (tol : Nat) : Res Unit :=
  if a.nrow ≠ b.nrow then panic
  else if a.ncol ≠ b.ncol then panic
  else forRange 0 a.nrow () fun i _ => forRange 0 a.ncol () fun j _ => do
    let x ← a.get i j
    let y ← b.get i j
    diffCheck (fabs (fsubX x y)) tol

/-- `complex_mat_approx_eq` (/repo/russell_lab/src/matrix/complex_mat_approx_eq.rs:69-111) -/
def complexMatApproxEq (a b : NumMatrix (Nat × Nat)) (tol : Nat) : Res Unit :=
  if a.nrow ≠ b.nrow then panic
  else if a.ncol ≠ b.ncol then panic
  else forRange 0 a.nrow () fun i _ => forRange 0 a.ncol () fun j _ => do
    let x ← a.get i j
    let y ← b.get i j
    let _ ← diffCheck (fabs (fsubX x.1 y.1)) tol
    diffCheck (fabs (fsubX x.2 y.2)) tol

/-- `a == b` -/
def feq (a b : Nat) : Prop := ¬ isNan a ∧ ¬ isNan b ∧ key a = key b
instance (a b : Nat) : Decidable (feq a b) := inferInstanceAs (Decidable (_ ∧ _ ∧ _))

/-- `assert_alike` (/repo/russell_lab/src/check/assert_alike.rs:27-38) -/
def assertAlike (a b : Nat) : Res Unit :=
  let alike : Bool :=
    if isNan a ∧ isNan b then true
    else if feq a b then decide (sgn a = 1) == decide (sgn b = 1)
    else false
  if !alike then panic else ok ()

/-! ## Rounding is monotone -/

theorem rmag_bracket (n k : Nat) : ∃ b0, mag b0 * 2 ^ k ≤ n ∧ n < mag (b0 + 1) * 2 ^ k ∧
    (rmag n k = min b0 infBits ∨ rmag n k = min (b0 + 1) infBits ∧ mag b0 * 2 ^ k < n) := by
  obtain ⟨s, m, hs, hm, h1, h2⟩ := rmag_floor n k
  have hr : rmag n k = min (s * 2 ^ 52 + rhe n (k + s)) infBits := by rw [rmag, hs]
  have g0 : mag (s * 2 ^ 52 + m) = m * 2 ^ s := mag_spacing h1 h2.le
  have g1 : mag (s * 2 ^ 52 + m + 1) = (m + 1) * 2 ^ s := by
    rw [Nat.add_assoc]; exact mag_spacing (by omega) (by omega)
  have hP : 2 ^ (k + s) = 2 ^ s * 2 ^ k := by rw [Nat.pow_add, Nat.mul_comm]
  have hsplit : n = m * 2 ^ s * 2 ^ k + n % 2 ^ (k + s) := by
    have := Nat.div_add_mod n (2 ^ (k + s))
    rw [← hm] at this
    calc n = 2 ^ (k + s) * m + n % 2 ^ (k + s) := this.symm
      _ = _ := by rw [Nat.pow_add]; ring
  have hlt : n % 2 ^ (k + s) < 2 ^ (k + s) := Nat.mod_lt _ (Nat.two_pow_pos _)
  refine ⟨s * 2 ^ 52 + m, ?_, ?_, ?_⟩
  · rw [g0]; omega
  · rw [g1]
    have : (m + 1) * 2 ^ s * 2 ^ k = m * 2 ^ s * 2 ^ k + 2 ^ (k + s) := by rw [hP]; ring
    omega
  · rcases rhe_cases n (k + s) with ⟨c, _⟩ | ⟨c, hc, _⟩
    · left; rw [hr, c, hm]
    · right
      refine ⟨by rw [hr, c, hm, Nat.add_assoc], ?_⟩
      rw [g0]
      have : 0 < 2 ^ (k + s) := Nat.two_pow_pos _
      omega

/-- rounding does not go beyond a number that is not smaller -/
theorem rmag_le_of_le {n k b : Nat} (h : n ≤ mag b * 2 ^ k) : rmag n k ≤ b := by
  obtain ⟨b0, h1, h2, h3⟩ := rmag_bracket n k
  have h2k : 0 < 2 ^ k := Nat.two_pow_pos k
  rcases h3 with h3 | ⟨h3, h4⟩
  · have : mag b0 ≤ mag b := Nat.le_of_mul_le_mul_right (h1.trans h) h2k
    have := mag_strictMono.le_iff_le.1 this
    rw [h3]; exact (min_le_left _ _).trans this
  · have : mag b0 < mag b := Nat.lt_of_mul_lt_mul_right (lt_of_lt_of_le h4 h)
    have := mag_strictMono.lt_iff_lt.1 this
    rw [h3]; exact (min_le_left _ _).trans this

/-- rounding does not go below a number that is not larger -/
theorem le_rmag_of_le {n k b : Nat} (hb : b ≤ infBits) (h : mag b * 2 ^ k ≤ n) : b ≤ rmag n k := by
  obtain ⟨b0, h1, h2, h3⟩ := rmag_bracket n k
  have : mag b < mag (b0 + 1) := Nat.lt_of_mul_lt_mul_right (lt_of_le_of_lt h h2)
  have := mag_strictMono.lt_iff_lt.1 this
  rcases h3 with h3 | ⟨h3, -⟩
  · rw [h3]; exact le_min (by omega) hb
  · rw [h3]; exact le_min (by omega) hb

theorem rhe_mono {n n' t : Nat} (h : n ≤ n') : rhe n t ≤ rhe n' t := by
  have hq : n / 2 ^ t ≤ n' / 2 ^ t := Nat.div_le_div_right h
  have hd := Nat.div_add_mod n (2 ^ t)
  have hd' := Nat.div_add_mod n' (2 ^ t)
  unfold rhe
  generalize n / 2 ^ t = q at *
  generalize n' / 2 ^ t = q' at *
  generalize n % 2 ^ t = r at *
  generalize n' % 2 ^ t = r' at *
  generalize 2 ^ t = P at *
  rcases Nat.eq_or_lt_of_le hq with e | e
  · subst e
    have : r ≤ r' := by omega
    split <;> split <;> (try split) <;> (try split) <;> omega
  · split <;> split <;> (try split) <;> (try split) <;> omega

theorem rhe_bounds (n t : Nat) : n / 2 ^ t ≤ rhe n t ∧ rhe n t ≤ n / 2 ^ t + 1 := by
  rcases rhe_cases n t with ⟨c, _⟩ | ⟨c, _⟩ <;> rw [c] <;> omega

theorem between {s s' a b : Nat} (h : s < s') (ha : a ≤ 2 ^ 53) (hb : 2 ^ 52 ≤ b) : s * 2 ^ 52 + a ≤ s' * 2 ^ 52 + b := by
  have : (s + 1) * 2 ^ 52 ≤ s' * 2 ^ 52 := Nat.mul_le_mul_right _ h
  omega

/-- **rounding is monotone** -/
theorem C104_round_mono {n n' k : Nat} (h : n ≤ n') : rmag n k ≤ rmag n' k := by
  obtain ⟨s, m, hs, hm, q1, q2⟩ := rmag_floor n k
  obtain ⟨s', m', hs', hm', q1', q2'⟩ := rmag_floor n' k
  have hr : rmag n k = min (s * 2 ^ 52 + rhe n (k + s)) infBits := by rw [rmag, hs]
  have hr' : rmag n' k = min (s' * 2 ^ 52 + rhe n' (k + s')) infBits := by rw [rmag, hs']
  have hss : s ≤ s' := by
    rw [hs, hs']
    exact Nat.sub_le_sub_right (Nat.log_mono_right (Nat.div_le_div_right h)) 52
  rw [hr, hr']
  refine min_le_min_right _ ?_
  rcases Nat.eq_or_lt_of_le hss with e | e
  · rw [← e]
    exact Nat.add_le_add_left (rhe_mono h) _
  · have b1 := (rhe_bounds n (k + s)).2
    have b2 := (rhe_bounds n' (k + s')).1
    rw [← hm] at b1
    rw [← hm'] at b2
    have hm52 : 2 ^ 52 ≤ m' := q1'.resolve_left (by omega)
    exact between e (by omega) (hm52.trans b2)

/-! ## Comparisons -/

theorem ub_fsub (a b : Nat) : ub (fsub a b) = rmag (val a - val b).natAbs 0 := by
  have hI := infBits_lt
  unfold fsub
  dsimp only
  by_cases hd : val a - val b = 0
  · rw [if_pos hd, hd]
    have : rmag (0 : Int).natAbs 0 = 0 := rmag_tiny (by norm_num)
    rw [this]
    split <;> rfl
  · rw [if_neg hd]
    have hr := rmag_le (val a - val b).natAbs 0
    have hlt : rmag (val a - val b).natAbs 0 < 2 ^ 63 := lt_of_le_of_lt hr hI
    generalize rmag (val a - val b).natAbs 0 = t at *
    split
    · have := ub_mk (s := 1) hlt
      rwa [Nat.one_mul] at this
    · have := ub_mk (s := 0) hlt
      rwa [Nat.zero_mul] at this

theorem fsubX_fin {a b : Nat} (ha : isFin a) (hb : isFin b) : fsubX a b = fsub a b := by
  have na := not_isNan_of_fin ha
  have nb := not_isNan_of_fin hb
  have ia : ¬ isInf a := by unfold isInf; unfold isFin at ha; omega
  have ib : ¬ isInf b := by unfold isInf; unfold isFin at hb; omega
  rw [fsubX, if_neg (by tauto), if_neg ia, if_neg ib]

theorem fin_iff {a : Nat} : isFin a ↔ ¬ isNan a ∧ ¬ isInf a := by
  unfold isFin isNan isInf; omega

/-- the comparison with the tolerance -/
theorem fgt_iff {d tol : Nat} (hd : d ≤ infBits) (htol : tol < 2 ^ 64) :
    fgt d tol ↔ ¬ isNan tol ∧ ((sgn tol = 0 ∧ ub tol < d) ∨ (sgn tol = 1 ∧ (0 < d ∨ 0 < ub tol))) := by
  have hI := infBits_lt
  have hs := sgn_le htol
  have hd1 := ub_of_lt (r := d) (by omega)
  have hd2 := sgn_of_lt (r := d) (by omega)
  have hn : ¬ isNan d := by unfold isNan; omega
  unfold fgt flt key
  rw [hd1, hd2, if_pos rfl]
  rcases (by omega : sgn tol = 0 ∨ sgn tol = 1) with e | e <;> rw [e]
  · rw [if_pos rfl]
    constructor
    · rintro ⟨h1, -, h3⟩; exact ⟨h1, Or.inl ⟨rfl, by exact_mod_cast h3⟩⟩
    · rintro ⟨h1, h2 | h2⟩
      · exact ⟨h1, hn, by exact_mod_cast h2.2⟩
      · omega
  · rw [if_neg (by norm_num)]
    constructor
    · rintro ⟨h1, -, h3⟩; exact ⟨h1, Or.inr ⟨rfl, by omega⟩⟩
    · rintro ⟨h1, h2 | h2⟩
      · omega
      · exact ⟨h1, hn, by omega⟩

theorem approxEq_iff {a b tol : Nat} :
    approxEq a b tol = ok () ↔ isFin a ∧ isFin b ∧ ¬ fgt (fabs (fsub a b)) tol := by
  unfold approxEq
  rw [fin_iff, fin_iff]
  by_cases h1 : isNan a
  · rw [if_pos h1]; exact ⟨fun h => (by cases h), fun h => absurd h1 h.1.1⟩
  · rw [if_neg h1]
    by_cases h2 : isNan b
    · rw [if_pos h2]; exact ⟨fun h => (by cases h), fun h => absurd h2 h.2.1.1⟩
    · rw [if_neg h2]
      by_cases h3 : isInf a
      · rw [if_pos h3]; exact ⟨fun h => (by cases h), fun h => absurd h3 h.1.2⟩
      · rw [if_neg h3]
        by_cases h4 : isInf b
        · rw [if_pos h4]; exact ⟨fun h => (by cases h), fun h => absurd h4 h.2.1.2⟩
        · rw [if_neg h4, fsubX_fin (fin_iff.2 ⟨h1, h3⟩) (fin_iff.2 ⟨h2, h4⟩)]
          by_cases h5 : fgt (fabs (fsub a b)) tol
          · rw [if_pos h5]; exact ⟨fun h => (by cases h), fun h => absurd h5 h.2.2⟩
          · rw [if_neg h5]; exact ⟨fun _ => ⟨⟨h1, h3⟩, ⟨h2, h4⟩, h5⟩, fun _ => rfl⟩

theorem fabs_fsub_le (a b : Nat) : fabs (fsub a b) ≤ infBits := by
  unfold fabs; rw [ub_fsub]; exact rmag_le _ _

/-- **`approx_eq` accepts** finite numbers whose exact difference is at most the tolerance: rounding raises no false alarm -/
theorem C104_approx_eq_accepts {a b tol : Nat} (ha : isFin a) (hb : isFin b) (htol : tol < 2 ^ 64) (h0 : sgn tol = 0)
    (h : |val a - val b| ≤ val tol) : approxEq a b tol = ok () := by
  rw [approxEq_iff]
  refine ⟨ha, hb, ?_⟩
  rw [fgt_iff (fabs_fsub_le a b) htol]
  rintro ⟨-, h2 | h2⟩
  · refine absurd h2.2 (Nat.not_lt.2 ?_)
    unfold fabs
    rw [ub_fsub]
    apply rmag_le_of_le
    rw [pow_zero, Nat.mul_one]
    rw [show val tol = mag (ub tol) from if_pos h0, Int.abs_eq_natAbs] at h
    exact_mod_cast h
  · omega

/-- **`approx_eq` rejects** NaN, infinities, and numbers whose exact difference is not below the number that follows the tolerance; with a
negative tolerance it rejects everything -/
theorem C104_approx_eq_rejects {a b tol : Nat} (htol : tol < 2 ^ 64) (ht : isFin tol) (h : approxEq a b tol = ok ()) :
    isFin a ∧ isFin b ∧ 0 ≤ val tol ∧ |val a - val b| < mag (ub tol + 1) := by
  obtain ⟨ha, hb, hn⟩ := approxEq_iff.1 h
  have hnn := not_isNan_of_fin ht
  rw [fgt_iff (fabs_fsub_le a b) htol] at hn
  have hs := sgn_le htol
  have hle : ub (fsub a b) ≤ ub tol := by
    by_contra hc
    apply hn
    refine ⟨hnn, ?_⟩
    unfold fabs
    rcases (by omega : sgn tol = 0 ∨ sgn tol = 1) with e | e
    · exact Or.inl ⟨e, by omega⟩
    · exact Or.inr ⟨e, by omega⟩
  have hpos : sgn tol = 0 ∨ ub tol = 0 := by
    by_contra hc
    apply hn
    refine ⟨hnn, Or.inr ⟨by omega, by omega⟩⟩
  refine ⟨ha, hb, ?_, ?_⟩
  · unfold val
    rcases hpos with e | e
    · rw [if_pos e]; exact Int.natCast_nonneg _
    · rw [e, mag_eq_zero.2 rfl]; split <;> simp
  · rw [Int.abs_eq_natAbs]
    by_contra hc
    have hc' : mag (ub tol + 1) * 2 ^ 0 ≤ (val a - val b).natAbs := by
      rw [pow_zero, Nat.mul_one]; exact_mod_cast not_lt.1 hc
    have := le_rmag_of_le (by unfold isFin at ht; omega) hc'
    rw [ub_fsub] at hle
    omega

/-- **`approx_eq` is symmetric** in the two numbers -/
theorem C104_approx_eq_symm (a b tol : Nat) : approxEq a b tol = ok () ↔ approxEq b a tol = ok () := by
  have e : fabs (fsub a b) = fabs (fsub b a) := by
    unfold fabs
    rw [ub_fsub, ub_fsub, ← Int.natAbs_neg, neg_sub]
  rw [approxEq_iff, approxEq_iff, e]
  tauto

/-- a NaN tolerance makes `approx_eq` accept every pair of finite numbers, for example 1 and 1000 -/
theorem C104_nan_tolerance_counterexample : approxEq 0x3ff0000000000000 0x408f400000000000 nanBits = ok () := by decide +kernel

theorem forRange_unit {f : Nat → Res Unit} (n : Nat) : forRange 0 n () (fun i _ => f i) = ok () ↔ ∀ i, i < n → f i = ok () := by
  induction n with
  | zero => rw [forRange_empty (le_refl _)]; exact ⟨fun _ i h => absurd h (by omega), fun _ => rfl⟩
  | succ n ih =>
    rw [forRange_succ_right (Nat.zero_le _)]
    constructor
    · intro h
      obtain ⟨u, h1, h2⟩ := bind_eq_ok.1 h
      intro i hi
      rcases Nat.lt_or_ge i n with h' | h'
      · exact ih.1 h1 i h'
      · have : i = n := by omega
        subst this; exact h2
    · intro h
      rw [ih.2 fun i hi => h i (by omega), ok_bind]
      exact h n (by omega)

/-- **`array_approx_eq`** (and `vec_approx_eq`) passes exactly if the lengths agree and every pair passes `approx_eq` -/
theorem C104_array_approx_eq {u v : List Nat} {tol : Nat} :
    arrayApproxEq u v tol = ok () ↔ u.length = v.length ∧ ∀ i (h1 : i < u.length) (h2 : i < v.length), approxEq u[i] v[i] tol = ok () := by
  unfold arrayApproxEq
  by_cases hl : u.length = v.length
  · rw [if_neg (by simpa using hl), forRange_unit]
    have e : ∀ i (h1 : i < u.length) (h2 : i < v.length), arrayApproxStep u v tol i = approxEq u[i] v[i] tol := fun i h1 h2 => by
      rw [arrayApproxStep, vget_lt h1, ok_bind, vget_lt h2, ok_bind]
      rfl
    constructor
    · exact fun h => ⟨hl, fun i h1 h2 => by rw [← e i h1 h2]; exact h i h1⟩
    · exact fun h i hi => by rw [e i hi (by omega)]; exact h.2 i hi (by omega)
  · rw [if_pos hl]
    exact ⟨fun h => (by cases h), fun h => absurd h.1 hl⟩

/-- **`complex_approx_eq`** passes exactly if real and imaginary parts pass `approx_eq` -/
theorem C104_complex_approx_eq {a b : Nat × Nat} {tol : Nat} :
    complexApproxEq a b tol = ok () ↔ approxEq a.1 b.1 tol = ok () ∧ approxEq a.2 b.2 tol = ok () := by
  have hfin : complexFinite a b = ok () ↔ (isFin a.1 ∧ isFin b.1) ∧ isFin a.2 ∧ isFin b.2 := by
    unfold complexFinite
    simp only [fin_iff]
    split
    · exact ⟨fun h => (by cases h), fun h => absurd ‹isNan a.1› h.1.1.1⟩
    split
    · exact ⟨fun h => (by cases h), fun h => absurd ‹isNan b.1› h.1.2.1⟩
    split
    · exact ⟨fun h => (by cases h), fun h => absurd ‹isInf a.1› h.1.1.2⟩
    split
    · exact ⟨fun h => (by cases h), fun h => absurd ‹isInf b.1› h.1.2.2⟩
    split
    · exact ⟨fun h => (by cases h), fun h => absurd ‹isNan a.2› h.2.1.1⟩
    split
    · exact ⟨fun h => (by cases h), fun h => absurd ‹isNan b.2› h.2.2.1⟩
    split
    · exact ⟨fun h => (by cases h), fun h => absurd ‹isInf a.2› h.2.1.2⟩
    split
    · exact ⟨fun h => (by cases h), fun h => absurd ‹isInf b.2› h.2.2.2⟩
    exact ⟨fun _ => ⟨⟨⟨‹_›, ‹_›⟩, ⟨‹_›, ‹_›⟩⟩, ⟨‹_›, ‹_›⟩, ⟨‹_›, ‹_›⟩⟩, fun _ => rfl⟩
  rw [approxEq_iff, approxEq_iff]
  unfold complexApproxEq
  constructor
  · intro h
    obtain ⟨u, h1, h2⟩ := bind_eq_ok.1 h
    obtain ⟨⟨p1, p2⟩, p3, p4⟩ := hfin.1 h1
    rw [fsubX_fin p1 p2, fsubX_fin p3 p4] at h2
    split at h2
    · cases h2
    · split at h2
      · cases h2
      · exact ⟨⟨p1, p2, ‹_›⟩, p3, p4, ‹_›⟩
  · rintro ⟨⟨p1, p2, p3⟩, p4, p5, p6⟩
    rw [hfin.2 ⟨⟨p1, p2⟩, p4, p5⟩, ok_bind, fsubX_fin p1 p2, fsubX_fin p4 p5, if_neg p3, if_neg p6]

/-- **`complex_array_approx_eq`** (and `complex_vec_approx_eq`) passes exactly if the lengths agree and every pair passes -/
theorem C104_complex_array_approx_eq {u v : List (Nat × Nat)} {tol : Nat} :
    complexArrayApproxEq u v tol = ok () ↔
      u.length = v.length ∧ ∀ i (h1 : i < u.length) (h2 : i < v.length), complexApproxEq u[i] v[i] tol = ok () := by
  unfold complexArrayApproxEq
  by_cases hl : u.length = v.length
  · rw [if_neg (by simpa using hl), forRange_unit]
    constructor
    · intro h
      refine ⟨hl, fun i h1 h2 => ?_⟩
      have := h i h1
      rwa [vget_lt h1, ok_bind, vget_lt h2, ok_bind] at this
    · intro h i hi
      rw [vget_lt hi, ok_bind, vget_lt (by omega : i < v.length), ok_bind]
      exact h.2 i hi (by omega)
  · rw [if_pos hl]
    exact ⟨fun h => (by cases h), fun h => absurd h.1 hl⟩

theorem diffCheck_iff {d tol : Nat} : diffCheck d tol = ok () ↔ isFin d ∧ ¬ fgt d tol := by
  unfold diffCheck
  rw [fin_iff]
  by_cases h1 : isNan d
  · rw [if_pos h1]; exact ⟨fun h => (by cases h), fun h => absurd h1 h.1.1⟩
  · rw [if_neg h1]
    by_cases h2 : isInf d
    · rw [if_pos h2]; exact ⟨fun h => (by cases h), fun h => absurd h2 h.1.2⟩
    · rw [if_neg h2]
      by_cases h3 : fgt d tol
      · rw [if_pos h3]; exact ⟨fun h => (by cases h), fun h => absurd h3 h.2⟩
      · rw [if_neg h3]; exact ⟨fun _ => ⟨⟨h1, h2⟩, h3⟩, fun _ => rfl⟩

theorem ub_nan_inf {x : Nat} : isFin (fabs x) ↔ isFin x := by
  unfold isFin fabs
  rw [ub_of_lt (ub_lt x)]

theorem sgn_fneg_fin {y : Nat} (hy : isInf y) : ¬ isFin (fneg y) := by
  have hI := infBits_lt
  unfold isInf at hy
  unfold isFin fneg
  have hsp := split_bits y
  by_cases h : sgn y = 0
  · rw [if_pos h]
    have e : y + 2 ^ 63 = 1 * 2 ^ 63 + ub y := by rw [h] at hsp; omega
    rw [e, ub_mk (ub_lt y)]; omega
  · rw [if_neg h]
    obtain ⟨t, ht⟩ : ∃ t, sgn y = t + 1 := ⟨sgn y - 1, by omega⟩
    have e : y - 2 ^ 63 = t * 2 ^ 63 + ub y := by
      rw [ht] at hsp
      have : (t + 1) * 2 ^ 63 = t * 2 ^ 63 + 2 ^ 63 := by ring
      omega
    rw [e, ub_mk (ub_lt y)]; omega

/-- a finite difference has finite operands -/
theorem fin_of_fsubX {x y : Nat} (h : isFin (fsubX x y)) : isFin x ∧ isFin y := by
  unfold fsubX at h
  have hnan : ¬ isFin nanBits := by decide +kernel
  by_cases h1 : isNan x ∨ isNan y
  · rw [if_pos h1] at h; exact absurd h hnan
  · rw [if_neg h1] at h
    by_cases h2 : isInf x
    · rw [if_pos h2] at h
      split at h
      · exact absurd h hnan
      · exact absurd h2 (fin_iff.1 h).2
    · rw [if_neg h2] at h
      by_cases h3 : isInf y
      · rw [if_pos h3] at h
        exact absurd h (sgn_fneg_fin h3)
      · exact ⟨fin_iff.2 ⟨fun q => h1 (Or.inl q), h2⟩, fin_iff.2 ⟨fun q => h1 (Or.inr q), h3⟩⟩

/-- an entry passes the check of the matrix functions exactly if it passes `approx_eq` and the difference does not overflow -/
theorem diffCheck_entry {x y tol : Nat} :
    diffCheck (fabs (fsubX x y)) tol = ok () ↔ approxEq x y tol = ok () ∧ isFin (fsub x y) := by
  rw [diffCheck_iff, approxEq_iff, ub_nan_inf]
  constructor
  · rintro ⟨h1, h2⟩
    obtain ⟨hx, hy⟩ := fin_of_fsubX h1
    rw [fsubX_fin hx hy] at h1 h2
    exact ⟨⟨hx, hy, h2⟩, h1⟩
  · rintro ⟨⟨hx, hy, h2⟩, h1⟩
    rw [fsubX_fin hx hy]
    exact ⟨h1, h2⟩

/-- **`mat_approx_eq`** passes exactly if the dimensions agree and every pair of entries passes `approx_eq` with a difference that does not
overflow -/
theorem C104_mat_approx_eq {a b : NumMatrix Nat} {m n mm nn : Nat} {f g : Nat → Nat → Nat} {tol : Nat} (ha : IsDense a m n f)
    (hb : IsDense b mm nn g) :
    matApproxEqBits a b tol = ok () ↔
      m = mm ∧ n = nn ∧ ∀ i j, i < m → j < n → approxEq (f i j) (g i j) tol = ok () ∧ isFin (fsub (f i j) (g i j)) := by
  unfold matApproxEqBits
  rw [ha.nrow, ha.ncol, hb.nrow, hb.ncol]
  by_cases h1 : m = mm
  · rw [if_neg (by simpa using h1)]
    by_cases h2 : n = nn
    · rw [if_neg (by simpa using h2), forRange_unit]
      subst h1 h2
      have e : ∀ i j, i < m → j < n → (do
          let x ← a.get i j
          let y ← b.get i j
          diffCheck (fabs (fsubX x y)) tol) = diffCheck (fabs (fsubX (f i j) (g i j))) tol := fun i j hi hj => by
        rw [ha.get i j hi hj, ok_bind, hb.get i j hi hj, ok_bind]
      constructor
      · intro h
        refine ⟨rfl, rfl, fun i j hi hj => ?_⟩
        have := (forRange_unit n).1 (h i hi) j hj
        rw [e i j hi hj] at this
        exact diffCheck_entry.1 this
      · intro h i hi
        rw [forRange_unit]
        intro j hj
        rw [e i j hi hj]
        exact diffCheck_entry.2 (h.2.2 i j hi hj)
    · rw [if_pos h2]
      exact ⟨fun h => (by cases h), fun h => absurd h.2.1 h2⟩
  · rw [if_pos h1]
    exact ⟨fun h => (by cases h), fun h => absurd h.1 h1⟩

/-- **`complex_mat_approx_eq`** passes exactly if the dimensions agree and the real and imaginary parts of every pair of entries pass -/
theorem C104_complex_mat_approx_eq {a b : NumMatrix (Nat × Nat)} {m n mm nn : Nat} {f g : Nat → Nat → Nat × Nat} {tol : Nat}
    (ha : IsDense a m n f) (hb : IsDense b mm nn g) :
    complexMatApproxEq a b tol = ok () ↔
      m = mm ∧ n = nn ∧ ∀ i j, i < m → j < n → complexApproxEq (f i j) (g i j) tol = ok () ∧
        isFin (fsub (f i j).1 (g i j).1) ∧ isFin (fsub (f i j).2 (g i j).2) := by
  unfold complexMatApproxEq
  rw [ha.nrow, ha.ncol, hb.nrow, hb.ncol]
  by_cases h1 : m = mm
  · rw [if_neg (by simpa using h1)]
    by_cases h2 : n = nn
    · rw [if_neg (by simpa using h2), forRange_unit]
      subst h1 h2
      have e : ∀ i j, i < m → j < n → ((do
          let x ← a.get i j
          let y ← b.get i j
          let _ ← diffCheck (fabs (fsubX x.1 y.1)) tol
          diffCheck (fabs (fsubX x.2 y.2)) tol) = ok () ↔
          (diffCheck (fabs (fsubX (f i j).1 (g i j).1)) tol = ok () ∧ diffCheck (fabs (fsubX (f i j).2 (g i j).2)) tol = ok ())) :=
        fun i j hi hj => by
        rw [ha.get i j hi hj, ok_bind, hb.get i j hi hj, ok_bind]
        constructor
        · intro h
          obtain ⟨u, h1, h2⟩ := bind_eq_ok.1 h
          exact ⟨h1, h2⟩
        · rintro ⟨h1, h2⟩
          rw [h1, ok_bind, h2]
      constructor
      · intro h
        refine ⟨rfl, rfl, fun i j hi hj => ?_⟩
        have := (e i j hi hj).1 ((forRange_unit n).1 (h i hi) j hj)
        rw [diffCheck_entry, diffCheck_entry] at this
        exact ⟨C104_complex_approx_eq.2 ⟨this.1.1, this.2.1⟩, this.1.2, this.2.2⟩
      · intro h i hi
        rw [forRange_unit]
        intro j hj
        rw [e i j hi hj, diffCheck_entry, diffCheck_entry]
        obtain ⟨q1, q2, q3⟩ := h.2.2 i j hi hj
        have q := C104_complex_approx_eq.1 q1
        exact ⟨⟨q.1, q2⟩, q.2, q3⟩
    · rw [if_pos h2]
      exact ⟨fun h => (by cases h), fun h => absurd h.2.1 h2⟩
  · rw [if_pos h1]
    exact ⟨fun h => (by cases h), fun h => absurd h.1 h1⟩

/-- **`assert_alike`** passes exactly for two NaN or for two numbers with the same bits (so not for zeros of different sign) -/
theorem C104_assert_alike {a b : Nat} (ha : a < 2 ^ 64) (hb : b < 2 ^ 64) :
    assertAlike a b = ok () ↔ (isNan a ∧ isNan b) ∨ (a = b) := by
  have sa := sgn_le ha
  have sb := sgn_le hb
  have pa := split_bits a
  have pb := split_bits b
  unfold assertAlike
  dsimp only
  by_cases hn : isNan a ∧ isNan b
  · rw [if_pos hn]
    exact ⟨fun _ => Or.inl hn, fun _ => rfl⟩
  · rw [if_neg hn]
    by_cases he : feq a b
    · rw [if_pos he]
      obtain ⟨h1, h2, h3⟩ := he
      by_cases hs : sgn a = sgn b
      · rw [hs, beq_self_eq_true]
        refine ⟨fun _ => Or.inr ?_, fun _ => rfl⟩
        unfold key at h3
        rw [hs] at h3
        have : ub a = ub b := by
          split at h3 <;> omega
        rw [pa, pb, hs, this]
      · have : (decide (sgn a = 1) == decide (sgn b = 1)) = false := by
          rcases (by omega : sgn a = 0 ∧ sgn b = 1 ∨ sgn a = 1 ∧ sgn b = 0) with ⟨e1, e2⟩ | ⟨e1, e2⟩ <;> rw [e1, e2] <;> rfl
        rw [this]
        refine ⟨fun h => (by cases h), fun h => ?_⟩
        rcases h with h | h
        · exact absurd h hn
        · exact absurd (by rw [h]) hs
    · rw [if_neg he]
      refine ⟨fun h => (by cases h), fun h => ?_⟩
      rcases h with h | h
      · exact absurd h hn
      · subst h
        exact absurd ⟨fun q => hn ⟨q, q⟩, fun q => hn ⟨q, q⟩, rfl⟩ he

/-! ## Examples -/

/-- 3.0000001 and 3.0 agree within 1e-6; 1 and 2 do not; a NaN does not agree with itself -/
example : approxEq 0x40080000035afe53 0x4008000000000000 0x3eb0c6f7a0b5ed8d = ok () ∧
    approxEq 0x3ff0000000000000 0x4000000000000000 0x3eb0c6f7a0b5ed8d = Res.panic ∧
    approxEq nanBits nanBits 0x3eb0c6f7a0b5ed8d = Res.panic := by decide +kernel

example : approxEq 0x4008000000000000 0x4000000000000000 0x3ff0000000000000 = ok () :=
  C104_approx_eq_accepts (by decide +kernel) (by decide +kernel) (by norm_num) (by decide +kernel) (by decide +kernel)

example : |val 0x4008000000000000 - val 0x4000000000000000| < mag (ub 0x3ff0000000000000 + 1) :=
  (C104_approx_eq_rejects (a := 0x4008000000000000) (b := 0x4000000000000000) (tol := 0x3ff0000000000000) (by norm_num)
    (by decide +kernel) (by decide +kernel)).2.2.2

example : arrayApproxEq [0x3ff0000000000000, 0] [0x3ff0000000000000, 1] 1 = ok () := by decide +kernel
example : complexArrayApproxEq [(0x3ff0000000000000, 0)] [(0x3ff0000000000000, 2)] 1 = Res.panic := by decide +kernel
example : matApproxEqBits ⟨1, 2, [5, 6]⟩ ⟨1, 2, [5, 7]⟩ 1 = ok () := by decide +kernel
example : assertAlike nanBits (nanBits + 1) = ok () ∧ assertAlike 0 (2 ^ 63) = Res.panic := by decide +kernel

end Russell.Ieee
