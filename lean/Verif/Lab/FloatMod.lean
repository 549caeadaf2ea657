import Verif.Lab.FloatBits

/-!
# The floating point remainder `modulo` (property C103)
-/

namespace Russell.Ieee

open Russell Russell.Res

theorem ub_of_lt {r : Nat} (h : r < 2 ^ 63) : ub r = r := Nat.mod_eq_of_lt h

theorem sgn_of_lt {r : Nat} (h : r < 2 ^ 63) : sgn r = 0 := Nat.div_eq_of_lt h

theorem val_of_lt {r : Nat} (h : r < 2 ^ 63) : val r = (mag r : Int) := by
  rw [val, sgn_of_lt h, ub_of_lt h, if_pos rfl]

theorem flt_pos {a b : Nat} (ha : a ≤ infBits) (hb : b ≤ infBits) : flt a b ↔ a < b := by
  have := infBits_lt
  have a1 := ub_of_lt (r := a) (by omega)
  have b1 := ub_of_lt (r := b) (by omega)
  unfold flt isNan key
  rw [sgn_of_lt (by omega), sgn_of_lt (by omega), a1, b1, if_pos rfl, if_pos rfl]
  omega

theorem fge_pos {a b : Nat} (ha : a ≤ infBits) (hb : b ≤ infBits) : fge a b ↔ b ≤ a := by
  have := infBits_lt
  have a1 := ub_of_lt (r := a) (by omega)
  have b1 := ub_of_lt (r := b) (by omega)
  unfold fge isNan key
  rw [sgn_of_lt (by omega), sgn_of_lt (by omega), a1, b1, if_pos rfl, if_pos rfl]
  omega

/-- the shift chosen by a pass of the loop -/
theorem mod_shift {mr my Mr My Pr Py : Nat} (hr : mr * 2 ^ 52 = Mr * 2 ^ Pr) (hy : my * 2 ^ 52 = My * 2 ^ Py)
    (r1 : 2 ^ 52 ≤ Mr) (r2 : Mr < 2 ^ 53) (y1 : 2 ^ 52 ≤ My) (y2 : My < 2 ^ 53) (hge : my ≤ mr) :
    ∃ k : Nat, ((if Mr < My then (Pr : Int) - 1073 - 1 else (Pr : Int) - 1073) - ((Py : Int) - 1073)) = k ∧
      my * 2 ^ k ≤ mr ∧ mr < 2 * (my * 2 ^ k) := by
  have hge' : My * 2 ^ Py ≤ Mr * 2 ^ Pr := by rw [← hr, ← hy]; exact Nat.mul_le_mul_right _ hge
  have h52 : 0 < 2 ^ 52 := by norm_num
  by_cases hc : Mr < My
  · -- then the exponent of `r` is larger
    have hP : Py < Pr := by
      by_contra h
      have : Mr * 2 ^ Pr < My * 2 ^ Py := by
        calc Mr * 2 ^ Pr < My * 2 ^ Pr := Nat.mul_lt_mul_of_pos_right hc (Nat.two_pow_pos _)
          _ ≤ My * 2 ^ Py := Nat.mul_le_mul_left _ (Nat.pow_le_pow_right (by norm_num) (by omega))
      omega
    obtain ⟨k, rfl⟩ : ∃ k, Pr = Py + k + 1 := ⟨Pr - Py - 1, by omega⟩
    refine ⟨k, ?_, ?_, ?_⟩
    · rw [if_pos hc]; push_cast; ring
    · apply Nat.le_of_mul_le_mul_right _ h52
      calc my * 2 ^ k * 2 ^ 52 = My * 2 ^ Py * 2 ^ k := by rw [← hy]; ring
        _ ≤ 2 * Mr * 2 ^ Py * 2 ^ k := Nat.mul_le_mul_right _ (Nat.mul_le_mul_right _ (by omega))
        _ = Mr * 2 ^ (Py + k + 1) := by ring
        _ = mr * 2 ^ 52 := hr.symm
    · apply Nat.lt_of_mul_lt_mul_right (a := 2 ^ 52)
      calc mr * 2 ^ 52 = 2 * Mr * (2 ^ Py * 2 ^ k) := by rw [hr]; ring
        _ < 2 * My * (2 ^ Py * 2 ^ k) :=
          Nat.mul_lt_mul_of_pos_right (by omega) (Nat.mul_pos (Nat.two_pow_pos _) (Nat.two_pow_pos _))
        _ = 2 * (My * 2 ^ Py) * 2 ^ k := by ring
        _ = 2 * (my * 2 ^ k) * 2 ^ 52 := by rw [← hy]; ring
  · have hP : Py ≤ Pr := by
      by_contra h
      have : Mr * 2 ^ Pr < My * 2 ^ Py := by
        calc Mr * 2 ^ Pr < 2 ^ 53 * 2 ^ Pr := Nat.mul_lt_mul_of_pos_right r2 (Nat.two_pow_pos _)
          _ = 2 ^ 52 * 2 ^ (Pr + 1) := by ring
          _ ≤ 2 ^ 52 * 2 ^ Py := Nat.mul_le_mul_left _ (Nat.pow_le_pow_right (by norm_num) (by omega))
          _ ≤ My * 2 ^ Py := Nat.mul_le_mul_right _ y1
      omega
    obtain ⟨k, rfl⟩ : ∃ k, Pr = Py + k := ⟨Pr - Py, by omega⟩
    refine ⟨k, ?_, ?_, ?_⟩
    · rw [if_neg hc]; push_cast; ring
    · apply Nat.le_of_mul_le_mul_right _ h52
      calc my * 2 ^ k * 2 ^ 52 = My * 2 ^ Py * 2 ^ k := by rw [← hy]; ring
        _ ≤ Mr * 2 ^ Py * 2 ^ k := Nat.mul_le_mul_right _ (Nat.mul_le_mul_right _ (by omega))
        _ = Mr * 2 ^ (Py + k) := by ring
        _ = mr * 2 ^ 52 := hr.symm
    · apply Nat.lt_of_mul_lt_mul_right (a := 2 ^ 52)
      calc mr * 2 ^ 52 = Mr * (2 ^ Py * 2 ^ k) := by rw [hr]; ring
        _ < 2 * My * (2 ^ Py * 2 ^ k) :=
          Nat.mul_lt_mul_of_pos_right (by omega) (Nat.mul_pos (Nat.two_pow_pos _) (Nat.two_pow_pos _))
        _ = 2 * (My * 2 ^ Py) * 2 ^ k := by ring
        _ = 2 * (my * 2 ^ k) * 2 ^ 52 := by rw [← hy]; ring

/-- the difference of two numbers within a factor of two has at most 53 significant bits -/
theorem sub_form {a b m1 s1 m2 s2 : Nat} (ha : a = m1 * 2 ^ s1) (hb : b = m2 * 2 ^ s2) (h1 : m1 < 2 ^ 53) (h2 : m2 < 2 ^ 53)
    (hlt : a < 2 * b) : ∃ m s, a - b = m * 2 ^ s ∧ m < 2 ^ 53 := by
  rcases Nat.le_total s1 s2 with h | h
  · obtain ⟨d, rfl⟩ : ∃ d, s2 = s1 + d := ⟨s2 - s1, by omega⟩
    refine ⟨m1 - m2 * 2 ^ d, s1, ?_, by omega⟩
    rw [ha, hb, Nat.pow_add, Nat.sub_mul]
    congr 1
    ring
  · obtain ⟨d, rfl⟩ : ∃ d, s1 = s2 + d := ⟨s1 - s2, by omega⟩
    refine ⟨m1 * 2 ^ d - m2, s2, ?_, ?_⟩
    · rw [ha, hb, Nat.pow_add, Nat.sub_mul]
      congr 1
      ring
    · have e : a = m1 * 2 ^ d * 2 ^ s2 := by rw [ha, Nat.pow_add]; ring
      have : m1 * 2 ^ d * 2 ^ s2 < 2 * m2 * 2 ^ s2 := by rw [← e, Nat.mul_assoc, ← hb]; exact hlt
      have := Nat.lt_of_mul_lt_mul_right this
      omega

/-- one pass subtracts a power-of-two multiple of `y`, exactly -/
theorem moduloStep_spec {y r : Nat} (hy : y < infBits) (hy0 : y ≠ 0) (hr : r < infBits) (hge : y ≤ r) :
    ∃ r', moduloStep y (floatDecompose y).1 (floatDecompose y).2 r = ok r' ∧ r' < infBits ∧ r' < r ∧
      mag r' % mag y = mag r % mag y := by
  have hI := infBits_lt
  have uy := ub_of_lt (r := y) (by omega)
  have ur := ub_of_lt (r := r) (by omega)
  have sy := sgn_of_lt (r := y) (by omega)
  have sr := sgn_of_lt (r := r) (by omega)
  have zy : ¬ isZero y := by unfold isZero; omega
  have fy : isFin y := by unfold isFin; omega
  have zr : ¬ isZero r := by unfold isZero; omega
  have fr : isFin r := by unfold isFin; omega
  obtain ⟨My, Py, y1, y2, y3, y4⟩ := floatDecompose_spec (x := y) (by omega) fy zy
  obtain ⟨Mr, Pr, r1, r2, r3, r4⟩ := floatDecompose_spec (x := r) (by omega) fr zr
  rw [uy] at y1
  rw [ur] at r1
  rw [sy, Nat.zero_mul, Nat.zero_add] at y4
  rw [sr, Nat.zero_mul, Nat.zero_add] at r4
  have hmge : mag y ≤ mag r := mag_strictMono.monotone hge
  obtain ⟨k, hk, k1, k2⟩ := mod_shift r1 y1 r2 r3 y2 y3 hmge
  have hfl : flt (1021 * 2 ^ 52 + Mr) (1021 * 2 ^ 52 + My) ↔ Mr < My := by
    rw [flt_pos (by unfold infBits; omega) (by unfold infBits; omega)]; omega
  have hmr := mag_lt_max hr
  have hk2 : k < 2098 := by
    apply lt_umax
    refine lt_of_le_of_lt ?_ (lt_of_le_of_lt k1 hmr)
    exact Nat.le_mul_of_pos_left _ (Nat.pos_of_ne_zero fun h0 => hy0 (mag_eq_zero.1 h0))
  -- the multiple of `y` is exact
  obtain ⟨m0, s0, f1, f2, -⟩ := mag_form y hy
  have hz : mag y * 2 ^ k = m0 * 2 ^ (s0 + k) := by rw [f1, Nat.pow_add, Nat.mul_assoc]
  have hex := rmag_exact (k := 0) hz f2 (lt_of_le_of_lt k1 hmr)
  rw [pow_zero, Nat.mul_one] at hex
  have hcomp : floatCompose y k = ok (rmag (mag y * 2 ^ k) 0) := by
    rw [C103_float_compose (by omega) fy zy (by omega) (by omega), sy, uy, Nat.zero_mul, Nat.zero_add]
    unfold rI
    rw [Int.toNat_natCast, show (-(k : Int)).toNat = 0 by omega]
  generalize rmag (mag y * 2 ^ k) 0 = zb at hex hcomp
  obtain ⟨hzb, hzlt⟩ := hex
  have hstep : moduloStep y (floatDecompose y).1 (floatDecompose y).2 r = ok (fsub r zb) := by
    unfold moduloStep
    rw [y4, r4]
    dsimp only
    have : (if flt (1021 * 2 ^ 52 + Mr) (1021 * 2 ^ 52 + My) then (Pr : Int) - 1073 - 1 else (Pr : Int) - 1073) - ((Py : Int) - 1073) = k := by
      rw [← hk]
      congr 1
      by_cases hc : Mr < My
      · rw [if_pos hc, if_pos (hfl.2 hc)]
      · rw [if_neg hc, if_neg (fun q => hc (hfl.1 q))]
    rw [this, hcomp, ok_bind]
  rw [hstep]
  have vr := val_of_lt (r := r) (by omega)
  have vz := val_of_lt (r := zb) (by omega)
  have hzpos : 0 < mag y * 2 ^ k := Nat.mul_pos (Nat.pos_of_ne_zero fun h0 => hy0 (mag_eq_zero.1 h0)) (Nat.two_pow_pos _)
  have hmod : ∀ a, a = mag r - mag y * 2 ^ k → a % mag y = mag r % mag y := fun a ha => by
    have : mag r = a + mag y * 2 ^ k := by omega
    rw [this, Nat.add_mul_mod_self_left]
  by_cases hd : val r - val zb = 0
  · have hfs : fsub r zb = 0 := by
      unfold fsub
      dsimp only
      rw [if_pos hd, if_neg]
      rw [sr]
      rintro ⟨h, -⟩
      exact absurd h (by norm_num)
    refine ⟨0, by rw [hfs], by unfold infBits; norm_num, by omega, hmod _ ?_⟩
    rw [vr, vz, hzb] at hd
    rw [mag_eq_zero.2 rfl]
    omega
  · have hdn : val r - val zb = ((mag r - mag y * 2 ^ k : Nat) : Int) := by
      rw [vr, vz, hzb, Nat.cast_sub k1]
    have hna : (val r - val zb).natAbs = mag r - mag y * 2 ^ k := by rw [hdn, Int.natAbs_natCast]
    obtain ⟨m1, s1, g1, g2, -⟩ := mag_form r hr
    obtain ⟨m, s, q1, q2⟩ := sub_form g1 hz g2 f2 k2
    obtain ⟨b, b1, b2, b3⟩ := fsub_spec (m := m) (s := s) hd (by rw [hna, q1]) q2
      (by rw [hna]; exact lt_of_le_of_lt (Nat.sub_le _ _) hmr)
    rw [if_neg (by rw [hdn]; exact not_lt.2 (Int.natCast_nonneg _)), Nat.zero_mul, Nat.zero_add] at b2
    rw [hna] at b3
    refine ⟨b, by rw [b2], b1, ?_, hmod _ b3⟩
    apply mag_strictMono.lt_iff_lt.1
    rw [b3]
    omega

theorem moduloLoop_spec {y : Nat} (hy : y < infBits) (hy0 : y ≠ 0) (r : Nat) (hr : r < infBits) :
    ∃ r', moduloLoop y (floatDecompose y).1 (floatDecompose y).2 r = ok r' ∧ r' < infBits ∧ mag r' = mag r % mag y := by
  induction r using Nat.strong_induction_on with
  | _ r ih =>
    rw [moduloLoop]
    by_cases hge : y ≤ r
    · rw [if_pos ((fge_pos hr.le hy.le).2 hge)]
      obtain ⟨r', h1, h2, h3, h4⟩ := moduloStep_spec hy hy0 hr hge
      rw [h1]
      dsimp only
      rw [if_pos h3]
      obtain ⟨r'', g1, g2, g3⟩ := ih r' h3 h2
      exact ⟨r'', g1, g2, g3.trans h4⟩
    · rw [if_neg (fun q => hge ((fge_pos hr.le hy.le).1 q))]
      exact ⟨r, rfl, hr, (Nat.mod_eq_of_lt (mag_strictMono (Nat.lt_of_not_le hge))).symm⟩

theorem fneg_mk {s b : Nat} (hs : s ≤ 1) (hb : b < 2 ^ 63) : fneg (s * 2 ^ 63 + b) = (1 - s) * 2 ^ 63 + b := by
  unfold fneg
  rw [sgn_mk hb]
  rcases (by omega : s = 0 ∨ s = 1) with e | e <;> subst e
  · rw [if_pos rfl]; omega
  · rw [if_neg (by norm_num)]; omega

theorem tmod_val {x y : Nat} : Int.tmod (val x) (val y) = (if sgn x = 0 then 1 else -1) * ((mag (ub x) % mag (ub y) : Nat) : Int) := by
  have h : ∀ a : Int, Int.tmod a (val y) = Int.tmod a (mag (ub y)) := fun a => by
    unfold val; split
    · rfl
    · exact Int.tmod_neg _ _
  rw [h]
  unfold val
  split
  · rw [one_mul]; exact (Int.ofNat_tmod _ _).symm
  · rw [Int.neg_tmod, neg_mul, one_mul, Int.ofNat_tmod]

/-- **`modulo` is exact**: for all finite `x` and all finite nonzero `y` the loop ends and the result is the remainder of the division
truncated towards zero (`Int.tmod` of the values, that is the exact `fmod`); its sign bit is that of `x`, also when it is zero -/
theorem C103_modulo {x y : Nat} (hx : x < 2 ^ 64) (fx : isFin x) (fy : isFin y) (zy : ¬ isZero y) :
    ∃ r, modulo x y = ok r ∧ r < 2 ^ 64 ∧ isFin r ∧ sgn r = sgn x ∧ val r = Int.tmod (val x) (val y) := by
  have hI := infBits_lt
  have sx := sgn_le hx
  have hb : ¬ (isZero y ∨ isInf x ∨ isNan x ∨ isNan y) := by
    unfold isInf isNan
    unfold isFin at fx fy
    rintro (q | q | q | q)
    · exact zy q
    · omega
    · omega
    · omega
  unfold modulo
  rw [if_neg hb]
  dsimp only
  -- the result for a nonnegative start
  obtain ⟨r', l1, l2, l3⟩ := moduloLoop_spec (y := ub y) fy zy (ub x) fx
  have hr63 : r' < 2 ^ 63 := lt_trans l2 infBits_lt
  by_cases hneg : flt x 0
  · have hs := ((flt_zero_iff hx (not_isNan_of_fin fx)).1 hneg).1
    have hst : fneg x = ub x := by
      conv_lhs => rw [split_bits x, hs]
      rw [fneg_mk (le_refl 1) (ub_lt x)]
      omega
    have hres : fneg r' = 1 * 2 ^ 63 + r' := by
      have := fneg_mk (s := 0) (b := r') (by norm_num) hr63
      simpa using this
    simp only [if_pos hneg]
    rw [hst, l1, ok_bind, hres]
    refine ⟨_, rfl, bits_lt (le_refl 1) hr63, ?_, ?_, ?_⟩
    · unfold isFin; rw [ub_mk hr63]; exact l2
    · rw [sgn_mk hr63, hs]
    · rw [val_mk hr63, tmod_val, l3, hs, if_neg (by norm_num), if_neg (by norm_num)]; ring
  · simp only [if_neg hneg]
    by_cases hs : sgn x = 0
    · have hst : x = ub x := by have := split_bits x; rw [hs] at this; omega
      rw [hst] at l1
      rw [ub_of_lt (ub_lt x)] at l1
      have e2 : sgn (ub x) = 0 := sgn_of_lt (ub_lt x)
      rw [hst, l1, ok_bind]
      refine ⟨_, rfl, by omega, ?_, ?_, ?_⟩
      · unfold isFin; rw [ub_of_lt hr63]; exact l2
      · rw [sgn_of_lt hr63, e2]
      · rw [val_of_lt hr63, tmod_val, l3, e2, if_pos rfl, one_mul, ub_of_lt (ub_lt x)]
    · -- negative zero
      have hzx : isZero x := by
        by_contra hz
        exact hneg ((flt_zero_iff hx (not_isNan_of_fin fx)).2 ⟨by omega, hz⟩)
      have hkey : ¬ fge x (ub y) := by
        unfold fge key
        rw [sgn_of_lt (ub_lt y), ub_of_lt (ub_lt y), if_pos rfl, if_neg hs]
        unfold isZero at hzx zy
        rw [hzx]
        omega
      rw [moduloLoop, if_neg hkey, ok_bind]
      refine ⟨x, rfl, hx, fx, rfl, ?_⟩
      rw [tmod_val, mag_ub_zero.2 hzx, Nat.zero_mod, val_eq_zero.2 hzx]
      simp

/-- **Special values of `modulo`**: not-a-number when `y` is zero or not a number, or `x` is infinite or not a number; `x` itself when `y` is
infinite and `x` finite -/
theorem C103_modulo_special {x y : Nat} (hx : x < 2 ^ 64) :
    ((isZero y ∨ isInf x ∨ isNan x ∨ isNan y) → modulo x y = ok nanBits) ∧ (isFin x → isInf y → modulo x y = ok x) ∧ isNan nanBits := by
  refine ⟨fun h => by rw [modulo, if_pos h], fun fx iy => ?_, by decide +kernel⟩
  have hI := infBits_lt
  have hb : ¬ (isZero y ∨ isInf x ∨ isNan x ∨ isNan y) := by
    have : infBits ≠ 0 := by unfold infBits; norm_num
    unfold isZero isInf isNan
    unfold isFin at fx
    unfold isInf at iy
    omega
  unfold modulo
  rw [if_neg hb]
  dsimp only
  have hstop : ∀ r, r = x ∨ r = ub x → ¬ fge r (ub y) := fun r hr => by
    have hub : ub r = ub x := by
      rcases hr with rfl | rfl
      · rfl
      · exact ub_of_lt (ub_lt x)
    unfold fge key
    rw [sgn_of_lt (ub_lt y), ub_of_lt (ub_lt y), if_pos rfl, hub]
    unfold isInf at iy
    unfold isFin at fx
    rw [iy]
    split <;> omega
  by_cases hneg : flt x 0
  · have hs := ((flt_zero_iff hx (not_isNan_of_fin fx)).1 hneg).1
    have hst : fneg x = ub x := by
      conv_lhs => rw [split_bits x, hs]
      rw [fneg_mk (le_refl 1) (ub_lt x)]
      omega
    simp only [if_pos hneg]
    rw [hst, moduloLoop, if_neg (hstop _ (Or.inr rfl)), ok_bind]
    have := fneg_mk (s := 0) (b := ub x) (by norm_num) (ub_lt x)
    rw [Nat.zero_mul, Nat.zero_add] at this
    rw [this]
    have := split_bits x
    rw [hs] at this
    congr 1
    omega
  · simp only [if_neg hneg]
    rw [moduloLoop, if_neg (hstop _ (Or.inl rfl)), ok_bind]

end Russell.Ieee
