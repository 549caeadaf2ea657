import Verif.Lab.Lapack
import Mathlib.Tactic.Linarith
import Mathlib.Tactic.Ring

/-!
# Eigenvalues via LAPACK: proofs (property C102)
-/

namespace Russell.Lab

open Russell Russell.Res Russell.Sparse

variable {α κ β : Type}

/-! ## The compact eigenvectors of `dgeev` -/

/-- a flat column-major square array -/
structure IsFlat (l : List α) (n : Nat) (F : Nat → Nat → α) : Prop where
  len : l.length = n * n
  get : ∀ i j, i < n → j < n → l[i + j * n]? = some (F i j)

theorem IsFlat.vget {l : List α} {n : Nat} {F : Nat → Nat → α} (h : IsFlat l n F) {i j : Nat} (hi : i < n) (hj : j < n) :
    vget l (i + j * n) = ok (F i j) := vget_of (h.get i j hi hj)

theorem IsFlat.congr {l : List α} {n : Nat} {F G : Nat → Nat → α} (h : IsFlat l n F) (e : ∀ i j, i < n → j < n → F i j = G i j) :
    IsFlat l n G := ⟨h.len, fun i j hi hj => by rw [h.get i j hi hj, e i j hi hj]⟩

theorem IsFlat.vset {l : List α} {n : Nat} {F : Nat → Nat → α} (h : IsFlat l n F) {i j : Nat} (hi : i < n) (hj : j < n) (x : α) :
    ∃ l', vset l (i + j * n) x = ok l' ∧ IsFlat l' n fun a b => if a = i ∧ b = j then x else F a b := by
  have hlt : i + j * n < l.length := by rw [h.len]; exact lin_lt hi hj
  refine ⟨l.set (i + j * n) x, vset_lt x hlt, by rw [List.length_set, h.len], fun a b ha hb => ?_⟩
  by_cases e : a = i ∧ b = j
  · rw [if_pos e, e.1, e.2, List.getElem?_set_self hlt]
  · rw [if_neg e, List.getElem?_set_ne, h.get a b ha hb]
    intro h2
    exact e ((lin_inj ha hi).1 h2.symm)

theorem IsDense.flat {a : NumMatrix α} {n : Nat} {F : Nat → Nat → α} (h : IsDense a n n F) : IsFlat a.data n F :=
  ⟨h.len, fun _ _ hi hj => h.entry hi hj⟩

theorem isFlat_replicate (n : Nat) (x : α) : IsFlat (List.replicate (n * n) x) n fun _ _ => x :=
  ⟨List.length_replicate, fun i j hi hj => by rw [List.getElem?_replicate, if_pos (lin_lt hi hj)]⟩

theorem isDense_flat {n : Nat} {G : Nat → Nat → α} {l : List α} (hl : IsFlat l n G) : IsDense ⟨n, n, l⟩ n n G :=
  ⟨rfl, rfl, hl.len, fun i j hi hj => by
    show vget l (i + j * n) = _
    exact hl.vget hi hj⟩

theorem IsFlat.put {l : List κ} {n : Nat} {F : Nat → Nat → κ} (h : IsFlat l n F) (G : Nat → Nat → κ) : IsFlat (putMat n n n G l) n G := by
  refine ⟨by rw [putMat, List.length_mapIdx, h.len], fun i j hi hj => ?_⟩
  rw [putMat, List.getElem?_mapIdx, h.get i j hi hj, Option.map_some, (lin_mod hi).1, (lin_mod hi).2, if_pos ⟨hi, hj⟩]

theorem IsFlat.inArray {l : List κ} {n : Nat} {F : Nat → Nat → κ} (h : IsFlat l n F) : InArray l n n n := by
  rcases Nat.eq_zero_or_pos n with h0 | h0
  · exact Or.inl h0
  · refine Or.inr (Or.inr ?_)
    rw [h.len]
    obtain ⟨k, rfl⟩ : ∃ k, n = k + 1 := ⟨n - 1, by omega⟩
    simp only [Nat.add_sub_cancel, Nat.succ_mul]; omega

section

variable [Field α] [LinearOrder α] [IsStrictOrderedRing α]

/-- the imaginary parts come in conjugate pairs, the positive one first -/
def PairCond (n : Nat) (W : Nat → α) : Prop :=
  (∀ j, j < n → 0 < W j → j + 1 < n ∧ W (j + 1) = -W j) ∧ (∀ j, j < n → W j < 0 → 0 < j ∧ W (j - 1) = -W j)

/-- real parts of the eigenvectors -/
def unpackRe (W : Nat → α) (V : Nat → Nat → α) (i c : Nat) : α := if W c < 0 then V i (c - 1) else V i c

/-- imaginary parts of the eigenvectors -/
def unpackIm (W : Nat → α) (V : Nat → Nat → α) (i c : Nat) : α := if W c = 0 then 0 else if 0 < W c then V i (c + 1) else -V i c

omit [LinearOrder α] [IsStrictOrderedRing α] in
theorem dgeevPair_spec {n j : Nat} (hj : j + 1 < n) {v : List α} {V F G : Nat → Nat → α} {s : List α × List α} (hv : IsFlat v n V)
    (h1 : IsFlat s.1 n F) (h2 : IsFlat s.2 n G) :
    ∃ s', dgeevPair n j v s = ok s' ∧ IsFlat s'.1 n (fun i c => if c = j ∨ c = j + 1 then V i j else F i c) ∧
      IsFlat s'.2 n (fun i c => if c = j then V i (j + 1) else if c = j + 1 then -V i (j + 1) else G i c) := by
  unfold dgeevPair
  obtain ⟨s', e, g1, g2⟩ := forRange_spec (f := fun i (s : List α × List α) => do
      let p := i + j * n
      let q := i + (j + 1) * n
      let x ← vget v p
      let vre ← vset s.1 p x
      let y ← vget v q
      let vim ← vset s.2 p y
      let vre ← vset vre q x
      let vim ← vset vim q (-y)
      ok (vre, vim))
    (fun t s => IsFlat s.1 n (fun i c => if (c = j ∨ c = j + 1) ∧ i < t then V i j else F i c) ∧
      IsFlat s.2 n (fun i c => if c = j ∧ i < t then V i (j + 1) else if c = j + 1 ∧ i < t then -V i (j + 1) else G i c))
    (Nat.zero_le n) (s := s) ⟨h1.congr fun i c _ _ => by simp, h2.congr fun i c _ _ => by simp⟩ (by
      intro t s _ ht ⟨i1, i2⟩
      dsimp only
      rw [hv.vget ht (by omega : j < n), ok_bind]
      obtain ⟨a1, e1, k1⟩ := i1.vset ht (by omega : j < n) (V t j)
      rw [e1, ok_bind, hv.vget ht hj, ok_bind]
      obtain ⟨a2, e2, k2⟩ := i2.vset ht (by omega : j < n) (V t (j + 1))
      rw [e2, ok_bind]
      obtain ⟨a3, e3, k3⟩ := k1.vset ht hj (V t j)
      rw [e3, ok_bind]
      obtain ⟨a4, e4, k4⟩ := k2.vset ht hj (-V t (j + 1))
      rw [e4, ok_bind]
      refine ⟨_, rfl, k3.congr fun i c _ _ => ?_, k4.congr fun i c _ _ => ?_⟩
      · by_cases p1 : i = t
        · subst p1
          by_cases p2 : c = j
          · subst p2; simp
          · by_cases p3 : c = j + 1
            · subst p3; simp
            · simp [p2, p3]
        · have : i < t + 1 ↔ i < t := by omega
          simp [p1, this]
      · by_cases p1 : i = t
        · subst p1
          by_cases p2 : c = j
          · subst p2; simp
          · by_cases p3 : c = j + 1
            · subst p3; simp
            · simp [p2, p3]
        · have : i < t + 1 ↔ i < t := by omega
          simp [p1, this])
  exact ⟨s', e, g1.congr fun i c hi _ => by simp [hi], g2.congr fun i c hi _ => by simp [hi]⟩

omit [LinearOrder α] [IsStrictOrderedRing α] in
theorem dgeevReal_spec {n j : Nat} (hj : j < n) {v : List α} {V F G : Nat → Nat → α} {s : List α × List α} (hv : IsFlat v n V)
    (h1 : IsFlat s.1 n F) (h2 : IsFlat s.2 n G) :
    ∃ s', dgeevReal n j v s = ok s' ∧ IsFlat s'.1 n (fun i c => if c = j then V i j else F i c) ∧
      IsFlat s'.2 n (fun i c => if c = j then 0 else G i c) := by
  unfold dgeevReal
  obtain ⟨s', e, g1, g2⟩ := forRange_spec (f := fun i (s : List α × List α) => do
      let p := i + j * n
      let x ← vget v p
      let vre ← vset s.1 p x
      let vim ← vset s.2 p 0
      ok (vre, vim))
    (fun t s => IsFlat s.1 n (fun i c => if c = j ∧ i < t then V i j else F i c) ∧
      IsFlat s.2 n (fun i c => if c = j ∧ i < t then 0 else G i c))
    (Nat.zero_le n) (s := s) ⟨h1.congr fun i c _ _ => by simp, h2.congr fun i c _ _ => by simp⟩ (by
      intro t s _ ht ⟨i1, i2⟩
      dsimp only
      rw [hv.vget ht hj, ok_bind]
      obtain ⟨a1, e1, k1⟩ := i1.vset ht hj (V t j)
      rw [e1, ok_bind]
      obtain ⟨a2, e2, k2⟩ := i2.vset ht hj 0
      rw [e2, ok_bind]
      refine ⟨_, rfl, k1.congr fun i c _ _ => ?_, k2.congr fun i c _ _ => ?_⟩
      · by_cases p1 : i = t
        · subst p1
          by_cases p2 : c = j
          · subst p2; simp
          · simp [p2]
        · have : i < t + 1 ↔ i < t := by omega
          simp [p1, this]
      · by_cases p1 : i = t
        · subst p1
          by_cases p2 : c = j
          · subst p2; simp
          · simp [p2]
        · have : i < t + 1 ↔ i < t := by omega
          simp [p1, this])
  exact ⟨s', e, g1.congr fun i c hi _ => by simp [hi], g2.congr fun i c hi _ => by simp [hi]⟩

/-- after a pair -/
theorem unpack_pair {n j : Nat} {W : Nat → α} (hW : PairCond n W) (hj : j < n) (hpos : 0 < W j) (V F G : Nat → Nat → α) :
    (∀ i c, (if c = j ∨ c = j + 1 then V i j else if c < j then unpackRe W V i c else F i c) =
      if c < j + 2 then unpackRe W V i c else F i c) ∧
    (∀ i c, (if c = j then V i (j + 1) else if c = j + 1 then -V i (j + 1) else if c < j then unpackIm W V i c else G i c) =
      if c < j + 2 then unpackIm W V i c else G i c) := by
  obtain ⟨h1, h2⟩ := hW.1 j hj hpos
  constructor
  · intro i c
    by_cases p1 : c = j
    · subst p1
      rw [if_pos (Or.inl rfl), if_pos (by omega), unpackRe, if_neg (not_lt.2 hpos.le)]
    · by_cases p2 : c = j + 1
      · subst p2
        rw [if_pos (Or.inr rfl), if_pos (by omega), unpackRe, if_pos (by rw [h2]; linarith), Nat.add_sub_cancel]
      · rw [if_neg (by tauto)]
        by_cases p3 : c < j
        · rw [if_pos p3, if_pos (by omega)]
        · rw [if_neg p3, if_neg (by omega)]
  · intro i c
    by_cases p1 : c = j
    · subst p1
      rw [if_pos rfl, if_pos (by omega), unpackIm, if_neg hpos.ne', if_pos hpos]
    · rw [if_neg p1]
      by_cases p2 : c = j + 1
      · subst p2
        rw [if_pos rfl, if_pos (by omega), unpackIm, if_neg (by rw [h2]; linarith), if_neg (by rw [h2]; linarith)]
      · rw [if_neg p2]
        by_cases p3 : c < j
        · rw [if_pos p3, if_pos (by omega)]
        · rw [if_neg p3, if_neg (by omega)]

omit [IsStrictOrderedRing α] in
/-- after a real column -/
theorem unpack_real {j : Nat} {W : Nat → α} (h0 : W j = 0) (V F G : Nat → Nat → α) :
    (∀ i c, (if c = j then V i j else if c < j then unpackRe W V i c else F i c) = if c < j + 1 then unpackRe W V i c else F i c) ∧
    (∀ i c, (if c = j then 0 else if c < j then unpackIm W V i c else G i c) = if c < j + 1 then unpackIm W V i c else G i c) := by
  constructor <;> intro i c <;> by_cases p1 : c = j
  · subst p1
    rw [if_pos rfl, if_pos (by omega), unpackRe, if_neg (by rw [h0]; exact lt_irrefl _)]
  · rw [if_neg p1]
    by_cases p3 : c < j
    · rw [if_pos p3, if_pos (by omega)]
    · rw [if_neg p3, if_neg (by omega)]
  · subst p1
    rw [if_pos rfl, if_pos (by omega), unpackIm, if_pos h0]
  · rw [if_neg p1]
    by_cases p3 : c < j
    · rw [if_pos p3, if_pos (by omega)]
    · rw [if_neg p3, if_neg (by omega)]

theorem dgeevLoop_spec {n : Nat} {w v : List α} {W : Nat → α} {V F G : Nat → Nat → α} (hw : IsVec w n W) (hW : PairCond n W)
    (hv : IsFlat v n V) : ∀ (k j : Nat) (s : List α × List α), n - j = k → j ≤ n → (j = 0 ∨ W (j - 1) ≤ 0) →
    IsFlat s.1 n (fun i c => if c < j then unpackRe W V i c else F i c) →
    IsFlat s.2 n (fun i c => if c < j then unpackIm W V i c else G i c) →
    ∃ s', dgeevLoop n w v j s = ok s' ∧ IsFlat s'.1 n (unpackRe W V) ∧ IsFlat s'.2 n (unpackIm W V) := by
  intro k
  induction k using Nat.strong_induction_on with
  | _ k ih =>
    intro j s hk hjn hprev h1 h2
    rw [dgeevLoop]
    by_cases hj : j < n
    · rw [dif_pos hj, hw.vget hj, ok_bind]
      by_cases hc : |W j| > 0
      · rw [if_pos hc]
        have hpos : 0 < W j := by
          rcases lt_trichotomy (W j) 0 with h | h | h
          · obtain ⟨q1, q2⟩ := hW.2 j hj h
            rcases hprev with rfl | hp
            · omega
            · rw [q2] at hp; linarith
          · rw [h, abs_zero] at hc; exact absurd hc (lt_irrefl _)
          · exact h
        obtain ⟨q1, q2⟩ := hW.1 j hj hpos
        have es : subUsize n 2 = ok (n - 2) := by unfold subUsize; rw [if_pos (by omega)]
        rw [es, ok_bind, if_neg (by omega)]
        obtain ⟨s', e, g1, g2⟩ := dgeevPair_spec q1 hv h1 h2
        rw [e, ok_bind]
        obtain ⟨u1, u2⟩ := unpack_pair hW hj hpos V F G
        exact ih (n - (j + 2)) (by omega) (j + 2) s' rfl (by omega) (Or.inr (by
          rw [show j + 2 - 1 = j + 1 by omega, q2]; linarith)) (g1.congr fun i c _ _ => u1 i c) (g2.congr fun i c _ _ => u2 i c)
      · rw [if_neg hc]
        have h0 : W j = 0 := abs_eq_zero.1 (le_antisymm (not_lt.1 hc) (abs_nonneg _))
        obtain ⟨s', e, g1, g2⟩ := dgeevReal_spec hj hv h1 h2
        rw [e, ok_bind]
        obtain ⟨u1, u2⟩ := unpack_real h0 V F G
        exact ih (n - (j + 1)) (by omega) (j + 1) s' rfl (by omega) (Or.inr (by rw [Nat.add_sub_cancel, h0]))
          (g1.congr fun i c _ _ => u1 i c) (g2.congr fun i c _ _ => u2 i c)
    · rw [dif_neg hj]
      exact ⟨s, rfl, h1.congr fun i c _ hc => by rw [if_pos (by omega)], h2.congr fun i c _ hc => by rw [if_pos (by omega)]⟩

/-- **C102** `dgeev_data` expands the compact eigenvectors for all orders and all patterns of pairs, whatever the output arrays hold: a real
eigenvalue has the column itself, a pair has `v_j ± i v_{j+1}`. -/
theorem C102_dgeev_data {n : Nat} {v_real v_imag w v : List α} {W : Nat → α} {V F G : Nat → Nat → α} (hw : IsVec w n W) (hW : PairCond n W)
    (hv : IsFlat v n V) (h1 : IsFlat v_real n F) (h2 : IsFlat v_imag n G) :
    ∃ s', dgeevData v_real v_imag w v = ok s' ∧ IsFlat s'.1 n (unpackRe W V) ∧ IsFlat s'.2 n (unpackIm W V) := by
  unfold dgeevData
  dsimp only
  rw [hw.len, h1.len, h2.len, hv.len, if_neg (by simp)]
  exact dgeevLoop_spec (F := F) (G := G) hw hW hv n 0 (v_real, v_imag) rfl (Nat.zero_le _) (Or.inl rfl)
    (h1.congr fun i c _ _ => by simp) (h2.congr fun i c _ _ => by simp)

omit [LinearOrder α] [IsStrictOrderedRing α] in
/-- the loop for both sides does on each side what the loop for one side does -/
theorem dgeevPairLr_spec {n j : Nat} (hj : j + 1 < n) {vl vr : List α} {L R F G F' G' : Nat → Nat → α}
    {s : (List α × List α) × (List α × List α)} (hl : IsFlat vl n L) (hr : IsFlat vr n R)
    (h1 : IsFlat s.1.1 n F) (h2 : IsFlat s.1.2 n G) (h3 : IsFlat s.2.1 n F') (h4 : IsFlat s.2.2 n G') :
    ∃ s', dgeevPairLr n j vl vr s = ok s' ∧
      IsFlat s'.1.1 n (fun i c => if c = j ∨ c = j + 1 then L i j else F i c) ∧
      IsFlat s'.1.2 n (fun i c => if c = j then L i (j + 1) else if c = j + 1 then -L i (j + 1) else G i c) ∧
      IsFlat s'.2.1 n (fun i c => if c = j ∨ c = j + 1 then R i j else F' i c) ∧
      IsFlat s'.2.2 n (fun i c => if c = j then R i (j + 1) else if c = j + 1 then -R i (j + 1) else G' i c) := by
  have fin1 : ∀ (V F : Nat → Nat → α) (t i c : Nat),
      (if i = t ∧ c = j + 1 then V t j else if i = t ∧ c = j then V t j else if (c = j ∨ c = j + 1) ∧ i < t then V i j else F i c) =
        if (c = j ∨ c = j + 1) ∧ i < t + 1 then V i j else F i c := by
    intro V F t i c
    by_cases p1 : i = t
    · subst p1
      by_cases p2 : c = j
      · subst p2; simp
      · by_cases p3 : c = j + 1
        · subst p3; simp
        · simp [p2, p3]
    · have : i < t + 1 ↔ i < t := by omega
      simp [p1, this]
  have fin2 : ∀ (V G : Nat → Nat → α) (t i c : Nat),
      (if i = t ∧ c = j + 1 then -V t (j + 1) else if i = t ∧ c = j then V t (j + 1) else
        if c = j ∧ i < t then V i (j + 1) else if c = j + 1 ∧ i < t then -V i (j + 1) else G i c) =
        if c = j ∧ i < t + 1 then V i (j + 1) else if c = j + 1 ∧ i < t + 1 then -V i (j + 1) else G i c := by
    intro V G t i c
    by_cases p1 : i = t
    · subst p1
      by_cases p2 : c = j
      · subst p2; simp
      · by_cases p3 : c = j + 1
        · subst p3; simp
        · simp [p2, p3]
    · have : i < t + 1 ↔ i < t := by omega
      simp [p1, this]
  unfold dgeevPairLr
  obtain ⟨s', e, g1, g2, g3, g4⟩ := forRange_spec (f := fun i (s : (List α × List α) × (List α × List α)) => do
      let p := i + j * n
      let q := i + (j + 1) * n
      let x ← vget vl p
      let y ← vget vl q
      let z ← vget vr p
      let t ← vget vr q
      let lre ← vset s.1.1 p x
      let lim ← vset s.1.2 p y
      let rre ← vset s.2.1 p z
      let rim ← vset s.2.2 p t
      let lre ← vset lre q x
      let lim ← vset lim q (-y)
      let rre ← vset rre q z
      let rim ← vset rim q (-t)
      ok ((lre, lim), (rre, rim)))
    (fun t s => IsFlat s.1.1 n (fun i c => if (c = j ∨ c = j + 1) ∧ i < t then L i j else F i c) ∧
      IsFlat s.1.2 n (fun i c => if c = j ∧ i < t then L i (j + 1) else if c = j + 1 ∧ i < t then -L i (j + 1) else G i c) ∧
      IsFlat s.2.1 n (fun i c => if (c = j ∨ c = j + 1) ∧ i < t then R i j else F' i c) ∧
      IsFlat s.2.2 n (fun i c => if c = j ∧ i < t then R i (j + 1) else if c = j + 1 ∧ i < t then -R i (j + 1) else G' i c))
    (Nat.zero_le n) (s := s) ⟨h1.congr fun i c _ _ => by simp, h2.congr fun i c _ _ => by simp, h3.congr fun i c _ _ => by simp,
      h4.congr fun i c _ _ => by simp⟩ (by
      intro t s _ ht ⟨i1, i2, i3, i4⟩
      have hjn : j < n := by omega
      dsimp only
      rw [hl.vget ht hjn, ok_bind, hl.vget ht hj, ok_bind, hr.vget ht hjn, ok_bind, hr.vget ht hj, ok_bind]
      obtain ⟨a1, e1, k1⟩ := i1.vset ht hjn (L t j)
      obtain ⟨a2, e2, k2⟩ := i2.vset ht hjn (L t (j + 1))
      obtain ⟨a3, e3, k3⟩ := i3.vset ht hjn (R t j)
      obtain ⟨a4, e4, k4⟩ := i4.vset ht hjn (R t (j + 1))
      obtain ⟨b1, f1, m1⟩ := k1.vset ht hj (L t j)
      obtain ⟨b2, f2, m2⟩ := k2.vset ht hj (-L t (j + 1))
      obtain ⟨b3, f3, m3⟩ := k3.vset ht hj (R t j)
      obtain ⟨b4, f4, m4⟩ := k4.vset ht hj (-R t (j + 1))
      rw [e1, ok_bind, e2, ok_bind, e3, ok_bind, e4, ok_bind, f1, ok_bind, f2, ok_bind, f3, ok_bind, f4, ok_bind]
      exact ⟨_, rfl, m1.congr fun i c _ _ => fin1 L F t i c, m2.congr fun i c _ _ => fin2 L G t i c, m3.congr fun i c _ _ => fin1 R F' t i c,
        m4.congr fun i c _ _ => fin2 R G' t i c⟩)
  exact ⟨s', e, g1.congr fun i c hi _ => by simp [hi], g2.congr fun i c hi _ => by simp [hi], g3.congr fun i c hi _ => by simp [hi],
    g4.congr fun i c hi _ => by simp [hi]⟩

omit [LinearOrder α] [IsStrictOrderedRing α] in
theorem dgeevRealLr_spec {n j : Nat} (hj : j < n) {vl vr : List α} {L R F G F' G' : Nat → Nat → α}
    {s : (List α × List α) × (List α × List α)} (hl : IsFlat vl n L) (hr : IsFlat vr n R)
    (h1 : IsFlat s.1.1 n F) (h2 : IsFlat s.1.2 n G) (h3 : IsFlat s.2.1 n F') (h4 : IsFlat s.2.2 n G') :
    ∃ s', dgeevRealLr n j vl vr s = ok s' ∧ IsFlat s'.1.1 n (fun i c => if c = j then L i j else F i c) ∧
      IsFlat s'.1.2 n (fun i c => if c = j then 0 else G i c) ∧ IsFlat s'.2.1 n (fun i c => if c = j then R i j else F' i c) ∧
      IsFlat s'.2.2 n (fun i c => if c = j then 0 else G' i c) := by
  have fin : ∀ (V F : Nat → Nat → α) (t i c : Nat),
      (if i = t ∧ c = j then V t j else if c = j ∧ i < t then V i j else F i c) = if c = j ∧ i < t + 1 then V i j else F i c := by
    intro V F t i c
    by_cases p1 : i = t
    · subst p1
      by_cases p2 : c = j
      · subst p2; simp
      · simp [p2]
    · have : i < t + 1 ↔ i < t := by omega
      simp [p1, this]
  unfold dgeevRealLr
  obtain ⟨s', e, g1, g2, g3, g4⟩ := forRange_spec (f := fun i (s : (List α × List α) × (List α × List α)) => do
      let p := i + j * n
      let x ← vget vl p
      let lre ← vset s.1.1 p x
      let z ← vget vr p
      let rre ← vset s.2.1 p z
      let lim ← vset s.1.2 p 0
      let rim ← vset s.2.2 p 0
      ok ((lre, lim), (rre, rim)))
    (fun t s => IsFlat s.1.1 n (fun i c => if c = j ∧ i < t then L i j else F i c) ∧
      IsFlat s.1.2 n (fun i c => if c = j ∧ i < t then 0 else G i c) ∧
      IsFlat s.2.1 n (fun i c => if c = j ∧ i < t then R i j else F' i c) ∧
      IsFlat s.2.2 n (fun i c => if c = j ∧ i < t then 0 else G' i c))
    (Nat.zero_le n) (s := s) ⟨h1.congr fun i c _ _ => by simp, h2.congr fun i c _ _ => by simp, h3.congr fun i c _ _ => by simp,
      h4.congr fun i c _ _ => by simp⟩ (by
      intro t s _ ht ⟨i1, i2, i3, i4⟩
      dsimp only
      obtain ⟨a1, e1, k1⟩ := i1.vset ht hj (L t j)
      obtain ⟨a2, e2, k2⟩ := i2.vset ht hj 0
      obtain ⟨a3, e3, k3⟩ := i3.vset ht hj (R t j)
      obtain ⟨a4, e4, k4⟩ := i4.vset ht hj 0
      rw [hl.vget ht hj, ok_bind, e1, ok_bind, hr.vget ht hj, ok_bind, e3, ok_bind, e2, ok_bind, e4, ok_bind]
      exact ⟨_, rfl, k1.congr fun i c _ _ => fin L F t i c, k2.congr fun i c _ _ => fin (fun _ _ => 0) G t i c,
        k3.congr fun i c _ _ => fin R F' t i c, k4.congr fun i c _ _ => fin (fun _ _ => 0) G' t i c⟩)
  exact ⟨s', e, g1.congr fun i c hi _ => by simp [hi], g2.congr fun i c hi _ => by simp [hi], g3.congr fun i c hi _ => by simp [hi],
    g4.congr fun i c hi _ => by simp [hi]⟩

theorem dgeevLoopLr_spec {n : Nat} {w vl vr : List α} {W : Nat → α} {L R F G F' G' : Nat → Nat → α} (hw : IsVec w n W) (hW : PairCond n W)
    (hl : IsFlat vl n L) (hr : IsFlat vr n R) : ∀ (k j : Nat) (s : (List α × List α) × (List α × List α)), n - j = k → j ≤ n →
    (j = 0 ∨ W (j - 1) ≤ 0) →
    IsFlat s.1.1 n (fun i c => if c < j then unpackRe W L i c else F i c) → IsFlat s.1.2 n (fun i c => if c < j then unpackIm W L i c else G i c) →
    IsFlat s.2.1 n (fun i c => if c < j then unpackRe W R i c else F' i c) →
    IsFlat s.2.2 n (fun i c => if c < j then unpackIm W R i c else G' i c) →
    ∃ s', dgeevLoopLr n w vl vr j s = ok s' ∧ IsFlat s'.1.1 n (unpackRe W L) ∧ IsFlat s'.1.2 n (unpackIm W L) ∧
      IsFlat s'.2.1 n (unpackRe W R) ∧ IsFlat s'.2.2 n (unpackIm W R) := by
  intro k
  induction k using Nat.strong_induction_on with
  | _ k ih =>
    intro j s hk hjn hprev h1 h2 h3 h4
    rw [dgeevLoopLr]
    by_cases hj : j < n
    · rw [dif_pos hj, hw.vget hj, ok_bind]
      by_cases hc : |W j| > 0
      · rw [if_pos hc]
        have hpos : 0 < W j := by
          rcases lt_trichotomy (W j) 0 with h | h | h
          · obtain ⟨q1, q2⟩ := hW.2 j hj h
            rcases hprev with rfl | hp
            · omega
            · rw [q2] at hp; linarith
          · rw [h, abs_zero] at hc; exact absurd hc (lt_irrefl _)
          · exact h
        obtain ⟨q1, q2⟩ := hW.1 j hj hpos
        have es : subUsize n 2 = ok (n - 2) := by unfold subUsize; rw [if_pos (by omega)]
        rw [es, ok_bind, if_neg (by omega)]
        obtain ⟨s', e, g1, g2, g3, g4⟩ := dgeevPairLr_spec q1 hl hr h1 h2 h3 h4
        rw [e, ok_bind]
        obtain ⟨u1, u2⟩ := unpack_pair hW hj hpos L F G
        obtain ⟨u3, u4⟩ := unpack_pair hW hj hpos R F' G'
        exact ih (n - (j + 2)) (by omega) (j + 2) s' rfl (by omega) (Or.inr (by
          rw [show j + 2 - 1 = j + 1 by omega, q2]; linarith)) (g1.congr fun i c _ _ => u1 i c) (g2.congr fun i c _ _ => u2 i c)
          (g3.congr fun i c _ _ => u3 i c) (g4.congr fun i c _ _ => u4 i c)
      · rw [if_neg hc]
        have h0 : W j = 0 := abs_eq_zero.1 (le_antisymm (not_lt.1 hc) (abs_nonneg _))
        obtain ⟨s', e, g1, g2, g3, g4⟩ := dgeevRealLr_spec hj hl hr h1 h2 h3 h4
        rw [e, ok_bind]
        obtain ⟨u1, u2⟩ := unpack_real h0 L F G
        obtain ⟨u3, u4⟩ := unpack_real h0 R F' G'
        exact ih (n - (j + 1)) (by omega) (j + 1) s' rfl (by omega) (Or.inr (by rw [Nat.add_sub_cancel, h0]))
          (g1.congr fun i c _ _ => u1 i c) (g2.congr fun i c _ _ => u2 i c) (g3.congr fun i c _ _ => u3 i c)
          (g4.congr fun i c _ _ => u4 i c)
    · rw [dif_neg hj]
      exact ⟨s, rfl, h1.congr fun i c _ hc => by rw [if_pos (by omega)], h2.congr fun i c _ hc => by rw [if_pos (by omega)],
        h3.congr fun i c _ hc => by rw [if_pos (by omega)], h4.congr fun i c _ hc => by rw [if_pos (by omega)]⟩

/-! ## `mat_eigen` -/

/-- `x + i y` is a right eigenvector of norm one for the eigenvalue `p + i q` -/
def IsRight (n : Nat) (A : Nat → Nat → α) (p q : α) (x y : Nat → α) : Prop :=
  (∀ i, i < n → ∑ k ∈ Finset.range n, A i k * x k = p * x i - q * y i) ∧
  (∀ i, i < n → ∑ k ∈ Finset.range n, A i k * y k = p * y i + q * x i) ∧ ∑ k ∈ Finset.range n, (x k * x k + y k * y k) = 1

/-- `(x + i y)ᴴ A = (p + i q) (x + i y)ᴴ`, norm one -/
def IsLeft (n : Nat) (A : Nat → Nat → α) (p q : α) (x y : Nat → α) : Prop :=
  (∀ i, i < n → ∑ k ∈ Finset.range n, x k * A k i = p * x i + q * y i) ∧
  (∀ i, i < n → ∑ k ∈ Finset.range n, y k * A k i = p * y i - q * x i) ∧ ∑ k ∈ Finset.range n, (x k * x k + y k * y k) = 1

/-- the promise of the manual of `dgeev`: pairs with the positive imaginary part first; the column `j` (real eigenvalue) or the columns `j`
and `j + 1` (pair) hold the eigenvector -/
structure IsGeev (n : Nat) (A : Nat → Nat → α) (o : EigR α) : Prop where
  up : ∀ j, j < n → 0 < o.wi j → j + 1 < n ∧ o.wi (j + 1) = -o.wi j ∧ o.wr (j + 1) = o.wr j
  down : ∀ j, j < n → o.wi j < 0 → 0 < j ∧ o.wi (j - 1) = -o.wi j ∧ o.wr (j - 1) = o.wr j
  rreal : ∀ j, j < n → o.wi j = 0 → IsRight n A (o.wr j) 0 (fun k => o.vr k j) (fun _ => 0)
  rpair : ∀ j, j < n → 0 < o.wi j → IsRight n A (o.wr j) (o.wi j) (fun k => o.vr k j) (fun k => o.vr k (j + 1))
  lreal : ∀ j, j < n → o.wi j = 0 → IsLeft n A (o.wr j) 0 (fun k => o.vl k j) (fun _ => 0)
  lpair : ∀ j, j < n → 0 < o.wi j → IsLeft n A (o.wr j) (o.wi j) (fun k => o.vl k j) (fun k => o.vl k (j + 1))

def GeevSpec (eig : Nat → (Nat → Nat → α) → Option (EigR α)) : Prop := ∀ n A o, eig n A = some o → IsGeev n A o

omit [IsStrictOrderedRing α] in
theorem IsGeev.pairs {n : Nat} {A : Nat → Nat → α} {o : EigR α} (h : IsGeev n A o) : PairCond n o.wi :=
  ⟨fun j hj hp => ⟨(h.up j hj hp).1, (h.up j hj hp).2.1⟩, fun j hj hp => ⟨(h.down j hj hp).1, (h.down j hj hp).2.1⟩⟩

omit [LinearOrder α] [IsStrictOrderedRing α] in
theorem isRight_conj {n : Nat} {A : Nat → Nat → α} {p q : α} {x y : Nat → α} (h : IsRight n A p q x y) :
    IsRight n A p (-q) x (fun k => -y k) := by
  obtain ⟨h1, h2, h3⟩ := h
  refine ⟨fun i hi => by rw [h1 i hi]; ring, fun i hi => ?_, by simpa using h3⟩
  rw [show (∑ k ∈ Finset.range n, A i k * -y k) = -∑ k ∈ Finset.range n, A i k * y k by
    rw [← Finset.sum_neg_distrib]; exact Finset.sum_congr rfl fun k _ => by ring, h2 i hi]
  ring

omit [LinearOrder α] [IsStrictOrderedRing α] in
theorem isLeft_conj {n : Nat} {A : Nat → Nat → α} {p q : α} {x y : Nat → α} (h : IsLeft n A p q x y) :
    IsLeft n A p (-q) x (fun k => -y k) := by
  obtain ⟨h1, h2, h3⟩ := h
  refine ⟨fun i hi => by rw [h1 i hi]; ring, fun i hi => ?_, by simpa using h3⟩
  rw [show (∑ k ∈ Finset.range n, -y k * A k i) = -∑ k ∈ Finset.range n, y k * A k i by
    rw [← Finset.sum_neg_distrib]; exact Finset.sum_congr rfl fun k _ => by ring, h2 i hi]
  ring

/-- every expanded column is an eigenvector -/
theorem unpack_spec {n : Nat} {W : Nat → α} {V : Nat → Nat → α} {Q : α → α → (Nat → α) → (Nat → α) → Prop} {wr : Nat → α}
    (hdown : ∀ j, j < n → W j < 0 → 0 < j ∧ W (j - 1) = -W j ∧ wr (j - 1) = wr j)
    (hreal : ∀ j, j < n → W j = 0 → Q (wr j) 0 (fun k => V k j) (fun _ => 0))
    (hpair : ∀ j, j < n → 0 < W j → Q (wr j) (W j) (fun k => V k j) (fun k => V k (j + 1)))
    (hconj : ∀ p q x y, Q p q x y → Q p (-q) x (fun k => -y k)) (j : Nat) (hj : j < n) :
    Q (wr j) (W j) (fun k => unpackRe W V k j) (fun k => unpackIm W V k j) := by
  rcases lt_trichotomy (W j) 0 with h | h | h
  · obtain ⟨q1, q2, q3⟩ := hdown j hj h
    have e1 : (fun k => unpackRe W V k j) = fun k => V k (j - 1) := by funext k; rw [unpackRe, if_pos h]
    have e2 : (fun k => unpackIm W V k j) = fun k => -V k j := by
      funext k; rw [unpackIm, if_neg h.ne, if_neg (not_lt.2 h.le)]
    have := hconj _ _ _ _ (hpair (j - 1) (by omega) (by rw [q2]; linarith))
    rw [q2, q3, neg_neg, show j - 1 + 1 = j by omega] at this
    rw [e1, e2]
    exact this
  · have e1 : (fun k => unpackRe W V k j) = fun k => V k j := by funext k; rw [unpackRe, if_neg (by rw [h]; exact lt_irrefl _)]
    have e2 : (fun k => unpackIm W V k j) = fun _ => 0 := by funext k; rw [unpackIm, if_pos h]
    rw [e1, e2, h]
    exact hreal j hj h
  · have e1 : (fun k => unpackRe W V k j) = fun k => V k j := by funext k; rw [unpackRe, if_neg (not_lt.2 h.le)]
    have e2 : (fun k => unpackIm W V k j) = fun k => V k (j + 1) := by funext k; rw [unpackIm, if_neg h.ne', if_pos h]
    rw [e1, e2]
    exact hpair j hj h

omit [LinearOrder α] [IsStrictOrderedRing α] in
theorem isRight_congr {n : Nat} {A B : Nat → Nat → α} (hAB : ∀ i j, i < n → j < n → A i j = B i j) {p q : α} {x y : Nat → α}
    (h : IsRight n A p q x y) : IsRight n B p q x y := by
  obtain ⟨h1, h2, h3⟩ := h
  refine ⟨fun i hi => ?_, fun i hi => ?_, h3⟩
  · rw [← h1 i hi]; exact Finset.sum_congr rfl fun k hk => by rw [hAB i k hi (Finset.mem_range.1 hk)]
  · rw [← h2 i hi]; exact Finset.sum_congr rfl fun k hk => by rw [hAB i k hi (Finset.mem_range.1 hk)]

omit [LinearOrder α] [IsStrictOrderedRing α] in
theorem isLeft_congr {n : Nat} {A B : Nat → Nat → α} (hAB : ∀ i j, i < n → j < n → A i j = B i j) {p q : α} {x y : Nat → α}
    (h : IsLeft n A p q x y) : IsLeft n B p q x y := by
  obtain ⟨h1, h2, h3⟩ := h
  refine ⟨fun i hi => ?_, fun i hi => ?_, h3⟩
  · rw [← h1 i hi]; exact Finset.sum_congr rfl fun k hk => by rw [hAB k i (Finset.mem_range.1 hk) hi]
  · rw [← h2 i hi]; exact Finset.sum_congr rfl fun k hk => by rw [hAB k i (Finset.mem_range.1 hk) hi]

/-- the message of a failed iteration -/
def qrFailed (routine : String) : String :=
  s!"LAPACK ERROR ({routine}): The QR algorithm failed to compute all the eigenvalues, and no eigenvectors have been computed"

/-- **C102** `mat_eigen` either reports that the iteration failed, or returns eigenvalues (the conjugate of a complex one directly after it)
with right eigenvectors of norm one as columns. All arguments of the call are legal and inside of the arrays. -/
theorem C102_mat_eigen {eig : Nat → (Nat → Nat → α) → Option (EigR α)} (hspec : GeevSpec eig) {m : Nat} (hm : m < 2147483648) (hm0 : 0 < m)
    {a v_real v_imag : NumMatrix α} {A F G : Nat → Nat → α} {l_real l_imag : List α} {P Q : Nat → α} (ha : IsDense a m m A)
    (hvr : IsDense v_real m m F) (hvi : IsDense v_imag m m G) (hlr : IsVec l_real m P) (hli : IsVec l_imag m Q) :
    matEigen eig l_real l_imag v_real v_imag a = err (qrFailed "dgeev") ∨
    ∃ lr li vr vi LR LI VR VI, matEigen eig l_real l_imag v_real v_imag a = ok (lr, li, vr, vi) ∧ IsVec lr m LR ∧ IsVec li m LI ∧
      IsDense vr m m VR ∧ IsDense vi m m VI ∧ PairCond m LI ∧ ∀ j, j < m → IsRight m A (LR j) (LI j) (fun k => VR k j) (fun k => VI k j) := by
  unfold matEigen
  simp only [ha.nrow, ha.ncol, hvr.nrow, hvr.ncol, hvi.nrow, hvi.ncol, hlr.len, hli.len]
  rw [if_neg (by simp), if_neg (by simp), if_neg (by simp), toI32_lt hm, ok_bind]
  have hV := isFlat_replicate m (0 : α)
  unfold dgeev
  simp only [jobOf, cFalse, cTrue, Int.reduceEq, Char.reduceEq, reduceIte, false_and, true_and, false_or, or_true, Int.toNat_natCast]
  rw [if_neg (by omega), if_neg (by
    rw [not_not]
    exact ⟨ha.inArray, by rw [hlr.len], by rw [hli.len], by simp, fun _ => hV.inArray, le_refl _⟩)]
  cases e : eig m (entries a.data m) with
  | none => left; rfl
  | some o =>
    right
    have sp := hspec m _ o e
    rw [ok_bind]
    dsimp only
    have ec : geevCheck "dgeev" 0 = ok () := rfl
    rw [ec, ok_bind]
    obtain ⟨s, es, g1, g2⟩ := C102_dgeev_data (putVec_isVec hli o.wi) sp.pairs (hV.put o.vr) (IsDense.flat hvr) (IsDense.flat hvi)
    rw [es, ok_bind]
    refine ⟨_, _, _, _, o.wr, o.wi, _, _, rfl, putVec_isVec hlr _, putVec_isVec hli _, isDense_flat g1, isDense_flat g2, sp.pairs, ?_⟩
    intro j hj
    exact isRight_congr (fun i k hi hk => ha.getD' hi hk) (unpack_spec (Q := IsRight m (entries a.data m)) sp.down
      sp.rreal sp.rpair (fun _ _ _ _ h => isRight_conj h) j hj)

/-- **C102** `mat_eigen_lr` gives the right eigenvectors and in addition the left ones, `uᴴ a = l uᴴ`. -/
theorem C102_mat_eigen_lr {eig : Nat → (Nat → Nat → α) → Option (EigR α)} (hspec : GeevSpec eig) {m : Nat} (hm : m < 2147483648)
    (hm0 : 0 < m) {a u_real u_imag v_real v_imag : NumMatrix α} {A F G F' G' : Nat → Nat → α} {l_real l_imag : List α} {P Q : Nat → α}
    (ha : IsDense a m m A) (hur : IsDense u_real m m F) (hui : IsDense u_imag m m G) (hvr : IsDense v_real m m F')
    (hvi : IsDense v_imag m m G') (hlr : IsVec l_real m P) (hli : IsVec l_imag m Q) :
    matEigenLr eig l_real l_imag u_real u_imag v_real v_imag a = err (qrFailed "dgeev") ∨
    ∃ lr li ur ui vr vi LR LI UR UI VR VI, matEigenLr eig l_real l_imag u_real u_imag v_real v_imag a = ok (lr, li, (ur, ui), (vr, vi)) ∧
      IsVec lr m LR ∧ IsVec li m LI ∧ IsDense ur m m UR ∧ IsDense ui m m UI ∧ IsDense vr m m VR ∧ IsDense vi m m VI ∧ PairCond m LI ∧
      ∀ j, j < m → IsRight m A (LR j) (LI j) (fun k => VR k j) (fun k => VI k j) ∧
        IsLeft m A (LR j) (LI j) (fun k => UR k j) (fun k => UI k j) := by
  unfold matEigenLr
  simp only [ha.nrow, ha.ncol, hvr.nrow, hvr.ncol, hvi.nrow, hvi.ncol, hur.nrow, hur.ncol, hui.nrow, hui.ncol, hlr.len, hli.len]
  rw [if_neg (by simp), if_neg (by simp), if_neg (by simp), toI32_lt hm, ok_bind]
  have hV := isFlat_replicate m (0 : α)
  unfold dgeev
  simp only [jobOf, cTrue, reduceIte, true_and, or_true, Int.toNat_natCast]
  rw [if_neg (by omega), if_neg (by
    rw [not_not]
    exact ⟨ha.inArray, by rw [hlr.len], by rw [hli.len], fun _ => hV.inArray, fun _ => hV.inArray, le_refl _⟩)]
  cases e : eig m (entries a.data m) with
  | none => left; rfl
  | some o =>
    right
    have sp := hspec m _ o e
    rw [ok_bind]
    dsimp only
    have ec : geevCheck "dgeev" 0 = ok () := rfl
    rw [ec, ok_bind]
    have fr := IsDense.flat hvr
    have fi := IsDense.flat hvi
    have gr := IsDense.flat hur
    have gi := IsDense.flat hui
    have hwi := putVec_isVec hli o.wi
    have hp1 := hV.put o.vl
    have hp2 := hV.put o.vr
    have key : ∃ s, dgeevDataLr u_real.data u_imag.data v_real.data v_imag.data (putVec m o.wi l_imag)
        (putMat m m m o.vl (List.replicate (m * m) 0)) (putMat m m m o.vr (List.replicate (m * m) 0)) = ok s ∧
        IsFlat s.1.1 m (unpackRe o.wi o.vl) ∧ IsFlat s.1.2 m (unpackIm o.wi o.vl) ∧
        IsFlat s.2.1 m (unpackRe o.wi o.vr) ∧ IsFlat s.2.2 m (unpackIm o.wi o.vr) := by
      unfold dgeevDataLr
      dsimp only
      rw [hwi.len, fr.len, fi.len, gr.len, gi.len, hp1.len, hp2.len, if_neg (by simp)]
      exact dgeevLoopLr_spec (F := F) (G := G) (F' := F') (G' := G') hwi sp.pairs hp1 hp2 m 0 _ rfl (Nat.zero_le _) (Or.inl rfl) (gr.congr fun i c _ _ => by simp)
        (gi.congr fun i c _ _ => by simp) (fr.congr fun i c _ _ => by simp) (fi.congr fun i c _ _ => by simp)
    obtain ⟨s, es, g1, g2, g3, g4⟩ := key
    rw [es, ok_bind]
    refine ⟨_, _, _, _, _, _, o.wr, o.wi, _, _, _, _, rfl, putVec_isVec hlr _, putVec_isVec hli _, isDense_flat g1, isDense_flat g2,
      isDense_flat g3, isDense_flat g4, sp.pairs, ?_⟩
    intro j hj
    exact ⟨isRight_congr (fun i k hi hk => ha.getD' hi hk) (unpack_spec (Q := IsRight m (entries a.data m)) sp.down
      sp.rreal sp.rpair (fun _ _ _ _ h => isRight_conj h) j hj),
      isLeft_congr (fun i k hi hk => ha.getD' hi hk) (unpack_spec (Q := IsLeft m (entries a.data m)) sp.down
      sp.lreal sp.lpair (fun _ _ _ _ h => isLeft_conj h) j hj)⟩

/-- **C102** `mat_eigenvalues`: every returned number is an eigenvalue. -/
theorem C102_mat_eigenvalues {eig : Nat → (Nat → Nat → α) → Option (EigR α)} (hspec : GeevSpec eig) {m : Nat} (hm : m < 2147483648)
    (hm0 : 0 < m) {a : NumMatrix α} {A : Nat → Nat → α} {l_real l_imag : List α} {P Q : Nat → α} (ha : IsDense a m m A)
    (hlr : IsVec l_real m P) (hli : IsVec l_imag m Q) :
    matEigenvalues eig l_real l_imag a = err (qrFailed "dgeev") ∨
    ∃ lr li LR LI, matEigenvalues eig l_real l_imag a = ok (lr, li) ∧ IsVec lr m LR ∧ IsVec li m LI ∧ PairCond m LI ∧
      ∀ j, j < m → ∃ x y, IsRight m A (LR j) (LI j) x y := by
  unfold matEigenvalues
  simp only [ha.nrow, ha.ncol, hlr.len, hli.len]
  rw [if_neg (by simp), if_neg (by simp), toI32_lt hm, ok_bind]
  unfold dgeev
  simp only [jobOf, cFalse, Int.reduceEq, Char.reduceEq, reduceIte, false_and, false_or, or_false, Int.toNat_natCast]
  rw [if_neg (by omega), if_neg (by
    rw [not_not]
    exact ⟨ha.inArray, by rw [hlr.len], by rw [hli.len], by simp, by simp, le_refl _⟩)]
  cases e : eig m (entries a.data m) with
  | none => left; rfl
  | some o =>
    right
    have sp := hspec m _ o e
    rw [ok_bind]
    refine ⟨_, _, o.wr, o.wi, rfl, putVec_isVec hlr _, putVec_isVec hli _, sp.pairs, ?_⟩
    intro j hj
    exact ⟨_, _, isRight_congr (fun i k hi hk => ha.getD' hi hk) (unpack_spec (Q := IsRight m (entries a.data m)) 
      sp.down sp.rreal sp.rpair (fun _ _ _ _ h => isRight_conj h) j hj)⟩

omit [IsStrictOrderedRing α] in
/-- **C102** the order zero is refused by `mat_eigen`, `mat_eigen_lr`, `mat_eigenvalues` (LAPACK forbids a leading dimension of zero) -/
theorem C102_eigen_empty (eig : Nat → (Nat → Nat → α) → Option (EigR α)) :
    matEigen eig [] [] ⟨0, 0, []⟩ ⟨0, 0, []⟩ ⟨0, 0, []⟩ = err "LAPACK ERROR (dgeev): An argument had an illegal value" ∧
    matEigenLr eig [] [] ⟨0, 0, []⟩ ⟨0, 0, []⟩ ⟨0, 0, []⟩ ⟨0, 0, []⟩ ⟨0, 0, []⟩ =
      err "LAPACK ERROR (dgeev): An argument had an illegal value" ∧
    matEigenvalues eig [] [] ⟨0, 0, []⟩ = err "LAPACK ERROR (dgeev): An argument had an illegal value" := ⟨rfl, rfl, rfl⟩

end

end Russell.Lab
