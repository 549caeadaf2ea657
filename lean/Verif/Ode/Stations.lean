import Verif.Ode.Solver
import Verif.Lab.Dense
import Mathlib.Algebra.Order.Floor.Semiring
import Mathlib.Algebra.Order.Field.Basic
import Mathlib.Data.List.Chain
import Mathlib.Data.Rat.Cast.Order
import Mathlib.Data.Rat.Floor
import Mathlib.Tactic.Linarith
import Mathlib.Tactic.NormNum
import Mathlib.Tactic.FieldSimp
import Mathlib.Tactic.Ring

/-!
# Properties of the stations of the dense output (C50): `set_dense_h_out`, `set_dense_x_out`, `initialize`

Exact arithmetic in an ordered field with a floor.
-/

namespace Russell.Ode

open Russell Russell.Res Russell.Lab

variable {K σ : Type}

/-- Exact arithmetic: literals are the numbers they denote, conversions are floor and ceiling. -/
instance (priority := low) fieldOps [Field K] [LinearOrder K] [FloorSemiring K] : F64Ops K where
  lit q := (q : K)
  truncU := Nat.floor
  ceilU := Nat.ceil

variable [Field K] [LinearOrder K] [FloorSemiring K]

theorem lit_eq (q : ℚ) : (lit q : K) = (q : K) := rfl
theorem truncU_eq (x : K) : truncU x = ⌊x⌋₊ := rfl
theorem ceilU_eq (x : K) : ceilU x = ⌈x⌉₊ := rfl

theorem tenEps_eq : (tenEps : K) = 10 / 4503599627370496 := by
  unfold tenEps f64Epsilon
  rw [lit_eq, lit_eq]
  push_cast
  ring

theorem epsX1HOut_eq : (epsX1HOut : K) = 1 / 10000000000000 := by
  unfold epsX1HOut
  rw [lit_eq]
  push_cast
  rfl

theorem resize_length (n : Nat) (z : K) (l : List K) :
    (if l.length ≠ n then (l ++ List.replicate (n - l.length) z).take n else l).length = n := by
  split
  · simp; omega
  · simp_all

variable [IsStrictOrderedRing K]

theorem tenEps_pos : (0 : K) < tenEps := by rw [tenEps_eq]; positivity

theorem epsX1HOut_pos : (0 : K) < epsX1HOut := by rw [epsX1HOut_eq]; positivity

/-- The number of uniform stations. -/
def nStations (x0 x1 h : K) : Nat := max 2 (⌊(x1 + epsX1HOut - x0) / h⌋₊ + 1)

omit [IsStrictOrderedRing K] in
/-- The list built by the uniform branch of `initialize`. -/
theorem uniformStations_isVec {x0 x1 h : K} (dx : List K) :
    ∃ r, uniformStations x0 x1 h dx = ok r ∧
      IsVec r (nStations x0 x1 h) (fun i => if i + 1 = nStations x0 x1 h then x1 else x0 + (i : K) * h) := by
  have hn2 : 2 ≤ nStations x0 x1 h := by unfold nStations; omega
  unfold uniformStations
  rw [truncU_eq]
  change ∃ r, (do
    let dx ← vset (if dx.length ≠ nStations x0 x1 h then (dx ++ List.replicate (nStations x0 x1 h - dx.length) (lit 0)).take
      (nStations x0 x1 h) else dx) 0 x0
    let dx ← vset dx (nStations x0 x1 h - 1) x1
    forRange 1 (nStations x0 x1 h - 1) dx (fun i dx => do
      let p ← vget dx (i - 1)
      vset dx i (p + h))) = ok r ∧ _
  generalize nStations x0 x1 h = n at hn2 ⊢
  generalize hd : (if dx.length ≠ n then (dx ++ List.replicate (n - dx.length) (lit 0)).take n else dx) = d
  have hlen : d.length = n := by rw [← hd]; exact resize_length n _ dx
  have hv : IsVec d n (fun i => d.getD i 0) := by
    have := isVec_self d (0 : K)
    rwa [hlen] at this
  obtain ⟨d1, e1, v1⟩ := hv.vset (show 0 < n by omega) x0
  obtain ⟨d2, e2, v2⟩ := v1.vset (show n - 1 < n by omega) x1
  rw [e1, ok_bind, e2, ok_bind]
  obtain ⟨r, er, hr⟩ := forRange_spec (f := fun i (dx : List K) => do
      let p ← vget dx (i - 1)
      vset dx i (p + h)) (lo := 1) (hi := n - 1)
    (fun k l => ∃ g, IsVec l n g ∧ g (n - 1) = x1 ∧ ∀ i, i < k → g i = x0 + (i : K) * h) (s := d2) (by omega)
    ⟨_, v2, by simp, by
      rintro i hi
      have : i = 0 := by omega
      subst this
      simp only [Nat.cast_zero, zero_mul, add_zero]
      rw [if_neg (by omega)]
      simp⟩ (by
      rintro k l hk1 hk2 ⟨g, vg, g1, g2⟩
      obtain ⟨l', el, vl⟩ := vg.vset (show k < n by omega) (g (k - 1) + h)
      refine ⟨l', ?_, _, vl, ?_, ?_⟩
      · rw [vg.vget (by omega), ok_bind, el]
      · rw [if_neg (by omega)]; exact g1
      · intro i hi
        split
        · rename_i hik
          subst hik
          rw [g2 (i - 1) (by omega)]
          obtain ⟨j, rfl⟩ : ∃ j, i = j + 1 := ⟨i - 1, by omega⟩
          simp only [Nat.add_sub_cancel]
          push_cast
          ring
        · exact g2 i (by omega))
  obtain ⟨g, vg, g1, g2⟩ := hr
  refine ⟨r, er, vg.congr ?_⟩
  intro i hi
  split
  · have : i = n - 1 := by omega
    rw [this, g1]
  · exact g2 i (by omega)

theorem nStations_last {x0 x1 h : K} (hx : x0 < x1) (hh : epsX1HOut < h) {i : Nat} (hi : i + 1 < nStations x0 x1 h) :
    x0 + (i : K) * h < x1 := by
  have hpos : (0 : K) < h := lt_trans epsX1HOut_pos hh
  rcases Nat.eq_zero_or_pos i with rfl | hi0
  · simpa using hx
  · unfold nStations at hi
    have h1 : i + 1 ≤ ⌊(x1 + epsX1HOut - x0) / h⌋₊ := by omega
    have h2 : ((i + 1 : Nat) : K) ≤ (x1 + epsX1HOut - x0) / h := (Nat.le_floor_iff' (by omega)).1 h1
    rw [le_div_iff₀ hpos] at h2
    push_cast at h2
    linarith

theorem nStations_gap {x0 x1 h : K} (hh : 0 < h) :
    x1 - (x0 + ((nStations x0 x1 h - 2 : Nat) : K) * h) < 2 * h := by
  have hlt := Nat.lt_floor_add_one ((x1 + epsX1HOut - x0) / h)
  rw [div_lt_iff₀ hh] at hlt
  have he : (0 : K) < epsX1HOut := epsX1HOut_pos
  have h1 : (⌊(x1 + epsX1HOut - x0) / h⌋₊ : K) ≤ ((nStations x0 x1 h - 2 : Nat) : K) + 1 := by
    have : ⌊(x1 + epsX1HOut - x0) / h⌋₊ ≤ (nStations x0 x1 h - 2) + 1 := by unfold nStations; omega
    exact_mod_cast this
  have h2 : (⌊(x1 + epsX1HOut - x0) / h⌋₊ + 1) * h ≤ (((nStations x0 x1 h - 2 : Nat) : K) + 2) * h :=
    mul_le_mul_of_nonneg_right (by linarith) hh.le
  linarith

/-- The stations of a dense output: strictly increasing, from `x0` to `x1`. -/
structure GoodStations (x0 x1 : K) (l : List K) : Prop where
  len : 2 ≤ l.length
  sorted : l.Pairwise (· < ·)
  first : l.head? = some x0
  last : l.getLast? = some x1

omit [Field K] [FloorSemiring K] [IsStrictOrderedRing K] in
theorem pairwise_of_isVec {l : List K} {n : Nat} {g : Nat → K} (h : IsVec l n g)
    (hg : ∀ i j, i < j → j < n → g i < g j) : l.Pairwise (· < ·) := by
  rw [List.pairwise_iff_getElem]
  intro i j hi hj hij
  have h1 := h.get i (by have := h.len; omega)
  have h2 := h.get j (by have := h.len; omega)
  rw [List.getElem?_eq_getElem hi, Option.some.injEq] at h1
  rw [List.getElem?_eq_getElem hj, Option.some.injEq] at h2
  rw [h1, h2]
  exact hg i j hij (by have := h.len; omega)

theorem uniform_good {x0 x1 h : K} (hx : x0 < x1) (hh : epsX1HOut < h) {l : List K}
    (hv : IsVec l (nStations x0 x1 h) (fun i => if i + 1 = nStations x0 x1 h then x1 else x0 + (i : K) * h)) :
    GoodStations x0 x1 l := by
  have hpos : (0 : K) < h := lt_trans epsX1HOut_pos hh
  have hn2 : 2 ≤ nStations x0 x1 h := by unfold nStations; omega
  refine ⟨by rw [hv.len]; exact hn2, pairwise_of_isVec hv ?_, ?_, ?_⟩
  · intro i j hij hj
    rw [if_neg (by omega)]
    split
    · exact nStations_last hx hh (by omega)
    · have : (i : K) * h < (j : K) * h := mul_lt_mul_of_pos_right (by exact_mod_cast hij) hpos
      linarith
  · rw [List.head?_eq_getElem?, hv.get 0 (by omega), if_neg (by omega)]
    simp
  · rw [List.getLast?_eq_getElem?, hv.len, hv.get _ (by omega), if_pos (by omega)]

omit [Field K] [LinearOrder K] [FloorSemiring K] [IsStrictOrderedRing K] in
theorem cleared_dense (o : Output K σ) (b : Bool) :
    (o.cleared b).dense_h_out = o.dense_h_out ∧ (o.cleared b).dense_x = o.dense_x ∧ (o.cleared b).dense_y = o.dense_y ∧
      (o.cleared b).withDenseOutput = o.withDenseOutput := by
  unfold Output.cleared Output.withDenseOutput
  dsimp only
  split <;> [skip; exact ⟨rfl, rfl, rfl, rfl⟩]
  split <;> split <;> exact ⟨rfl, rfl, rfl, rfl⟩

omit [IsStrictOrderedRing K] in
theorem resizeTo_length (n : Nat) (l : List K) : (resizeTo n l).length = n := by
  unfold resizeTo
  exact resize_length n _ l

/-- **C50**: `set_dense_h_out`. With an output step larger than `1e-13`, the stations are strictly increasing, begin with
`x0`, end with `x1`, and neighbours are `h_out` apart, except the last two, whose distance is less than `2 h_out`; every
recorded series has one value per station. -/
theorem C50_h_out {o o1 : Output K σ} {h x0 x1 : K} (hset : o.setDenseHOut h = ok o1) (hd : o.withDenseOutput = true)
    (hx : x0 < x1) (hh : 1 / 10000000000000 < h) (b : Bool) :
    ∃ o', o1.initialize x0 x1 b = ok o' ∧ GoodStations x0 x1 o'.dense_x ∧
      (∀ i a c, i + 2 < o'.dense_x.length → o'.dense_x[i]? = some a → o'.dense_x[i + 1]? = some c → c = a + h) ∧
      (∀ a, o'.dense_x[o'.dense_x.length - 2]? = some a → x1 - a < 2 * h) ∧
      (∀ p ∈ o'.dense_y, p.2.length = o'.dense_x.length) := by
  have hh' : (epsX1HOut : K) < h := by rw [epsX1HOut_eq]; exact hh
  have hpos : (0 : K) < h := lt_trans epsX1HOut_pos hh'
  unfold Output.setDenseHOut at hset
  split at hset
  · cases hset
  · cases hset
    obtain ⟨c1, c2, c3, c4⟩ := cleared_dense ({ o with dense_h_out := some h } : Output K σ) b
    obtain ⟨r, er, vr⟩ := uniformStations_isVec (x0 := x0) (x1 := x1) (h := h)
      (({ o with dense_h_out := some h } : Output K σ).cleared b).dense_x
    have hn2 : 2 ≤ nStations x0 x1 h := by unfold nStations; omega
    unfold Output.initialize
    rw [if_neg (by simpa using hx)]
    dsimp only
    rw [if_pos (by rw [c4]; exact hd), c1]
    unfold stations
    dsimp only
    rw [er, ok_bind]
    refine ⟨_, rfl, uniform_good hx hh' vr, ?_, ?_, ?_⟩
    · intro i a c hi ha hc
      dsimp only at hi ha hc
      rw [vr.len] at hi
      rw [vr.get i (by omega), if_neg (by omega), Option.some.injEq] at ha
      rw [vr.get (i + 1) (by omega), if_neg (by omega), Option.some.injEq] at hc
      rw [← ha, ← hc]
      push_cast
      ring
    · intro a ha
      dsimp only at ha
      rw [vr.len, vr.get _ (by omega), if_neg (by omega), Option.some.injEq] at ha
      rw [← ha]
      exact nStations_gap hpos
    · intro p hp
      dsimp only at hp ⊢
      rw [List.mem_map] at hp
      obtain ⟨q, -, rfl⟩ := hp
      exact resizeTo_length _ _

/-- Consecutive stations of the user are far enough from each other. -/
def Spaced (ix : List K) : Prop := ix.IsChain fun a b => b - a > 10 / 4503599627370496

omit [IsStrictOrderedRing K] in
theorem spaced_iff (ix : List K) :
    Spaced ix ↔ ∀ k a b, 0 < k → ix[k]? = some a → ix[k - 1]? = some b → tenEps < a - b := by
  unfold Spaced
  rw [List.isChain_iff_getElem, tenEps_eq]
  constructor
  · intro h k a b hk ha hb
    obtain ⟨j, rfl⟩ : ∃ j, k = j + 1 := ⟨k - 1, by omega⟩
    simp only [Nat.add_sub_cancel] at hb
    obtain ⟨h1, rfl⟩ := List.getElem?_eq_some_iff.1 ha
    obtain ⟨h2, rfl⟩ := List.getElem?_eq_some_iff.1 hb
    exact h j h1
  · intro h i hi
    exact h (i + 1) _ _ (by omega) (List.getElem?_eq_getElem hi) (by simp)

theorem xOutTurn_ok {ix : List K} {k : Nat} (hk : k < ix.length) {l : List K} (hl : l.length = ix.length + 2)
    (hsp : ∀ a b, 0 < k → ix[k]? = some a → ix[k - 1]? = some b → tenEps < a - b) :
    xOutTurn ix k l = ok (l.set (1 + k) ix[k]) := by
  unfold xOutTurn
  have e2 : vset l (1 + k) ix[k] = ok (l.set (1 + k) ix[k]) := vset_lt _ (by omega)
  split
  · rename_i hk0
    rw [vget_lt hk, ok_bind, vget_lt (show k - 1 < ix.length by omega), ok_bind]
    have hs := hsp ix[k] ix[k - 1] hk0 (List.getElem?_eq_getElem hk) (List.getElem?_eq_getElem (by omega))
    have hp : (0 : K) < tenEps := tenEps_pos
    rw [if_neg (by linarith), if_neg (by linarith), ok_bind, e2]
  · rw [vget_lt hk, ok_bind, e2]

theorem xOutTurn_spaced {ix : List K} {k : Nat} {l l' : List K} (h : xOutTurn ix k l = ok l') :
    ∀ a b, 0 < k → ix[k]? = some a → ix[k - 1]? = some b → tenEps < a - b := by
  intro a b hk ha hb
  unfold xOutTurn at h
  rw [if_pos hk, vget_of ha, ok_bind, vget_of hb, ok_bind] at h
  split at h
  · cases h
  · split at h
    · cases h
    · rename_i _ h2
      exact not_le.1 h2

theorem setDenseXOut_ok {o : Output K σ} {ix : List K} (h : Spaced ix) :
    o.setDenseXOut ix = ok { o with dense_x := lit 0 :: ix ++ [lit 0], dense_h_out := none } := by
  rw [spaced_iff] at h
  unfold Output.setDenseXOut
  obtain ⟨r, er, hr⟩ := forRange_spec (f := xOutTurn ix) (lo := 0) (hi := ix.length)
    (fun k l => l = lit 0 :: (ix.take k ++ List.replicate (ix.length - k + 1) (lit 0)))
    (s := List.replicate (ix.length + 2) (lit 0)) (by omega)
    (by simp [List.replicate_succ]) (by
      rintro k l - hk rfl
      refine ⟨_, xOutTurn_ok hk ?_ (h k), ?_⟩
      · simp; omega
      · rw [Nat.add_comm 1 k, List.set_cons_succ]
        congr 1
        rw [List.set_append_right _ _ (by simp)]
        have h1 : ix.length - k + 1 = (ix.length - (k + 1) + 1) + 1 := by omega
        have h2 : k - (ix.take k).length = 0 := by simp; omega
        rw [h1, h2, List.replicate_succ, List.set_cons_zero]
        have h3 : ix.take (k + 1) = ix.take k ++ [ix[k]] := by simp
        rw [h3, List.append_assoc]
        rfl)
  rw [er, ok_bind, hr]
  simp

theorem setDenseXOut_spaced {o o' : Output K σ} {ix : List K} (h : o.setDenseXOut ix = ok o') : Spaced ix := by
  rw [spaced_iff]
  unfold Output.setDenseXOut at h
  rw [bind_eq_ok] at h
  obtain ⟨dx, h1, -⟩ := h
  have := forRange_ok (fun k _ => ∀ j, j < k → ∀ a b, 0 < j → ix[j]? = some a → ix[j - 1]? = some b → tenEps < a - b)
    (Nat.zero_le _) (by intro j hj; omega) (by
      intro k s s' _ hk hI hf j hj
      rcases Nat.lt_succ_iff_lt_or_eq.1 hj with hj | rfl
      · exact hI j hj
      · exact xOutTurn_spaced hf) h1
  intro k a b hk ha hb
  exact this k (by have := (List.getElem?_eq_some_iff.1 ha).1; omega) a b hk ha hb

/-- **C50**: `set_dense_x_out` accepts exactly the lists whose neighbours increase by more than `10 EPSILON`. -/
theorem C50_x_out_accepts (o : Output K σ) (ix : List K) : (o.setDenseXOut ix).isOk = true ↔ Spaced ix := by
  constructor
  · intro h
    cases hs : o.setDenseXOut ix with
    | ok o' => exact setDenseXOut_spaced hs
    | err m => rw [hs] at h; cases h
    | panic => rw [hs] at h; cases h
  · intro h
    rw [setDenseXOut_ok h]
    rfl

omit [IsStrictOrderedRing K] in
theorem userStations_eq {x0 x1 a b : K} (ix : List K) :
    userStations x0 x1 (a :: ix ++ [b]) =
      if ∃ c, ix.head? = some c ∧ c ≤ x0 then Res.err "the first interior x_out for dense output must be > x0"
      else if ∃ c, ix.getLast? = some c ∧ x1 ≤ c then Res.err "the last interior x_out for dense output must be < x1"
      else ok (x0 :: ix ++ [x1]) := by
  have hs2 : (x0 :: ix ++ [b]).set (ix.length + 1) x1 = x0 :: ix ++ [x1] := by
    rw [List.set_append_right _ _ (by simp)]
    simp
  unfold userStations
  simp only [List.length_append, List.length_cons, List.length_nil]
  rw [if_neg (by omega)]
  simp only [List.length_append, List.length_cons, List.length_nil]
  rw [vset_lt _ (by simp), ok_bind, List.cons_append, List.set_cons_zero, vset_lt _ (by simp), ok_bind]
  have e1 : ix.length + 1 + (0 + 1) - 1 = ix.length + 1 := by omega
  rw [e1, ← List.cons_append, hs2]
  cases ix with
  | nil => simp
  | cons c r =>
    rw [if_pos (by simp)]
    have g1 : vget (x0 :: (c :: r) ++ [x1]) 1 = ok c := rfl
    have g2 : vget (x0 :: (c :: r) ++ [x1]) ((c :: r).length + 1 + (0 + 1) - 2) = ok ((c :: r).getLast (by simp)) := by
      apply vget_of
      rw [show (c :: r).length + 1 + (0 + 1) - 2 = r.length + 1 by simp, List.cons_append, List.getElem?_cons_succ,
        List.getElem?_append_left (by simp), List.getLast_eq_getElem]
      simp
    rw [g1, ok_bind]
    have q1 : (∃ d, (c :: r).head? = some d ∧ d ≤ x0) ↔ c ≤ x0 := by simp
    have q2 : (∃ d, (c :: r).getLast? = some d ∧ x1 ≤ d) ↔ x1 ≤ (c :: r).getLast (by simp) := by
      rw [List.getLast?_eq_some_getLast (by simp)]
      simp only [Option.some.injEq]
      constructor
      · rintro ⟨d, rfl, h⟩; exact h
      · intro h; exact ⟨_, rfl, h⟩
    simp only [q1, q2]
    split
    · rfl
    · rw [g2, ok_bind]

theorem spaced_pairwise {ix : List K} (h : Spaced ix) : ix.Pairwise (· < ·) := by
  have : ix.IsChain (· < ·) := by
    refine List.IsChain.imp ?_ h
    intro a b hab
    have : (0 : K) < 10 / 4503599627370496 := by positivity
    linarith
  exact List.isChain_iff_pairwise.1 this

/-- The stations of the user: accepted exactly when all are inside the interval; then the result is good. -/
theorem user_good {ix : List K} (hsp : Spaced ix) {a b x0 x1 : K} (hx : x0 < x1) :
    ((userStations x0 x1 (a :: ix ++ [b])).isOk = true ↔ ∀ c ∈ ix, x0 < c ∧ c < x1) ∧
      ∀ l, userStations x0 x1 (a :: ix ++ [b]) = ok l → l = x0 :: ix ++ [x1] ∧ GoodStations x0 x1 l := by
  have hpw := spaced_pairwise hsp
  rw [userStations_eq]
  have hhead : (∃ c, ix.head? = some c ∧ c ≤ x0) ↔ ¬ ∀ c ∈ ix, x0 < c := by
    push Not
    constructor
    · rintro ⟨c, h1, h2⟩
      exact ⟨c, List.mem_of_head? h1, h2⟩
    · rintro ⟨c, h1, h2⟩
      cases ix with
      | nil => cases h1
      | cons d r =>
        refine ⟨d, rfl, ?_⟩
        rcases List.mem_cons.1 h1 with rfl | h1
        · exact h2
        · exact ((List.pairwise_cons.1 hpw).1 c h1).le.trans h2
  have hlast : (∃ c, ix.getLast? = some c ∧ x1 ≤ c) ↔ ¬ ∀ c ∈ ix, c < x1 := by
    push Not
    constructor
    · rintro ⟨c, h1, h2⟩
      exact ⟨c, List.mem_of_getLast? h1, h2⟩
    · rintro ⟨c, h1, h2⟩
      have hne : ix ≠ [] := List.ne_nil_of_mem h1
      refine ⟨ix.getLast hne, List.getLast?_eq_some_getLast hne, h2.trans ?_⟩
      rw [← List.dropLast_append_getLast hne] at h1 hpw
      rcases List.mem_append.1 h1 with h1 | h1
      · exact ((List.pairwise_append.1 hpw).2.2 c h1 _ (by simp)).le
      · simp only [List.mem_singleton] at h1
        exact h1.le
  by_cases hA : ∀ c ∈ ix, x0 < c
  · by_cases hB : ∀ c ∈ ix, c < x1
    · rw [if_neg (by rw [hhead]; exact not_not.2 hA), if_neg (by rw [hlast]; exact not_not.2 hB)]
      refine ⟨⟨fun _ c hc => ⟨hA c hc, hB c hc⟩, fun _ => rfl⟩, ?_⟩
      intro l hl
      cases hl
      refine ⟨rfl, ⟨by simp, ?_, rfl, by rw [List.getLast?_concat]⟩⟩
      rw [List.pairwise_append]
      refine ⟨List.pairwise_cons.2 ⟨hA, hpw⟩, by simp, ?_⟩
      intro a ha c hc
      simp only [List.mem_singleton] at hc
      subst hc
      rcases List.mem_cons.1 ha with rfl | ha
      · exact hx
      · exact hB a ha
    · rw [if_neg (by rw [hhead]; exact not_not.2 hA), if_pos (hlast.2 hB)]
      refine ⟨⟨fun h => (by cases h), fun h => absurd (fun c hc => (h c hc).2) hB⟩, fun o' h => (by cases h)⟩
  · rw [if_pos (hhead.2 hA)]
    refine ⟨⟨fun h => (by cases h), fun h => absurd (fun c hc => (h c hc).1) hA⟩, fun o' h => (by cases h)⟩

omit [IsStrictOrderedRing K] in
/-- `initialize` with dense output. -/
theorem initialize_dense {o : Output K σ} (hd : o.withDenseOutput = true) {x0 x1 : K} (hx : x0 < x1) (b : Bool) :
    o.initialize x0 x1 b = (do
      let dx ← stations x0 x1 o.dense_h_out o.dense_x
      ok { o.cleared b with
        dense_x := dx
        dense_y := o.dense_y.map fun p => (p.1, resizeTo dx.length p.2)
        x0 := x0
        x1 := x1
        initialized := true }) := by
  obtain ⟨c1, c2, c3, c4⟩ := cleared_dense o b
  unfold Output.initialize
  rw [if_neg (by simpa using hx)]
  dsimp only
  rw [if_pos (by rw [c4]; exact hd), c1, c2, c3]

/-- **C50**: `set_dense_x_out`. A list accepted by `set_dense_x_out` is accepted by `initialize` exactly when all its
stations are inside the interval; then the stations are `x0`, the given ones, `x1`: strictly increasing. -/
theorem C50_x_out {o o1 : Output K σ} {ix : List K} {x0 x1 : K} (hset : o.setDenseXOut ix = ok o1)
    (hd : o.withDenseOutput = true) (hx : x0 < x1) (b : Bool) :
    ((o1.initialize x0 x1 b).isOk = true ↔ ∀ c ∈ ix, x0 < c ∧ c < x1) ∧
      ∀ o', o1.initialize x0 x1 b = ok o' →
        o'.dense_x = x0 :: ix ++ [x1] ∧ GoodStations x0 x1 o'.dense_x ∧
        ∀ p ∈ o'.dense_y, p.2.length = o'.dense_x.length := by
  have hsp := setDenseXOut_spaced hset
  rw [setDenseXOut_ok hsp] at hset
  cases hset
  rw [initialize_dense (by exact hd) hx]
  obtain ⟨g1, g2⟩ := user_good hsp (a := lit 0) (b := lit 0) hx
  unfold stations
  dsimp only
  rw [← g1]
  constructor
  · cases userStations x0 x1 (lit 0 :: ix ++ [lit 0]) <;> simp [Res.isOk]
  · intro o' ho'
    rw [bind_eq_ok] at ho'
    obtain ⟨l, hl, ho'⟩ := ho'
    cases ho'
    refine ⟨(g2 l hl).1, (g2 l hl).2, ?_⟩
    intro p hp
    dsimp only at hp ⊢
    rw [List.mem_map] at hp
    obtain ⟨q, -, rfl⟩ := hp
    exact resizeTo_length _ _

/-- The stations have been set properly: by `set_dense_h_out` with a step larger than `1e-13`, or by `set_dense_x_out`, or not
at all (then only the ends are stations). -/
def StationsSet (o : Output K σ) : Prop :=
  (∃ h, o.dense_h_out = some h ∧ 1 / 10000000000000 < h) ∨
    (o.dense_h_out = none ∧ (o.dense_x = [] ∨ ∃ a ix b, o.dense_x = a :: ix ++ [b] ∧ Spaced ix))

omit [IsStrictOrderedRing K] in
theorem stationsSet_new : StationsSet (Output.new : Output K σ) := Or.inr ⟨rfl, Or.inl rfl⟩

omit [IsStrictOrderedRing K] in
theorem stationsSet_h_out {o o1 : Output K σ} {h : K} (hset : o.setDenseHOut h = ok o1) (hh : 1 / 10000000000000 < h) :
    StationsSet o1 := by
  unfold Output.setDenseHOut at hset
  split at hset
  · cases hset
  · cases hset
    exact Or.inl ⟨h, rfl, hh⟩

theorem stationsSet_x_out {o o1 : Output K σ} {ix : List K} (hset : o.setDenseXOut ix = ok o1) : StationsSet o1 := by
  have hsp := setDenseXOut_spaced hset
  rw [setDenseXOut_ok hsp] at hset
  cases hset
  exact Or.inr ⟨rfl, Or.inr ⟨_, ix, _, rfl, hsp⟩⟩

omit [IsStrictOrderedRing K] in
/-- The other setters do not touch the stations. -/
theorem stationsSet_setters {o : Output K σ} (h : StationsSet o) (cb : OutCallback K σ) (sel : List Nat) :
    StationsSet (o.setStepCallback cb) ∧ StationsSet o.setStepFileWriting ∧ StationsSet (o.setStepRecording sel) ∧
      StationsSet (o.setDenseCallback cb) ∧ StationsSet (o.setDenseRecording sel) := ⟨h, h, h, h, h⟩

/-- **C50**: `initialize` makes good stations of stations set properly, whatever was in the structure before. -/
theorem C50_initialize {o o' : Output K σ} (hS : StationsSet o) (hd : o.withDenseOutput = true) {x0 x1 : K} (hx : x0 < x1)
    {b : Bool} (he : o.initialize x0 x1 b = ok o') :
    GoodStations x0 x1 o'.dense_x ∧ (∀ p ∈ o'.dense_y, p.2.length = o'.dense_x.length) ∧ StationsSet o' := by
  rw [initialize_dense hd hx, bind_eq_ok] at he
  obtain ⟨l, hl, he⟩ := he
  obtain ⟨c1, -, -, -⟩ := cleared_dense o b
  cases he
  refine ⟨?_, ?_, ?_⟩
  · dsimp only
    rcases hS with ⟨h, h1, h2⟩ | ⟨h1, h2 | ⟨a, ix, b', h2, h3⟩⟩
    · rw [h1] at hl
      obtain ⟨r, er, vr⟩ := uniformStations_isVec (x0 := x0) (x1 := x1) (h := h) o.dense_x
      unfold stations at hl
      dsimp only at hl
      rw [er] at hl
      cases hl
      exact uniform_good hx (by rw [epsX1HOut_eq]; exact h2) vr
    · rw [h1, h2] at hl
      unfold stations at hl
      dsimp only at hl
      have : userStations x0 x1 ([] : List K) = userStations x0 x1 (lit 0 :: [] ++ [lit 0]) := rfl
      rw [this] at hl
      exact ((user_good (ix := []) (by unfold Spaced; simp) hx).2 l hl).2
    · rw [h1, h2] at hl
      exact ((user_good h3 hx).2 l hl).2
  · intro p hp
    dsimp only at hp ⊢
    rw [List.mem_map] at hp
    obtain ⟨q, -, rfl⟩ := hp
    exact resizeTo_length _ _
  · rcases hS with ⟨h, h1, h2⟩ | ⟨h1, h2 | ⟨a, ix, b', h2, h3⟩⟩
    · exact Or.inl ⟨h, c1.trans h1, h2⟩
    · rw [h1, h2] at hl
      unfold stations at hl
      dsimp only at hl
      have : userStations x0 x1 ([] : List K) = userStations x0 x1 (lit 0 :: [] ++ [lit 0]) := rfl
      rw [this] at hl
      exact Or.inr ⟨c1.trans h1, Or.inr ⟨x0, [], x1, ((user_good (by unfold Spaced; simp) hx).2 l hl).1, by unfold Spaced; simp⟩⟩
    · rw [h1, h2] at hl
      exact Or.inr ⟨c1.trans h1, Or.inr ⟨x0, ix, x1, ((user_good h3 hx).2 l hl).1, h3⟩⟩

/-! ### Cases -/

/-- An output that records the first component. -/
def sampleOut : Output ℚ Unit := Output.new.setDenseRecording [0]

/-- The stations after `initialize`. -/
def stationsOf (r : Res (Output ℚ Unit)) : Res (List ℚ) :=
  match r with
  | .ok o => ok o.dense_x
  | .err m => Res.err m
  | .panic => Res.panic

/-- Case of `C50_h_out`: output every 0.4 on `[0, 1]`; there is no station at 0.8 (the last gap is 0.6). -/
example : ∃ o1, sampleOut.setDenseHOut (2 / 5) = ok o1 ∧ sampleOut.withDenseOutput = true ∧
    stationsOf (o1.initialize 0 1 false) = ok [0, 2 / 5, 1] := by
  refine ⟨{ sampleOut with dense_h_out := some (2 / 5) }, ?_, rfl, ?_⟩
  · unfold Output.setDenseHOut
    rw [if_neg (by decide +kernel)]
  · decide +kernel

/-- Case of `C50_x_out`. -/
example : ∃ o1, sampleOut.setDenseXOut [1 / 4, 1 / 2] = ok o1 ∧
    stationsOf (o1.initialize 0 1 false) = ok [0, 1 / 4, 1 / 2, 1] :=
  ⟨_, setDenseXOut_ok (by unfold Spaced; decide +kernel), by decide +kernel⟩

/-- **C50**, not for every output step accepted by `set_dense_h_out`: with `h_out = 1e-14` on `[0, 1e-14]` the tolerance
`1e-13` added to the length gives stations beyond `x1`, and the list is not increasing. -/
theorem C50_small_h_out_counterexample :
    ∃ o1 l, sampleOut.setDenseHOut (1 / 10 ^ 14) = ok o1 ∧
      stationsOf (o1.initialize 0 (1 / 10 ^ 14) false) = ok l ∧ l.length = 12 ∧ ¬ l.Pairwise (· < ·) ∧
      l[5]? = some (5 / 10 ^ 14) := by
  refine ⟨{ sampleOut with dense_h_out := some (1 / 10 ^ 14) },
    [0, 1 / 10 ^ 14, 2 / 10 ^ 14, 3 / 10 ^ 14, 4 / 10 ^ 14, 5 / 10 ^ 14, 6 / 10 ^ 14, 7 / 10 ^ 14, 8 / 10 ^ 14, 9 / 10 ^ 14,
      10 / 10 ^ 14, 1 / 10 ^ 14], ?_, ?_, rfl, by decide +kernel, rfl⟩
  · unfold Output.setDenseHOut
    rw [if_neg (by decide +kernel)]
  · decide +kernel

end Russell.Ode
