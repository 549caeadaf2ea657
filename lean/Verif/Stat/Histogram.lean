import Verif.Prelude
import Mathlib.Order.Defs.LinearOrder
import Mathlib.Order.Basic
import Mathlib.Data.List.Count
import Mathlib.Algebra.Order.Ring.Rat
import Mathlib.Data.List.Basic

/-!
# Histogram (property C41)

Model of `Histogram` (/repo/russell_stat/src/histogram.rs) without the display options.  The counts are natural numbers (no overflow).
The comparison `x >= y` of the code is `y ≤ x`; with `PartialOrd` both `x < y` and `x >= y` may be false (NaN).
-/

namespace Russell.Stat

open Russell Res

/-- `Histogram` (/repo/russell_stat/src/histogram.rs:62-76) -/
structure Histogram (T : Type) where
  stations : List T
  counts : List Nat
  deriving DecidableEq

variable {T : Type} [LE T] [LT T] [DecidableLE T] [DecidableLT T]

/-- `Histogram::new` (/repo/russell_stat/src/histogram.rs:83-95) -/
def Histogram.new (stations : List T) : Res (Histogram T) :=
  if stations.length < 2 then err "histogram must have at least 2 stations"
  else ok { stations, counts := List.replicate (stations.length - 1) 0 }

/-- the loop of `find_bin` (/repo/russell_stat/src/histogram.rs:148-159); running out of `fuel` (not terminating) is a panic -/
def findBinLoop (stations : List T) (x : T) : (fuel lower upper : Nat) → Res Nat
  | 0, _, _ => panic
  | fuel + 1, lower, upper => do
    let d ← subUsize upper lower
    if d > 1 then do
      let mid := (upper + lower) / 2
      let s ← vget stations mid
      if s ≤ x then findBinLoop stations x fuel mid upper else findBinLoop stations x fuel lower mid
    else ok lower

/-- `find_bin` (/repo/russell_stat/src/histogram.rs:137-160) -/
def Histogram.findBin (h : Histogram T) (x : T) : Res (Option Nat) := do
  let nstation := h.stations.length
  let s0 ← vget h.stations 0
  if x < s0 then ok none
  else do
    let l ← subUsize nstation 1
    let sl ← vget h.stations l
    if sl ≤ x then ok none
    else do
      let i ← findBinLoop h.stations x (nstation + 1) 0 nstation
      ok (some i)

/-- one iteration of `count` (/repo/russell_stat/src/histogram.rs:100-102) -/
def Histogram.countOne (x : T) (h : Histogram T) : Res (Histogram T) := do
  match ← h.findBin x with
  | none => ok h
  | some i => do
    let c ← vget h.counts i
    let counts ← vset h.counts i (c + 1)
    ok { h with counts }

/-- `count` (/repo/russell_stat/src/histogram.rs:98-104) -/
def Histogram.count (h : Histogram T) (data : List T) : Res (Histogram T) := forList data h Histogram.countOne

/-- `reset` (/repo/russell_stat/src/histogram.rs:107-111) -/
def Histogram.reset (h : Histogram T) : Res (Histogram T) := do
  let counts ← forRange 0 h.counts.length h.counts fun i c => vset c i 0
  ok { h with counts }

/-- calls that change the counts -/
inductive HistOp (T : Type) where
  | count (data : List T)
  | reset

/-- a call -/
def HistOp.run (h : Histogram T) : HistOp T → Res (Histogram T)
  | .count d => h.count d
  | .reset => h.reset

/-- a sequence of calls -/
def runOps : List (HistOp T) → Histogram T → Res (Histogram T)
  | [], h => ok h
  | o :: os, h => do
    let h ← o.run h
    runOps os h

end Russell.Stat

namespace Russell.Stat

open Russell Res

variable {T : Type} [LinearOrder T]

/-- the values given to `count` since the last `reset` -/
def effective : List (HistOp T) → List T → List T
  | [], acc => acc
  | .count d :: os, acc => effective os (acc ++ d)
  | .reset :: os, _ => effective os []

/-- number of values of `l` in the bin `[a, b)` -/
def inBin (a b : T) (l : List T) : Nat := l.countP fun x => decide (a ≤ x ∧ x < b)

/-- what the counts are claimed to be -/
structure Counts (h : Histogram T) (stations l : List T) : Prop where
  same : h.stations = stations
  len : h.counts.length = stations.length - 1
  val : ∀ (i : Nat) (a b : T), stations[i]? = some a → stations[i + 1]? = some b → h.counts[i]? = some (inBin a b l)

theorem findBinLoop_spec {s : List T} {x : T} : ∀ (fuel lower upper : Nat), lower < upper → upper ≤ s.length → upper - lower < fuel →
    (∃ a, s[lower]? = some a ∧ a ≤ x) → (upper = s.length ∨ ∃ b, s[upper]? = some b ∧ x < b) →
    ∃ i, findBinLoop s x fuel lower upper = ok i ∧ i < s.length ∧ (∃ a, s[i]? = some a ∧ a ≤ x) ∧
      (i + 1 = s.length ∨ ∃ b, s[i + 1]? = some b ∧ x < b)
  | 0, _, _, _, _, hf, _, _ => by omega
  | fuel + 1, lower, upper, h1, h2, hf, hl, hu => by
    rw [findBinLoop, show subUsize upper lower = ok (upper - lower) by simp [subUsize, h1.le], ok_bind]
    by_cases hd : upper - lower > 1
    · rw [if_pos hd]
      have hm : (upper + lower) / 2 < s.length := by omega
      dsimp only
      rw [vget_lt hm, ok_bind]
      by_cases hc : s[(upper + lower) / 2] ≤ x
      · rw [if_pos hc]
        exact findBinLoop_spec fuel _ _ (by omega) h2 (by omega) ⟨_, List.getElem?_eq_getElem hm, hc⟩ hu
      · rw [if_neg hc]
        exact findBinLoop_spec fuel _ _ (by omega) (by omega) (by omega) hl
          (Or.inr ⟨_, List.getElem?_eq_getElem hm, not_le.1 hc⟩)
    · rw [if_neg hd]
      have : upper = lower + 1 := by omega
      subst this
      exact ⟨lower, rfl, by omega, hl, hu⟩

/-- `find_bin` returns a bin that contains the value, or `None` for values below the first or not below the last station (no
monotonicity needed). -/
theorem findBin_spec {h : Histogram T} {first last : T} (hlen : 2 ≤ h.stations.length) (hf : h.stations[0]? = some first)
    (hl : h.stations[h.stations.length - 1]? = some last) (x : T) :
    ((x < first ∨ last ≤ x) → h.findBin x = ok none) ∧
    (first ≤ x → x < last → ∃ i a b, h.findBin x = ok (some i) ∧ h.stations[i]? = some a ∧ h.stations[i + 1]? = some b ∧ a ≤ x ∧ x < b) := by
  unfold Histogram.findBin
  dsimp only
  rw [vget_of hf, ok_bind, show subUsize h.stations.length 1 = ok (h.stations.length - 1) by rw [subUsize, if_pos (by omega)]]
  constructor
  · intro hx
    by_cases h1 : x < first
    · rw [if_pos h1]
    · rw [if_neg h1, ok_bind, vget_of hl, ok_bind, if_pos (hx.resolve_left h1)]
  · intro h1 h2
    rw [if_neg (not_lt.2 h1), ok_bind, vget_of hl, ok_bind, if_neg (not_le.2 h2)]
    obtain ⟨i, e, hi, ⟨a, ha, hax⟩, hb⟩ := findBinLoop_spec (s := h.stations) (x := x) (h.stations.length + 1) 0 h.stations.length
      (by omega) (le_refl _) (by omega) ⟨first, hf, h1⟩ (Or.inl rfl)
    rw [e, ok_bind]
    rcases hb with hb | ⟨b, hb, hxb⟩
    · exfalso
      rw [show i = h.stations.length - 1 by omega, hl] at ha
      injection ha with ha
      subst ha
      exact absurd hax (not_le.2 h2)
    · exact ⟨i, a, b, rfl, ha, hb, hax, hxb⟩

theorem sorted_get {s : List T} (hs : s.Pairwise (· ≤ ·)) {i j : Nat} {a b : T} (hij : i ≤ j) (ha : s[i]? = some a) (hb : s[j]? = some b) :
    a ≤ b := by
  rcases Nat.lt_or_eq_of_le hij with h | h
  · obtain ⟨h1, h1'⟩ := List.getElem?_eq_some_iff.1 ha
    obtain ⟨h2, h2'⟩ := List.getElem?_eq_some_iff.1 hb
    rw [← h1', ← h2']
    exact List.pairwise_iff_getElem.1 hs i j h1 h2 h
  · subst h; rw [ha] at hb; injection hb with hb; exact hb.le

theorem countOne_spec {h : Histogram T} {s l : List T} (hs : s.Pairwise (· ≤ ·)) (hlen : 2 ≤ s.length) (hc : Counts h s l) (x : T) :
    ∃ h', h.countOne x = ok h' ∧ Counts h' s (l ++ [x]) := by
  have hsub : ∀ a b, inBin a b (l ++ [x]) = inBin a b l + if a ≤ x ∧ x < b then 1 else 0 := by
    intro a b
    unfold inBin
    rw [List.countP_append]
    congr 1
    by_cases hx : a ≤ x ∧ x < b <;> simp [hx]
  obtain ⟨first, hf⟩ : ∃ f, s[0]? = some f := ⟨_, List.getElem?_eq_getElem (by omega)⟩
  obtain ⟨last, hl⟩ : ∃ f, s[s.length - 1]? = some f := ⟨_, List.getElem?_eq_getElem (by omega)⟩
  obtain ⟨g1, g2⟩ := findBin_spec (h := h) (first := first) (last := last) (by rw [hc.same]; exact hlen) (by rw [hc.same]; exact hf)
    (by rw [hc.same]; exact hl) x
  unfold Histogram.countOne
  by_cases hx : x < first ∨ last ≤ x
  · rw [g1 hx, ok_bind]
    refine ⟨h, rfl, hc.same, hc.len, fun i a b ha hb => ?_⟩
    rw [hc.val i a b ha hb, hsub, if_neg, Nat.add_zero]
    rintro ⟨h1, h2⟩
    rcases hx with hx | hx
    · exact absurd (sorted_get hs (Nat.zero_le _) hf ha) (not_le.2 (lt_of_le_of_lt h1 hx))
    · obtain ⟨hb', _⟩ := List.getElem?_eq_some_iff.1 hb
      exact absurd (sorted_get hs (by omega) hb hl) (not_le.2 (lt_of_le_of_lt hx h2))
  · push Not at hx
    obtain ⟨k, ak, bk, e, hak, hbk, h1, h2⟩ := g2 hx.1 hx.2
    rw [hc.same] at hak hbk
    rw [e, ok_bind]
    dsimp only
    have hck := hc.val k ak bk hak hbk
    obtain ⟨hk, _⟩ := List.getElem?_eq_some_iff.1 hck
    rw [vget_of hck, ok_bind, vset_lt _ hk, ok_bind]
    refine ⟨_, rfl, hc.same, by simpa using hc.len, fun i a b ha hb => ?_⟩
    dsimp only
    rw [hsub]
    by_cases hik : k = i
    · subst hik
      rw [ha] at hak; injection hak with hak; subst hak
      rw [hb] at hbk; injection hbk with hbk; subst hbk
      rw [List.getElem?_set_self hk, if_pos ⟨h1, h2⟩]
    · rw [List.getElem?_set_ne hik, hc.val i a b ha hb, if_neg, Nat.add_zero]
      rintro ⟨h3, h4⟩
      rcases Nat.lt_or_gt_of_ne hik with hlt | hlt
      · exact absurd (sorted_get hs (by omega) hbk ha) (not_le.2 (lt_of_le_of_lt h3 h2))
      · exact absurd (sorted_get hs (by omega) hb hak) (not_le.2 (lt_of_le_of_lt h1 h4))

theorem count_spec {s : List T} (hs : s.Pairwise (· ≤ ·)) (hlen : 2 ≤ s.length) : ∀ (d : List T) {h : Histogram T} {l : List T},
    Counts h s l → ∃ h', h.count d = ok h' ∧ Counts h' s (l ++ d)
  | [], h, l, hc => ⟨h, rfl, by simpa using hc⟩
  | x :: d, h, l, hc => by
    obtain ⟨h1, e1, c1⟩ := countOne_spec hs hlen hc x
    obtain ⟨h2, e2, c2⟩ := count_spec hs hlen d c1
    refine ⟨h2, ?_, by simpa using c2⟩
    unfold Histogram.count at e2 ⊢
    rw [forList, e1, ok_bind, e2]

theorem reset_spec {h : Histogram T} {s l : List T} (hc : Counts h s l) : ∃ h', h.reset = ok h' ∧ Counts h' s [] := by
  unfold Histogram.reset
  obtain ⟨c, e, hl, hv⟩ := forRange_spec (f := fun i (c : List Nat) => vset c i 0)
    (fun k c => c.length = h.counts.length ∧ ∀ i, i < k → c[i]? = some 0) (Nat.zero_le h.counts.length) (s := h.counts)
    ⟨rfl, fun i hi => by omega⟩
    (by
      rintro k c _ hk ⟨h1, h2⟩
      refine ⟨_, vset_lt _ (by omega), by simpa using h1, fun i hi => ?_⟩
      by_cases hik : k = i
      · subst hik; rw [List.getElem?_set_self (by omega)]
      · rw [List.getElem?_set_ne hik, h2 i (by omega)])
  rw [e, ok_bind]
  refine ⟨_, rfl, hc.same, by rw [hl]; exact hc.len, fun i a b ha hb => ?_⟩
  obtain ⟨hb', _⟩ := List.getElem?_eq_some_iff.1 hb
  have := hc.len
  exact hv i (by omega)

/-- C41: after any sequence of `count` and `reset` calls on non-decreasing stations, no call fails and every count is the number of values,
given since the last reset, that lie in the bin `[station i, station i+1)`. -/
theorem C41_histogram {stations : List T} (hlen : 2 ≤ stations.length) (hs : stations.Pairwise (· ≤ ·)) (ops : List (HistOp T)) :
    ∃ h h', Histogram.new stations = ok h ∧ runOps ops h = ok h' ∧ Counts h' stations (effective ops []) := by
  have gen : ∀ (ops : List (HistOp T)) (h : Histogram T) (l : List T), Counts h stations l →
      ∃ h', runOps ops h = ok h' ∧ Counts h' stations (effective ops l) := by
    intro ops
    induction ops with
    | nil => exact fun h l hc => ⟨h, rfl, hc⟩
    | cons o os ih =>
      intro h l hc
      cases o with
      | count d =>
        obtain ⟨h1, e1, c1⟩ := count_spec hs hlen d hc
        obtain ⟨h2, e2, c2⟩ := ih h1 _ c1
        exact ⟨h2, by rw [runOps, HistOp.run, e1, ok_bind, e2], c2⟩
      | reset =>
        obtain ⟨h1, e1, c1⟩ := reset_spec hc
        obtain ⟨h2, e2, c2⟩ := ih h1 _ c1
        exact ⟨h2, by rw [runOps, HistOp.run, e1, ok_bind, e2], c2⟩
  have hnew : Counts ({ stations, counts := List.replicate (stations.length - 1) 0 } : Histogram T) stations [] := by
    refine ⟨rfl, by simp, fun i a b ha hb => ?_⟩
    obtain ⟨hb', _⟩ := List.getElem?_eq_some_iff.1 hb
    rw [List.getElem?_replicate, if_pos (by omega)]
    rfl
  obtain ⟨h', e, c⟩ := gen ops _ _ hnew
  exact ⟨_, h', by unfold Histogram.new; rw [if_neg (by omega)], e, c⟩

omit [LinearOrder T] in
theorem C41_few_stations {stations : List T} (h : stations.length < 2) : ∃ m, Histogram.new stations = err m := by
  unfold Histogram.new
  rw [if_pos h]
  exact ⟨_, rfl⟩

theorem inBin_split {a b c : T} (h1 : a ≤ b) (h2 : b ≤ c) (l : List T) : inBin a c l = inBin a b l + inBin b c l := by
  unfold inBin
  induction l with
  | nil => rfl
  | cons x l ih =>
    simp only [List.countP_cons, ih]
    by_cases hx : x < b
    · have e1 : x < c := lt_of_lt_of_le hx h2
      have e2 : ¬ b ≤ x := not_le.2 hx
      simp [hx, e1, e2]; omega
    · have e2 : b ≤ x := not_lt.1 hx
      have e1 : a ≤ x := h1.trans e2
      simp [hx, e1, e2]; omega

theorem sum_inBin (l : List T) : ∀ (s : List T) (a z : T), (a :: s).Pairwise (· ≤ ·) → (a :: s)[s.length]? = some z → ∀ c : List Nat,
    c.length = s.length → (∀ (i : Nat) (p q : T), (a :: s)[i]? = some p → (a :: s)[i + 1]? = some q → c[i]? = some (inBin p q l)) →
    c.sum = inBin a z l
  | [], a, z, _, hz, c, hc, _ => by
    have : c = [] := List.length_eq_zero_iff.1 hc
    subst this
    injection hz with hz
    subst hz
    unfold inBin
    rw [List.sum_nil, eq_comm, List.countP_eq_zero]
    intro x _
    simp
  | b :: s, a, z, hs, hz, c, hc, hv => by
    match c, hc with
    | c0 :: c, hc =>
      have h0 := hv 0 a b rfl rfl
      injection h0 with h0
      have hs' := (List.pairwise_cons.1 hs).2
      rw [List.sum_cons, sum_inBin l s b z hs' (by simpa using hz) c (by simpa using hc) (fun i p q hp hq => by
        have := hv (i + 1) p q (by simpa using hp) (by simpa using hq)
        simpa using this), h0]
      exact (inBin_split (sorted_get hs (Nat.zero_le 1) rfl rfl) (sorted_get hs (i := 1) (j := s.length + 1) (by omega) rfl (by simpa using hz)) l).symm

/-- C41: the counts add up to the number of values inside of `[first station, last station)`: values outside are not counted. -/
theorem C41_total {h : Histogram T} {stations l : List T} {first last : T} (hs : stations.Pairwise (· ≤ ·))
    (hf : stations[0]? = some first) (hl : stations[stations.length - 1]? = some last) (hc : Counts h stations l) :
    h.counts.sum = inBin first last l := by
  match stations, hf with
  | a :: s, hf =>
    injection hf with hf
    subst hf
    exact sum_inBin l s a last hs (by simpa using hl) h.counts (by simpa using hc.len) hc.val

example : ((do
    let h ← Histogram.new ([0, 1, 3] : List ℚ)
    runOps [.count [5], .count [1], .reset, .count [-1, 0, 1 / 2, 1], .count [3, 2]] h) : Res (Histogram ℚ)) =
    ok { stations := [0, 1, 3], counts := [2, 2] } := by decide +kernel

/-! ## NaN -/

/-- numbers with NaN, compared as by `PartialOrd for f64` -/
inductive WithNan where
  | num (q : ℚ)
  | nan
  deriving DecidableEq

instance : LE WithNan where le a b := match a, b with | .num p, .num q => p ≤ q | _, _ => False
instance : LT WithNan where lt a b := match a, b with | .num p, .num q => p < q | _, _ => False
instance : DecidableLE WithNan := fun a b => by
  cases a <;> cases b <;> simp only [LE.le] <;> infer_instance
instance : DecidableLT WithNan := fun a b => by
  cases a <;> cases b <;> simp only [LT.lt] <;> infer_instance

/-- C41 does not extend to NaN: it is counted in the first bin although it lies in none. -/
theorem C41_nan_counterexample :
    ((do
      let h ← Histogram.new [.num 0, .num 1, .num 2]
      h.count [.nan]) : Res (Histogram WithNan)) = ok { stations := [.num 0, .num 1, .num 2], counts := [1, 0] } := by
  rfl

end Russell.Stat
