import Verif.Lab.Dense
import Mathlib.Data.List.Nodup
import Mathlib.Data.List.Range
import Mathlib.Data.List.Sort
import Mathlib.Data.Finset.Card
import Mathlib.Data.Finset.Dedup

/-!
# Numbering of unknown and prescribed equations (property C45)

Model of `EquationHandler` (/repo/russell_pde/src/equation_handler.rs).  The hash set of prescribed equations is only used for
membership tests; it is modelled by the list.  `usize::MAX` marks an absent index, as in the code.
-/

namespace Russell.Pde

open Russell Res

/-- `usize::MAX` -/
def usizeMax : Nat := 18446744073709551615

/-- `EquationHandler` (/repo/russell_pde/src/equation_handler.rs:89-119) -/
structure EquationHandler where
  neq : Nat
  isPresc : List Bool
  eToIu : List Nat
  eToIp : List Nat
  uSorted : List Nat
  pSorted : List Nat
  deriving DecidableEq, Repr

/-- `new` (/repo/russell_pde/src/equation_handler.rs:132-142) -/
def EquationHandler.new (neq : Nat) : EquationHandler :=
  let all := List.range neq
  { neq, isPresc := List.replicate neq false, eToIu := all, eToIp := List.replicate neq usizeMax, uSorted := all, pSorted := [] }

/-- the first loop of `recompute` (/repo/russell_pde/src/equation_handler.rs:155-160) -/
def checkList (neq : Nat) (p_list : List Nat) : Res (List Nat) :=
  forList p_list [] fun p s => if p ≥ neq then panic else ok (p :: s)

/-- the body of the second loop of `recompute` (/repo/russell_pde/src/equation_handler.rs:166-178); the state is the handler, `iu`, `ip` -/
def numberOne (p_set : List Nat) (e : Nat) (s : EquationHandler × Nat × Nat) : Res (EquationHandler × Nat × Nat) :=
  if e ∈ p_set then do
    let isPresc ← vset s.1.isPresc e true
    let eToIu ← vset s.1.eToIu e usizeMax
    let eToIp ← vset s.1.eToIp e s.2.2
    ok ({ s.1 with isPresc, eToIu, eToIp, pSorted := s.1.pSorted ++ [e] }, s.2.1, s.2.2 + 1)
  else do
    let isPresc ← vset s.1.isPresc e false
    let eToIu ← vset s.1.eToIu e s.2.1
    let eToIp ← vset s.1.eToIp e usizeMax
    ok ({ s.1 with isPresc, eToIu, eToIp, uSorted := s.1.uSorted ++ [e] }, s.2.1 + 1, s.2.2)

/-- `recompute` (/repo/russell_pde/src/equation_handler.rs:153-180) -/
def EquationHandler.recompute (h : EquationHandler) (p_list : List Nat) : Res EquationHandler := do
  let p_set ← checkList h.neq p_list
  let h := { h with uSorted := [], pSorted := [] }
  let s ← forRange 0 h.neq (h, 0, 0) (numberOne p_set)
  ok s.1

/-- `nu` (/repo/russell_pde/src/equation_handler.rs:190-192) -/
def EquationHandler.nu (h : EquationHandler) : Nat := h.uSorted.length

/-- `np` (/repo/russell_pde/src/equation_handler.rs:195-197) -/
def EquationHandler.np (h : EquationHandler) : Nat := h.pSorted.length

/-- `is_unknown` (/repo/russell_pde/src/equation_handler.rs:204-206) -/
def EquationHandler.isUnknown (h : EquationHandler) (e : Nat) : Res Bool := do
  let b ← vget h.isPresc e
  ok (!b)

/-- `is_prescribed` (/repo/russell_pde/src/equation_handler.rs:213-215) -/
def EquationHandler.isPrescribed (h : EquationHandler) (e : Nat) : Res Bool := vget h.isPresc e

/-- `iu` (/repo/russell_pde/src/equation_handler.rs:222-227) -/
def EquationHandler.iu (h : EquationHandler) (e : Nat) : Res Nat := do
  let i ← vget h.eToIu e
  if i = usizeMax then panic else ok i

/-- `ip` (/repo/russell_pde/src/equation_handler.rs:234-239) -/
def EquationHandler.ip (h : EquationHandler) (e : Nat) : Res Nat := do
  let i ← vget h.eToIp e
  if i = usizeMax then panic else ok i

/-- `unknown` (/repo/russell_pde/src/equation_handler.rs:242-244) -/
def EquationHandler.unknown (h : EquationHandler) : List Nat := h.uSorted

/-- `prescribed` (/repo/russell_pde/src/equation_handler.rs:247-249) -/
def EquationHandler.prescribed (h : EquationHandler) : List Nat := h.pSorted

/-- a sequence of `recompute` calls on a new handler -/
def runHandler (neq : Nat) (lists : List (List Nat)) : Res EquationHandler :=
  forList lists (EquationHandler.new neq) fun l h => h.recompute l

/-! ## Closed form -/

/-- the elements of `0..n` in / not in `P` -/
def presc (P : List Nat) (n : Nat) : List Nat := (List.range n).filter (· ∈ P)
def unkn (P : List Nat) (n : Nat) : List Nat := (List.range n).filter (· ∉ P)

theorem presc_succ (P : List Nat) (n : Nat) : presc P (n + 1) = presc P n ++ if n ∈ P then [n] else [] := by
  unfold presc
  rw [List.range_succ, List.filter_append]
  by_cases h : n ∈ P <;> simp [h]

theorem unkn_succ (P : List Nat) (n : Nat) : unkn P (n + 1) = unkn P n ++ if n ∈ P then [] else [n] := by
  unfold unkn
  rw [List.range_succ, List.filter_append]
  by_cases h : n ∈ P <;> simp [h]

theorem presc_len_le (P : List Nat) (n : Nat) : (presc P n).length ≤ n := by
  unfold presc; exact (List.length_filter_le _ _).trans (by simp)

theorem unkn_len_le (P : List Nat) (n : Nat) : (unkn P n).length ≤ n := by
  unfold unkn; exact (List.length_filter_le _ _).trans (by simp)

theorem len_sum (P : List Nat) (n : Nat) : (unkn P n).length + (presc P n).length = n := by
  induction n with
  | zero => simp [unkn, presc]
  | succ n ih =>
    rw [unkn_succ, presc_succ]
    by_cases h : n ∈ P <;> simp [h] <;> omega

/-- the handler in terms of the list of prescribed equations -/
structure Canon (h : EquationHandler) (neq : Nat) (P : List Nat) : Prop where
  hneq : h.neq = neq
  isp : Lab.IsVec h.isPresc neq (fun e => decide (e ∈ P))
  iu : Lab.IsVec h.eToIu neq (fun e => if e ∈ P then usizeMax else (unkn P e).length)
  ip : Lab.IsVec h.eToIp neq (fun e => if e ∈ P then (presc P e).length else usizeMax)
  u : h.uSorted = unkn P neq
  p : h.pSorted = presc P neq

theorem unkn_nil (n : Nat) : unkn [] n = List.range n := by
  unfold unkn
  rw [List.filter_eq_self]
  simp

theorem presc_nil (n : Nat) : presc [] n = [] := by
  unfold presc
  simp

theorem canon_new (neq : Nat) : Canon (EquationHandler.new neq) neq [] := by
  refine ⟨rfl, ?_, ?_, ?_, ?_, ?_⟩
  · exact (Lab.isVec_replicate neq false).congr (by simp)
  · refine ⟨by simp [EquationHandler.new], fun i hi => ?_⟩
    simp [EquationHandler.new, hi, unkn_nil]
  · exact (Lab.isVec_replicate neq usizeMax).congr (by simp)
  · exact (unkn_nil neq).symm
  · exact (presc_nil neq).symm

theorem checkList_ok (neq : Nat) : ∀ (l s : List Nat), (∀ p ∈ l, p < neq) →
    forList l s (fun p s => if p ≥ neq then panic else ok (p :: s)) = ok (l.reverse ++ s)
  | [], s, _ => by simp [forList]
  | p :: l, s, h => by
    rw [forList, if_neg (by have := h p (by simp); omega), ok_bind, checkList_ok neq l (p :: s) (fun q hq => h q (by simp [hq]))]
    simp

theorem checkList_panic (neq : Nat) : ∀ (l s : List Nat), (∃ p ∈ l, neq ≤ p) →
    forList l s (fun p s => if p ≥ neq then panic else ok (p :: s)) = panic
  | [], s, h => by simp at h
  | p :: l, s, h => by
    rw [forList]
    by_cases hp : p ≥ neq
    · rw [if_pos hp]; rfl
    · rw [if_neg hp, ok_bind]
      apply checkList_panic neq l
      obtain ⟨q, hq, hn⟩ := h
      rcases List.mem_cons.1 hq with rfl | hq
      · exact absurd hn hp
      · exact ⟨q, hq, hn⟩

theorem presc_congr {P Q : List Nat} (h : ∀ e, e ∈ P ↔ e ∈ Q) (n : Nat) : presc P n = presc Q n := by
  unfold presc; congr 1; funext e; simp [h e]

theorem unkn_congr {P Q : List Nat} (h : ∀ e, e ∈ P ↔ e ∈ Q) (n : Nat) : unkn P n = unkn Q n := by
  unfold unkn; congr 1; funext e; simp [h e]

theorem Canon.congr {h : EquationHandler} {neq : Nat} {P Q : List Nat} (hc : Canon h neq P) (hpq : ∀ e, e ∈ P ↔ e ∈ Q) : Canon h neq Q := by
  refine ⟨hc.hneq, hc.isp.congr ?_, hc.iu.congr ?_, hc.ip.congr ?_, ?_, ?_⟩
  · intro i _; simp [hpq i]
  · intro i _; rw [unkn_congr hpq]; simp [hpq i]
  · intro i _; rw [presc_congr hpq]; simp [hpq i]
  · rw [hc.u, unkn_congr hpq]
  · rw [hc.p, presc_congr hpq]

/-- whatever the previous content of the arrays is, `recompute` gives the canonical handler -/
theorem recompute_canon {h : EquationHandler} {l1 : Nat → Bool} {l2 l3 : Nat → Nat} (h1 : Lab.IsVec h.isPresc h.neq l1)
    (h2 : Lab.IsVec h.eToIu h.neq l2) (h3 : Lab.IsVec h.eToIp h.neq l3) {P : List Nat} (hP : ∀ p ∈ P, p < h.neq) :
    ∃ h', h.recompute P = ok h' ∧ Canon h' h.neq P := by
  unfold EquationHandler.recompute
  rw [show checkList h.neq P = ok (P.reverse ++ []) from checkList_ok h.neq P [] hP, ok_bind]
  dsimp only
  have hm : ∀ e, e ∈ P.reverse ++ [] ↔ e ∈ P := by simp
  obtain ⟨s, hs, hI⟩ := forRange_spec (f := numberOne (P.reverse ++ [])) (lo := 0) (hi := h.neq)
    (s := (({ h with uSorted := [], pSorted := [] } : EquationHandler), 0, 0))
    (fun k s => s.1.neq = h.neq ∧ s.1.uSorted = unkn P k ∧ s.1.pSorted = presc P k ∧ s.2.1 = (unkn P k).length ∧ s.2.2 = (presc P k).length ∧
      Lab.IsVec s.1.isPresc h.neq (fun e => if e < k then decide (e ∈ P) else l1 e) ∧
      Lab.IsVec s.1.eToIu h.neq (fun e => if e < k then (if e ∈ P then usizeMax else (unkn P e).length) else l2 e) ∧
      Lab.IsVec s.1.eToIp h.neq (fun e => if e < k then (if e ∈ P then (presc P e).length else usizeMax) else l3 e))
    (Nat.zero_le _)
    ⟨rfl, by simp [unkn], by simp [presc], by simp [unkn], by simp [presc], h1.congr (by simp), h2.congr (by simp), h3.congr (by simp)⟩
    (by
      rintro k ⟨s, iu, ip⟩ _ hk ⟨a1, a2, a3, a4, a5, a6, a7, a8⟩
      dsimp only at a1 a2 a3 a4 a5 a6 a7 a8
      unfold numberOne
      rw [unkn_succ, presc_succ]
      by_cases hp : k ∈ P
      · rw [if_pos ((hm k).2 hp), if_pos hp, if_pos hp]
        obtain ⟨v1, e1, b1⟩ := a6.vset hk true
        obtain ⟨v2, e2, b2⟩ := a7.vset hk usizeMax
        obtain ⟨v3, e3, b3⟩ := a8.vset hk ip
        dsimp only
        rw [e1, ok_bind, e2, ok_bind, e3, ok_bind]
        refine ⟨_, rfl, a1, by simp [a2], by simp [a3], by simp [a4], by simp [a5], b1.congr ?_, b2.congr ?_, b3.congr ?_⟩
        all_goals
          intro i _
          by_cases hik : i = k
          · subst hik; simp [hp, a5]
          · rw [if_neg hik]; have : i < k + 1 ↔ i < k := by omega
            simp [this]
      · rw [if_neg (fun hh => hp ((hm k).1 hh)), if_neg hp, if_neg hp]
        obtain ⟨v1, e1, b1⟩ := a6.vset hk false
        obtain ⟨v2, e2, b2⟩ := a7.vset hk iu
        obtain ⟨v3, e3, b3⟩ := a8.vset hk usizeMax
        dsimp only
        rw [e1, ok_bind, e2, ok_bind, e3, ok_bind]
        refine ⟨_, rfl, a1, by simp [a2], by simp [a3], by simp [a4], by simp [a5], b1.congr ?_, b2.congr ?_, b3.congr ?_⟩
        all_goals
          intro i _
          by_cases hik : i = k
          · subst hik; simp [hp, a4]
          · rw [if_neg hik]; have : i < k + 1 ↔ i < k := by omega
            simp [this])
  obtain ⟨a1, a2, a3, _, _, a6, a7, a8⟩ := hI
  rw [hs, ok_bind]
  exact ⟨s.1, rfl, a1, a6.congr (fun i hi => by rw [if_pos hi]), a7.congr (fun i hi => by rw [if_pos hi]),
    a8.congr (fun i hi => by rw [if_pos hi]), a2, a3⟩

theorem run_canon (neq : Nat) : ∀ (lists : List (List Nat)) (h : EquationHandler) (P : List Nat), Canon h neq P → (∀ l ∈ lists, ∀ p ∈ l, p < neq) →
    ∃ h', forList lists h (fun l h => h.recompute l) = ok h' ∧ Canon h' neq (lists.getLastD P)
  | [], h, P, hc, _ => ⟨h, rfl, hc⟩
  | l :: ls, h, P, hc, hl => by
    rw [forList]
    obtain ⟨h', e, hc'⟩ := recompute_canon (h := h) (hc.hneq ▸ hc.isp) (hc.hneq ▸ hc.iu) (hc.hneq ▸ hc.ip) (P := l)
      (fun p hp => hc.hneq ▸ hl l (by simp) p hp)
    rw [e, ok_bind]
    rw [hc.hneq] at hc'
    obtain ⟨h2, e2, hc2⟩ := run_canon neq ls h' l hc' (fun l' hl' => hl l' (by simp [hl']))
    refine ⟨h2, e2, ?_⟩
    rw [show (l :: ls).getLastD P = ls.getLastD l by cases ls <;> simp [List.getLastD_eq_getLast?, List.getLast?_cons_cons, List.getLast?_eq_some_getLast]]
    exact hc2

theorem filter_range_get {p : Nat → Bool} {n e : Nat} (he : e < n) (hp : p e = true) :
    ((List.range n).filter p)[((List.range e).filter p).length]? = some e := by
  obtain ⟨d, rfl⟩ := Nat.exists_eq_add_of_lt he
  rw [show e + d + 1 = e + (d + 1) by omega, List.range_add, List.filter_append, List.getElem?_append_right (le_refl _), Nat.sub_self]
  rw [List.range_succ_eq_map, List.map_cons, Nat.add_zero, List.filter_cons_of_pos hp]
  rfl

/-- **C45** After any sequence of `recompute` calls with indices in range, the handler describes exactly the last list: the unknown
and prescribed equations are listed in increasing order, partition `0..neq`, and `iu`, `ip` are the positions in these lists. -/
theorem C45_numbering {neq : Nat} (hneq : neq ≤ usizeMax) (lists : List (List Nat)) (hl : ∀ l ∈ lists, ∀ p ∈ l, p < neq) :
    ∃ h, runHandler neq lists = ok h ∧ h.neq = neq ∧
      h.unknown.Pairwise (· < ·) ∧ h.prescribed.Pairwise (· < ·) ∧
      (∀ e, e ∈ h.unknown ↔ e < neq ∧ e ∉ lists.getLastD []) ∧ (∀ e, e ∈ h.prescribed ↔ e ∈ lists.getLastD []) ∧
      h.nu = h.unknown.length ∧ h.np = h.prescribed.length ∧ h.nu + h.np = neq ∧
      (∀ e, e < neq → h.isPrescribed e = ok (decide (e ∈ lists.getLastD [])) ∧ h.isUnknown e = ok (decide (e ∉ lists.getLastD []))) ∧
      (∀ e i, h.iu e = ok i ↔ h.unknown[i]? = some e) ∧ (∀ e i, h.ip e = ok i ↔ h.prescribed[i]? = some e) ∧
      (∀ e, e ∉ h.unknown → h.iu e = panic) ∧ (∀ e, e ∉ h.prescribed → h.ip e = panic) := by
  obtain ⟨h, e, hc⟩ := run_canon neq lists (EquationHandler.new neq) [] (canon_new neq) hl
  refine ⟨h, e, ?_⟩
  set P := lists.getLastD [] with hPdef
  have hPlt : ∀ p ∈ P, p < neq := by
    intro p hp
    rw [hPdef] at hp
    cases lists with
    | nil => simp at hp
    | cons a t =>
      have hin : (a :: t).getLastD [] ∈ a :: t := by
        rw [List.getLastD_eq_getLast?, List.getLast?_eq_some_getLast (by simp)]
        simp only [Option.getD_some]
        exact List.getLast_mem (by simp)
      exact hl _ hin p hp
  have hmu : ∀ e, e ∈ h.unknown ↔ e < neq ∧ e ∉ P := by
    intro e; unfold EquationHandler.unknown; rw [hc.u]; simp [unkn]
  have hmp : ∀ e, e ∈ h.prescribed ↔ e ∈ P := by
    intro e; unfold EquationHandler.prescribed; rw [hc.p]; simp [presc]; exact fun hp => hPlt e hp
  have hnu : h.unknown.Pairwise (· < ·) := by
    unfold EquationHandler.unknown; rw [hc.u]; exact List.pairwise_lt_range.filter _
  have hnp : h.prescribed.Pairwise (· < ·) := by
    unfold EquationHandler.prescribed; rw [hc.p]; exact List.pairwise_lt_range.filter _
  -- values of iu and ip
  have hiu : ∀ e, e ∈ h.unknown → h.iu e = ok (unkn P e).length ∧ h.unknown[(unkn P e).length]? = some e := by
    intro e he
    obtain ⟨h1, h2⟩ := (hmu e).1 he
    constructor
    · unfold EquationHandler.iu
      rw [hc.iu.vget h1, ok_bind, if_neg h2, if_neg]
      have := unkn_len_le P e
      omega
    · unfold EquationHandler.unknown; rw [hc.u]
      exact filter_range_get h1 (by simpa using h2)
  have hip : ∀ e, e ∈ h.prescribed → h.ip e = ok (presc P e).length ∧ h.prescribed[(presc P e).length]? = some e := by
    intro e he
    have h2 := (hmp e).1 he
    have h1 := hPlt e h2
    constructor
    · unfold EquationHandler.ip
      rw [hc.ip.vget h1, ok_bind, if_pos h2, if_neg]
      have := presc_len_le P e
      omega
    · unfold EquationHandler.prescribed; rw [hc.p]
      exact filter_range_get h1 (by simpa using h2)
  have niu : ∀ e, e ∉ h.unknown → h.iu e = panic := by
    intro e he
    unfold EquationHandler.iu
    by_cases hlt : e < neq
    · have : e ∈ P := by by_contra hn; exact he ((hmu e).2 ⟨hlt, hn⟩)
      rw [hc.iu.vget hlt, ok_bind, if_pos this, if_pos rfl]
    · rw [vget_ge (by rw [hc.iu.len]; omega)]; rfl
  have nip : ∀ e, e ∉ h.prescribed → h.ip e = panic := by
    intro e he
    unfold EquationHandler.ip
    by_cases hlt : e < neq
    · rw [hc.ip.vget hlt, ok_bind, if_neg (fun hn => he ((hmp e).2 hn)), if_pos rfl]
    · rw [vget_ge (by rw [hc.ip.len]; omega)]; rfl
  refine ⟨hc.hneq, hnu, hnp, hmu, hmp, rfl, rfl, ?_, ?_, ?_, ?_, niu, nip⟩
  · unfold EquationHandler.nu EquationHandler.np; rw [hc.u, hc.p]; exact len_sum P neq
  · intro e he
    unfold EquationHandler.isPrescribed EquationHandler.isUnknown
    rw [hc.isp.vget he, ok_bind]
    exact ⟨rfl, by simp⟩
  · intro e i
    constructor
    · intro hh
      have he : e ∈ h.unknown := by by_contra hn; rw [niu e hn] at hh; cases hh
      obtain ⟨a1, a2⟩ := hiu e he
      rw [a1] at hh
      cases hh
      exact a2
    · intro hh
      have he : e ∈ h.unknown := List.mem_of_getElem? hh
      obtain ⟨a1, a2⟩ := hiu e he
      rw [a1]
      have hnd : h.unknown.Nodup := hnu.imp (fun hlt => Nat.ne_of_lt hlt)
      congr 1
      obtain ⟨l1, l2⟩ := List.getElem?_eq_some_iff.1 a2
      obtain ⟨l3, l4⟩ := List.getElem?_eq_some_iff.1 hh
      exact (hnd.getElem_inj_iff).1 (l2.trans l4.symm)
  · intro e i
    constructor
    · intro hh
      have he : e ∈ h.prescribed := by by_contra hn; rw [nip e hn] at hh; cases hh
      obtain ⟨a1, a2⟩ := hip e he
      rw [a1] at hh
      cases hh
      exact a2
    · intro hh
      have he : e ∈ h.prescribed := List.mem_of_getElem? hh
      obtain ⟨a1, a2⟩ := hip e he
      rw [a1]
      have hnd : h.prescribed.Nodup := hnp.imp (fun hlt => Nat.ne_of_lt hlt)
      congr 1
      obtain ⟨l1, l2⟩ := List.getElem?_eq_some_iff.1 a2
      obtain ⟨l3, l4⟩ := List.getElem?_eq_some_iff.1 hh
      exact (hnd.getElem_inj_iff).1 (l2.trans l4.symm)

/-- **C45** The result depends neither on earlier lists nor on the order and multiplicity of the last one. -/
theorem C45_history {neq : Nat} (ls ls' : List (List Nat)) (l l' : List Nat) (h1 : ∀ l ∈ ls, ∀ p ∈ l, p < neq) (h2 : ∀ l ∈ ls', ∀ p ∈ l, p < neq)
    (h3 : ∀ p ∈ l, p < neq) (hll : ∀ e, e ∈ l ↔ e ∈ l') : runHandler neq (ls ++ [l]) = runHandler neq (ls' ++ [l']) := by
  have go : ∀ (ms : List (List Nat)) (m : List Nat), (∀ l ∈ ms, ∀ p ∈ l, p < neq) → (∀ p ∈ m, p < neq) →
      ∃ h, runHandler neq (ms ++ [m]) = ok h ∧ Canon h neq m := by
    intro ms m hms hm
    obtain ⟨h, e, hc⟩ := run_canon neq (ms ++ [m]) (EquationHandler.new neq) [] (canon_new neq) (by
      intro l hl p hp
      rcases List.mem_append.1 hl with hl | hl
      · exact hms l hl p hp
      · rw [List.mem_singleton] at hl; subst hl; exact hm p hp)
    refine ⟨h, e, ?_⟩
    rw [show (ms ++ [m]).getLastD [] = m by simp [List.getLastD_eq_getLast?]] at hc
    exact hc
  obtain ⟨h, e, hc⟩ := go ls l h1 h3
  obtain ⟨h', e', hc'⟩ := go ls' l' h2 (fun p hp => h3 p ((hll p).2 hp))
  have hc := hc.congr hll
  rw [e, e']
  congr 1
  cases h; cases h'
  obtain ⟨a1, a2, a3, a4, a5, a6⟩ := hc
  obtain ⟨b1, b2, b3, b4, b5, b6⟩ := hc'
  dsimp only at *
  rw [a1, b1, a2.unique b2, a3.unique b3, a4.unique b4, a5, b5, a6, b6]

/-- **C45** An index out of range makes `recompute` panic. -/
theorem C45_out_of_range {h : EquationHandler} {P : List Nat} {p : Nat} (hp : p ∈ P) (hn : h.neq ≤ p) : h.recompute P = panic := by
  unfold EquationHandler.recompute
  rw [show checkList h.neq P = panic from checkList_panic h.neq P [] ⟨p, hp, hn⟩]
  rfl

/-- five equations, two calls, duplicates -/
example : ∃ h, runHandler 5 [[0, 1], [4, 2, 4]] = ok h ∧ h.unknown = [0, 1, 3] ∧ h.prescribed = [2, 4] ∧ h.iu 3 = ok 2 ∧ h.ip 4 = ok 1 ∧
    h.iu 4 = panic := by
  refine ⟨_, rfl, ?_⟩
  decide +kernel

end Russell.Pde
