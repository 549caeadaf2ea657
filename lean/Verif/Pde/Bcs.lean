import Verif.Pde.Grid

/-!
# Boundary conditions (property C47)

Models of `EssentialBcs1d`, `NaturalBcs1d`, `EssentialBcs2d`, `NaturalBcs2d` (/repo/russell_pde/src/essential_bcs_1d.rs,
natural_bcs_1d.rs, essential_bcs_2d.rs, natural_bcs_2d.rs).  The boundary functions are total functions.
-/

namespace Russell.Pde

open Russell Res

section Model

variable {α : Type} [Zero α]

/-! ### One dimension -/

/-- `EssentialBcs1d` (/repo/russell_pde/src/essential_bcs_1d.rs:29-52) -/
structure EssentialBcs1d (α : Type) where
  periodic_along_x : Bool
  functions : List (α → α)
  sides : List Bool

/-- `NaturalBcs1d` (/repo/russell_pde/src/natural_bcs_1d.rs:58-76) -/
structure NaturalBcs1d (α : Type) where
  functions : List (α → α)
  sides : List Bool

/-- `EssentialBcs1d::new` (/repo/russell_pde/src/essential_bcs_1d.rs:72-81) -/
def EssentialBcs1d.new : EssentialBcs1d α := { periodic_along_x := false, functions := [fun _ => 0, fun _ => 0], sides := [false, false] }

/-- `set_periodic` (/repo/russell_pde/src/essential_bcs_1d.rs:105-111) -/
def EssentialBcs1d.setPeriodic (e : EssentialBcs1d α) (along_x : Bool) : Res (EssentialBcs1d α) :=
  let e : EssentialBcs1d α := { e with periodic_along_x := along_x }
  if along_x then do
    let s ← vset e.sides 0 false
    let s ← vset s 1 false
    ok { e with sides := s }
  else ok e

/-- `set` (/repo/russell_pde/src/essential_bcs_1d.rs:148-153) -/
def EssentialBcs1d.set (e : EssentialBcs1d α) (side : Side) (f : α → α) : Res (EssentialBcs1d α) := do
  let e := { e with periodic_along_x := false }
  let index := side.index
  let functions ← vset e.functions index f
  let sides ← vset e.sides index true
  ok { e with functions, sides }

/-- `set_homogeneous` (/repo/russell_pde/src/essential_bcs_1d.rs:174-182) -/
def EssentialBcs1d.setHomogeneous (e : EssentialBcs1d α) : Res (EssentialBcs1d α) := do
  let e : EssentialBcs1d α := { e with periodic_along_x := false, functions := [fun _ => 0, fun _ => 0] }
  let s ← vset e.sides 0 true
  let s ← vset s 1 true
  ok { e with sides := s }

/-- `NaturalBcs1d::new` (/repo/russell_pde/src/natural_bcs_1d.rs:95-103) -/
def NaturalBcs1d.new : NaturalBcs1d α := { functions := [fun _ => 0, fun _ => 0], sides := [false, false] }

/-- `NaturalBcs1d::set` (/repo/russell_pde/src/natural_bcs_1d.rs:177-181) -/
def NaturalBcs1d.set (n : NaturalBcs1d α) (side : Side) (f : α → α) : Res (NaturalBcs1d α) := do
  let index := side.index
  let functions ← vset n.functions index f
  let sides ← vset n.sides index true
  ok { functions, sides }

/-- the test shared by the sides: not both (/repo/russell_pde/src/essential_bcs_1d.rs:223-228) -/
def notBoth (msg : String) (e n : Bool) : Res Unit := if e && n then err msg else ok ()

/-- the test along one axis (/repo/russell_pde/src/essential_bcs_1d.rs:229-240) -/
def axisTest (periodic e0 e1 n0 n1 : Bool) (mp m0 m1 : String) : Res Unit :=
  if periodic then
    if n0 || n1 then err mp else ok ()
  else if !e0 && !n0 then err m0
  else if !e1 && !n1 then err m1
  else ok ()

/-- `validate` (/repo/russell_pde/src/essential_bcs_1d.rs:222-242) -/
def EssentialBcs1d.validate (e : EssentialBcs1d α) (n : NaturalBcs1d α) : Res Unit := do
  let e0 ← vget e.sides 0
  let n0 ← vget n.sides 0
  notBoth "Xmin side must not have both EBC and NBC" e0 n0
  let e1 ← vget e.sides 1
  let n1 ← vget n.sides 1
  notBoth "Xmax side must not have both EBC and NBC" e1 n1
  axisTest e.periodic_along_x e0 e1 n0 n1 "Periodic X does not allow NBC on Xmin or Xmax" "Xmin side is missing either EBC or NBC"
    "Xmax side is missing either EBC or NBC"

/-- `get_nodes` (/repo/russell_pde/src/essential_bcs_1d.rs:255-264) -/
def EssentialBcs1d.getNodes (e : EssentialBcs1d α) (nx : Nat) : Res (List Nat) :=
  forRange 0 2 [] fun side nodes => do
    let b ← vget e.sides side
    if b then ok (nodes ++ [if side = 0 then 0 else nx - 1]) else ok nodes

/-! ### Two dimensions -/

/-- `EssentialBcs2d` (/repo/russell_pde/src/essential_bcs_2d.rs:34-64) -/
structure EssentialBcs2d (α : Type) where
  periodic_along_x : Bool
  periodic_along_y : Bool
  functions : List (α → α → α)
  sides : List Bool

/-- `NaturalBcs2d` (/repo/russell_pde/src/natural_bcs_2d.rs:61-79) -/
structure NaturalBcs2d (α : Type) where
  functions : List (α → α → α)
  sides : List Bool

/-- four zero functions (/repo/russell_pde/src/essential_bcs_2d.rs:88-93) -/
def zeros4 : List (α → α → α) := [fun _ _ => 0, fun _ _ => 0, fun _ _ => 0, fun _ _ => 0]

/-- `EssentialBcs2d::new` (/repo/russell_pde/src/essential_bcs_2d.rs:84-96) -/
def EssentialBcs2d.new : EssentialBcs2d α :=
  { periodic_along_x := false, periodic_along_y := false, functions := zeros4, sides := List.replicate 4 false }

/-- two sides of an axis are cleared (/repo/russell_pde/src/essential_bcs_2d.rs:130-137) -/
def clearAxis (sides : List Bool) (b : Bool) (lo hi : Nat) : Res (List Bool) :=
  if b then do
    let s ← vset sides lo false
    vset s hi false
  else ok sides

/-- `set_periodic` (/repo/russell_pde/src/essential_bcs_2d.rs:127-138) -/
def EssentialBcs2d.setPeriodic (e : EssentialBcs2d α) (along_x along_y : Bool) : Res (EssentialBcs2d α) := do
  let e := { e with periodic_along_x := along_x, periodic_along_y := along_y }
  let s ← clearAxis e.sides along_x 0 1
  let s ← clearAxis s along_y 2 3
  ok { e with sides := s }

/-- `set` (/repo/russell_pde/src/essential_bcs_2d.rs:175-183) -/
def EssentialBcs2d.set (e : EssentialBcs2d α) (side : Side) (f : α → α → α) : Res (EssentialBcs2d α) := do
  let e := match side with
    | .Xmin | .Xmax => { e with periodic_along_x := false }
    | .Ymin | .Ymax => { e with periodic_along_y := false }
  let index := side.index
  let functions ← vset e.functions index f
  let sides ← vset e.sides index true
  ok { e with functions, sides }

/-- `set_homogeneous` (/repo/russell_pde/src/essential_bcs_2d.rs:215-228) -/
def EssentialBcs2d.setHomogeneous (e : EssentialBcs2d α) : Res (EssentialBcs2d α) := do
  let e := { e with periodic_along_x := false, periodic_along_y := false, functions := zeros4 }
  let s ← vset e.sides 0 true
  let s ← vset s 1 true
  let s ← vset s 2 true
  let s ← vset s 3 true
  ok { e with sides := s }

/-- `NaturalBcs2d::new` (/repo/russell_pde/src/natural_bcs_2d.rs:98-108) -/
def NaturalBcs2d.new : NaturalBcs2d α := { functions := zeros4, sides := List.replicate 4 false }

/-- `NaturalBcs2d::set` (/repo/russell_pde/src/natural_bcs_2d.rs:199-203) -/
def NaturalBcs2d.set (n : NaturalBcs2d α) (side : Side) (f : α → α → α) : Res (NaturalBcs2d α) := do
  let index := side.index
  let functions ← vset n.functions index f
  let sides ← vset n.sides index true
  ok { functions, sides }

/-- `validate` (/repo/russell_pde/src/essential_bcs_2d.rs:271-309) -/
def EssentialBcs2d.validate (e : EssentialBcs2d α) (n : NaturalBcs2d α) : Res Unit := do
  let e0 ← vget e.sides 0
  let n0 ← vget n.sides 0
  notBoth "Xmin side must not have both EBC and NBC" e0 n0
  let e1 ← vget e.sides 1
  let n1 ← vget n.sides 1
  notBoth "Xmax side must not have both EBC and NBC" e1 n1
  let e2 ← vget e.sides 2
  let n2 ← vget n.sides 2
  notBoth "Ymin side must not have both EBC and NBC" e2 n2
  let e3 ← vget e.sides 3
  let n3 ← vget n.sides 3
  notBoth "Ymax side must not have both EBC and NBC" e3 n3
  axisTest e.periodic_along_x e0 e1 n0 n1 "Periodic X does not allow NBC on Xmin or Xmax" "Xmin side is missing either EBC or NBC"
    "Xmax side is missing either EBC or NBC"
  axisTest e.periodic_along_y e2 e3 n2 n3 "Periodic Y does not allow NBC on Ymin or Ymax" "Ymin side is missing either EBC or NBC"
    "Ymax side is missing either EBC or NBC"

/-- `get_nodes` (/repo/russell_pde/src/essential_bcs_2d.rs:324-337) -/
def EssentialBcs2d.getNodes (e : EssentialBcs2d α) (g : Grid2d α) : Res (List Nat) :=
  forRange 0 4 [] fun index nodes => do
    let b ← vget e.sides index
    if b then do
      let side ← Side.fromIndex index
      forList (g.getNodesOnSide side) nodes fun m nodes => if m ∈ nodes then ok nodes else ok (nodes ++ [m])
    else ok nodes

/-- `enabled_ij` (/repo/russell_pde/src/natural_bcs_2d.rs:226-251) -/
def NaturalBcs2d.enabledIJ (n : NaturalBcs2d α) (i j : Nat) (g : Grid2d α) : Res Bool :=
  if i = 0 then vget n.sides 0
  else if i = g.nx - 1 then vget n.sides 1
  else if j = 0 then vget n.sides 2
  else if j = g.ny - 1 then vget n.sides 3
  else if i = 0 ∧ j = 0 then do
    let a ← vget n.sides 0
    let b ← vget n.sides 2
    ok (a || b)
  else if i = 0 ∧ j = g.ny - 1 then do
    let a ← vget n.sides 0
    let b ← vget n.sides 3
    ok (a || b)
  else if i = g.nx - 1 ∧ j = 0 then do
    let a ← vget n.sides 1
    let b ← vget n.sides 2
    ok (a || b)
  else if i = g.nx - 1 ∧ j = g.ny - 1 then do
    let a ← vget n.sides 1
    let b ← vget n.sides 3
    ok (a || b)
  else ok false

/-! ### Call histories -/

/-- a call on the essential boundary conditions in 2D -/
inductive EOp (α : Type) where
  | setPeriodic (x y : Bool)
  | set (side : Side) (f : α → α → α)
  | setHomogeneous

/-- running it -/
def EOp.run (o : EOp α) (e : EssentialBcs2d α) : Res (EssentialBcs2d α) :=
  match o with
  | .setPeriodic x y => e.setPeriodic x y
  | .set s f => e.set s f
  | .setHomogeneous => e.setHomogeneous

/-- the essential conditions after a history -/
def runE (ops : List (EOp α)) : Res (EssentialBcs2d α) := forList ops EssentialBcs2d.new EOp.run

/-- the natural conditions after a history of `set` calls -/
def runN (ops : List (Side × (α → α → α))) : Res (NaturalBcs2d α) := forList ops NaturalBcs2d.new fun o n => n.set o.1 o.2

/-- a call on the essential boundary conditions in 1D -/
inductive EOp1 (α : Type) where
  | setPeriodic (x : Bool)
  | set (side : Side) (f : α → α)
  | setHomogeneous

/-- running it -/
def EOp1.run (o : EOp1 α) (e : EssentialBcs1d α) : Res (EssentialBcs1d α) :=
  match o with
  | .setPeriodic x => e.setPeriodic x
  | .set s f => e.set s f
  | .setHomogeneous => e.setHomogeneous

/-- the essential conditions after a history -/
def runE1 (ops : List (EOp1 α)) : Res (EssentialBcs1d α) := forList ops EssentialBcs1d.new EOp1.run

/-- the natural conditions after a history of `set` calls -/
def runN1 (ops : List (Side × (α → α))) : Res (NaturalBcs1d α) := forList ops NaturalBcs1d.new fun o n => n.set o.1 o.2

end Model

/-! ## Declarative reading of a history -/

/-- some operation satisfies `A` and no later one satisfies `B` -/
def Since {ω : Type} (A B : ω → Prop) (ops : List ω) : Prop := ∃ pre o post, ops = pre ++ o :: post ∧ A o ∧ ∀ p ∈ post, ¬ B p

theorem since_nil {ω : Type} (A B : ω → Prop) : ¬ Since A B [] := by
  rintro ⟨pre, o, post, h, _⟩
  simp at h

theorem since_append {ω : Type} (A B : ω → Prop) (ops : List ω) (o : ω) : Since A B (ops ++ [o]) ↔ A o ∨ (Since A B ops ∧ ¬ B o) := by
  constructor
  · rintro ⟨pre, p, post, h, hA, hB⟩
    rcases List.eq_nil_or_concat post with rfl | ⟨q, x, rfl⟩
    · left
      have := List.append_inj' h rfl
      rw [List.cons.inj this.2 |>.1]
      exact hA
    · right
      rw [List.concat_eq_append] at h hB
      rw [show pre ++ p :: (q ++ [x]) = (pre ++ p :: q) ++ [x] by simp] at h
      obtain ⟨h1, h2⟩ := List.append_inj' h rfl
      have hx := List.cons.inj h2 |>.1
      refine ⟨⟨pre, p, q, h1, hA, fun z hz => hB z (by simp [hz])⟩, ?_⟩
      rw [hx]
      exact hB x (by simp)
  · rintro (h | ⟨⟨pre, p, post, rfl, hA, hB⟩, hn⟩)
    · exact ⟨ops, o, [], rfl, h, by simp⟩
    · refine ⟨pre, p, post ++ [o], by simp, hA, ?_⟩
      intro z hz
      rcases List.mem_append.1 hz with hz | hz
      · exact hB z hz
      · rw [List.mem_singleton] at hz; subst hz; exact hn

theorem forList_append {σ β : Type} {f : β → σ → Res σ} : ∀ (l l' : List β) (s : σ),
    forList (l ++ l') s f = (forList l s f >>= fun s => forList l' s f)
  | [], l', s => by simp [forList]
  | x :: l, l', s => by
    rw [List.cons_append, forList, forList]
    cases f x s with
    | ok s' => rw [ok_bind, ok_bind]; exact forList_append l l' s'
    | err m => rfl
    | panic => rfl

section Decl

variable {α : Type} [Zero α]

/-- the side belongs to the x axis -/
def Side.isX : Side → Bool
  | .Xmin | .Xmax => true
  | .Ymin | .Ymax => false

/-- the call prescribes values on the side -/
def EOp.sets (s : Side) : EOp α → Prop
  | .setPeriodic _ _ => False
  | .set t _ => t = s
  | .setHomogeneous => True

/-- the call makes the axis of the side periodic -/
def EOp.makesPeriodic (s : Side) : EOp α → Prop
  | .setPeriodic x y => (if s.isX then x else y) = true
  | _ => False

/-- the call says whether the axis of the side is periodic -/
def EOp.touchesAxis (s : Side) : EOp α → Prop
  | .setPeriodic _ _ => True
  | .set t _ => t.isX = s.isX
  | .setHomogeneous => True

/-- the values the call prescribes on the side -/
def EOp.value (s : Side) : EOp α → Option (α → α → α)
  | .setPeriodic _ _ => none
  | .set t f => if t = s then some f else none
  | .setHomogeneous => some fun _ _ => 0

/-- side `s` has an essential condition after the calls -/
def Ess (ops : List (EOp α)) (s : Side) : Prop := Since (EOp.sets s) (EOp.makesPeriodic s) ops

/-- the axis of side `s` is periodic after the calls -/
def Per (ops : List (EOp α)) (s : Side) : Prop := Since (EOp.makesPeriodic s) (EOp.touchesAxis s) ops

/-- side `s` has a natural condition after the calls -/
def Nat' (ops : List (Side × (α → α → α))) (s : Side) : Prop := ∃ o ∈ ops, o.1 = s

/-- exactly one of three -/
def ExactlyOne (a b c : Prop) : Prop := (a ∧ ¬ b ∧ ¬ c) ∨ (¬ a ∧ b ∧ ¬ c) ∨ (¬ a ∧ ¬ b ∧ c)

/-- the state of the essential conditions after a history -/
structure EState (e : EssentialBcs2d α) (ops : List (EOp α)) : Prop where
  px : e.periodic_along_x = true ↔ Per ops .Xmin
  py : e.periodic_along_y = true ↔ Per ops .Ymin
  sides : ∃ S, Lab.IsVec e.sides 4 S ∧ ∀ s : Side, S s.index = true ↔ Ess ops s
  funs : ∃ F : Nat → α → α → α, Lab.IsVec e.functions 4 F ∧ ∀ s : Side, ∀ f,
    Since (fun o => EOp.value s o = some f) (fun o => (EOp.value s o).isSome = true) ops → F s.index = f
  excl : ∀ s, ¬ (Ess ops s ∧ Per ops s)

omit [Zero α] in
theorem per_axis (ops : List (EOp α)) : (Per ops .Xmax ↔ Per ops .Xmin) ∧ (Per ops .Ymax ↔ Per ops .Ymin) := ⟨Iff.rfl, Iff.rfl⟩

theorem index_inj {s t : Side} : s.index = t.index ↔ s = t := by
  cases s <;> cases t <;> simp [Side.index]

theorem index_lt (s : Side) : s.index < 4 := by cases s <;> simp [Side.index]

theorem estate_step {e : EssentialBcs2d α} {ops : List (EOp α)} (h : EState e ops) (o : EOp α) :
    ∃ e', o.run e = ok e' ∧ EState e' (ops ++ [o]) := by
  obtain ⟨S, hS, hS'⟩ := h.sides
  obtain ⟨F, hF, hF'⟩ := h.funs
  have hE : ∀ s, Ess (ops ++ [o]) s ↔ EOp.sets s o ∨ (Ess ops s ∧ ¬ EOp.makesPeriodic s o) := fun s => since_append _ _ _ _
  have hP : ∀ s, Per (ops ++ [o]) s ↔ EOp.makesPeriodic s o ∨ (Per ops s ∧ ¬ EOp.touchesAxis s o) := fun s => since_append _ _ _ _
  cases o with
  | setPeriodic x y =>
    unfold EOp.run EssentialBcs2d.setPeriodic
    dsimp only
    obtain ⟨s1, e1, v1⟩ : ∃ s1, clearAxis e.sides x 0 1 = ok s1 ∧ Lab.IsVec s1 4 (fun k => if x = true ∧ k < 2 then false else S k) := by
      unfold clearAxis
      cases x
      · exact ⟨_, rfl, hS.congr (by simp)⟩
      · rw [if_pos rfl]
        obtain ⟨a, ea, va⟩ := hS.vset (i := 0) (by omega) false
        obtain ⟨b, eb, vb⟩ := va.vset (i := 1) (by omega) false
        rw [ea, ok_bind]
        refine ⟨b, eb, vb.congr ?_⟩
        intro k hk
        by_cases h1 : k = 1
        · simp [h1]
        · by_cases h0 : k = 0
          · simp [h0]
          · rw [if_neg h1, if_neg h0, if_neg (by rintro ⟨_, h⟩; omega)]
    obtain ⟨s2, e2, v2⟩ : ∃ s2, clearAxis s1 y 2 3 = ok s2 ∧
        Lab.IsVec s2 4 (fun k => if (x = true ∧ k < 2) ∨ (y = true ∧ 2 ≤ k) then false else S k) := by
      unfold clearAxis
      cases y
      · exact ⟨_, rfl, v1.congr (by simp)⟩
      · rw [if_pos rfl]
        obtain ⟨a, ea, va⟩ := v1.vset (i := 2) (by omega) false
        obtain ⟨b, eb, vb⟩ := va.vset (i := 3) (by omega) false
        rw [ea, ok_bind]
        refine ⟨b, eb, vb.congr ?_⟩
        intro k hk
        by_cases h1 : k = 3
        · simp [h1]
        · by_cases h0 : k = 2
          · simp [h0]
          · rw [if_neg h1, if_neg h0]
            have : ¬ 2 ≤ k := by omega
            simp [this]
    rw [e1, ok_bind, e2, ok_bind]
    refine ⟨_, rfl, ?_, ?_, ⟨_, v2, ?_⟩, ⟨F, hF, ?_⟩, ?_⟩
    · rw [hP]; simp [EOp.makesPeriodic, EOp.touchesAxis, Side.isX]
    · rw [hP]; simp [EOp.makesPeriodic, EOp.touchesAxis, Side.isX]
    · intro s
      rw [hE, ← hS' s]
      cases s <;> simp [EOp.sets, EOp.makesPeriodic, Side.isX, Side.index] <;> tauto
    · intro s f hs
      rw [since_append] at hs
      simp [EOp.value] at hs
      exact hF' s f hs
    · intro s
      rw [hE, hP]
      simp only [EOp.sets, EOp.touchesAxis]
      tauto
  | set t f =>
    unfold EOp.run EssentialBcs2d.set
    dsimp only
    have hpx : ∀ e', e' = (match t with
        | .Xmin | .Xmax => { e with periodic_along_x := false }
        | .Ymin | .Ymax => { e with periodic_along_y := false } : EssentialBcs2d α) →
        e'.sides = e.sides ∧ e'.functions = e.functions ∧ (e'.periodic_along_x = true ↔ Per (ops ++ [.set t f]) .Xmin) ∧
        (e'.periodic_along_y = true ↔ Per (ops ++ [.set t f]) .Ymin) := by
      rintro e' rfl
      rw [hP, hP, ← h.px, ← h.py]
      cases t <;> simp [EOp.makesPeriodic, EOp.touchesAxis, Side.isX]
    obtain ⟨a1, a2, a3, a4⟩ := hpx _ rfl
    rw [a1, a2]
    obtain ⟨f1, e1, v1⟩ := hF.vset (index_lt t) f
    obtain ⟨s1, e2, v2⟩ := hS.vset (index_lt t) true
    rw [e1, ok_bind, e2, ok_bind]
    refine ⟨_, rfl, a3, a4, ⟨_, v2, ?_⟩, ⟨_, v1, ?_⟩, ?_⟩
    · intro s
      rw [hE, ← hS' s]
      simp only [index_inj, EOp.sets, EOp.makesPeriodic]
      by_cases hst : s = t
      · subst hst; simp
      · rw [if_neg hst]
        constructor
        · intro h; exact Or.inr ⟨h, id⟩
        · rintro (h | ⟨h, _⟩)
          · exact absurd h.symm hst
          · exact h
    · intro s f' hs
      rw [since_append] at hs
      simp only [index_inj]
      simp only [EOp.value] at hs
      by_cases hst : s = t
      · subst hst
        simp at hs
        rw [if_pos rfl]
        exact hs
      · rw [if_neg hst]
        rw [if_neg (fun h => hst h.symm)] at hs
        simp at hs
        exact hF' s f' hs
    · intro s
      rw [hE, hP]
      have hx := h.excl s
      simp only [EOp.sets, EOp.makesPeriodic, EOp.touchesAxis]
      rintro ⟨h1, h2⟩
      rcases h2 with h2 | ⟨h2, h3⟩
      · exact h2
      · rcases h1 with h1 | ⟨h1, _⟩
        · subst h1; exact h3 rfl
        · exact hx ⟨h1, h2⟩
  | setHomogeneous =>
    unfold EOp.run EssentialBcs2d.setHomogeneous
    dsimp only
    obtain ⟨b0, e0, v0⟩ := hS.vset (i := 0) (by omega) true
    obtain ⟨b1, e1, v1⟩ := v0.vset (i := 1) (by omega) true
    obtain ⟨b2, e2, v2⟩ := v1.vset (i := 2) (by omega) true
    obtain ⟨b3, e3, v3⟩ := v2.vset (i := 3) (by omega) true
    rw [e0, ok_bind, e1, ok_bind, e2, ok_bind, e3, ok_bind]
    refine ⟨_, rfl, ?_, ?_, ⟨_, v3, ?_⟩, ⟨fun _ _ _ => 0, ?_, ?_⟩, ?_⟩
    · rw [hP]; simp [EOp.makesPeriodic, EOp.touchesAxis]
    · rw [hP]; simp [EOp.makesPeriodic, EOp.touchesAxis]
    · intro s
      rw [hE]
      cases s <;> simp [EOp.sets, Side.index]
    · refine ⟨rfl, ?_⟩
      intro i hi
      match i, hi with
      | 0, _ => rfl
      | 1, _ => rfl
      | 2, _ => rfl
      | 3, _ => rfl
    · intro s f' hs
      rw [since_append] at hs
      simp [EOp.value] at hs
      exact hs
    · intro s
      rw [hP]
      simp [EOp.makesPeriodic, EOp.touchesAxis]

theorem estate_new : EState (EssentialBcs2d.new : EssentialBcs2d α) [] := by
  refine ⟨?_, ?_, ⟨fun _ => false, Lab.isVec_replicate 4 false, ?_⟩, ⟨fun _ _ _ => 0, ?_, ?_⟩, ?_⟩
  · simp only [EssentialBcs2d.new, Bool.false_eq_true, false_iff]; exact since_nil _ _
  · simp only [EssentialBcs2d.new, Bool.false_eq_true, false_iff]; exact since_nil _ _
  · intro s; simp only [Bool.false_eq_true, false_iff]; exact since_nil _ _
  · exact Lab.isVec_replicate 4 (fun _ _ => 0)
  · intro s f h; exact absurd h (since_nil _ _)
  · rintro s ⟨h, _⟩; exact since_nil _ _ h

theorem runE_state (ops : List (EOp α)) : ∃ e, runE ops = ok e ∧ EState e ops := by
  induction ops using List.reverseRecOn with
  | nil => exact ⟨_, rfl, estate_new⟩
  | append_singleton ops o ih =>
    obtain ⟨e, he, hs⟩ := ih
    obtain ⟨e', he', hs'⟩ := estate_step hs o
    refine ⟨e', ?_, hs'⟩
    unfold runE at he ⊢
    rw [forList_append, he, ok_bind, forList, he', ok_bind, forList]

theorem runN_state (ops : List (Side × (α → α → α))) : ∃ n, runN ops = ok n ∧
    (∃ S, Lab.IsVec n.sides 4 S ∧ ∀ s : Side, S s.index = true ↔ Nat' ops s) ∧
    (∃ F : Nat → α → α → α, Lab.IsVec n.functions 4 F ∧ ∀ s : Side, ∀ f, Since (fun o => o = (s, f)) (fun o => o.1 = s) ops → F s.index = f) := by
  induction ops using List.reverseRecOn with
  | nil =>
    refine ⟨_, rfl, ⟨fun _ => false, Lab.isVec_replicate 4 false, ?_⟩, ⟨fun _ _ _ => 0, Lab.isVec_replicate 4 (fun _ _ => 0), ?_⟩⟩
    · intro s; simp [Nat']
    · intro s f h; exact absurd h (since_nil _ _)
  | append_singleton ops o ih =>
    obtain ⟨n, hn, ⟨S, hS, hS'⟩, ⟨F, hF, hF'⟩⟩ := ih
    obtain ⟨f1, e1, v1⟩ := hF.vset (index_lt o.1) o.2
    obtain ⟨s1, e2, v2⟩ := hS.vset (index_lt o.1) true
    refine ⟨{ functions := f1, sides := s1 }, ?_, ⟨_, v2, ?_⟩, ⟨_, v1, ?_⟩⟩
    · unfold runN at hn ⊢
      rw [forList_append, hn, ok_bind, forList]
      unfold NaturalBcs2d.set
      dsimp only
      rw [e1, ok_bind, e2, ok_bind, ok_bind, forList]
    · intro s
      simp only [index_inj, Nat', List.mem_append, List.mem_singleton]
      by_cases hs : s = o.1
      · simp only [hs, if_true, true_iff]; exact ⟨o, Or.inr rfl, rfl⟩
      · rw [if_neg hs, hS' s]
        constructor
        · rintro ⟨p, hp, he⟩; exact ⟨p, Or.inl hp, he⟩
        · rintro ⟨p, hp | hp, he⟩
          · exact ⟨p, hp, he⟩
          · subst hp; exact absurd he.symm hs
    · intro s f h
      rw [since_append] at h
      simp only [index_inj]
      by_cases hs : s = o.1
      · rw [if_pos hs]
        rcases h with h | ⟨_, h⟩
        · rw [h]
        · exact absurd hs.symm h
      · rw [if_neg hs]
        rcases h with h | ⟨h, _⟩
        · rw [h] at hs; exact absurd rfl hs
        · exact hF' s f h

/-- the outcome of a validation: `Ok` exactly in the good case, an error otherwise -/
def okIff (r : Res Unit) (p : Prop) : Prop := (r = ok () ∧ p) ∨ ((∃ m, r = err m) ∧ ¬ p)

theorem okIff.seq {r r' : Res Unit} {p q : Prop} (h : okIff r p) (h' : okIff r' q) : okIff (r >>= fun _ => r') (p ∧ q) := by
  rcases h with ⟨rfl, hp⟩ | ⟨⟨m, rfl⟩, hp⟩
  · rw [ok_bind]
    rcases h' with ⟨rfl, hq⟩ | ⟨⟨m, rfl⟩, hq⟩
    · exact Or.inl ⟨rfl, hp, hq⟩
    · exact Or.inr ⟨⟨m, rfl⟩, fun h => hq h.2⟩
  · exact Or.inr ⟨⟨m, rfl⟩, fun h => hp h.1⟩

theorem okIff.congr {r : Res Unit} {p q : Prop} (h : okIff r p) (hpq : q ↔ p) : okIff r q := by
  unfold okIff; rw [hpq]; exact h

theorem okIff_notBoth (m : String) (e n : Bool) : okIff (notBoth m e n) (¬ (e = true ∧ n = true)) := by
  cases e <;> cases n <;> simp [notBoth, okIff]

theorem okIff_axisTest (p e0 e1 n0 n1 : Bool) (mp m0 m1 : String) : okIff (axisTest p e0 e1 n0 n1 mp m0 m1)
    (if p = true then n0 = false ∧ n1 = false else (e0 = true ∨ n0 = true) ∧ (e1 = true ∨ n1 = true)) := by
  cases p <;> cases e0 <;> cases e1 <;> cases n0 <;> cases n1 <;> simp [axisTest, okIff]

theorem one_axis (p s0 s1 m0 m1 : Bool) (x0 : ¬ (s0 = true ∧ p = true)) (x1 : ¬ (s1 = true ∧ p = true)) :
    (ExactlyOne (s0 = true) (m0 = true) (p = true) ∧ ExactlyOne (s1 = true) (m1 = true) (p = true)) ↔
    (¬ (s0 = true ∧ m0 = true) ∧ ¬ (s1 = true ∧ m1 = true) ∧
      (if p = true then m0 = false ∧ m1 = false else (s0 = true ∨ m0 = true) ∧ (s1 = true ∨ m1 = true))) := by
  cases p <;> cases s0 <;> cases s1 <;> cases m0 <;> cases m1 <;> simp_all [ExactlyOne]

/-- **C47** After any history of calls on the essential and natural conditions, `validate` returns `Ok` exactly when every side has
exactly one of: an essential condition, a natural condition, periodicity along its axis; otherwise it returns `Err`. -/
theorem C47_validate_2d (eops : List (EOp α)) (nops : List (Side × (α → α → α))) :
    ∃ e n, runE eops = ok e ∧ runN nops = ok n ∧ okIff (e.validate n) (∀ s, ExactlyOne (Ess eops s) (Nat' nops s) (Per eops s)) := by
  obtain ⟨e, he, hs⟩ := runE_state eops
  obtain ⟨n, hn, ⟨N, hN, hN'⟩, _⟩ := runN_state nops
  refine ⟨e, n, he, hn, ?_⟩
  obtain ⟨S, hS, hS'⟩ := hs.sides
  have hval : e.validate n = (do
      notBoth "Xmin side must not have both EBC and NBC" (S 0) (N 0)
      notBoth "Xmax side must not have both EBC and NBC" (S 1) (N 1)
      notBoth "Ymin side must not have both EBC and NBC" (S 2) (N 2)
      notBoth "Ymax side must not have both EBC and NBC" (S 3) (N 3)
      axisTest e.periodic_along_x (S 0) (S 1) (N 0) (N 1) "Periodic X does not allow NBC on Xmin or Xmax" "Xmin side is missing either EBC or NBC"
        "Xmax side is missing either EBC or NBC"
      axisTest e.periodic_along_y (S 2) (S 3) (N 2) (N 3) "Periodic Y does not allow NBC on Ymin or Ymax" "Ymin side is missing either EBC or NBC"
        "Ymax side is missing either EBC or NBC") := by
    unfold EssentialBcs2d.validate
    simp only [hS.vget (show 0 < 4 by omega), hS.vget (show 1 < 4 by omega), hS.vget (show 2 < 4 by omega), hS.vget (show 3 < 4 by omega),
      hN.vget (show 0 < 4 by omega), hN.vget (show 1 < 4 by omega), hN.vget (show 2 < 4 by omega), hN.vget (show 3 < 4 by omega), ok_bind]
  have h0 : S 0 = true ↔ _ := hS' .Xmin
  have h1 : S 1 = true ↔ _ := hS' .Xmax
  have h2 : S 2 = true ↔ _ := hS' .Ymin
  have h3 : S 3 = true ↔ _ := hS' .Ymax
  have n0 : N 0 = true ↔ _ := hN' .Xmin
  have n1 : N 1 = true ↔ _ := hN' .Xmax
  have n2 : N 2 = true ↔ _ := hN' .Ymin
  have n3 : N 3 = true ↔ _ := hN' .Ymax
  have px := hs.px
  have py := hs.py
  have px' : e.periodic_along_x = true ↔ Per eops .Xmax := px
  have py' : e.periodic_along_y = true ↔ Per eops .Ymax := py
  have hall : (∀ s, ExactlyOne (Ess eops s) (Nat' nops s) (Per eops s)) ↔
      (ExactlyOne (S 0 = true) (N 0 = true) (e.periodic_along_x = true) ∧ ExactlyOne (S 1 = true) (N 1 = true) (e.periodic_along_x = true)) ∧
      (ExactlyOne (S 2 = true) (N 2 = true) (e.periodic_along_y = true) ∧ ExactlyOne (S 3 = true) (N 3 = true) (e.periodic_along_y = true)) := by
    rw [h0, n0, h1, n1, h2, n2, h3, n3]
    constructor
    · intro h
      refine ⟨⟨?_, ?_⟩, ?_, ?_⟩
      · rw [px]; exact h .Xmin
      · rw [px']; exact h .Xmax
      · rw [py]; exact h .Ymin
      · rw [py']; exact h .Ymax
    · rintro ⟨⟨a, b⟩, c, d⟩ s
      cases s
      · rw [px] at a; exact a
      · rw [px'] at b; exact b
      · rw [py] at c; exact c
      · rw [py'] at d; exact d
  have hx := one_axis e.periodic_along_x (S 0) (S 1) (N 0) (N 1) (by rw [h0, px]; exact hs.excl _) (by rw [h1, px']; exact hs.excl _)
  have hy := one_axis e.periodic_along_y (S 2) (S 3) (N 2) (N 3) (by rw [h2, py]; exact hs.excl _) (by rw [h3, py']; exact hs.excl _)
  rw [hall, hval, hx, hy]
  have key := (okIff_notBoth "Xmin side must not have both EBC and NBC" (S 0) (N 0)).seq
    ((okIff_notBoth "Xmax side must not have both EBC and NBC" (S 1) (N 1)).seq
    ((okIff_notBoth "Ymin side must not have both EBC and NBC" (S 2) (N 2)).seq
    ((okIff_notBoth "Ymax side must not have both EBC and NBC" (S 3) (N 3)).seq
    ((okIff_axisTest e.periodic_along_x (S 0) (S 1) (N 0) (N 1) "Periodic X does not allow NBC on Xmin or Xmax"
      "Xmin side is missing either EBC or NBC" "Xmax side is missing either EBC or NBC").seq
    (okIff_axisTest e.periodic_along_y (S 2) (S 3) (N 2) (N 3) "Periodic Y does not allow NBC on Ymin or Ymax"
      "Ymin side is missing either EBC or NBC" "Ymax side is missing either EBC or NBC")))))
  refine key.congr ⟨?_, ?_⟩
  · rintro ⟨⟨a, b, c⟩, d, f, g⟩; exact ⟨a, b, d, f, c, g⟩
  · rintro ⟨a, b, d, f, c, g⟩; exact ⟨⟨a, b, c⟩, d, f, g⟩

/-- **C47** The boundary values kept are those of the last call that set them. -/
theorem C47_functions_2d (eops : List (EOp α)) (nops : List (Side × (α → α → α))) :
    ∃ e n, runE eops = ok e ∧ runN nops = ok n ∧
      (∀ s f, Since (fun o => EOp.value s o = some f) (fun o => (EOp.value s o).isSome = true) eops → vget e.functions s.index = ok f) ∧
      (∀ s f, Since (fun o => o = (s, f)) (fun o => o.1 = s) nops → vget n.functions s.index = ok f) := by
  obtain ⟨e, he, hs⟩ := runE_state eops
  obtain ⟨n, hn, _, ⟨G, hG, hG'⟩⟩ := runN_state nops
  obtain ⟨F, hF, hF'⟩ := hs.funs
  refine ⟨e, n, he, hn, ?_, ?_⟩
  · intro s f h; rw [hF.vget (index_lt s), hF' s f h]
  · intro s f h; rw [hG.vget (index_lt s), hG' s f h]

theorem pushNew (l : List Nat) : ∀ (acc : List Nat), acc.Nodup →
    ∃ r, forList l acc (fun m nodes => if m ∈ nodes then ok nodes else ok (nodes ++ [m])) = ok r ∧ r.Nodup ∧ ∀ m, m ∈ r ↔ m ∈ acc ∨ m ∈ l := by
  induction l with
  | nil => intro acc h; exact ⟨acc, rfl, h, by simp⟩
  | cons a l ih =>
    intro acc h
    rw [forList]
    by_cases ha : a ∈ acc
    · rw [if_pos ha, ok_bind]
      obtain ⟨r, e, hn, hm⟩ := ih acc h
      refine ⟨r, e, hn, fun m => ?_⟩
      rw [hm, List.mem_cons]
      constructor
      · rintro (h | h)
        · exact Or.inl h
        · exact Or.inr (Or.inr h)
      · rintro (h | h | h)
        · exact Or.inl h
        · subst h; exact Or.inl ha
        · exact Or.inr h
    · rw [if_neg ha, ok_bind]
      obtain ⟨r, e, hn, hm⟩ := ih (acc ++ [a]) (by
        rw [List.nodup_append]
        exact ⟨h, by simp, by intro x hx y hy; rw [List.mem_singleton] at hy; subst hy; rintro rfl; exact ha hx⟩)
      refine ⟨r, e, hn, fun m => ?_⟩
      rw [hm, List.mem_append, List.mem_singleton, List.mem_cons]
      tauto

/-- **C47** `get_nodes` lists exactly the nodes on the sides with essential conditions, without duplicates. -/
theorem C47_get_nodes_2d (eops : List (EOp α)) {g : Grid2d α} {nx ny : Nat} {X Y : Nat → α} (hg : g.Is nx ny X Y) :
    ∃ e nodes, runE eops = ok e ∧ e.getNodes g = ok nodes ∧ nodes.Nodup ∧
      ∀ m, m ∈ nodes ↔ m < g.size ∧ ∃ s, Ess eops s ∧ g.onSide s m = true := by
  obtain ⟨e, he, hs⟩ := runE_state eops
  obtain ⟨S, hS, hS'⟩ := hs.sides
  have hside := (C46_sides hg).1
  have hidx : ∀ k, k < 4 → ∃ s : Side, s.index = k ∧ Side.fromIndex k = ok s := by
    intro k hk
    match k, hk with
    | 0, _ => exact ⟨.Xmin, rfl, rfl⟩
    | 1, _ => exact ⟨.Xmax, rfl, rfl⟩
    | 2, _ => exact ⟨.Ymin, rfl, rfl⟩
    | 3, _ => exact ⟨.Ymax, rfl, rfl⟩
  obtain ⟨r, hr, hI⟩ := forRange_spec (lo := 0) (hi := 4) (s := ([] : List Nat)) (f := fun index nodes => (do
      let b ← vget e.sides index
      if b then do
        let side ← Side.fromIndex index
        forList (g.getNodesOnSide side) nodes fun m nodes => if m ∈ nodes then ok nodes else ok (nodes ++ [m])
      else ok nodes))
    (fun k r => r.Nodup ∧ ∀ m, m ∈ r ↔ m < g.size ∧ ∃ s : Side, s.index < k ∧ Ess eops s ∧ g.onSide s m = true) (by omega)
    ⟨by simp, by simp⟩ (by
      rintro k r _ hk ⟨hn, hm⟩
      obtain ⟨s, rfl, hfrom⟩ := hidx k hk
      rw [hS.vget hk, ok_bind]
      by_cases hb : S s.index = true
      · rw [hb, if_pos rfl, hfrom, ok_bind]
        obtain ⟨r', e', hn', hm'⟩ := pushNew (g.getNodesOnSide s) r hn
        refine ⟨r', e', hn', fun m => ?_⟩
        rw [hm', hm, hside]
        constructor
        · rintro (⟨h1, t, h2, h3⟩ | ⟨h1, h2⟩)
          · exact ⟨h1, t, by omega, h3⟩
          · exact ⟨h1, s, by omega, (hS' s).1 hb, h2⟩
        · rintro ⟨h1, t, h2, h3, h4⟩
          by_cases hts : t = s
          · subst hts; exact Or.inr ⟨h1, h4⟩
          · left
            refine ⟨h1, t, ?_, h3, h4⟩
            have : t.index ≠ s.index := fun h => hts (index_inj.1 h)
            omega
      · have hbf : S s.index = false := by simpa using hb
        rw [hbf, if_neg (by simp)]
        refine ⟨r, rfl, hn, fun m => ?_⟩
        rw [hm]
        constructor
        · rintro ⟨h1, t, h2, h3⟩; exact ⟨h1, t, by omega, h3⟩
        · rintro ⟨h1, t, h2, h3, h4⟩
          refine ⟨h1, t, ?_, h3, h4⟩
          have : t.index ≠ s.index := fun h => hb ((hS' s).2 ((index_inj.1 h) ▸ h3))
          omega)
  refine ⟨e, r, he, hr, hI.1, fun m => ?_⟩
  rw [hI.2 m]
  constructor
  · rintro ⟨h1, t, _, h3⟩; exact ⟨h1, t, h3⟩
  · rintro ⟨h1, t, h3⟩; exact ⟨h1, t, index_lt t, h3⟩

/-- **C47** The documentation of `enabled_ij` says that a corner is enabled if either adjacent side has a natural condition.  The
branches for the corners are unreachable: with a natural condition on Ymin only, the corner (0,0) is not enabled. -/
theorem C47_enabled_corner_counterexample : ∃ (g : Grid2d ℚ) (n : NaturalBcs2d ℚ), Grid2d.new ([0, 1, 2] : List ℚ) [0, 1, 2] = ok g ∧
    runN [(Side.Ymin, fun _ _ => 1)] = ok n ∧ n.enabledIJ 1 0 g = ok true ∧ n.enabledIJ 0 0 g = ok false :=
  ⟨_, _, rfl, rfl, rfl, rfl⟩

/-- **C47** Away from the corners `enabled_ij` tells whether the side of the node has a natural condition. -/
theorem C47_enabled_ij_partial (nops : List (Side × (α → α → α))) (g : Grid2d α) {i j : Nat} :
    ∃ n, runN nops = ok n ∧ ∃ b, n.enabledIJ i j g = ok b ∧
      (b = true ↔ (i = 0 ∧ Nat' nops .Xmin) ∨ (i ≠ 0 ∧ i = g.nx - 1 ∧ Nat' nops .Xmax) ∨
        (i ≠ 0 ∧ i ≠ g.nx - 1 ∧ ((j = 0 ∧ Nat' nops .Ymin) ∨ (j ≠ 0 ∧ j = g.ny - 1 ∧ Nat' nops .Ymax)))) := by
  obtain ⟨n, hn, ⟨N, hN, hN'⟩, _⟩ := runN_state nops
  refine ⟨n, hn, ?_⟩
  have n0 : N 0 = true ↔ _ := hN' .Xmin
  have n1 : N 1 = true ↔ _ := hN' .Xmax
  have n2 : N 2 = true ↔ _ := hN' .Ymin
  have n3 : N 3 = true ↔ _ := hN' .Ymax
  rw [← n0, ← n1, ← n2, ← n3]
  clear n0 n1 n2 n3 hN'
  unfold NaturalBcs2d.enabledIJ
  rw [hN.vget (by omega), hN.vget (by omega), hN.vget (by omega), hN.vget (by omega)]
  by_cases h0 : i = 0
  · rw [if_pos h0]; exact ⟨_, rfl, by simp [h0]⟩
  rw [if_neg h0]
  by_cases h1 : i = g.nx - 1
  · rw [if_pos h1]; exact ⟨_, rfl, by simp [h0, h1] at *; simp [h0]⟩
  rw [if_neg h1]
  by_cases h2 : j = 0
  · rw [if_pos h2]; exact ⟨_, rfl, by simp [h0, h1, h2]⟩
  rw [if_neg h2]
  by_cases h3 : j = g.ny - 1
  · rw [if_pos h3]; exact ⟨_, rfl, by simp [h0, h1]; simp [h3] at h2 ⊢; simp [h2]⟩
  rw [if_neg h3, if_neg (fun h => h0 h.1), if_neg (fun h => h0 h.1), if_neg (fun h => h1 h.1), if_neg (fun h => h1 h.1)]
  exact ⟨_, rfl, by simp [h0, h1, h2, h3]⟩

/-! ### One dimension -/

def EOp1.sets (s : Side) : EOp1 α → Prop
  | .setPeriodic _ => False
  | .set t _ => t = s
  | .setHomogeneous => True

def EOp1.makesPeriodic : EOp1 α → Prop
  | .setPeriodic x => x = true
  | _ => False

/-- the values the call prescribes on the side -/
def EOp1.value (s : Side) : EOp1 α → Option (α → α)
  | .setPeriodic _ => none
  | .set t f => if t = s then some f else none
  | .setHomogeneous => some fun _ => 0

/-- side `s` has an essential condition after the calls -/
def Ess1 (ops : List (EOp1 α)) (s : Side) : Prop := Since (EOp1.sets s) EOp1.makesPeriodic ops

/-- the last call made the grid periodic -/
def Per1 (ops : List (EOp1 α)) : Prop := Since EOp1.makesPeriodic (fun _ => True) ops

/-- the state after a history of calls naming only the sides of the 1D grid -/
structure EState1 (e : EssentialBcs1d α) (ops : List (EOp1 α)) : Prop where
  px : e.periodic_along_x = true ↔ Per1 ops
  sides : ∃ a b, e.sides = [a, b] ∧ (a = true ↔ Ess1 ops .Xmin) ∧ (b = true ↔ Ess1 ops .Xmax)
  funs : ∃ f0 f1, e.functions = [f0, f1] ∧
    (∀ f, Since (fun o => EOp1.value .Xmin o = some f) (fun o => (EOp1.value .Xmin o).isSome = true) ops → f0 = f) ∧
    (∀ f, Since (fun o => EOp1.value .Xmax o = some f) (fun o => (EOp1.value .Xmax o).isSome = true) ops → f1 = f)
  excl : ∀ s, ¬ (Ess1 ops s ∧ Per1 ops)

theorem runE1_state (ops : List (EOp1 α)) (hops : ∀ s f, EOp1.set s f ∈ ops → s.isX = true) : ∃ e, runE1 ops = ok e ∧ EState1 e ops := by
  induction ops using List.reverseRecOn with
  | nil =>
    refine ⟨_, rfl, ?_, ⟨false, false, rfl, ?_, ?_⟩, ⟨_, _, rfl, fun f h => absurd h (since_nil _ _), fun f h => absurd h (since_nil _ _)⟩, ?_⟩
    · simp only [EssentialBcs1d.new, Bool.false_eq_true, false_iff]; exact since_nil _ _
    · simp only [Bool.false_eq_true, false_iff]; exact since_nil _ _
    · simp only [Bool.false_eq_true, false_iff]; exact since_nil _ _
    · rintro s ⟨h, _⟩; exact since_nil _ _ h
  | append_singleton ops o ih =>
    obtain ⟨e, he, hs⟩ := ih (fun s f h => hops s f (by simp [h]))
    obtain ⟨a, b, hab, ha, hb⟩ := hs.sides
    obtain ⟨f0, f1, hff, hf0, hf1⟩ := hs.funs
    have hE : ∀ s, Ess1 (ops ++ [o]) s ↔ EOp1.sets s o ∨ (Ess1 ops s ∧ ¬ EOp1.makesPeriodic o) := fun s => since_append _ _ _ _
    have hP : Per1 (ops ++ [o]) ↔ EOp1.makesPeriodic o ∨ (Per1 ops ∧ ¬ True) := since_append _ _ _ _
    have key : ∃ e', o.run e = ok e' ∧ EState1 e' (ops ++ [o]) := by
      cases o with
      | setPeriodic x =>
        unfold EOp1.run EssentialBcs1d.setPeriodic
        dsimp only
        rw [hab]
        have hfun : ∃ g0 g1, e.functions = [g0, g1] ∧
            (∀ f, Since (fun o => EOp1.value .Xmin o = some f) (fun o => (EOp1.value .Xmin o).isSome = true) (ops ++ [.setPeriodic x]) → g0 = f) ∧
            (∀ f, Since (fun o => EOp1.value .Xmax o = some f) (fun o => (EOp1.value .Xmax o).isSome = true) (ops ++ [.setPeriodic x]) → g1 = f) := by
          refine ⟨f0, f1, hff, fun f h => ?_, fun f h => ?_⟩
          · rw [since_append] at h; simp [EOp1.value] at h; exact hf0 f h
          · rw [since_append] at h; simp [EOp1.value] at h; exact hf1 f h
        cases x
        · refine ⟨_, rfl, ?_, ⟨a, b, rfl, ?_, ?_⟩, hfun, ?_⟩
          · rw [hP]; simp [EOp1.makesPeriodic]
          · rw [hE, ← ha]; simp [EOp1.sets, EOp1.makesPeriodic]
          · rw [hE, ← hb]; simp [EOp1.sets, EOp1.makesPeriodic]
          · intro s; rw [hP]; simp [EOp1.makesPeriodic]
        · refine ⟨_, rfl, ?_, ⟨false, false, rfl, ?_, ?_⟩, hfun, ?_⟩
          · rw [hP]; simp [EOp1.makesPeriodic]
          · rw [hE]; simp [EOp1.sets, EOp1.makesPeriodic]
          · rw [hE]; simp [EOp1.sets, EOp1.makesPeriodic]
          · intro s; rw [hE]; simp [EOp1.sets, EOp1.makesPeriodic]
      | set t f =>
        have ht := hops t f (by simp)
        unfold EOp1.run EssentialBcs1d.set
        dsimp only
        rw [hab]
        rw [hff]
        have hnp : ∀ s, ¬ (Ess1 (ops ++ [.set t f]) s ∧ Per1 (ops ++ [.set t f])) := by
          intro s; rw [hP]; simp [EOp1.makesPeriodic]
        cases t with
        | Xmin =>
          refine ⟨_, rfl, ?_, ⟨true, b, rfl, ?_, ?_⟩, ⟨f, f1, rfl, fun g h => ?_, fun g h => ?_⟩, hnp⟩
          · rw [hP]; simp [EOp1.makesPeriodic]
          · rw [hE]; simp [EOp1.sets]
          · rw [hE, ← hb]; simp [EOp1.sets, EOp1.makesPeriodic]
          · rw [since_append] at h; simp [EOp1.value] at h; exact h
          · rw [since_append] at h; simp [EOp1.value] at h; exact hf1 g h
        | Xmax =>
          refine ⟨_, rfl, ?_, ⟨a, true, rfl, ?_, ?_⟩, ⟨f0, f, rfl, fun g h => ?_, fun g h => ?_⟩, hnp⟩
          · rw [hP]; simp [EOp1.makesPeriodic]
          · rw [hE, ← ha]; simp [EOp1.sets, EOp1.makesPeriodic]
          · rw [hE]; simp [EOp1.sets]
          · rw [since_append] at h; simp [EOp1.value] at h; exact hf0 g h
          · rw [since_append] at h; simp [EOp1.value] at h; exact h
        | Ymin => cases ht
        | Ymax => cases ht
      | setHomogeneous =>
        unfold EOp1.run EssentialBcs1d.setHomogeneous
        dsimp only
        rw [hab]
        refine ⟨_, rfl, ?_, ⟨true, true, rfl, ?_, ?_⟩, ⟨_, _, rfl, fun g h => ?_, fun g h => ?_⟩, ?_⟩
        · rw [hP]; simp [EOp1.makesPeriodic]
        · rw [hE]; simp [EOp1.sets]
        · rw [hE]; simp [EOp1.sets]
        · rw [since_append] at h; simp [EOp1.value] at h; exact h
        · rw [since_append] at h; simp [EOp1.value] at h; exact h
        · intro s; rw [hP]; simp [EOp1.makesPeriodic]
    obtain ⟨e', he', hs'⟩ := key
    refine ⟨e', ?_, hs'⟩
    unfold runE1 at he ⊢
    rw [forList_append, he, ok_bind, forList, he', ok_bind, forList]

theorem runN1_state (ops : List (Side × (α → α))) (hops : ∀ o ∈ ops, o.1.isX = true) : ∃ n, runN1 ops = ok n ∧
    n.functions.length = 2 ∧ ∃ a b, n.sides = [a, b] ∧ (a = true ↔ ∃ o ∈ ops, o.1 = Side.Xmin) ∧ (b = true ↔ ∃ o ∈ ops, o.1 = Side.Xmax) := by
  induction ops using List.reverseRecOn with
  | nil => exact ⟨_, rfl, rfl, false, false, rfl, by simp, by simp⟩
  | append_singleton ops o ih =>
    obtain ⟨n, hn, hlen, a, b, hab, ha, hb⟩ := ih (fun o h => hops o (by simp [h]))
    have ho := hops o (by simp)
    obtain ⟨t, f⟩ := o
    have hrun : runN1 (ops ++ [(t, f)]) = n.set t f := by
      unfold runN1 at hn ⊢
      rw [forList_append, hn, ok_bind, forList]
      dsimp only
      cases n.set t f <;> rfl
    rw [hrun]
    unfold NaturalBcs1d.set
    dsimp only
    rw [hab]
    cases t with
    | Xmin =>
      rw [show Side.Xmin.index = 0 from rfl, vset_lt _ (by omega), ok_bind, vset_lt _ (by simp), ok_bind]
      refine ⟨_, rfl, by simp [hlen], true, b, rfl, ?_, ?_⟩
      · simp only [true_iff]; exact ⟨(.Xmin, f), by simp, rfl⟩
      · rw [hb]
        constructor
        · rintro ⟨o, h1, h2⟩; exact ⟨o, by simp [h1], h2⟩
        · rintro ⟨o, h1, h2⟩
          rcases List.mem_append.1 h1 with h1 | h1
          · exact ⟨o, h1, h2⟩
          · rw [List.mem_singleton] at h1; subst h1; cases h2
    | Xmax =>
      rw [show Side.Xmax.index = 1 from rfl, vset_lt _ (by omega), ok_bind, vset_lt _ (by simp), ok_bind]
      refine ⟨_, rfl, by simp [hlen], a, true, rfl, ?_, ?_⟩
      · rw [ha]
        constructor
        · rintro ⟨o, h1, h2⟩; exact ⟨o, by simp [h1], h2⟩
        · rintro ⟨o, h1, h2⟩
          rcases List.mem_append.1 h1 with h1 | h1
          · exact ⟨o, h1, h2⟩
          · rw [List.mem_singleton] at h1; subst h1; cases h2
      · simp only [true_iff]; exact ⟨(.Xmax, f), by simp, rfl⟩
    | Ymin => cases ho
    | Ymax => cases ho

/-- **C47** The same in one dimension (for calls naming Xmin and Xmax only). -/
theorem C47_validate_1d (eops : List (EOp1 α)) (nops : List (Side × (α → α))) (he : ∀ s f, EOp1.set s f ∈ eops → s.isX = true)
    (hn : ∀ o ∈ nops, o.1.isX = true) :
    ∃ e n, runE1 eops = ok e ∧ runN1 nops = ok n ∧
      okIff (e.validate n) (∀ s, s.isX = true → ExactlyOne (Ess1 eops s) (∃ o ∈ nops, o.1 = s) (Per1 eops)) := by
  obtain ⟨e, he, hs⟩ := runE1_state eops he
  obtain ⟨n, hn, _, m0, m1, hm, n0, n1⟩ := runN1_state nops hn
  obtain ⟨s0, s1, hab, h0, h1⟩ := hs.sides
  refine ⟨e, n, he, hn, ?_⟩
  have hval : e.validate n = (do
      notBoth "Xmin side must not have both EBC and NBC" s0 m0
      notBoth "Xmax side must not have both EBC and NBC" s1 m1
      axisTest e.periodic_along_x s0 s1 m0 m1 "Periodic X does not allow NBC on Xmin or Xmax" "Xmin side is missing either EBC or NBC"
        "Xmax side is missing either EBC or NBC") := by
    unfold EssentialBcs1d.validate
    rw [hab, hm]
    rfl
  have hall : (∀ s : Side, s.isX = true → ExactlyOne (Ess1 eops s) (∃ o ∈ nops, o.1 = s) (Per1 eops)) ↔
      ExactlyOne (Ess1 eops .Xmin) (∃ o ∈ nops, o.1 = Side.Xmin) (Per1 eops) ∧ ExactlyOne (Ess1 eops .Xmax) (∃ o ∈ nops, o.1 = Side.Xmax) (Per1 eops) := by
    constructor
    · intro h; exact ⟨h .Xmin rfl, h .Xmax rfl⟩
    · rintro ⟨a, b⟩ s h
      cases s
      · exact a
      · exact b
      · cases h
      · cases h
  have x0 := hs.excl .Xmin
  have x1 := hs.excl .Xmax
  have px := hs.px
  rw [hall, hval, ← h0, ← h1, ← n0, ← n1, ← px]
  rw [← h0, ← px] at x0
  rw [← h1, ← px] at x1
  generalize e.periodic_along_x = p at *
  clear h0 h1 n0 n1 hall hval hab hm hs px he hn
  have key := (okIff_notBoth "Xmin side must not have both EBC and NBC" s0 m0).seq
    ((okIff_notBoth "Xmax side must not have both EBC and NBC" s1 m1).seq
    (okIff_axisTest p s0 s1 m0 m1 "Periodic X does not allow NBC on Xmin or Xmax" "Xmin side is missing either EBC or NBC"
        "Xmax side is missing either EBC or NBC"))
  exact key.congr (one_axis p s0 s1 m0 m1 x0 x1)

/-- **C47** In one dimension: the functions kept are those of the last call that set them, and `get_nodes` lists the end nodes with essential
conditions. -/
theorem C47_get_nodes_1d (eops : List (EOp1 α)) (he : ∀ s f, EOp1.set s f ∈ eops → s.isX = true) {nx : Nat} (hx : 2 ≤ nx) :
    ∃ e nodes, runE1 eops = ok e ∧ e.getNodes nx = ok nodes ∧ nodes.Nodup ∧
      (∀ m, m ∈ nodes ↔ (m = 0 ∧ Ess1 eops .Xmin) ∨ (m = nx - 1 ∧ Ess1 eops .Xmax)) ∧
      (∀ s f, s.isX = true → Since (fun o => EOp1.value s o = some f) (fun o => (EOp1.value s o).isSome = true) eops → vget e.functions s.index = ok f) := by
  obtain ⟨e, he, hs⟩ := runE1_state eops he
  obtain ⟨a, b, hab, ha, hb⟩ := hs.sides
  obtain ⟨f0, f1, hff, hf0, hf1⟩ := hs.funs
  have hn : e.getNodes nx = ok ((if a then [0] else []) ++ (if b then [nx - 1] else [])) := by
    unfold EssentialBcs1d.getNodes
    rw [hab]
    cases a <;> cases b <;> rfl
  refine ⟨e, _, he, hn, ?_, ?_, ?_⟩
  · cases a <;> cases b <;> simp
    omega
  · intro m
    rw [← ha, ← hb]
    cases a <;> cases b <;> simp
  · intro s f hsx h
    rw [hff]
    cases s
    · rw [← hf0 f h]; rfl
    · rw [← hf1 f h]; rfl
    · cases hsx
    · cases hsx

/-- **C47** In one dimension, the natural conditions kept are those of the last call that set them. -/
theorem C47_functions_1d (nops : List (Side × (α → α))) (hn : ∀ o ∈ nops, o.1.isX = true) :
    ∃ n, runN1 nops = ok n ∧ ∀ s f, Since (fun o => o = (s, f)) (fun o => o.1 = s) nops → vget n.functions s.index = ok f := by
  induction nops using List.reverseRecOn with
  | nil => exact ⟨_, rfl, fun s f h => absurd h (since_nil _ _)⟩
  | append_singleton ops o ih =>
    obtain ⟨n, hn1, hf⟩ := ih (fun o h => hn o (by simp [h]))
    obtain ⟨n', hn', hlen, a, b, hab, _⟩ := runN1_state ops (fun o h => hn o (by simp [h]))
    rw [hn1] at hn'; cases hn'
    have ho := hn o (by simp)
    obtain ⟨t, f⟩ := o
    have hrun : runN1 (ops ++ [(t, f)]) = n.set t f := by
      unfold runN1 at hn1 ⊢
      rw [forList_append, hn1, ok_bind, forList]
      dsimp only
      cases n.set t f <;> rfl
    have ht : t.index < 2 := by cases t <;> simp_all [Side.index, Side.isX]
    rw [hrun]
    unfold NaturalBcs1d.set
    dsimp only
    rw [vset_lt _ (by omega), ok_bind, hab, vset_lt _ (by simpa using ht), ok_bind]
    refine ⟨_, rfl, ?_⟩
    intro s' f' h
    rw [since_append] at h
    dsimp only
    rcases h with h | ⟨h, hne⟩
    · cases h
      apply vget_of
      rw [List.getElem?_set_self (by omega)]
    · have := hf s' f' h
      rw [vget_eq_ok] at this ⊢
      rw [List.getElem?_set_ne]
      · exact this
      · exact fun e => hne (index_inj.1 e)

/-- **C47** In one dimension, naming a side of the y axis panics. -/
theorem C47_side_1d (eops : List (EOp1 α)) (s : Side) (f : α → α) (he : ∀ s f, EOp1.set s f ∈ eops → s.isX = true) (hs : s.isX = false) :
    ∃ e, runE1 eops = ok e ∧ e.set s f = panic := by
  obtain ⟨e, he, hst⟩ := runE1_state eops he
  refine ⟨e, he, ?_⟩
  unfold EssentialBcs1d.set
  dsimp only
  rw [vset_ge]
  · rfl
  · obtain ⟨f0, f1, hff, _⟩ := hst.funs
    rw [hff]
    cases s <;> simp_all [Side.index, Side.isX]

/-- a periodic axis undone by a later `set` -/
example : ¬ Per ([.setPeriodic true false, .set .Xmax fun _ _ => 1] : List (EOp ℚ)) .Xmin ∧
    Ess ([.setPeriodic true false, .set .Xmax fun _ _ => 1] : List (EOp ℚ)) .Xmax := by
  constructor
  · intro h
    have h' := (since_append (EOp.makesPeriodic Side.Xmin) (EOp.touchesAxis Side.Xmin) [EOp.setPeriodic true false] (EOp.set .Xmax fun _ _ => (1 : ℚ))).1 h
    rcases h' with h | ⟨_, h⟩
    · exact h
    · exact h rfl
  · exact ⟨[.setPeriodic true false], .set .Xmax fun _ _ => 1, [], rfl, rfl, by simp⟩

end Decl

end Russell.Pde
