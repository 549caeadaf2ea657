import Verif.Pde.Bcs
import Verif.Pde.TransfiniteSamples
import Mathlib.Analysis.SpecialFunctions.Complex.Arg
import Mathlib.Analysis.SpecialFunctions.Trigonometric.DerivHyp
import Mathlib.Analysis.SpecialFunctions.Log.Basic

/-!
# Sample boundary value problems (C98)

Model of russell_pde/src/problem_samples.rs with real numbers; exact arithmetic. The returned tuples are structures; the coefficient
`alpha` and the flow function are returned beside it if the code returns them.
-/

namespace Russell.Pde

open Russell Russell.Res Real

noncomputable section

/-- the part `(xmin, xmax, kx, ebcs, nbcs, source, analytical)` of the tuples in 1D (/repo/russell_pde/src/problem_samples.rs:38-47) -/
structure Problem1 where
  xmin : ℝ
  xmax : ℝ
  kx : ℝ
  ebcs : EssentialBcs1d ℝ
  nbcs : NaturalBcs1d ℝ
  source : ℝ → ℝ
  analytical : ℝ → ℝ

/-- the part `(xmin, xmax, ymin, ymax, kx, ky, ebcs, nbcs, source, analytical)` of the tuples in 2D
(/repo/russell_pde/src/problem_samples.rs:547-558) -/
structure Problem2 where
  xmin : ℝ
  xmax : ℝ
  ymin : ℝ
  ymax : ℝ
  kx : ℝ
  ky : ℝ
  ebcs : EssentialBcs2d ℝ
  nbcs : NaturalBcs2d ℝ
  source : ℝ → ℝ → ℝ
  analytical : ℝ → ℝ → ℝ

/-- the tuple `(map, k, ebcs, nbcs, source, analytical)` on curvilinear domains (/repo/russell_pde/src/problem_samples.rs:1020-1027) -/
structure ProblemMap where
  map : Transfinite2d
  k : ℝ
  ebcs : EssentialBcs2d ℝ
  nbcs : NaturalBcs2d ℝ
  source : ℝ → ℝ → ℝ
  analytical : ℝ → ℝ → ℝ

/-- `f64::atan2(y, x)` in exact arithmetic, with the value zero at the origin; the signs of zeros are not distinguished -/
def atan2 (y x : ℝ) : ℝ := Complex.arg ⟨x, y⟩

namespace ProblemSamples

/-- `d1_problem_01` (/repo/russell_pde/src/problem_samples.rs:38-58): problem and flow -/
def d1Problem01 : Res (Problem1 × (ℝ → ℝ)) := do
  let xmin := 0
  let xmax := 1
  let kx := 1
  let ebcs := EssentialBcs1d.new
  let nbcs := NaturalBcs1d.new
  let ebcs ← ebcs.setHomogeneous
  let source := fun x => x
  let analytical := fun x : ℝ => (x - x ^ 3) / 6
  let ana_flow := fun x : ℝ => (-kx) * (1 - 3 * x * x) / 6
  ok (⟨xmin, xmax, kx, ebcs, nbcs, source, analytical⟩, ana_flow)

/-- `d1_problem_02` (/repo/russell_pde/src/problem_samples.rs:120-147): problem and `alpha` -/
def d1Problem02 : Res (Problem1 × ℝ) := do
  let lx := 0.05
  let kx := 0.01571
  let alpha := 2 * π
  let phi_a := 320
  let phi_inf := 20
  let xmin := 0
  let xmax := lx
  let ebcs := EssentialBcs1d.new
  let nbcs := NaturalBcs1d.new
  let ebcs ← ebcs.set .Xmin fun _ => phi_a
  let nbcs ← nbcs.set .Xmax fun _ => 0
  let source := fun _ => alpha * phi_inf
  let analytical := fun x =>
    let m := √(alpha / kx)
    phi_inf + (phi_a - phi_inf) * cosh (m * (lx - x)) / cosh (m * lx)
  ok (⟨xmin, xmax, kx, ebcs, nbcs, source, analytical⟩, alpha)

/-- `d1_problem_03` (/repo/russell_pde/src/problem_samples.rs:202-228): problem and `alpha` -/
def d1Problem03 : Res (Problem1 × ℝ) := do
  let lx := 1
  let kx := 1
  let alpha := 1
  let phi_a := 2
  let xmin := 0
  let xmax := lx
  let ebcs := EssentialBcs1d.new
  let nbcs := NaturalBcs1d.new
  let ebcs ← ebcs.set .Xmin fun _ => phi_a
  let nbcs ← nbcs.set .Xmax fun _ => -3
  let source := fun x => x * x
  let analytical := fun x =>
    let d := cosh 1
    sinh x / d + x * x + 2
  ok (⟨xmin, xmax, kx, ebcs, nbcs, source, analytical⟩, alpha)

/-- `d1_problem_04a` (/repo/russell_pde/src/problem_samples.rs:266-284) -/
def d1Problem04a : Res Problem1 := do
  let xmin := -1
  let xmax := 1
  let kx := -1
  let ebcs := EssentialBcs1d.new
  let nbcs := NaturalBcs1d.new
  let ebcs ← ebcs.setHomogeneous
  let source := fun x => exp (4 * x)
  let analytical := fun x => (exp (4 * x) - sinh 4 * x - cosh 4) / 16
  ok ⟨xmin, xmax, kx, ebcs, nbcs, source, analytical⟩

/-- `d1_problem_04b` (/repo/russell_pde/src/problem_samples.rs:325-345) -/
def d1Problem04b : Res Problem1 := do
  let xmin := -1
  let xmax := 1
  let kx := -1
  let ebcs := EssentialBcs1d.new
  let nbcs := NaturalBcs1d.new
  let ebcs ← ebcs.set .Xmax fun _ => 0
  let nbcs ← nbcs.set .Xmin fun _ => 0
  let source := fun x => exp (4 * x)
  let analytical := fun x => (exp (4 * x) - 4 * exp (-4) * (x - 1) - exp 4) / 16
  ok ⟨xmin, xmax, kx, ebcs, nbcs, source, analytical⟩

/-- `d1_problem_05` (/repo/russell_pde/src/problem_samples.rs:393-425): problem and flow -/
def d1Problem05 (beta ll g0 phi_ll : ℝ) : Res (Problem1 × (ℝ → ℝ)) := do
  let xmin := 0
  let xmax := ll
  let kx := -1
  let ebcs := EssentialBcs1d.new
  let nbcs := NaturalBcs1d.new
  let ebcs ← ebcs.set .Xmax fun _ => phi_ll
  let nbcs ← nbcs.set .Xmin fun _ => -g0
  let source := fun _ => 0
  let analytical := fun x =>
    let c1 := g0 / beta
    let c2 := (phi_ll - c1 * sin (beta * ll)) / cos (beta * ll)
    c1 * sin (beta * x) + c2 * cos (beta * x)
  let ana_flow := fun x => (-kx) * ((g0 * cos (beta * (ll - x)) - beta * phi_ll * sin (beta * x)) / cos (beta * ll))
  ok (⟨xmin, xmax, kx, ebcs, nbcs, source, analytical⟩, ana_flow)

/-- `d2_problem_01` (/repo/russell_pde/src/problem_samples.rs:469-505): problem and flow -/
def d2Problem01 (case_a : Bool) : Res (Problem2 × (ℝ → ℝ → ℝ × ℝ)) := do
  let xmin := 0
  let xmax := 1
  let ymin := 0
  let ymax := 1
  let kx := 1
  let ky := 1
  let ebcs := EssentialBcs2d.new
  let nbcs := NaturalBcs2d.new
  let (ebcs, nbcs) ←
    if case_a then do
      let ebcs ← ebcs.setHomogeneous
      ok (ebcs, nbcs)
    else do
      let nbcs ← nbcs.set .Xmin fun _ y => -kx * exp (-y) * (y - 1) * y
      let nbcs ← nbcs.set .Ymin fun x _ => -ky * exp x * (x - 1) * x
      let ebcs ← ebcs.set .Xmax fun _ _ => 0
      let ebcs ← ebcs.set .Ymax fun _ _ => 0
      ok (ebcs, nbcs)
  let source := fun x y => 2 * x * (1 - y) * (y - 2 * x + x * y + 2) * exp (x - y)
  let analytical := fun x y => x * y * (x - 1) * (y - 1) * exp (x - y)
  let ana_flow := fun x y =>
    ((-kx) * exp (x - y) * (x * x + x - 1) * (y - 1) * y, (-ky) * exp (x - y) * (y * y - 3 * y + 1) * (1 - x) * x)
  ok (⟨xmin, xmax, ymin, ymax, kx, ky, ebcs, nbcs, source, analytical⟩, ana_flow)

/-- `d2_problem_02` (/repo/russell_pde/src/problem_samples.rs:547-570) -/
def d2Problem02 : Res Problem2 := do
  let xmin := 0
  let xmax := 1
  let ymin := 0
  let ymax := 1
  let kx := -1
  let ky := -1
  let ebcs := EssentialBcs2d.new
  let ebcs ← ebcs.set .Xmin fun _ _ => 0
  let ebcs ← ebcs.set .Xmax fun _ _ => 0
  let ebcs ← ebcs.set .Ymin fun _ _ => 0
  let ebcs ← ebcs.set .Ymax fun x _ => sin (π * x)
  let nbcs := NaturalBcs2d.new
  let source := fun x y => -π * π * y * sin (π * x)
  let analytical := fun x y => y * sin (π * x)
  ok ⟨xmin, xmax, ymin, ymax, kx, ky, ebcs, nbcs, source, analytical⟩

/-- `d2_problem_03` (/repo/russell_pde/src/problem_samples.rs:618-685): problem and flow. The keyword is a list of characters; `k` and
`alpha` are given by the caller. -/
def d2Problem03 (k alpha : ℝ) (bc_combo : List Char) : Res (Problem2 × (ℝ → ℝ → ℝ × ℝ)) :=
  if bc_combo = ['N', 'N', 'D', 'D'] ∨ bc_combo = ['N', 'D', 'N', 'D'] ∨ bc_combo = ['D', 'N', 'N', 'D'] ∨
      bc_combo = ['D', 'D', 'N', 'N'] ∨ bc_combo = ['D', 'D', 'D', 'D'] then do
    let key_right ← vget bc_combo 0
    let key_top ← vget bc_combo 1
    let key_left ← vget bc_combo 2
    let key_bottom ← vget bc_combo 3
    let xmin := 0
    let xmax := 1
    let ymin := 0
    let ymax := 1
    let kx := k
    let ky := k
    let ebcs := EssentialBcs2d.new
    let nbcs := NaturalBcs2d.new
    let (ebcs, nbcs) ←
      if key_left = 'D' then do
        let ebcs ← ebcs.set .Xmin fun _ _ => 0
        ok (ebcs, nbcs)
      else do
        let nbcs ← nbcs.set .Xmin fun _ y => -k * (-2) * π * cos (2 * π * y)
        ok (ebcs, nbcs)
    let (ebcs, nbcs) ←
      if key_right = 'D' then do
        let ebcs ← ebcs.set .Xmax fun _ _ => 0
        ok (ebcs, nbcs)
      else do
        let nbcs ← nbcs.set .Xmax fun _ y => -k * 2 * π * cos (2 * π * y)
        ok (ebcs, nbcs)
    let (ebcs, nbcs) ←
      if key_bottom = 'D' then do
        let ebcs ← ebcs.set .Ymin fun x _ => sin (2 * π * x)
        ok (ebcs, nbcs)
      else do
        let nbcs ← nbcs.set .Ymin fun _ _ => 0
        ok (ebcs, nbcs)
    let (ebcs, nbcs) ←
      if key_top = 'D' then do
        let ebcs ← ebcs.set .Ymax fun x _ => sin (2 * π * x)
        ok (ebcs, nbcs)
      else do
        let nbcs ← nbcs.set .Ymax fun _ _ => 0
        ok (ebcs, nbcs)
    let source := fun x y => (8 * k * π * π + alpha) * sin (2 * π * x) * cos (2 * π * y)
    let analytical := fun x y => sin (2 * π * x) * cos (2 * π * y)
    let ana_flow := fun x y =>
      ((-k) * 2 * π * cos (2 * π * x) * cos (2 * π * y), (-k) * 2 * π * sin (2 * π * x) * sin (2 * π * y) * (-1))
    ok (⟨xmin, xmax, ymin, ymax, kx, ky, ebcs, nbcs, source, analytical⟩, ana_flow)
  else panic

/-- `(1..n).step_by(2)`: the odd numbers below `n` -/
def odds (n : Nat) : List Nat := (List.range (n / 2)).map fun i => 2 * i + 1

/-- the body of the loop of `d2_problem_04` (/repo/russell_pde/src/problem_samples.rs:750-761); integers do not overflow -/
def d2Problem04Step (x y sum : ℝ) (k : Nat) : ℝ :=
  let k3 : ℝ := ((k * k * k : Nat) : ℝ)
  let kp := (k : ℝ) * π
  let ak := kp * (1 + x) / 2
  let bk := kp * (1 + y) / 2
  let ck := kp * (1 - y) / 2
  let sak := sin ak
  if sak ≠ 0 then sum + sak * (sinh bk + sinh ck) / (k3 * sinh kp) else sum

/-- `d2_problem_04` (/repo/russell_pde/src/problem_samples.rs:729-765) -/
def d2Problem04 (ana_nsum : Nat) : Res Problem2 := do
  let xmin := -1
  let xmax := 1
  let ymin := -1
  let ymax := 1
  let kx := 1
  let ky := 1
  let ebcs := EssentialBcs2d.new
  let ebcs ← ebcs.setHomogeneous
  let nbcs := NaturalBcs2d.new
  let source := fun _ _ => 1
  let analytical := fun x y =>
    let sum := (odds ana_nsum).foldl (d2Problem04Step x y) 0
    (1 - x * x) / 2 - 16 * sum / (π * π * π)
  ok ⟨xmin, xmax, ymin, ymax, kx, ky, ebcs, nbcs, source, analytical⟩

/-- `d2_problem_05` (/repo/russell_pde/src/problem_samples.rs:800-832) -/
def d2Problem05 : Res Problem2 := do
  let xmin := -1
  let xmax := 1
  let ymin := -1
  let ymax := 1
  let kx := 1
  let ky := 1
  let analytical := fun x _ => 1 + x ^ 3
  let ebcs := EssentialBcs2d.new
  let ebcs ← ebcs.set .Xmin fun _ _ => 0
  let ebcs ← ebcs.set .Xmax fun _ _ => 2
  let nbcs := NaturalBcs2d.new
  let nbcs ← nbcs.set .Ymin fun _ _ => 0
  let nbcs ← nbcs.set .Ymax fun _ _ => 0
  let source := fun x _ => -6 * x
  ok ⟨xmin, xmax, ymin, ymax, kx, ky, ebcs, nbcs, source, analytical⟩

/-- `d2_problem_06` (/repo/russell_pde/src/problem_samples.rs:867-899) -/
def d2Problem06 : Res Problem2 := do
  let xmin := -1
  let xmax := 1
  let ymin := -1
  let ymax := 1
  let kx := 1
  let ky := 1
  let analytical := fun x y => tanh (1 - x + y)
  let ebcs := EssentialBcs2d.new
  let ebcs ← ebcs.set .Xmin fun _ y => tanh (2 + y)
  let ebcs ← ebcs.set .Ymin fun x _ => -tanh x
  let ebcs ← ebcs.set .Ymax fun x _ => tanh (2 - x)
  let nbcs := NaturalBcs2d.new
  let nbcs ← nbcs.set .Xmax fun _ y => 1 / cosh y ^ 2
  let source := fun x y => 4 * tanh (1 - x + y) / cosh (1 - x + y) ^ 2
  ok ⟨xmin, xmax, ymin, ymax, kx, ky, ebcs, nbcs, source, analytical⟩

/-- `d2_problem_07` (/repo/russell_pde/src/problem_samples.rs:940-972) -/
def d2Problem07 : Res Problem2 := do
  let xmin := -1
  let xmax := 1
  let ymin := -1
  let ymax := 1
  let kx := -1
  let ky := -1
  let analytical := fun x y => cos (2 * π * x) * sin (2 * π * y)
  let ebcs := EssentialBcs2d.new
  let ebcs ← ebcs.set .Xmin fun _ y => sin (2 * π * y)
  let ebcs ← ebcs.set .Xmax fun _ y => sin (2 * π * y)
  let ebcs ← ebcs.set .Ymin fun _ _ => 0
  let ebcs ← ebcs.set .Ymax fun _ _ => 0
  let nbcs := NaturalBcs2d.new
  let source := fun x y => -8 * π * π * cos (2 * π * x) * sin (2 * π * y)
  ok ⟨xmin, xmax, ymin, ymax, kx, ky, ebcs, nbcs, source, analytical⟩

/-- `d2_problem_08` (/repo/russell_pde/src/problem_samples.rs:1016-1069) -/
def d2Problem08 (ra rb : ℝ) (lozenge : Bool) : Res ProblemMap := do
  let map ← if lozenge then TransfiniteSamples.quarterPerforatedLozenge2d ra rb else TransfiniteSamples.quarterRing2d ra rb
  let k := -1
  let analytical := fun x y : ℝ =>
    let r := √(x * x + y * y)
    let theta := atan2 y x
    log r * sin (4 * theta)
  let ebcs := EssentialBcs2d.new
  let ebcs ← ebcs.set .Xmin fun x y =>
    let theta := atan2 y x
    let r := √(x * x + y * y)
    log r * sin (4 * theta)
  let ebcs ← ebcs.set .Xmax fun x y =>
    let theta := atan2 y x
    let r := √(x * x + y * y)
    log r * sin (4 * theta)
  let ebcs ← ebcs.set .Ymin fun _ _ => 0
  let ebcs ← ebcs.set .Ymax fun _ _ => 0
  let nbcs := NaturalBcs2d.new
  let source := fun x y : ℝ =>
    let r := √(x * x + y * y)
    let theta := atan2 y x
    (-16) * log r * sin (4 * theta) / (r * r)
  ok ⟨map, k, ebcs, nbcs, source, analytical⟩

/-- `d2_problem_09` (/repo/russell_pde/src/problem_samples.rs:1116-1157) -/
def d2Problem09 (ra rb v_inf : ℝ) : Res ProblemMap := do
  let map ← TransfiniteSamples.halfRing2d ra rb
  let k := -1
  let analytical := fun x y : ℝ =>
    let r := √(x * x + y * y)
    let theta := atan2 y x
    (r + ra * ra / r) * v_inf * cos theta
  let ebcs := EssentialBcs2d.new
  let ebcs ← ebcs.set .Xmax fun x y =>
    let theta := atan2 y x
    let r := √(x * x + y * y)
    (r + ra * ra / r) * v_inf * cos theta
  let nbcs := NaturalBcs2d.new
  let nbcs ← nbcs.set .Xmin fun _ _ => 0
  let nbcs ← nbcs.set .Ymin fun _ _ => 0
  let nbcs ← nbcs.set .Ymax fun _ _ => 0
  let source := fun _ _ => 0
  ok ⟨map, k, ebcs, nbcs, source, analytical⟩

end ProblemSamples

end

end Russell.Pde
