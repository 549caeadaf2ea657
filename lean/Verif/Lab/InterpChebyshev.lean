import Verif.Lab.ChebyshevPoints
import Verif.Lab.NumVector
import Verif.Lab.Bracket

/-!
# Model of the Chebyshev interpolation (C87)

Model of russell_lab/src/algo/interp_chebyshev.rs with real numbers; exact arithmetic. The vectors `a` and `uu_rev` have
`nn_max + 1` components; they are represented by functions, the assertions about their lengths are kept. The methods return the
object together with the result, also when they fail, because a failed call may leave it modified.
-/

namespace Russell.Lab

open Russell Russell.Res

noncomputable section

/-- `TOL_RANGE` (/repo/russell_lab/src/algo/interp_chebyshev.rs:6) -/
def tolRange : ℝ := 1e-5

/-- `InterpChebyshev` (/repo/russell_lab/src/algo/interp_chebyshev.rs:51-86) -/
structure InterpChebyshev where
  nn_max : Nat
  nn : Nat
  xa : ℝ
  xb : ℝ
  dx : ℝ
  a : Nat → ℝ
  uu_rev : Nat → ℝ
  constant_fx : ℝ
  ready : Bool

namespace InterpChebyshev

open Classical in
/-- `InterpChebyshev::new` (/repo/russell_lab/src/algo/interp_chebyshev.rs:115-132) -/
def new (nn_max : Nat) (xa xb : ℝ) : Res InterpChebyshev :=
  if xb ≤ xa + tolRange then err "xb must be greater than xa + ϵ"
  else ok ⟨nn_max + 2, 0, xa, xb, xb - xa, fun _ => 0, fun _ => 0, 0, false⟩

section
variable {A : Type}

/-- the loop of `chebyshev_data_vector`: `n` points are left, starting with point `k`; the array is also returned upon an error -/
def dataLoop (f : Callback ℝ A) (nn : Nat) (xa xb : ℝ) : (n k : Nat) → (Nat → ℝ) × A → MRes ((Nat → ℝ) × A)
  | 0, _, s => MRes.ok s
  | n + 1, k, (uu, args) =>
    match f ((xb + xa + (xb - xa) * Real.cos (Real.pi * (k : ℝ) / (nn : ℝ))) / 2) args with
    | ok (v, args) => dataLoop f nn xa xb n (k + 1) (Function.update uu k v, args)
    | err m => MRes.err (uu, args) m
    | Res.panic => MRes.panic

open Classical in
/-- `chebyshev_data_vector` (/repo/russell_lab/src/algo/interp_chebyshev.rs:566-592); `len` is the length of the work array -/
def dataVector (uu : Nat → ℝ) (len nn : Nat) (xa xb : ℝ) (args : A) (f : Callback ℝ A) : MRes ((Nat → ℝ) × A) :=
  if nn > 0 ∧ xb > xa ∧ len ≥ nn + 1 then dataLoop f nn xa xb (nn + 1) 0 (uu, args) else MRes.panic

/-- the factor `q` of the first and last terms -/
def qFactor (nn j : Nat) : ℝ := if j = 0 ∨ j = nn then 2 else 1

/-- `chebyshev_coefficients` (/repo/russell_lab/src/algo/interp_chebyshev.rs:595-616); `len` is the length of both work arrays. The
entries are computed independently of each other, those beyond `nn` are kept. -/
def coefficients (a uu : Nat → ℝ) (len nn : Nat) : Res (Nat → ℝ) :=
  if nn > 0 ∧ len ≥ nn + 1 then
    ok fun j =>
      if j < nn + 1 then
        (List.range (nn + 1)).foldl (fun s k =>
          s + uu k * 2 * Real.cos (Real.pi * (j : ℝ) * (k : ℝ) / (nn : ℝ)) / (qFactor nn j * qFactor nn k * (nn : ℝ))) 0
      else a j
  else panic

/-- the end of `set_function`, `set_data` and `set_gen_data`: coefficients are computed and the object is ready -/
def finish (s : InterpChebyshev) (args : A) : MRes (InterpChebyshev × A) :=
  match coefficients s.a s.uu_rev (s.nn_max + 1) s.nn with
  | ok a => MRes.ok ({ s with a := a, ready := true }, args)
  | err m => MRes.err (s, args) m
  | Res.panic => MRes.panic

/-- `InterpChebyshev::set_function` (/repo/russell_lab/src/algo/interp_chebyshev.rs:163-179) -/
def setFunction (s : InterpChebyshev) (nn : Nat) (args : A) (f : Callback ℝ A) : MRes (InterpChebyshev × A) :=
  if nn > s.nn_max then MRes.err (s, args) "nn must be ≤ nn_max"
  else
    let s := { s with nn := nn }
    if nn = 0 then
      match f ((s.xa + s.xb) / 2) args with
      | ok (v, args) => MRes.ok ({ s with constant_fx := v, ready := true }, args)
      | err m => MRes.err (s, args) m
      | Res.panic => MRes.panic
    else
      match dataVector s.uu_rev (s.nn_max + 1) nn s.xa s.xb args f with
      | MRes.ok (uu, args) => finish { s with uu_rev := uu } args
      | MRes.err (uu, args) m => MRes.err ({ s with uu_rev := uu }, args) m
      | MRes.panic => MRes.panic

/-- `InterpChebyshev::set_data` (/repo/russell_lab/src/algo/interp_chebyshev.rs:227-247); the loop assigns `uu[i]` to component
`nn - i` -/
def setData (s : InterpChebyshev) (uu : List ℝ) : MRes (InterpChebyshev × Unit) :=
  let np := uu.length
  if np < 1 then MRes.err (s, ()) "the number of points (uu.len()) must be ≥ 1"
  else
    let nn := np - 1
    if nn > s.nn_max then MRes.err (s, ()) "nn (=uu.len()-1) must be ≤ nn_max"
    else
      let s := { s with nn := nn }
      if nn = 0 then MRes.ok ({ s with constant_fx := uu.getD 0 0, ready := true }, ())
      else finish { s with uu_rev := fun k => if k < np then uu.getD (nn - k) 0 else s.uu_rev k } ()

open Classical in
/-- the search and linear interpolation in `set_gen_data` (/repo/russell_lab/src/algo/interp_chebyshev.rs:291-308) over the points
`i ≥ 1`, given the previous point; `none` if no point is found -/
def genSearch (x : ℝ) : ℝ × ℝ → List (ℝ × ℝ) → Option ℝ
  | _, [] => none
  | prev, p :: t =>
    if x ≤ p.1 then some (prev.2 + (p.2 - prev.2) * (x - prev.1) / (p.1 - prev.1)) else genSearch x p t

open Classical in
/-- the same with the first point, where the value is taken -/
def genValue (x : ℝ) : List (ℝ × ℝ) → Option ℝ
  | [] => none
  | p :: t => if x ≤ p.1 then some p.2 else genSearch x p t

/-- the loop of `set_gen_data` (/repo/russell_lab/src/algo/interp_chebyshev.rs:287-309); `none`: the assertion fails -/
def genLoop (s : InterpChebyshev) (zz : List ℝ) (data : List (ℝ × ℝ)) : Res (Nat → ℝ) :=
  forRange 0 zz.length s.uu_rev fun i uu => do
    let z ← vget zz i
    match genValue ((s.xb + s.xa + s.dx * z) / 2) data with
    | none => panic
    | some u => do
      let k ← subUsize s.nn i
      ok (Function.update uu k u)

open Classical in
/-- `InterpChebyshev::set_gen_data` (/repo/russell_lab/src/algo/interp_chebyshev.rs:264-314) -/
def setGenData (s : InterpChebyshev) (xx yy : List ℝ) : MRes (InterpChebyshev × Unit) :=
  let np := xx.length
  if np < 1 then MRes.err (s, ()) "the number of points (xx_gen.len()) must be ≥ 1"
  else if yy.length ≠ np then MRes.err (s, ()) "the number of points in xx_gen and yy_gen must be the same"
  else
    let nn := np - 1
    if nn > s.nn_max then MRes.err (s, ()) "nn (=xx_gen.len()-1) must be ≤ nn_max"
    else if xx.getD 0 0 ≠ s.xa then MRes.err (s, ()) "the first point in xx_gen must be equal to xa"
    else if xx.getD nn 0 ≠ s.xb then MRes.err (s, ()) "the last point in xx_gen must be equal to xb"
    else
      let s := { s with nn := nn }
      if nn = 0 then MRes.ok ({ s with constant_fx := yy.getD 0 0, ready := true }, ())
      else
        match chebyshevLobattoPoints nn >>= fun zz => genLoop s zz (xx.zip yy) with
        | ok uu => finish { s with uu_rev := uu } ()
        | err m => MRes.err (s, ()) m
        | Res.panic => MRes.panic

/-- `InterpChebyshev::get_xy_data` (/repo/russell_lab/src/algo/interp_chebyshev.rs:329-343) -/
def getXyData (s : InterpChebyshev) : Res (List ℝ × List ℝ) :=
  if s.ready then do
    let zz ← chebyshevLobattoPoints s.nn
    forRange 0 (s.nn + 1) (List.replicate (s.nn + 1) (0 : ℝ), List.replicate (s.nn + 1) (0 : ℝ)) fun i (xx, uu) => do
      let z ← vget zz i
      let xx ← vset xx i ((s.xb + s.xa + s.dx * z) / 2)
      let k ← subUsize s.nn i
      let uu ← vset uu i (s.uu_rev k)
      ok (xx, uu)
  else err "the data or function must be set first"

open Classical in
/-- the loop of `adapt_function` (/repo/russell_lab/src/algo/interp_chebyshev.rs:392-403): `n` degrees are left, starting with `nn` -/
def adaptLoop (tol : ℝ) (f : Callback ℝ A) : (n nn : Nat) → ℝ → InterpChebyshev × A → MRes (InterpChebyshev × A)
  | 0, _, _, s => MRes.err s "adaptive interpolation did not converge"
  | n + 1, nn, an_prev, (s, args) =>
    match dataVector s.uu_rev (s.nn_max + 1) nn s.xa s.xb args f with
    | MRes.err (uu, args) m => MRes.err ({ s with uu_rev := uu }, args) m
    | MRes.panic => MRes.panic
    | MRes.ok (uu, args) =>
      match coefficients s.a uu (s.nn_max + 1) nn with
      | err m => MRes.err ({ s with uu_rev := uu }, args) m
      | Res.panic => MRes.panic
      | ok a =>
        let s := { s with uu_rev := uu, a := a }
        let an := a nn
        if nn > 1 ∧ |an_prev| < tol ∧ |an| < tol then
          match s.setFunction (nn - 2) args f with
          | MRes.ok r => MRes.ok r
          | _ => MRes.panic
        else adaptLoop tol f n (nn + 1) an (s, args)

/-- `InterpChebyshev::adapt_function` (/repo/russell_lab/src/algo/interp_chebyshev.rs:387-404) -/
def adaptFunction (s : InterpChebyshev) (tol : ℝ) (args : A) (f : Callback ℝ A) : MRes (InterpChebyshev × A) :=
  adaptLoop tol f s.nn_max 1 0 (s, args)

/-- Clenshaw's recurrence (/repo/russell_lab/src/algo/interp_chebyshev.rs:485-493): the last two values, for the indices `k` to 1 -/
def clenshaw (a : Nat → ℝ) (z2 : ℝ) : Nat → ℝ → ℝ → ℝ × ℝ
  | 0, b, b1 => (b, b1)
  | k + 1, b, b1 => clenshaw a z2 k (z2 * b - b1 + a (k + 1)) b

/-- the coordinate between -1 and 1 -/
def zOf (s : InterpChebyshev) (x : ℝ) : ℝ := max (-1) (min 1 ((2 * x - s.xb - s.xa) / s.dx))

/-- `InterpChebyshev::eval` (/repo/russell_lab/src/algo/interp_chebyshev.rs:476-496) -/
def eval (s : InterpChebyshev) (x : ℝ) : Res ℝ :=
  if s.ready then
    if s.nn = 0 then ok s.constant_fx
    else
      let z := s.zOf x
      let r := clenshaw s.a (z * 2) s.nn 0 0
      ok (r.1 * z - r.2 + s.a 0)
  else err "the data or function must be set first"

/-- `InterpChebyshev::eval_using_trig` (/repo/russell_lab/src/algo/interp_chebyshev.rs:499-513) -/
def evalUsingTrig (s : InterpChebyshev) (x : ℝ) : Res ℝ :=
  if s.ready then
    if s.nn = 0 then ok s.constant_fx
    else ok ((List.range (s.nn + 1)).foldl (fun sum k => sum + s.a k * chebyshevTn k (s.zOf x)) 0)
  else err "the data or function must be set first"

/-- `InterpChebyshev::adapt_data` (/repo/russell_lab/src/algo/interp_chebyshev.rs:450-465) -/
def adaptData (s : InterpChebyshev) (tol : ℝ) (uu : List ℝ) : MRes (InterpChebyshev × Unit) :=
  let np := uu.length
  if np < 1 then MRes.err (s, ()) "the number of points (uu.len()) must be ≥ 1"
  else
    let nn := np - 1
    if nn > s.nn_max then MRes.err (s, ()) "nn must be ≤ nn_max"
    else
      match new nn s.xa s.xb with
      | ok fit =>
        match fit.setData uu with
        | MRes.ok (fit, _) => s.adaptFunction tol () fun x _ => fit.eval x >>= fun y => ok (y, ())
        | _ => MRes.panic
      | _ => MRes.panic

/-- `InterpChebyshev::estimate_max_error` (/repo/russell_lab/src/algo/interp_chebyshev.rs:529-540) -/
def estimateMaxError (s : InterpChebyshev) (nstation : Nat) (args : A) (f : Callback ℝ A) : Res (ℝ × A) :=
  match linspace s.xa s.xb nstation with
  | ok stations =>
    forRange 0 nstation (0, args) fun p (err_f, args) => do
      let x ← vget stations p
      let fi ← s.eval x
      let (y, args) ← f x args
      ok (max err_f |fi - y|, args)
  | _ => panic

end

end InterpChebyshev

end

end Russell.Lab
