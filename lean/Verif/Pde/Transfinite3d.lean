import Verif.Pde.Transfinite2d

/-!
# Transfinite mapping in three dimensions (C92)

Model of russell_pde/src/transfinite_3d.rs with real numbers; exact arithmetic. The boundary functions are closures that write vectors
of dimension three; they are represented by pure functions which write all components.
-/

namespace Russell.Pde

open Russell Russell.Res

noncomputable section

/-- a boundary function, its first derivatives, and its second derivatives (two pure ones and the mixed one) -/
abbrev Surf := ℝ → ℝ → Fin 3 → ℝ
abbrev Surf1 := ℝ → ℝ → (Fin 3 → ℝ) × (Fin 3 → ℝ)
abbrev Surf2 := ℝ → ℝ → (Fin 3 → ℝ) × (Fin 3 → ℝ) × (Fin 3 → ℝ)

/-- `Transfinite3d` (/repo/russell_pde/src/transfinite_3d.rs:28-133); the vectors for intermediate results are left out -/
structure Transfinite3d where
  b : List Surf
  d1 : List Surf1
  d2 : Option (List Surf2)
  p0 : Fin 3 → ℝ
  p1 : Fin 3 → ℝ
  p2 : Fin 3 → ℝ
  p3 : Fin 3 → ℝ
  p4 : Fin 3 → ℝ
  p5 : Fin 3 → ℝ
  p6 : Fin 3 → ℝ
  p7 : Fin 3 → ℝ

/-- indexing of the lists of functions, whose length has been checked by `new` -/
def surfAt (l : List Surf) (i : Nat) : Surf := l.getD i fun _ _ _ => 0
def surf1At (l : List Surf1) (i : Nat) : Surf1 := l.getD i fun _ _ => (fun _ => 0, fun _ => 0)
def surf2At (l : List Surf2) (i : Nat) : Surf2 := l.getD i fun _ _ => (fun _ => 0, fun _ => 0, fun _ => 0)

/-- `Transfinite3d::new` (/repo/russell_pde/src/transfinite_3d.rs:143-259) -/
def Transfinite3d.new (b : List Surf) (d1 : List Surf1) (d2 : Option (List Surf2)) : Res Transfinite3d :=
  if b.length ≠ 6 then err "boundary_functions must have length 6"
  else if d1.length ≠ 6 then err "deriv1_boundary_functions must have length 6"
  else if d2.any fun l => l.length != 6 then err "deriv2_boundary_functions must have length 6"
  else ok
    { b := b, d1 := d1, d2 := d2
      p0 := surfAt b 4 (-1) (-1), p1 := surfAt b 4 1 (-1), p2 := surfAt b 4 1 1, p3 := surfAt b 4 (-1) 1
      p4 := surfAt b 5 (-1) (-1), p5 := surfAt b 5 1 (-1), p6 := surfAt b 5 1 1, p7 := surfAt b 5 (-1) 1 }

/-- `Transfinite3d::point` (/repo/russell_pde/src/transfinite_3d.rs:269-328) -/
def Transfinite3d.point (m : Transfinite3d) (r s t : ℝ) : Fin 3 → ℝ := fun i =>
  let b0st := surfAt m.b 0 s t
  let b1st := surfAt m.b 1 s t
  let b2rt := surfAt m.b 2 r t
  let b3rt := surfAt m.b 3 r t
  let b4rs := surfAt m.b 4 r s
  let b5rs := surfAt m.b 5 r s
  let b0mt := surfAt m.b 0 (-1) t
  let b0pt := surfAt m.b 0 1 t
  let b1mt := surfAt m.b 1 (-1) t
  let b1pt := surfAt m.b 1 1 t
  let b0sm := surfAt m.b 0 s (-1)
  let b0sp := surfAt m.b 0 s 1
  let b1sm := surfAt m.b 1 s (-1)
  let b1sp := surfAt m.b 1 s 1
  let b2rm := surfAt m.b 2 r (-1)
  let b2rp := surfAt m.b 2 r 1
  let b3rm := surfAt m.b 3 r (-1)
  let b3rp := surfAt m.b 3 r 1
  0 + (1 - r) * b0st i / 2 + (1 + r) * b1st i / 2 + (1 - s) * b2rt i / 2 + (1 + s) * b3rt i / 2 + (1 - t) * b4rs i / 2
    + (1 + t) * b5rs i / 2 - (1 - r) * (1 - s) * b0mt i / 4 - (1 - r) * (1 + s) * b0pt i / 4 - (1 + r) * (1 - s) * b1mt i / 4
    - (1 + r) * (1 + s) * b1pt i / 4 - (1 - r) * (1 - t) * b0sm i / 4 - (1 - r) * (1 + t) * b0sp i / 4
    - (1 + r) * (1 - t) * b1sm i / 4 - (1 + r) * (1 + t) * b1sp i / 4 - (1 - s) * (1 - t) * b2rm i / 4
    - (1 - s) * (1 + t) * b2rp i / 4 - (1 + s) * (1 - t) * b3rm i / 4 - (1 + s) * (1 + t) * b3rp i / 4
    + (1 - r) * (1 - s) * (1 - t) * m.p0 i / 8 + (1 + r) * (1 - s) * (1 - t) * m.p1 i / 8 + (1 + r) * (1 + s) * (1 - t) * m.p2 i / 8
    + (1 - r) * (1 + s) * (1 - t) * m.p3 i / 8 + (1 - r) * (1 - s) * (1 + t) * m.p4 i / 8 + (1 + r) * (1 - s) * (1 + t) * m.p5 i / 8
    + (1 + r) * (1 + s) * (1 + t) * m.p6 i / 8 + (1 - r) * (1 + s) * (1 + t) * m.p7 i / 8

/-- the second derivatives -/
structure Second3 where
  rr : Fin 3 → ℝ
  ss : Fin 3 → ℝ
  tt : Fin 3 → ℝ
  rs : Fin 3 → ℝ
  rt : Fin 3 → ℝ
  st : Fin 3 → ℝ

/-- what `point_and_derivs` writes; the second derivatives may be left unchanged -/
structure Derivs3 where
  x : Fin 3 → ℝ
  dr : Fin 3 → ℝ
  ds : Fin 3 → ℝ
  dt : Fin 3 → ℝ
  second : Option Second3

/-- `Transfinite3d::point_and_derivs` (/repo/russell_pde/src/transfinite_3d.rs:351-779); `all` tells whether the six arguments for the
second derivatives are given. The calls write the unused derivatives to temporary vectors. -/
def Transfinite3d.pointAndDerivs (m : Transfinite3d) (all : Bool) (r s t : ℝ) : Derivs3 :=
  let b0st := surfAt m.b 0 s t
  let b1st := surfAt m.b 1 s t
  let b2rt := surfAt m.b 2 r t
  let b3rt := surfAt m.b 3 r t
  let b4rs := surfAt m.b 4 r s
  let b5rs := surfAt m.b 5 r s
  let b0mt := surfAt m.b 0 (-1) t
  let b0pt := surfAt m.b 0 1 t
  let b1mt := surfAt m.b 1 (-1) t
  let b1pt := surfAt m.b 1 1 t
  let b0sm := surfAt m.b 0 s (-1)
  let b0sp := surfAt m.b 0 s 1
  let b1sm := surfAt m.b 1 s (-1)
  let b1sp := surfAt m.b 1 s 1
  let b2rm := surfAt m.b 2 r (-1)
  let b2rp := surfAt m.b 2 r 1
  let b3rm := surfAt m.b 3 r (-1)
  let b3rp := surfAt m.b 3 r 1
  let db0st_ds := (surf1At m.d1 0 s t).1
  let db0st_dt := (surf1At m.d1 0 s t).2
  let db1st_ds := (surf1At m.d1 1 s t).1
  let db1st_dt := (surf1At m.d1 1 s t).2
  let db2rt_dr := (surf1At m.d1 2 r t).1
  let db2rt_dt := (surf1At m.d1 2 r t).2
  let db3rt_dr := (surf1At m.d1 3 r t).1
  let db3rt_dt := (surf1At m.d1 3 r t).2
  let db4rs_dr := (surf1At m.d1 4 r s).1
  let db4rs_ds := (surf1At m.d1 4 r s).2
  let db5rs_dr := (surf1At m.d1 5 r s).1
  let db5rs_ds := (surf1At m.d1 5 r s).2
  let db0sm_ds := (surf1At m.d1 0 s (-1)).1
  let db0sp_ds := (surf1At m.d1 0 s 1).1
  let db0mt_dt := (surf1At m.d1 0 (-1) t).2
  let db0pt_dt := (surf1At m.d1 0 1 t).2
  let db1sm_ds := (surf1At m.d1 1 s (-1)).1
  let db1sp_ds := (surf1At m.d1 1 s 1).1
  let db1mt_dt := (surf1At m.d1 1 (-1) t).2
  let db1pt_dt := (surf1At m.d1 1 1 t).2
  let db2rm_dr := (surf1At m.d1 2 r (-1)).1
  let db2rp_dr := (surf1At m.d1 2 r 1).1
  let db3rm_dr := (surf1At m.d1 3 r (-1)).1
  let db3rp_dr := (surf1At m.d1 3 r 1).1
  { x := fun i => 0 + (1 - r) * b0st i / 2 + (1 + r) * b1st i / 2 + (1 - s) * b2rt i / 2 + (1 + s) * b3rt i / 2 + (1 - t) * b4rs i / 2
      + (1 + t) * b5rs i / 2 - (1 - r) * (1 - s) * b0mt i / 4 - (1 - r) * (1 + s) * b0pt i / 4 - (1 + r) * (1 - s) * b1mt i / 4
      - (1 + r) * (1 + s) * b1pt i / 4 - (1 - r) * (1 - t) * b0sm i / 4 - (1 - r) * (1 + t) * b0sp i / 4
      - (1 + r) * (1 - t) * b1sm i / 4 - (1 + r) * (1 + t) * b1sp i / 4 - (1 - s) * (1 - t) * b2rm i / 4
      - (1 - s) * (1 + t) * b2rp i / 4 - (1 + s) * (1 - t) * b3rm i / 4 - (1 + s) * (1 + t) * b3rp i / 4
      + (1 - r) * (1 - s) * (1 - t) * m.p0 i / 8 + (1 + r) * (1 - s) * (1 - t) * m.p1 i / 8
      + (1 + r) * (1 + s) * (1 - t) * m.p2 i / 8 + (1 - r) * (1 + s) * (1 - t) * m.p3 i / 8
      + (1 - r) * (1 - s) * (1 + t) * m.p4 i / 8 + (1 + r) * (1 - s) * (1 + t) * m.p5 i / 8
      + (1 + r) * (1 + s) * (1 + t) * m.p6 i / 8 + (1 - r) * (1 + s) * (1 + t) * m.p7 i / 8
    dr := fun i => 0 - b0st i / 2 + b1st i / 2 + (1 - s) * db2rt_dr i / 2 + (1 + s) * db3rt_dr i / 2 + (1 - t) * db4rs_dr i / 2
      + (1 + t) * db5rs_dr i / 2 + (1 - s) * b0mt i / 4 + (1 + s) * b0pt i / 4 - (1 - s) * b1mt i / 4 - (1 + s) * b1pt i / 4
      + (1 - t) * b0sm i / 4 + (1 + t) * b0sp i / 4 - (1 - t) * b1sm i / 4 - (1 + t) * b1sp i / 4
      - (1 - s) * (1 - t) * db2rm_dr i / 4 - (1 - s) * (1 + t) * db2rp_dr i / 4 - (1 + s) * (1 - t) * db3rm_dr i / 4
      - (1 + s) * (1 + t) * db3rp_dr i / 4 - (1 - s) * (1 - t) * m.p0 i / 8 + (1 - s) * (1 - t) * m.p1 i / 8
      + (1 + s) * (1 - t) * m.p2 i / 8 - (1 + s) * (1 - t) * m.p3 i / 8 - (1 - s) * (1 + t) * m.p4 i / 8
      + (1 - s) * (1 + t) * m.p5 i / 8 + (1 + s) * (1 + t) * m.p6 i / 8 - (1 + s) * (1 + t) * m.p7 i / 8
    ds := fun i => 0 + (1 - r) * db0st_ds i / 2 + (1 + r) * db1st_ds i / 2 - b2rt i / 2 + b3rt i / 2 + (1 - t) * db4rs_ds i / 2
      + (1 + t) * db5rs_ds i / 2 + (1 - r) * b0mt i / 4 - (1 - r) * b0pt i / 4 + (1 + r) * b1mt i / 4 - (1 + r) * b1pt i / 4
      - (1 - r) * (1 - t) * db0sm_ds i / 4 - (1 - r) * (1 + t) * db0sp_ds i / 4 - (1 + r) * (1 - t) * db1sm_ds i / 4
      - (1 + r) * (1 + t) * db1sp_ds i / 4 + (1 - t) * b2rm i / 4 + (1 + t) * b2rp i / 4 - (1 - t) * b3rm i / 4
      - (1 + t) * b3rp i / 4 - (1 - r) * (1 - t) * m.p0 i / 8 - (1 + r) * (1 - t) * m.p1 i / 8 + (1 + r) * (1 - t) * m.p2 i / 8
      + (1 - r) * (1 - t) * m.p3 i / 8 - (1 - r) * (1 + t) * m.p4 i / 8 - (1 + r) * (1 + t) * m.p5 i / 8
      + (1 + r) * (1 + t) * m.p6 i / 8 + (1 - r) * (1 + t) * m.p7 i / 8
    dt := fun i => 0 + (1 - r) * db0st_dt i / 2 + (1 + r) * db1st_dt i / 2 + (1 - s) * db2rt_dt i / 2 + (1 + s) * db3rt_dt i / 2 - b4rs i / 2
      + b5rs i / 2 - (1 - r) * (1 - s) * db0mt_dt i / 4 - (1 - r) * (1 + s) * db0pt_dt i / 4 - (1 + r) * (1 - s) * db1mt_dt i / 4
      - (1 + r) * (1 + s) * db1pt_dt i / 4 + (1 - r) * b0sm i / 4 - (1 - r) * b0sp i / 4 + (1 + r) * b1sm i / 4
      - (1 + r) * b1sp i / 4 + (1 - s) * b2rm i / 4 - (1 - s) * b2rp i / 4 + (1 + s) * b3rm i / 4 - (1 + s) * b3rp i / 4
      - (1 - r) * (1 - s) * m.p0 i / 8 - (1 + r) * (1 - s) * m.p1 i / 8 - (1 + r) * (1 + s) * m.p2 i / 8
      - (1 - r) * (1 + s) * m.p3 i / 8 + (1 - r) * (1 - s) * m.p4 i / 8 + (1 + r) * (1 - s) * m.p5 i / 8
      + (1 + r) * (1 + s) * m.p6 i / 8 + (1 - r) * (1 + s) * m.p7 i / 8
    second :=
      if all = false then none
      else
        match m.d2 with
        | none => some
          { rr := fun _ => 0
            ss := fun _ => 0
            tt := fun _ => 0
            rs := fun i => 0 - db0st_ds i / 2 + db1st_ds i / 2 - db2rt_dr i / 2 + db3rt_dr i / 2 - b0mt i / 4 + b0pt i / 4 + b1mt i / 4
              - b1pt i / 4 + (1 - t) * db0sm_ds i / 4 + (1 + t) * db0sp_ds i / 4 - (1 - t) * db1sm_ds i / 4
              - (1 + t) * db1sp_ds i / 4 + (1 - t) * db2rm_dr i / 4 + (1 + t) * db2rp_dr i / 4 - (1 - t) * db3rm_dr i / 4
              - (1 + t) * db3rp_dr i / 4 + (1 - t) * m.p0 i / 8 - (1 - t) * m.p1 i / 8 + (1 - t) * m.p2 i / 8 - (1 - t) * m.p3 i / 8
              + (1 + t) * m.p4 i / 8 - (1 + t) * m.p5 i / 8 + (1 + t) * m.p6 i / 8 - (1 + t) * m.p7 i / 8
            rt := fun i => 0 - db0st_dt i / 2 + db1st_dt i / 2 - db4rs_dr i / 2 + db5rs_dr i / 2 + (1 - s) * db0mt_dt i / 4
              + (1 + s) * db0pt_dt i / 4 - (1 - s) * db1mt_dt i / 4 - (1 + s) * db1pt_dt i / 4 - b0sm i / 4 + b0sp i / 4
              + b1sm i / 4 - b1sp i / 4 + (1 - s) * db2rm_dr i / 4 - (1 - s) * db2rp_dr i / 4 + (1 + s) * db3rm_dr i / 4
              - (1 + s) * db3rp_dr i / 4 + (1 - s) * m.p0 i / 8 - (1 - s) * m.p1 i / 8 - (1 + s) * m.p2 i / 8 + (1 + s) * m.p3 i / 8
              - (1 - s) * m.p4 i / 8 + (1 - s) * m.p5 i / 8 + (1 + s) * m.p6 i / 8 - (1 + s) * m.p7 i / 8
            st := fun i => 0 - db2rt_dt i / 2 + db3rt_dt i / 2 - db4rs_ds i / 2 + db5rs_ds i / 2 + (1 - r) * db0mt_dt i / 4
              - (1 - r) * db0pt_dt i / 4 + (1 + r) * db1mt_dt i / 4 - (1 + r) * db1pt_dt i / 4 + (1 - r) * db0sm_ds i / 4
              - (1 - r) * db0sp_ds i / 4 + (1 + r) * db1sm_ds i / 4 - (1 + r) * db1sp_ds i / 4 - b2rm i / 4 + b2rp i / 4
              + b3rm i / 4 - b3rp i / 4 + (1 - r) * m.p0 i / 8 + (1 + r) * m.p1 i / 8 - (1 + r) * m.p2 i / 8 - (1 - r) * m.p3 i / 8
              - (1 - r) * m.p4 i / 8 - (1 + r) * m.p5 i / 8 + (1 + r) * m.p6 i / 8 + (1 - r) * m.p7 i / 8 }
        | some d2 =>
          let ddb0st_dss := (surf2At d2 0 s t).1
          let ddb0st_dtt := (surf2At d2 0 s t).2.1
          let ddb0st_dst := (surf2At d2 0 s t).2.2
          let ddb1st_dss := (surf2At d2 1 s t).1
          let ddb1st_dtt := (surf2At d2 1 s t).2.1
          let ddb1st_dst := (surf2At d2 1 s t).2.2
          let ddb2rt_drr := (surf2At d2 2 r t).1
          let ddb2rt_dtt := (surf2At d2 2 r t).2.1
          let ddb2rt_drt := (surf2At d2 2 r t).2.2
          let ddb3rt_drr := (surf2At d2 3 r t).1
          let ddb3rt_dtt := (surf2At d2 3 r t).2.1
          let ddb3rt_drt := (surf2At d2 3 r t).2.2
          let ddb4rs_drr := (surf2At d2 4 r s).1
          let ddb4rs_dss := (surf2At d2 4 r s).2.1
          let ddb4rs_drs := (surf2At d2 4 r s).2.2
          let ddb5rs_drr := (surf2At d2 5 r s).1
          let ddb5rs_dss := (surf2At d2 5 r s).2.1
          let ddb5rs_drs := (surf2At d2 5 r s).2.2
          let ddb0sm_dss := (surf2At d2 0 s (-1)).1
          let ddb0sp_dss := (surf2At d2 0 s 1).1
          let ddb0mt_dtt := (surf2At d2 0 (-1) t).2.1
          let ddb0pt_dtt := (surf2At d2 0 1 t).2.1
          let ddb1sm_dss := (surf2At d2 1 s (-1)).1
          let ddb1sp_dss := (surf2At d2 1 s 1).1
          let ddb1mt_dtt := (surf2At d2 1 (-1) t).2.1
          let ddb1pt_dtt := (surf2At d2 1 1 t).2.1
          let ddb2rm_drr := (surf2At d2 2 r (-1)).1
          let ddb2rp_drr := (surf2At d2 2 r 1).1
          let ddb3rm_drr := (surf2At d2 3 r (-1)).1
          let ddb3rp_drr := (surf2At d2 3 r 1).1
          some
          { rr := fun i => 0 + (1 - s) * ddb2rt_drr i / 2 + (1 + s) * ddb3rt_drr i / 2 + (1 - t) * ddb4rs_drr i / 2 + (1 + t) * ddb5rs_drr i / 2
              - (1 - s) * (1 - t) * ddb2rm_drr i / 4 - (1 - s) * (1 + t) * ddb2rp_drr i / 4 - (1 + s) * (1 - t) * ddb3rm_drr i / 4
              - (1 + s) * (1 + t) * ddb3rp_drr i / 4
            ss := fun i => 0 + (1 - r) * ddb0st_dss i / 2 + (1 + r) * ddb1st_dss i / 2 + (1 - t) * ddb4rs_dss i / 2 + (1 + t) * ddb5rs_dss i / 2
              - (1 - r) * (1 - t) * ddb0sm_dss i / 4 - (1 - r) * (1 + t) * ddb0sp_dss i / 4 - (1 + r) * (1 - t) * ddb1sm_dss i / 4
              - (1 + r) * (1 + t) * ddb1sp_dss i / 4
            tt := fun i => 0 + (1 - r) * ddb0st_dtt i / 2 + (1 + r) * ddb1st_dtt i / 2 + (1 - s) * ddb2rt_dtt i / 2 + (1 + s) * ddb3rt_dtt i / 2
              - (1 - r) * (1 - s) * ddb0mt_dtt i / 4 - (1 - r) * (1 + s) * ddb0pt_dtt i / 4 - (1 + r) * (1 - s) * ddb1mt_dtt i / 4
              - (1 + r) * (1 + s) * ddb1pt_dtt i / 4
            rs := fun i => 0 - db0st_ds i / 2 + db1st_ds i / 2 - db2rt_dr i / 2 + db3rt_dr i / 2 + (1 - t) * ddb4rs_drs i / 2
              + (1 + t) * ddb5rs_drs i / 2 - b0mt i / 4 + b0pt i / 4 + b1mt i / 4 - b1pt i / 4 + (1 - t) * db0sm_ds i / 4
              + (1 + t) * db0sp_ds i / 4 - (1 - t) * db1sm_ds i / 4 - (1 + t) * db1sp_ds i / 4 + (1 - t) * db2rm_dr i / 4
              + (1 + t) * db2rp_dr i / 4 - (1 - t) * db3rm_dr i / 4 - (1 + t) * db3rp_dr i / 4 + (1 - t) * m.p0 i / 8
              - (1 - t) * m.p1 i / 8 + (1 - t) * m.p2 i / 8 - (1 - t) * m.p3 i / 8 + (1 + t) * m.p4 i / 8 - (1 + t) * m.p5 i / 8
              + (1 + t) * m.p6 i / 8 - (1 + t) * m.p7 i / 8
            rt := fun i => 0 - db0st_dt i / 2 + db1st_dt i / 2 + (1 - s) * ddb2rt_drt i / 2 + (1 + s) * ddb3rt_drt i / 2 - db4rs_dr i / 2
              + db5rs_dr i / 2 + (1 - s) * db0mt_dt i / 4 + (1 + s) * db0pt_dt i / 4 - (1 - s) * db1mt_dt i / 4
              - (1 + s) * db1pt_dt i / 4 - b0sm i / 4 + b0sp i / 4 + b1sm i / 4 - b1sp i / 4 + (1 - s) * db2rm_dr i / 4
              - (1 - s) * db2rp_dr i / 4 + (1 + s) * db3rm_dr i / 4 - (1 + s) * db3rp_dr i / 4 + (1 - s) * m.p0 i / 8
              - (1 - s) * m.p1 i / 8 - (1 + s) * m.p2 i / 8 + (1 + s) * m.p3 i / 8 - (1 - s) * m.p4 i / 8 + (1 - s) * m.p5 i / 8
              + (1 + s) * m.p6 i / 8 - (1 + s) * m.p7 i / 8
            st := fun i => 0 + (1 - r) * ddb0st_dst i / 2 + (1 + r) * ddb1st_dst i / 2 - db2rt_dt i / 2 + db3rt_dt i / 2 - db4rs_ds i / 2
              + db5rs_ds i / 2 + (1 - r) * db0mt_dt i / 4 - (1 - r) * db0pt_dt i / 4 + (1 + r) * db1mt_dt i / 4
              - (1 + r) * db1pt_dt i / 4 + (1 - r) * db0sm_ds i / 4 - (1 - r) * db0sp_ds i / 4 + (1 + r) * db1sm_ds i / 4
              - (1 + r) * db1sp_ds i / 4 - b2rm i / 4 + b2rp i / 4 + b3rm i / 4 - b3rp i / 4 + (1 - r) * m.p0 i / 8
              + (1 + r) * m.p1 i / 8 - (1 + r) * m.p2 i / 8 - (1 - r) * m.p3 i / 8 - (1 - r) * m.p4 i / 8 - (1 + r) * m.p5 i / 8
              + (1 + r) * m.p6 i / 8 + (1 - r) * m.p7 i / 8 } }

/-! ### The mapping -/

/-- **C92 (new).** The lists must have six functions. -/
theorem C92_new (b : List Surf) (d1 : List Surf1) (d2 : Option (List Surf2)) :
    (∃ m, Transfinite3d.new b d1 d2 = ok m) ↔ b.length = 6 ∧ d1.length = 6 ∧ ∀ l, d2 = some l → l.length = 6 := by
  unfold Transfinite3d.new
  by_cases h1 : b.length = 6 <;> by_cases h2 : d1.length = 6 <;> cases d2 with
  | none => simp [h1, h2]
  | some l => by_cases h3 : l.length = 6 <;> simp [h1, h2, h3]

/-- the fields -/
theorem new3_fields {b : List Surf} {d1 : List Surf1} {d2 : Option (List Surf2)} {m : Transfinite3d}
    (h : Transfinite3d.new b d1 d2 = ok m) :
    m.b = b ∧ m.d1 = d1 ∧ m.d2 = d2 ∧ m.p0 = surfAt b 4 (-1) (-1) ∧ m.p1 = surfAt b 4 1 (-1) ∧ m.p2 = surfAt b 4 1 1 ∧
      m.p3 = surfAt b 4 (-1) 1 ∧ m.p4 = surfAt b 5 (-1) (-1) ∧ m.p5 = surfAt b 5 1 (-1) ∧ m.p6 = surfAt b 5 1 1 ∧
      m.p7 = surfAt b 5 (-1) 1 := by
  unfold Transfinite3d.new at h
  split_ifs at h
  cases h
  exact ⟨rfl, rfl, rfl, rfl, rfl, rfl, rfl, rfl, rfl, rfl, rfl⟩

/-- the faces meet at the twelve edges -/
structure EdgesMeet (b0 b1 b2 b3 b4 b5 : Surf) : Prop where
  e02 : ∀ t ∈ Set.Icc (-1 : ℝ) 1, b0 (-1) t = b2 (-1) t
  e03 : ∀ t ∈ Set.Icc (-1 : ℝ) 1, b0 1 t = b3 (-1) t
  e12 : ∀ t ∈ Set.Icc (-1 : ℝ) 1, b1 (-1) t = b2 1 t
  e13 : ∀ t ∈ Set.Icc (-1 : ℝ) 1, b1 1 t = b3 1 t
  e04 : ∀ s ∈ Set.Icc (-1 : ℝ) 1, b0 s (-1) = b4 (-1) s
  e05 : ∀ s ∈ Set.Icc (-1 : ℝ) 1, b0 s 1 = b5 (-1) s
  e14 : ∀ s ∈ Set.Icc (-1 : ℝ) 1, b1 s (-1) = b4 1 s
  e15 : ∀ s ∈ Set.Icc (-1 : ℝ) 1, b1 s 1 = b5 1 s
  e24 : ∀ r ∈ Set.Icc (-1 : ℝ) 1, b2 r (-1) = b4 r (-1)
  e25 : ∀ r ∈ Set.Icc (-1 : ℝ) 1, b2 r 1 = b5 r (-1)
  e34 : ∀ r ∈ Set.Icc (-1 : ℝ) 1, b3 r (-1) = b4 r 1
  e35 : ∀ r ∈ Set.Icc (-1 : ℝ) 1, b3 r 1 = b5 r 1

/-- the mapping takes the six faces of the cube to the six boundaries -/
def TakesFaces (X : ℝ → ℝ → ℝ → Fin 3 → ℝ) (b0 b1 b2 b3 b4 b5 : Surf) : Prop :=
  ∀ u ∈ Set.Icc (-1 : ℝ) 1, ∀ v ∈ Set.Icc (-1 : ℝ) 1, X (-1) u v = b0 u v ∧ X 1 u v = b1 u v ∧ X u (-1) v = b2 u v ∧ X u 1 v = b3 u v ∧
    X u v (-1) = b4 u v ∧ X u v 1 = b5 u v

/-- **C92 (boundary).** The mapping reproduces the six boundaries if and only if they meet at the twelve edges. -/
theorem C92_boundary {b0 b1 b2 b3 b4 b5 : Surf} {d1 : List Surf1} {d2 : Option (List Surf2)} {m : Transfinite3d}
    (h : Transfinite3d.new [b0, b1, b2, b3, b4, b5] d1 d2 = ok m) :
    TakesFaces m.point b0 b1 b2 b3 b4 b5 ↔ EdgesMeet b0 b1 b2 b3 b4 b5 := by
  obtain ⟨e0, e1, e2, p0, p1, p2, p3, p4, p5, p6, p7⟩ := new3_fields h
  have im : (-1 : ℝ) ∈ Set.Icc (-1 : ℝ) 1 := by constructor <;> norm_num
  have ip : (1 : ℝ) ∈ Set.Icc (-1 : ℝ) 1 := by constructor <;> norm_num
  constructor
  · intro F
    constructor <;> intro x hx
    · rw [← (F _ im _ hx).1, ← (F _ im _ hx).2.2.1]
    · rw [← (F _ ip _ hx).1, ← (F _ im _ hx).2.2.2.1]
    · rw [← (F _ im _ hx).2.1, ← (F _ ip _ hx).2.2.1]
    · rw [← (F _ ip _ hx).2.1, ← (F _ ip _ hx).2.2.2.1]
    · rw [← (F _ hx _ im).1, ← (F _ im _ hx).2.2.2.2.1]
    · rw [← (F _ hx _ ip).1, ← (F _ im _ hx).2.2.2.2.2]
    · rw [← (F _ hx _ im).2.1, ← (F _ ip _ hx).2.2.2.2.1]
    · rw [← (F _ hx _ ip).2.1, ← (F _ ip _ hx).2.2.2.2.2]
    · rw [← (F _ hx _ im).2.2.1, ← (F _ hx _ im).2.2.2.2.1]
    · rw [← (F _ hx _ ip).2.2.1, ← (F _ hx _ im).2.2.2.2.2]
    · rw [← (F _ hx _ im).2.2.2.1, ← (F _ hx _ ip).2.2.2.2.1]
    · rw [← (F _ hx _ ip).2.2.2.1, ← (F _ hx _ ip).2.2.2.2.2]
  · intro E u hu v hv
    have key : ∀ i, m.point (-1) u v i = b0 u v i ∧ m.point 1 u v i = b1 u v i ∧ m.point u (-1) v i = b2 u v i ∧
        m.point u 1 v i = b3 u v i ∧ m.point u v (-1) i = b4 u v i ∧ m.point u v 1 i = b5 u v i := by
      intro i
      simp only [Transfinite3d.point, e0, p0, p1, p2, p3, p4, p5, p6, p7, surfAt, List.getD_cons_zero, List.getD_cons_succ,
        E.e02 v hv, E.e03 v hv, E.e12 v hv, E.e13 v hv, E.e04 u hu, E.e05 u hu, E.e14 u hu, E.e15 u hu, E.e24 u hu, E.e25 u hu,
        E.e34 u hu, E.e35 u hu, E.e04 v hv, E.e05 v hv, E.e14 v hv, E.e15 v hv, E.e02 (-1) im, E.e03 (-1) im, E.e12 (-1) im,
        E.e13 (-1) im, E.e02 1 ip, E.e03 1 ip, E.e12 1 ip, E.e13 1 ip, E.e04 (-1) im, E.e05 (-1) im, E.e14 (-1) im,
        E.e15 (-1) im, E.e04 1 ip, E.e05 1 ip, E.e14 1 ip, E.e15 1 ip, E.e24 (-1) im, E.e25 (-1) im, E.e34 (-1) im,
        E.e35 (-1) im, E.e24 1 ip, E.e25 1 ip, E.e34 1 ip, E.e35 1 ip]
      refine ⟨?_, ?_, ?_, ?_, ?_, ?_⟩ <;> ring
    exact ⟨funext fun i => (key i).1, funext fun i => (key i).2.1, funext fun i => (key i).2.2.1, funext fun i => (key i).2.2.2.1,
      funext fun i => (key i).2.2.2.2.1, funext fun i => (key i).2.2.2.2.2⟩

/-- **C92 (reproduction).** Mappings that are linear in one of the coordinates, and sums of such mappings, are reproduced. -/
theorem C92_reproduction (A A' B B' C C' : Surf) {d1 : List Surf1} {d2 : Option (List Surf2)} {F : ℝ → ℝ → ℝ → Fin 3 → ℝ}
    {m : Transfinite3d}
    (hF : ∀ r s t i, F r s t i = A s t i + r * A' s t i + B r t i + s * B' r t i + C r s i + t * C' r s i)
    (h : Transfinite3d.new [fun s t => F (-1) s t, fun s t => F 1 s t, fun r t => F r (-1) t, fun r t => F r 1 t,
      fun r s => F r s (-1), fun r s => F r s 1] d1 d2 = ok m) (r s t : ℝ) :
    m.point r s t = F r s t := by
  obtain ⟨e0, e1, e2, p0, p1, p2, p3, p4, p5, p6, p7⟩ := new3_fields h
  funext i
  simp only [Transfinite3d.point, e0, p0, p1, p2, p3, p4, p5, p6, p7, surfAt, List.getD_cons_zero, List.getD_cons_succ, hF]
  ring

/-! ### Derivatives -/

/-- the functions `d1` are the first derivatives of the functions `b` -/
def IsPartials (b : List Surf) (d1 : List Surf1) : Prop := ∀ k < 6, ∀ u v i,
  HasDerivAt (fun u => surfAt b k u v i) ((surf1At d1 k u v).1 i) u ∧ HasDerivAt (fun v => surfAt b k u v i) ((surf1At d1 k u v).2 i) v

/-- the functions `d2` are the derivatives of the functions `d1`: pure, pure, and mixed ones -/
def IsPartials2 (d1 : List Surf1) (d2 : List Surf2) : Prop := ∀ k < 6, ∀ u v i,
  HasDerivAt (fun u => (surf1At d1 k u v).1 i) ((surf2At d2 k u v).1 i) u ∧
  HasDerivAt (fun v => (surf1At d1 k u v).2 i) ((surf2At d2 k u v).2.1 i) v ∧
  HasDerivAt (fun v => (surf1At d1 k u v).1 i) ((surf2At d2 k u v).2.2 i) v ∧
  HasDerivAt (fun u => (surf1At d1 k u v).2 i) ((surf2At d2 k u v).2.2 i) u

/-- a combination of eight functions -/
theorem lin8 {x c0 c1 : ℝ} (k1 k2 k3 k4 k5 k6 k7 k8 : ℝ) {g1 g2 g3 g4 g5 g6 g7 g8 : ℝ → ℝ} {d1 d2 d3 d4 d5 d6 d7 d8 : ℝ}
    (h1 : HasDerivAt g1 d1 x) (h2 : HasDerivAt g2 d2 x) (h3 : HasDerivAt g3 d3 x) (h4 : HasDerivAt g4 d4 x)
    (h5 : HasDerivAt g5 d5 x) (h6 : HasDerivAt g6 d6 x) (h7 : HasDerivAt g7 d7 x) (h8 : HasDerivAt g8 d8 x) :
    HasDerivAt (fun x => c0 + c1 * x + (k1 * g1 x + k2 * g2 x + k3 * g3 x + k4 * g4 x + k5 * g5 x + k6 * g6 x + k7 * g7 x + k8 * g8 x))
      (c1 + (k1 * d1 + k2 * d2 + k3 * d3 + k4 * d4 + k5 * d5 + k6 * d6 + k7 * d7 + k8 * d8)) x := by
  have l : HasDerivAt (fun x => c0 + c1 * x) c1 x := by simpa using ((hasDerivAt_id x).const_mul c1).const_add c0
  exact l.add ((((((((h1.const_mul k1).add (h2.const_mul k2)).add (h3.const_mul k3)).add (h4.const_mul k4)).add (h5.const_mul k5)).add
    (h6.const_mul k6)).add (h7.const_mul k7)).add (h8.const_mul k8))

/-- **C92 (derivatives).** `point_and_derivs` returns the point of the mapping and its partial derivatives. -/
theorem C92_derivatives {m : Transfinite3d} (h1 : IsPartials m.b m.d1) (all : Bool) (r s t : ℝ) :
    (m.pointAndDerivs all r s t).x = m.point r s t ∧
    (∀ i, HasDerivAt (fun r => m.point r s t i) ((m.pointAndDerivs all r s t).dr i) r) ∧
    (∀ i, HasDerivAt (fun s => m.point r s t i) ((m.pointAndDerivs all r s t).ds i) s) ∧
    (∀ i, HasDerivAt (fun t => m.point r s t i) ((m.pointAndDerivs all r s t).dt i) t) := by
  refine ⟨rfl, fun i => ?_, fun i => ?_, fun i => ?_⟩
  · refine ((lin8 (c0 := 0 + (surfAt m.b 0 s t) i / 2 + (surfAt m.b 1 s t) i / 2 - (1 - s) * (surfAt m.b 0 (-1) t) i / 4
          - (1 + s) * (surfAt m.b 0 1 t) i / 4 - (1 - s) * (surfAt m.b 1 (-1) t) i / 4 - (1 + s) * (surfAt m.b 1 1 t) i / 4
          - (1 - t) * (surfAt m.b 0 s (-1)) i / 4 - (1 + t) * (surfAt m.b 0 s 1) i / 4 - (1 - t) * (surfAt m.b 1 s (-1)) i / 4
          - (1 + t) * (surfAt m.b 1 s 1) i / 4 + (1 - s) * (1 - t) * m.p0 i / 8 + (1 - s) * (1 - t) * m.p1 i / 8
          + (1 + s) * (1 - t) * m.p2 i / 8 + (1 + s) * (1 - t) * m.p3 i / 8 + (1 - s) * (1 + t) * m.p4 i / 8
          + (1 - s) * (1 + t) * m.p5 i / 8 + (1 + s) * (1 + t) * m.p6 i / 8 + (1 + s) * (1 + t) * m.p7 i / 8)
        (c1 := 0 - (surfAt m.b 0 s t) i / 2 + (surfAt m.b 1 s t) i / 2 + (1 - s) * (surfAt m.b 0 (-1) t) i / 4
          + (1 + s) * (surfAt m.b 0 1 t) i / 4 - (1 - s) * (surfAt m.b 1 (-1) t) i / 4 - (1 + s) * (surfAt m.b 1 1 t) i / 4
          + (1 - t) * (surfAt m.b 0 s (-1)) i / 4 + (1 + t) * (surfAt m.b 0 s 1) i / 4 - (1 - t) * (surfAt m.b 1 s (-1)) i / 4
          - (1 + t) * (surfAt m.b 1 s 1) i / 4 - (1 - s) * (1 - t) * m.p0 i / 8 + (1 - s) * (1 - t) * m.p1 i / 8
          + (1 + s) * (1 - t) * m.p2 i / 8 - (1 + s) * (1 - t) * m.p3 i / 8 - (1 - s) * (1 + t) * m.p4 i / 8
          + (1 - s) * (1 + t) * m.p5 i / 8 + (1 + s) * (1 + t) * m.p6 i / 8 - (1 + s) * (1 + t) * m.p7 i / 8)
        (((1 - s) / 2))
        (((1 + s) / 2))
        (((1 - t) / 2))
        (((1 + t) / 2))
        (-((1 - s) * (1 - t) / 4))
        (-((1 - s) * (1 + t) / 4))
        (-((1 + s) * (1 - t) / 4))
        (-((1 + s) * (1 + t) / 4))
        (h1 2 (by norm_num) r t i).1
        (h1 3 (by norm_num) r t i).1
        (h1 4 (by norm_num) r s i).1
        (h1 5 (by norm_num) r s i).1
        (h1 2 (by norm_num) r (-1) i).1
        (h1 2 (by norm_num) r 1 i).1
        (h1 3 (by norm_num) r (-1) i).1
        (h1 3 (by norm_num) r 1 i).1).congr_deriv ?_).congr_of_eventuallyEq
        (Filter.Eventually.of_forall fun _ => ?_)
    · simp only [Transfinite3d.pointAndDerivs]; ring
    · simp only [Transfinite3d.point]; ring
  · refine ((lin8 (c0 := 0 + (surfAt m.b 2 r t) i / 2 + (surfAt m.b 3 r t) i / 2 - (1 - r) * (surfAt m.b 0 (-1) t) i / 4
          - (1 - r) * (surfAt m.b 0 1 t) i / 4 - (1 + r) * (surfAt m.b 1 (-1) t) i / 4 - (1 + r) * (surfAt m.b 1 1 t) i / 4
          - (1 - t) * (surfAt m.b 2 r (-1)) i / 4 - (1 + t) * (surfAt m.b 2 r 1) i / 4 - (1 - t) * (surfAt m.b 3 r (-1)) i / 4
          - (1 + t) * (surfAt m.b 3 r 1) i / 4 + (1 - r) * (1 - t) * m.p0 i / 8 + (1 + r) * (1 - t) * m.p1 i / 8
          + (1 + r) * (1 - t) * m.p2 i / 8 + (1 - r) * (1 - t) * m.p3 i / 8 + (1 - r) * (1 + t) * m.p4 i / 8
          + (1 + r) * (1 + t) * m.p5 i / 8 + (1 + r) * (1 + t) * m.p6 i / 8 + (1 - r) * (1 + t) * m.p7 i / 8)
        (c1 := 0 - (surfAt m.b 2 r t) i / 2 + (surfAt m.b 3 r t) i / 2 + (1 - r) * (surfAt m.b 0 (-1) t) i / 4
          - (1 - r) * (surfAt m.b 0 1 t) i / 4 + (1 + r) * (surfAt m.b 1 (-1) t) i / 4 - (1 + r) * (surfAt m.b 1 1 t) i / 4
          + (1 - t) * (surfAt m.b 2 r (-1)) i / 4 + (1 + t) * (surfAt m.b 2 r 1) i / 4 - (1 - t) * (surfAt m.b 3 r (-1)) i / 4
          - (1 + t) * (surfAt m.b 3 r 1) i / 4 - (1 - r) * (1 - t) * m.p0 i / 8 - (1 + r) * (1 - t) * m.p1 i / 8
          + (1 + r) * (1 - t) * m.p2 i / 8 + (1 - r) * (1 - t) * m.p3 i / 8 - (1 - r) * (1 + t) * m.p4 i / 8
          - (1 + r) * (1 + t) * m.p5 i / 8 + (1 + r) * (1 + t) * m.p6 i / 8 + (1 - r) * (1 + t) * m.p7 i / 8)
        (((1 - r) / 2))
        (((1 + r) / 2))
        (((1 - t) / 2))
        (((1 + t) / 2))
        (-((1 - r) * (1 - t) / 4))
        (-((1 - r) * (1 + t) / 4))
        (-((1 + r) * (1 - t) / 4))
        (-((1 + r) * (1 + t) / 4))
        (h1 0 (by norm_num) s t i).1
        (h1 1 (by norm_num) s t i).1
        (h1 4 (by norm_num) r s i).2
        (h1 5 (by norm_num) r s i).2
        (h1 0 (by norm_num) s (-1) i).1
        (h1 0 (by norm_num) s 1 i).1
        (h1 1 (by norm_num) s (-1) i).1
        (h1 1 (by norm_num) s 1 i).1).congr_deriv ?_).congr_of_eventuallyEq
        (Filter.Eventually.of_forall fun _ => ?_)
    · simp only [Transfinite3d.pointAndDerivs]; ring
    · simp only [Transfinite3d.point]; ring
  · refine ((lin8 (c0 := 0 + (surfAt m.b 4 r s) i / 2 + (surfAt m.b 5 r s) i / 2 - (1 - r) * (surfAt m.b 0 s (-1)) i / 4
          - (1 - r) * (surfAt m.b 0 s 1) i / 4 - (1 + r) * (surfAt m.b 1 s (-1)) i / 4 - (1 + r) * (surfAt m.b 1 s 1) i / 4
          - (1 - s) * (surfAt m.b 2 r (-1)) i / 4 - (1 - s) * (surfAt m.b 2 r 1) i / 4 - (1 + s) * (surfAt m.b 3 r (-1)) i / 4
          - (1 + s) * (surfAt m.b 3 r 1) i / 4 + (1 - r) * (1 - s) * m.p0 i / 8 + (1 + r) * (1 - s) * m.p1 i / 8
          + (1 + r) * (1 + s) * m.p2 i / 8 + (1 - r) * (1 + s) * m.p3 i / 8 + (1 - r) * (1 - s) * m.p4 i / 8
          + (1 + r) * (1 - s) * m.p5 i / 8 + (1 + r) * (1 + s) * m.p6 i / 8 + (1 - r) * (1 + s) * m.p7 i / 8)
        (c1 := 0 - (surfAt m.b 4 r s) i / 2 + (surfAt m.b 5 r s) i / 2 + (1 - r) * (surfAt m.b 0 s (-1)) i / 4
          - (1 - r) * (surfAt m.b 0 s 1) i / 4 + (1 + r) * (surfAt m.b 1 s (-1)) i / 4 - (1 + r) * (surfAt m.b 1 s 1) i / 4
          + (1 - s) * (surfAt m.b 2 r (-1)) i / 4 - (1 - s) * (surfAt m.b 2 r 1) i / 4 + (1 + s) * (surfAt m.b 3 r (-1)) i / 4
          - (1 + s) * (surfAt m.b 3 r 1) i / 4 - (1 - r) * (1 - s) * m.p0 i / 8 - (1 + r) * (1 - s) * m.p1 i / 8
          - (1 + r) * (1 + s) * m.p2 i / 8 - (1 - r) * (1 + s) * m.p3 i / 8 + (1 - r) * (1 - s) * m.p4 i / 8
          + (1 + r) * (1 - s) * m.p5 i / 8 + (1 + r) * (1 + s) * m.p6 i / 8 + (1 - r) * (1 + s) * m.p7 i / 8)
        (((1 - r) / 2))
        (((1 + r) / 2))
        (((1 - s) / 2))
        (((1 + s) / 2))
        (-((1 - r) * (1 - s) / 4))
        (-((1 - r) * (1 + s) / 4))
        (-((1 + r) * (1 - s) / 4))
        (-((1 + r) * (1 + s) / 4))
        (h1 0 (by norm_num) s t i).2
        (h1 1 (by norm_num) s t i).2
        (h1 2 (by norm_num) r t i).2
        (h1 3 (by norm_num) r t i).2
        (h1 0 (by norm_num) (-1) t i).2
        (h1 0 (by norm_num) 1 t i).2
        (h1 1 (by norm_num) (-1) t i).2
        (h1 1 (by norm_num) 1 t i).2).congr_deriv ?_).congr_of_eventuallyEq
        (Filter.Eventually.of_forall fun _ => ?_)
    · simp only [Transfinite3d.pointAndDerivs]; ring
    · simp only [Transfinite3d.point]; ring

/-- the second derivatives belong to the mapping -/
structure IsSecond (m : Transfinite3d) (r s t : ℝ) (S : Second3) : Prop where
  rr : ∀ i, HasDerivAt (fun r => (m.pointAndDerivs true r s t).dr i) (S.rr i) r
  ss : ∀ i, HasDerivAt (fun s => (m.pointAndDerivs true r s t).ds i) (S.ss i) s
  tt : ∀ i, HasDerivAt (fun t => (m.pointAndDerivs true r s t).dt i) (S.tt i) t
  rs : ∀ i, HasDerivAt (fun s => (m.pointAndDerivs true r s t).dr i) (S.rs i) s
  rt : ∀ i, HasDerivAt (fun t => (m.pointAndDerivs true r s t).dr i) (S.rt i) t
  st : ∀ i, HasDerivAt (fun t => (m.pointAndDerivs true r s t).ds i) (S.st i) t
  sr : ∀ i, HasDerivAt (fun r => (m.pointAndDerivs true r s t).ds i) (S.rs i) r
  tr : ∀ i, HasDerivAt (fun r => (m.pointAndDerivs true r s t).dt i) (S.rt i) r
  ts : ∀ i, HasDerivAt (fun s => (m.pointAndDerivs true r s t).dt i) (S.st i) s

theorem second_some {m : Transfinite3d} {d2 : List Surf2} (h1 : IsPartials m.b m.d1) (h2 : IsPartials2 m.d1 d2) (hd : m.d2 = some d2)
    (r s t : ℝ) : ∃ S, (m.pointAndDerivs true r s t).second = some S ∧ IsSecond m r s t S := by
  refine ⟨_, by simp only [Transfinite3d.pointAndDerivs, hd]; rfl, ⟨fun i => ?_, fun i => ?_, fun i => ?_, fun i => ?_, fun i => ?_,
    fun i => ?_, fun i => ?_, fun i => ?_, fun i => ?_⟩⟩
  · refine ((lin8 (c0 := 0 - (surfAt m.b 0 s t) i / 2 + (surfAt m.b 1 s t) i / 2 + (1 - s) * (surfAt m.b 0 (-1) t) i / 4
          + (1 + s) * (surfAt m.b 0 1 t) i / 4 - (1 - s) * (surfAt m.b 1 (-1) t) i / 4 - (1 + s) * (surfAt m.b 1 1 t) i / 4
          + (1 - t) * (surfAt m.b 0 s (-1)) i / 4 + (1 + t) * (surfAt m.b 0 s 1) i / 4 - (1 - t) * (surfAt m.b 1 s (-1)) i / 4
          - (1 + t) * (surfAt m.b 1 s 1) i / 4 - (1 - s) * (1 - t) * m.p0 i / 8 + (1 - s) * (1 - t) * m.p1 i / 8
          + (1 + s) * (1 - t) * m.p2 i / 8 - (1 + s) * (1 - t) * m.p3 i / 8 - (1 - s) * (1 + t) * m.p4 i / 8
          + (1 - s) * (1 + t) * m.p5 i / 8 + (1 + s) * (1 + t) * m.p6 i / 8 - (1 + s) * (1 + t) * m.p7 i / 8)
        (c1 := 0)
        (((1 - s) / 2))
        (((1 + s) / 2))
        (((1 - t) / 2))
        (((1 + t) / 2))
        (-((1 - s) * (1 - t) / 4))
        (-((1 - s) * (1 + t) / 4))
        (-((1 + s) * (1 - t) / 4))
        (-((1 + s) * (1 + t) / 4))
        (h2 2 (by norm_num) r t i).1
        (h2 3 (by norm_num) r t i).1
        (h2 4 (by norm_num) r s i).1
        (h2 5 (by norm_num) r s i).1
        (h2 2 (by norm_num) r (-1) i).1
        (h2 2 (by norm_num) r 1 i).1
        (h2 3 (by norm_num) r (-1) i).1
        (h2 3 (by norm_num) r 1 i).1).congr_deriv ?_).congr_of_eventuallyEq
        (Filter.Eventually.of_forall fun _ => ?_)
    · ring
    · simp only [Transfinite3d.pointAndDerivs]; ring
  · refine ((lin8 (c0 := 0 - (surfAt m.b 2 r t) i / 2 + (surfAt m.b 3 r t) i / 2 + (1 - r) * (surfAt m.b 0 (-1) t) i / 4
          - (1 - r) * (surfAt m.b 0 1 t) i / 4 + (1 + r) * (surfAt m.b 1 (-1) t) i / 4 - (1 + r) * (surfAt m.b 1 1 t) i / 4
          + (1 - t) * (surfAt m.b 2 r (-1)) i / 4 + (1 + t) * (surfAt m.b 2 r 1) i / 4 - (1 - t) * (surfAt m.b 3 r (-1)) i / 4
          - (1 + t) * (surfAt m.b 3 r 1) i / 4 - (1 - r) * (1 - t) * m.p0 i / 8 - (1 + r) * (1 - t) * m.p1 i / 8
          + (1 + r) * (1 - t) * m.p2 i / 8 + (1 - r) * (1 - t) * m.p3 i / 8 - (1 - r) * (1 + t) * m.p4 i / 8
          - (1 + r) * (1 + t) * m.p5 i / 8 + (1 + r) * (1 + t) * m.p6 i / 8 + (1 - r) * (1 + t) * m.p7 i / 8)
        (c1 := 0)
        (((1 - r) / 2))
        (((1 + r) / 2))
        (((1 - t) / 2))
        (((1 + t) / 2))
        (-((1 - r) * (1 - t) / 4))
        (-((1 - r) * (1 + t) / 4))
        (-((1 + r) * (1 - t) / 4))
        (-((1 + r) * (1 + t) / 4))
        (h2 0 (by norm_num) s t i).1
        (h2 1 (by norm_num) s t i).1
        (h2 4 (by norm_num) r s i).2.1
        (h2 5 (by norm_num) r s i).2.1
        (h2 0 (by norm_num) s (-1) i).1
        (h2 0 (by norm_num) s 1 i).1
        (h2 1 (by norm_num) s (-1) i).1
        (h2 1 (by norm_num) s 1 i).1).congr_deriv ?_).congr_of_eventuallyEq
        (Filter.Eventually.of_forall fun _ => ?_)
    · ring
    · simp only [Transfinite3d.pointAndDerivs]; ring
  · refine ((lin8 (c0 := 0 - (surfAt m.b 4 r s) i / 2 + (surfAt m.b 5 r s) i / 2 + (1 - r) * (surfAt m.b 0 s (-1)) i / 4
          - (1 - r) * (surfAt m.b 0 s 1) i / 4 + (1 + r) * (surfAt m.b 1 s (-1)) i / 4 - (1 + r) * (surfAt m.b 1 s 1) i / 4
          + (1 - s) * (surfAt m.b 2 r (-1)) i / 4 - (1 - s) * (surfAt m.b 2 r 1) i / 4 + (1 + s) * (surfAt m.b 3 r (-1)) i / 4
          - (1 + s) * (surfAt m.b 3 r 1) i / 4 - (1 - r) * (1 - s) * m.p0 i / 8 - (1 + r) * (1 - s) * m.p1 i / 8
          - (1 + r) * (1 + s) * m.p2 i / 8 - (1 - r) * (1 + s) * m.p3 i / 8 + (1 - r) * (1 - s) * m.p4 i / 8
          + (1 + r) * (1 - s) * m.p5 i / 8 + (1 + r) * (1 + s) * m.p6 i / 8 + (1 - r) * (1 + s) * m.p7 i / 8)
        (c1 := 0)
        (((1 - r) / 2))
        (((1 + r) / 2))
        (((1 - s) / 2))
        (((1 + s) / 2))
        (-((1 - r) * (1 - s) / 4))
        (-((1 - r) * (1 + s) / 4))
        (-((1 + r) * (1 - s) / 4))
        (-((1 + r) * (1 + s) / 4))
        (h2 0 (by norm_num) s t i).2.1
        (h2 1 (by norm_num) s t i).2.1
        (h2 2 (by norm_num) r t i).2.1
        (h2 3 (by norm_num) r t i).2.1
        (h2 0 (by norm_num) (-1) t i).2.1
        (h2 0 (by norm_num) 1 t i).2.1
        (h2 1 (by norm_num) (-1) t i).2.1
        (h2 1 (by norm_num) 1 t i).2.1).congr_deriv ?_).congr_of_eventuallyEq
        (Filter.Eventually.of_forall fun _ => ?_)
    · ring
    · simp only [Transfinite3d.pointAndDerivs]; ring
  · refine ((lin8 (c0 := 0 + (surf1At m.d1 2 r t).1 i / 2 + (surf1At m.d1 3 r t).1 i / 2 + (surfAt m.b 0 (-1) t) i / 4 + (surfAt m.b 0 1 t) i / 4
          - (surfAt m.b 1 (-1) t) i / 4 - (surfAt m.b 1 1 t) i / 4 - (1 - t) * (surf1At m.d1 2 r (-1)).1 i / 4
          - (1 + t) * (surf1At m.d1 2 r 1).1 i / 4 - (1 - t) * (surf1At m.d1 3 r (-1)).1 i / 4
          - (1 + t) * (surf1At m.d1 3 r 1).1 i / 4 - (1 - t) * m.p0 i / 8 + (1 - t) * m.p1 i / 8 + (1 - t) * m.p2 i / 8
          - (1 - t) * m.p3 i / 8 - (1 + t) * m.p4 i / 8 + (1 + t) * m.p5 i / 8 + (1 + t) * m.p6 i / 8 - (1 + t) * m.p7 i / 8)
        (c1 := 0 - (surf1At m.d1 2 r t).1 i / 2 + (surf1At m.d1 3 r t).1 i / 2 - (surfAt m.b 0 (-1) t) i / 4 + (surfAt m.b 0 1 t) i / 4
          + (surfAt m.b 1 (-1) t) i / 4 - (surfAt m.b 1 1 t) i / 4 + (1 - t) * (surf1At m.d1 2 r (-1)).1 i / 4
          + (1 + t) * (surf1At m.d1 2 r 1).1 i / 4 - (1 - t) * (surf1At m.d1 3 r (-1)).1 i / 4
          - (1 + t) * (surf1At m.d1 3 r 1).1 i / 4 + (1 - t) * m.p0 i / 8 - (1 - t) * m.p1 i / 8 + (1 - t) * m.p2 i / 8
          - (1 - t) * m.p3 i / 8 + (1 + t) * m.p4 i / 8 - (1 + t) * m.p5 i / 8 + (1 + t) * m.p6 i / 8 - (1 + t) * m.p7 i / 8)
        (-(1 / 2))
        ((1 / 2))
        (((1 - t) / 2))
        (((1 + t) / 2))
        (((1 - t) / 4))
        (((1 + t) / 4))
        (-((1 - t) / 4))
        (-((1 + t) / 4))
        (h1 0 (by norm_num) s t i).1
        (h1 1 (by norm_num) s t i).1
        (h2 4 (by norm_num) r s i).2.2.1
        (h2 5 (by norm_num) r s i).2.2.1
        (h1 0 (by norm_num) s (-1) i).1
        (h1 0 (by norm_num) s 1 i).1
        (h1 1 (by norm_num) s (-1) i).1
        (h1 1 (by norm_num) s 1 i).1).congr_deriv ?_).congr_of_eventuallyEq
        (Filter.Eventually.of_forall fun _ => ?_)
    · ring
    · simp only [Transfinite3d.pointAndDerivs]; ring
  · refine ((lin8 (c0 := 0 + (surf1At m.d1 4 r s).1 i / 2 + (surf1At m.d1 5 r s).1 i / 2 + (surfAt m.b 0 s (-1)) i / 4 + (surfAt m.b 0 s 1) i / 4
          - (surfAt m.b 1 s (-1)) i / 4 - (surfAt m.b 1 s 1) i / 4 - (1 - s) * (surf1At m.d1 2 r (-1)).1 i / 4
          - (1 - s) * (surf1At m.d1 2 r 1).1 i / 4 - (1 + s) * (surf1At m.d1 3 r (-1)).1 i / 4
          - (1 + s) * (surf1At m.d1 3 r 1).1 i / 4 - (1 - s) * m.p0 i / 8 + (1 - s) * m.p1 i / 8 + (1 + s) * m.p2 i / 8
          - (1 + s) * m.p3 i / 8 - (1 - s) * m.p4 i / 8 + (1 - s) * m.p5 i / 8 + (1 + s) * m.p6 i / 8 - (1 + s) * m.p7 i / 8)
        (c1 := 0 - (surf1At m.d1 4 r s).1 i / 2 + (surf1At m.d1 5 r s).1 i / 2 - (surfAt m.b 0 s (-1)) i / 4 + (surfAt m.b 0 s 1) i / 4
          + (surfAt m.b 1 s (-1)) i / 4 - (surfAt m.b 1 s 1) i / 4 + (1 - s) * (surf1At m.d1 2 r (-1)).1 i / 4
          - (1 - s) * (surf1At m.d1 2 r 1).1 i / 4 + (1 + s) * (surf1At m.d1 3 r (-1)).1 i / 4
          - (1 + s) * (surf1At m.d1 3 r 1).1 i / 4 + (1 - s) * m.p0 i / 8 - (1 - s) * m.p1 i / 8 - (1 + s) * m.p2 i / 8
          + (1 + s) * m.p3 i / 8 - (1 - s) * m.p4 i / 8 + (1 - s) * m.p5 i / 8 + (1 + s) * m.p6 i / 8 - (1 + s) * m.p7 i / 8)
        (-(1 / 2))
        ((1 / 2))
        (((1 - s) / 2))
        (((1 + s) / 2))
        (((1 - s) / 4))
        (((1 + s) / 4))
        (-((1 - s) / 4))
        (-((1 + s) / 4))
        (h1 0 (by norm_num) s t i).2
        (h1 1 (by norm_num) s t i).2
        (h2 2 (by norm_num) r t i).2.2.1
        (h2 3 (by norm_num) r t i).2.2.1
        (h1 0 (by norm_num) (-1) t i).2
        (h1 0 (by norm_num) 1 t i).2
        (h1 1 (by norm_num) (-1) t i).2
        (h1 1 (by norm_num) 1 t i).2).congr_deriv ?_).congr_of_eventuallyEq
        (Filter.Eventually.of_forall fun _ => ?_)
    · ring
    · simp only [Transfinite3d.pointAndDerivs]; ring
  · refine ((lin8 (c0 := 0 + (surf1At m.d1 4 r s).2 i / 2 + (surf1At m.d1 5 r s).2 i / 2 - (1 - r) * (surf1At m.d1 0 s (-1)).1 i / 4
          - (1 - r) * (surf1At m.d1 0 s 1).1 i / 4 - (1 + r) * (surf1At m.d1 1 s (-1)).1 i / 4
          - (1 + r) * (surf1At m.d1 1 s 1).1 i / 4 + (surfAt m.b 2 r (-1)) i / 4 + (surfAt m.b 2 r 1) i / 4
          - (surfAt m.b 3 r (-1)) i / 4 - (surfAt m.b 3 r 1) i / 4 - (1 - r) * m.p0 i / 8 - (1 + r) * m.p1 i / 8
          + (1 + r) * m.p2 i / 8 + (1 - r) * m.p3 i / 8 - (1 - r) * m.p4 i / 8 - (1 + r) * m.p5 i / 8 + (1 + r) * m.p6 i / 8
          + (1 - r) * m.p7 i / 8)
        (c1 := 0 - (surf1At m.d1 4 r s).2 i / 2 + (surf1At m.d1 5 r s).2 i / 2 + (1 - r) * (surf1At m.d1 0 s (-1)).1 i / 4
          - (1 - r) * (surf1At m.d1 0 s 1).1 i / 4 + (1 + r) * (surf1At m.d1 1 s (-1)).1 i / 4
          - (1 + r) * (surf1At m.d1 1 s 1).1 i / 4 - (surfAt m.b 2 r (-1)) i / 4 + (surfAt m.b 2 r 1) i / 4
          + (surfAt m.b 3 r (-1)) i / 4 - (surfAt m.b 3 r 1) i / 4 + (1 - r) * m.p0 i / 8 + (1 + r) * m.p1 i / 8
          - (1 + r) * m.p2 i / 8 - (1 - r) * m.p3 i / 8 - (1 - r) * m.p4 i / 8 - (1 + r) * m.p5 i / 8 + (1 + r) * m.p6 i / 8
          + (1 - r) * m.p7 i / 8)
        (((1 - r) / 2))
        (((1 + r) / 2))
        (-(1 / 2))
        ((1 / 2))
        (((1 - r) / 4))
        (-((1 - r) / 4))
        (((1 + r) / 4))
        (-((1 + r) / 4))
        (h2 0 (by norm_num) s t i).2.2.1
        (h2 1 (by norm_num) s t i).2.2.1
        (h1 2 (by norm_num) r t i).2
        (h1 3 (by norm_num) r t i).2
        (h1 0 (by norm_num) (-1) t i).2
        (h1 0 (by norm_num) 1 t i).2
        (h1 1 (by norm_num) (-1) t i).2
        (h1 1 (by norm_num) 1 t i).2).congr_deriv ?_).congr_of_eventuallyEq
        (Filter.Eventually.of_forall fun _ => ?_)
    · ring
    · simp only [Transfinite3d.pointAndDerivs]; ring
  · refine ((lin8 (c0 := 0 + (surf1At m.d1 0 s t).1 i / 2 + (surf1At m.d1 1 s t).1 i / 2 + (surfAt m.b 0 (-1) t) i / 4 - (surfAt m.b 0 1 t) i / 4
          + (surfAt m.b 1 (-1) t) i / 4 - (surfAt m.b 1 1 t) i / 4 - (1 - t) * (surf1At m.d1 0 s (-1)).1 i / 4
          - (1 + t) * (surf1At m.d1 0 s 1).1 i / 4 - (1 - t) * (surf1At m.d1 1 s (-1)).1 i / 4
          - (1 + t) * (surf1At m.d1 1 s 1).1 i / 4 - (1 - t) * m.p0 i / 8 - (1 - t) * m.p1 i / 8 + (1 - t) * m.p2 i / 8
          + (1 - t) * m.p3 i / 8 - (1 + t) * m.p4 i / 8 - (1 + t) * m.p5 i / 8 + (1 + t) * m.p6 i / 8 + (1 + t) * m.p7 i / 8)
        (c1 := 0 - (surf1At m.d1 0 s t).1 i / 2 + (surf1At m.d1 1 s t).1 i / 2 - (surfAt m.b 0 (-1) t) i / 4 + (surfAt m.b 0 1 t) i / 4
          + (surfAt m.b 1 (-1) t) i / 4 - (surfAt m.b 1 1 t) i / 4 + (1 - t) * (surf1At m.d1 0 s (-1)).1 i / 4
          + (1 + t) * (surf1At m.d1 0 s 1).1 i / 4 - (1 - t) * (surf1At m.d1 1 s (-1)).1 i / 4
          - (1 + t) * (surf1At m.d1 1 s 1).1 i / 4 + (1 - t) * m.p0 i / 8 - (1 - t) * m.p1 i / 8 + (1 - t) * m.p2 i / 8
          - (1 - t) * m.p3 i / 8 + (1 + t) * m.p4 i / 8 - (1 + t) * m.p5 i / 8 + (1 + t) * m.p6 i / 8 - (1 + t) * m.p7 i / 8)
        (-(1 / 2))
        ((1 / 2))
        (((1 - t) / 2))
        (((1 + t) / 2))
        (((1 - t) / 4))
        (((1 + t) / 4))
        (-((1 - t) / 4))
        (-((1 + t) / 4))
        (h1 2 (by norm_num) r t i).1
        (h1 3 (by norm_num) r t i).1
        (h2 4 (by norm_num) r s i).2.2.2
        (h2 5 (by norm_num) r s i).2.2.2
        (h1 2 (by norm_num) r (-1) i).1
        (h1 2 (by norm_num) r 1 i).1
        (h1 3 (by norm_num) r (-1) i).1
        (h1 3 (by norm_num) r 1 i).1).congr_deriv ?_).congr_of_eventuallyEq
        (Filter.Eventually.of_forall fun _ => ?_)
    · ring
    · simp only [Transfinite3d.pointAndDerivs]; ring
  · refine ((lin8 (c0 := 0 + (surf1At m.d1 0 s t).2 i / 2 + (surf1At m.d1 1 s t).2 i / 2 - (1 - s) * (surf1At m.d1 0 (-1) t).2 i / 4
          - (1 + s) * (surf1At m.d1 0 1 t).2 i / 4 - (1 - s) * (surf1At m.d1 1 (-1) t).2 i / 4
          - (1 + s) * (surf1At m.d1 1 1 t).2 i / 4 + (surfAt m.b 0 s (-1)) i / 4 - (surfAt m.b 0 s 1) i / 4
          + (surfAt m.b 1 s (-1)) i / 4 - (surfAt m.b 1 s 1) i / 4 - (1 - s) * m.p0 i / 8 - (1 - s) * m.p1 i / 8
          - (1 + s) * m.p2 i / 8 - (1 + s) * m.p3 i / 8 + (1 - s) * m.p4 i / 8 + (1 - s) * m.p5 i / 8 + (1 + s) * m.p6 i / 8
          + (1 + s) * m.p7 i / 8)
        (c1 := 0 - (surf1At m.d1 0 s t).2 i / 2 + (surf1At m.d1 1 s t).2 i / 2 + (1 - s) * (surf1At m.d1 0 (-1) t).2 i / 4
          + (1 + s) * (surf1At m.d1 0 1 t).2 i / 4 - (1 - s) * (surf1At m.d1 1 (-1) t).2 i / 4
          - (1 + s) * (surf1At m.d1 1 1 t).2 i / 4 - (surfAt m.b 0 s (-1)) i / 4 + (surfAt m.b 0 s 1) i / 4
          + (surfAt m.b 1 s (-1)) i / 4 - (surfAt m.b 1 s 1) i / 4 + (1 - s) * m.p0 i / 8 - (1 - s) * m.p1 i / 8
          - (1 + s) * m.p2 i / 8 + (1 + s) * m.p3 i / 8 - (1 - s) * m.p4 i / 8 + (1 - s) * m.p5 i / 8 + (1 + s) * m.p6 i / 8
          - (1 + s) * m.p7 i / 8)
        (((1 - s) / 2))
        (((1 + s) / 2))
        (-(1 / 2))
        ((1 / 2))
        (((1 - s) / 4))
        (-((1 - s) / 4))
        (((1 + s) / 4))
        (-((1 + s) / 4))
        (h2 2 (by norm_num) r t i).2.2.2
        (h2 3 (by norm_num) r t i).2.2.2
        (h1 4 (by norm_num) r s i).1
        (h1 5 (by norm_num) r s i).1
        (h1 2 (by norm_num) r (-1) i).1
        (h1 2 (by norm_num) r 1 i).1
        (h1 3 (by norm_num) r (-1) i).1
        (h1 3 (by norm_num) r 1 i).1).congr_deriv ?_).congr_of_eventuallyEq
        (Filter.Eventually.of_forall fun _ => ?_)
    · ring
    · simp only [Transfinite3d.pointAndDerivs]; ring
  · refine ((lin8 (c0 := 0 + (surf1At m.d1 2 r t).2 i / 2 + (surf1At m.d1 3 r t).2 i / 2 - (1 - r) * (surf1At m.d1 0 (-1) t).2 i / 4
          - (1 - r) * (surf1At m.d1 0 1 t).2 i / 4 - (1 + r) * (surf1At m.d1 1 (-1) t).2 i / 4
          - (1 + r) * (surf1At m.d1 1 1 t).2 i / 4 + (surfAt m.b 2 r (-1)) i / 4 - (surfAt m.b 2 r 1) i / 4
          + (surfAt m.b 3 r (-1)) i / 4 - (surfAt m.b 3 r 1) i / 4 - (1 - r) * m.p0 i / 8 - (1 + r) * m.p1 i / 8
          - (1 + r) * m.p2 i / 8 - (1 - r) * m.p3 i / 8 + (1 - r) * m.p4 i / 8 + (1 + r) * m.p5 i / 8 + (1 + r) * m.p6 i / 8
          + (1 - r) * m.p7 i / 8)
        (c1 := 0 - (surf1At m.d1 2 r t).2 i / 2 + (surf1At m.d1 3 r t).2 i / 2 + (1 - r) * (surf1At m.d1 0 (-1) t).2 i / 4
          - (1 - r) * (surf1At m.d1 0 1 t).2 i / 4 + (1 + r) * (surf1At m.d1 1 (-1) t).2 i / 4
          - (1 + r) * (surf1At m.d1 1 1 t).2 i / 4 - (surfAt m.b 2 r (-1)) i / 4 + (surfAt m.b 2 r 1) i / 4
          + (surfAt m.b 3 r (-1)) i / 4 - (surfAt m.b 3 r 1) i / 4 + (1 - r) * m.p0 i / 8 + (1 + r) * m.p1 i / 8
          - (1 + r) * m.p2 i / 8 - (1 - r) * m.p3 i / 8 - (1 - r) * m.p4 i / 8 - (1 + r) * m.p5 i / 8 + (1 + r) * m.p6 i / 8
          + (1 - r) * m.p7 i / 8)
        (((1 - r) / 2))
        (((1 + r) / 2))
        (-(1 / 2))
        ((1 / 2))
        (((1 - r) / 4))
        (-((1 - r) / 4))
        (((1 + r) / 4))
        (-((1 + r) / 4))
        (h2 0 (by norm_num) s t i).2.2.2
        (h2 1 (by norm_num) s t i).2.2.2
        (h1 4 (by norm_num) r s i).2
        (h1 5 (by norm_num) r s i).2
        (h1 0 (by norm_num) s (-1) i).1
        (h1 0 (by norm_num) s 1 i).1
        (h1 1 (by norm_num) s (-1) i).1
        (h1 1 (by norm_num) s 1 i).1).congr_deriv ?_).congr_of_eventuallyEq
        (Filter.Eventually.of_forall fun _ => ?_)
    · ring
    · simp only [Transfinite3d.pointAndDerivs]; ring

/-- functions that are zero -/
def zeros2 : List Surf2 := List.replicate 6 fun _ _ => (fun _ => 0, fun _ => 0, fun _ => 0)

theorem surf2At_zeros (k : Nat) : surf2At zeros2 k = fun _ _ => (fun _ => 0, fun _ => 0, fun _ => 0) := by
  unfold surf2At zeros2
  rw [List.getD_eq_getElem?_getD, List.getElem?_replicate]
  split_ifs <;> rfl

/-- **C92 (second derivatives).** They are written only if all six are requested. They are right if the second derivatives of the
boundaries are given, or if these are not given and are all zero. -/
theorem C92_second_derivatives {m : Transfinite3d} {d2 : List Surf2} (h1 : IsPartials m.b m.d1) (h2 : IsPartials2 m.d1 d2)
    (hd : m.d2 = some d2 ∨ m.d2 = none ∧ d2 = zeros2) (r s t : ℝ) :
    (m.pointAndDerivs false r s t).second = none ∧
    ∃ S, (m.pointAndDerivs true r s t).second = some S ∧ IsSecond m r s t S := by
  refine ⟨rfl, ?_⟩
  rcases hd with hd | ⟨hd, rfl⟩
  · exact second_some h1 h2 hd r s t
  · have key : ∀ r s t, (m.pointAndDerivs true r s t).second = (({ m with d2 := some zeros2 } : Transfinite3d).pointAndDerivs true r s t).second := by
      intro r s t
      simp only [Transfinite3d.pointAndDerivs, hd, surf2At_zeros, Bool.true_eq_false, if_false, Option.some.injEq, Second3.mk.injEq]
      refine ⟨?_, ?_, ?_, ?_, ?_, ?_⟩ <;> funext i <;> ring
    obtain ⟨S, e, h⟩ := second_some (m := { m with d2 := some zeros2 }) h1 h2 rfl r s t
    exact ⟨S, by rw [key, e], ⟨h.rr, h.ss, h.tt, h.rs, h.rt, h.st, h.sr, h.tr, h.ts⟩⟩

/-! ### A brick with a twisted bottom -/

/-- the cube with the bottom face `(r, s, (r s - 3) / 2)`, whose mixed second derivative does not vanish -/
def twisted (r s t : ℝ) : Fin 3 → ℝ := ![r, s, t * (3 - r * s) / 4 + (1 + r * s) / 4]
def twistedB : List Surf := [fun s t => twisted (-1) s t, fun s t => twisted 1 s t, fun r t => twisted r (-1) t, fun r t => twisted r 1 t,
  fun r s => twisted r s (-1), fun r s => twisted r s 1]
def twisted1 : List Surf1 := [fun s t => (![0, 1, t / 4 - 1 / 4], ![0, 0, (3 + s) / 4]), fun s t => (![0, 1, -t / 4 + 1 / 4], ![0, 0, (3 - s) / 4]),
  fun r t => (![1, 0, t / 4 - 1 / 4], ![0, 0, (3 + r) / 4]), fun r t => (![1, 0, -t / 4 + 1 / 4], ![0, 0, (3 - r) / 4]),
  fun r s => (![1, 0, s / 2], ![0, 1, r / 2]), fun _ _ => (![1, 0, 0], ![0, 1, 0])]
def twisted2 : List Surf2 := [fun _ _ => (![0, 0, 0], ![0, 0, 0], ![0, 0, 1 / 4]), fun _ _ => (![0, 0, 0], ![0, 0, 0], ![0, 0, -1 / 4]),
  fun _ _ => (![0, 0, 0], ![0, 0, 0], ![0, 0, 1 / 4]), fun _ _ => (![0, 0, 0], ![0, 0, 0], ![0, 0, -1 / 4]),
  fun _ _ => (![0, 0, 0], ![0, 0, 0], ![0, 0, 1 / 2]), fun _ _ => (![0, 0, 0], ![0, 0, 0], ![0, 0, 0])]

theorem lin1 (a b x : ℝ) {f : ℝ → ℝ} (h : ∀ x, f x = a + b * x) : HasDerivAt f b x := by
  rw [show f = fun x => a + b * x from funext h]
  simpa using ((hasDerivAt_id x).const_mul b).const_add a

theorem twisted_partials : IsPartials twistedB twisted1 := by
  intro k hk u v i
  have : k = 0 ∨ k = 1 ∨ k = 2 ∨ k = 3 ∨ k = 4 ∨ k = 5 := by omega
  rcases this with rfl | rfl | rfl | rfl | rfl | rfl <;> fin_cases i <;> constructor
  · exact lin1 (-1) _ _ fun x => by norm_num [surfAt, surf1At, twistedB, twisted, twisted1] <;> ring
  · exact lin1 (-1) _ _ fun x => by norm_num [surfAt, surf1At, twistedB, twisted, twisted1] <;> ring
  · exact lin1 (0) _ _ fun x => by norm_num [surfAt, surf1At, twistedB, twisted, twisted1] <;> ring
  · exact lin1 (u) _ _ fun x => by norm_num [surfAt, surf1At, twistedB, twisted, twisted1] <;> ring
  · exact lin1 (v * 3 / 4 + 1 / 4) _ _ fun x => by norm_num [surfAt, surf1At, twistedB, twisted, twisted1] <;> ring
  · exact lin1 ((1 - u) / 4) _ _ fun x => by norm_num [surfAt, surf1At, twistedB, twisted, twisted1] <;> ring
  · exact lin1 (1) _ _ fun x => by norm_num [surfAt, surf1At, twistedB, twisted, twisted1] <;> ring
  · exact lin1 (1) _ _ fun x => by norm_num [surfAt, surf1At, twistedB, twisted, twisted1] <;> ring
  · exact lin1 (0) _ _ fun x => by norm_num [surfAt, surf1At, twistedB, twisted, twisted1] <;> ring
  · exact lin1 (u) _ _ fun x => by norm_num [surfAt, surf1At, twistedB, twisted, twisted1] <;> ring
  · exact lin1 (v * 3 / 4 + 1 / 4) _ _ fun x => by norm_num [surfAt, surf1At, twistedB, twisted, twisted1] <;> ring
  · exact lin1 ((1 + u) / 4) _ _ fun x => by norm_num [surfAt, surf1At, twistedB, twisted, twisted1] <;> ring
  · exact lin1 (0) _ _ fun x => by norm_num [surfAt, surf1At, twistedB, twisted, twisted1] <;> ring
  · exact lin1 (u) _ _ fun x => by norm_num [surfAt, surf1At, twistedB, twisted, twisted1] <;> ring
  · exact lin1 (-1) _ _ fun x => by norm_num [surfAt, surf1At, twistedB, twisted, twisted1] <;> ring
  · exact lin1 (-1) _ _ fun x => by norm_num [surfAt, surf1At, twistedB, twisted, twisted1] <;> ring
  · exact lin1 (v * 3 / 4 + 1 / 4) _ _ fun x => by norm_num [surfAt, surf1At, twistedB, twisted, twisted1] <;> ring
  · exact lin1 ((1 - u) / 4) _ _ fun x => by norm_num [surfAt, surf1At, twistedB, twisted, twisted1] <;> ring
  · exact lin1 (0) _ _ fun x => by norm_num [surfAt, surf1At, twistedB, twisted, twisted1] <;> ring
  · exact lin1 (u) _ _ fun x => by norm_num [surfAt, surf1At, twistedB, twisted, twisted1] <;> ring
  · exact lin1 (1) _ _ fun x => by norm_num [surfAt, surf1At, twistedB, twisted, twisted1] <;> ring
  · exact lin1 (1) _ _ fun x => by norm_num [surfAt, surf1At, twistedB, twisted, twisted1] <;> ring
  · exact lin1 (v * 3 / 4 + 1 / 4) _ _ fun x => by norm_num [surfAt, surf1At, twistedB, twisted, twisted1] <;> ring
  · exact lin1 ((1 + u) / 4) _ _ fun x => by norm_num [surfAt, surf1At, twistedB, twisted, twisted1] <;> ring
  · exact lin1 (0) _ _ fun x => by norm_num [surfAt, surf1At, twistedB, twisted, twisted1] <;> ring
  · exact lin1 (u) _ _ fun x => by norm_num [surfAt, surf1At, twistedB, twisted, twisted1] <;> ring
  · exact lin1 (v) _ _ fun x => by norm_num [surfAt, surf1At, twistedB, twisted, twisted1] <;> ring
  · exact lin1 (0) _ _ fun x => by norm_num [surfAt, surf1At, twistedB, twisted, twisted1] <;> ring
  · exact lin1 (-1/2) _ _ fun x => by norm_num [surfAt, surf1At, twistedB, twisted, twisted1] <;> ring
  · exact lin1 (-1/2) _ _ fun x => by norm_num [surfAt, surf1At, twistedB, twisted, twisted1] <;> ring
  · exact lin1 (0) _ _ fun x => by norm_num [surfAt, surf1At, twistedB, twisted, twisted1] <;> ring
  · exact lin1 (u) _ _ fun x => by norm_num [surfAt, surf1At, twistedB, twisted, twisted1] <;> ring
  · exact lin1 (v) _ _ fun x => by norm_num [surfAt, surf1At, twistedB, twisted, twisted1] <;> ring
  · exact lin1 (0) _ _ fun x => by norm_num [surfAt, surf1At, twistedB, twisted, twisted1] <;> ring
  · exact lin1 (1) _ _ fun x => by norm_num [surfAt, surf1At, twistedB, twisted, twisted1] <;> ring
  · exact lin1 (1) _ _ fun x => by norm_num [surfAt, surf1At, twistedB, twisted, twisted1] <;> ring

theorem twisted_partials2 : IsPartials2 twisted1 twisted2 := by
  intro k hk u v i
  have : k = 0 ∨ k = 1 ∨ k = 2 ∨ k = 3 ∨ k = 4 ∨ k = 5 := by omega
  have h0 : ∀ f : ℝ → ℝ, ∀ b x, (∀ x, f x = f 0 + b * x) → HasDerivAt f b x := fun f b x h => lin1 (f 0) b x h
  rcases this with rfl | rfl | rfl | rfl | rfl | rfl <;> fin_cases i <;> refine ⟨h0 _ _ _ fun x => ?_, h0 _ _ _ fun x => ?_,
    h0 _ _ _ fun x => ?_, h0 _ _ _ fun x => ?_⟩ <;> norm_num [surf1At, surf2At, twisted1, twisted2] <;> ring

/-- the hypotheses above, with second derivatives that do not vanish, and with boundaries that meet -/
example : ∃ m, Transfinite3d.new twistedB twisted1 (some twisted2) = ok m ∧ IsPartials m.b m.d1 ∧ IsPartials2 m.d1 twisted2 ∧
    m.d2 = some twisted2 ∧ m.point 1 1 (-1) = ![1, 1, 0] ∧ EdgesMeet (surfAt twistedB 0) (surfAt twistedB 1) (surfAt twistedB 2)
      (surfAt twistedB 3) (surfAt twistedB 4) (surfAt twistedB 5) := by
  refine ⟨_, rfl, twisted_partials, twisted_partials2, rfl, ?_, ?_⟩
  · funext i
    fin_cases i <;> norm_num [Transfinite3d.point, surfAt, twistedB, twisted]
  · constructor <;> intro x _ <;> rfl

/-- **C92 (boundaries that do not meet).** They are accepted by `new`, and then the boundary of the mapped domain differs. -/
theorem C92_edges_counterexample : ∃ (b0 b1 b2 b3 b4 b5 : Surf) (d1 : List Surf1) (m : Transfinite3d),
    Transfinite3d.new [b0, b1, b2, b3, b4, b5] d1 none = ok m ∧ ¬TakesFaces m.point b0 b1 b2 b3 b4 b5 := by
  refine ⟨fun s t => ![-1, s, t], fun s t => ![1, s, t], fun r t => ![r, -2, t], fun r t => ![r, 1, t], fun r s => ![r, s, -1],
    fun r s => ![r, s, 1], twisted1, _, rfl, ?_⟩
  intro h
  have im : (-1 : ℝ) ∈ Set.Icc (-1 : ℝ) 1 := by constructor <;> norm_num
  have h1 := congrFun (h _ im _ im).1 1
  have h2 := congrFun (h _ im _ im).2.2.1 1
  rw [h1] at h2
  norm_num at h2

theorem at2 (a b c : ℝ) : (![a, b, c] : Fin 3 → ℝ) 2 = c := rfl

/-- **C92 (missing second derivatives of the boundaries).** Without these functions also the mixed second derivatives are wrong: here
the derivative of `dx/dr` with respect to `s` is 1/4 at the centre, and zero is reported. -/
theorem C92_no_second_counterexample : ∃ m, Transfinite3d.new twistedB twisted1 none = ok m ∧ IsPartials m.b m.d1 ∧
    ∃ S, (m.pointAndDerivs true 0 0 0).second = some S ∧ S.rs 2 = 0 ∧
      HasDerivAt (fun s => (m.pointAndDerivs true 0 s 0).dr 2) (1 / 4) 0 := by
  refine ⟨_, rfl, twisted_partials, _, rfl, ?_, ?_⟩
  · norm_num [surfAt, surf1At, twistedB, twisted1, twisted, at2]
  · refine lin1 0 _ _ fun x => ?_
    norm_num [Transfinite3d.pointAndDerivs, surfAt, surf1At, twistedB, twisted1, twisted, at2]
    ring

end

end Russell.Pde
