import Verif.Lab.Quadrature

/-!
# The adaptive quadrature adds Gauss estimates over a partition of the interval (C86)
-/

namespace Russell.Lab.Quad

open Russell Russell.Res

/-- a result is a value that satisfies `P`, or an error whose message satisfies `E`; it is not a panic -/
def Sat {α : Type} (r : Res α) (P : α → Prop) (E : String → Prop) : Prop :=
  match r with
  | ok a => P a
  | err m => E m
  | Res.panic => False

theorem Sat.bind {α β : Type} {x : Res α} {f : α → Res β} {P : α → Prop} {Q : β → Prop} {E : String → Prop} (h : Sat x P E)
    (hf : ∀ a, P a → Sat (f a) Q E) : Sat (x >>= f) Q E := by
  cases x with
  | ok a => exact hf a h
  | err m => exact h
  | panic => exact h.elim

theorem Sat.mono {α : Type} {x : Res α} {P Q : α → Prop} {E : String → Prop} (h : Sat x P E) (hf : ∀ a, P a → Q a) :
    Sat x Q E := by
  cases x with
  | ok a => exact hf a h
  | err m => exact h
  | panic => exact h.elim

theorem Sat.of_ok {α : Type} {a : α} {P : α → Prop} {E : String → Prop} (h : P a) : Sat (ok a) P E := h

/-! ### Gauss rule and dyadic intervals -/

/-- the Gauss estimate of the integral of `g` over `[x - h, x + h]` -/
noncomputable def gaussVal (t : List (ℚ × ℚ)) (g : ℝ → ℝ) (x h : ℝ) : ℝ :=
  h * (t.map fun p => (p.2 : ℝ) * (g (x - p.1 * h) + g (x + p.1 * h))).sum

/-- the Gauss estimate over the interval from `x` to `x + L / 2^d` -/
noncomputable def Gd (t : List (ℚ × ℚ)) (g : ℝ → ℝ) (L : ℝ) (p : ℝ × Nat) : ℝ :=
  gaussVal t g (p.1 + L / 2 ^ (p.2 + 1)) (L / 2 ^ (p.2 + 1))

/-- the two halves of the interval from `x` to `x + L / 2^d` -/
noncomputable def halves (L : ℝ) (p : ℝ × Nat) : List (ℝ × Nat) := [(p.1, p.2 + 1), (p.1 + L / 2 ^ (p.2 + 1), p.2 + 1)]

/-- consecutive intervals `(x, d)`, from `x` to `x + L / 2^d`, that lead from `u` to `v` -/
def Chain (L : ℝ) : List (ℝ × Nat) → ℝ → ℝ → Prop
  | [], u, v => u = v
  | p :: t, u, v => p.1 = u ∧ Chain L t (u + L / 2 ^ p.2) v

theorem Chain.append {L : ℝ} : ∀ {s t : List (ℝ × Nat)} {u v w : ℝ}, Chain L s u v → Chain L t v w → Chain L (s ++ t) u w
  | [], _, _, _, _, h, h' => by cases h; exact h'
  | _ :: _, _, _, _, _, h, h' => ⟨h.1, Chain.append h.2 h'⟩

theorem Chain.halves {L : ℝ} : ∀ {s : List (ℝ × Nat)} {u v : ℝ}, Chain L s u v → Chain L (s.flatMap (halves L)) u v
  | [], _, _, h => h
  | p :: t, u, v, h => by
    rw [List.flatMap_cons]
    refine Chain.append (v := u + L / 2 ^ p.2) ⟨h.1, ?_, ?_⟩ (Chain.halves h.2)
    · show p.1 + L / 2 ^ (p.2 + 1) = _
      rw [h.1]
    · show u + L / 2 ^ (p.2 + 1) + L / 2 ^ (p.2 + 1) = _
      rw [pow_succ]; ring

/-- the callback returns the value of `g` or an error at the points between `a` and `b`; elsewhere it may do anything -/
def CallsOn {A : Type} (f : Callback ℝ A) (g : ℝ → ℝ) (a b : ℝ) : Prop :=
  ∀ t ∈ Set.uIcc a b, ∀ s, (∃ s', f t s = ok (g t, s')) ∨ ∃ m, f t s = err m

/-- the message was returned by the callback for a point between `a` and `b` -/
def FromF {A : Type} (f : Callback ℝ A) (a b : ℝ) (m : String) : Prop := ∃ t ∈ Set.uIcc a b, ∃ s, f t s = err m

section
variable {A : Type} {f : Callback ℝ A} {g : ℝ → ℝ} {a b : ℝ}

theorem CallsOn.sat (hf : CallsOn f g a b) {t : ℝ} (ht : t ∈ Set.uIcc a b) (s : A) (E : String → Prop)
    (hE : ∀ m, FromF f a b m → E m) : Sat (f t s) (fun r => r.1 = g t) E := by
  rcases hf t ht s with ⟨s', h⟩ | ⟨m, h⟩
  · rw [h]; exact rfl
  · rw [h]; exact hE m ⟨t, ht, s, h⟩

theorem gaussSum_sat (hf : CallsOn f g a b) {x h : ℝ} {E : String → Prop} (hE : ∀ m, FromF f a b m → E m) :
    ∀ (t : List (ℚ × ℚ)) (sum : ℝ) (args : A),
      (∀ p ∈ t, x - (p.1 : ℝ) * h ∈ Set.uIcc a b ∧ x + (p.1 : ℝ) * h ∈ Set.uIcc a b) →
      Sat (gaussSum f x h t sum args)
        (fun r => r.1 = sum + (t.map fun p => (p.2 : ℝ) * (g (x - p.1 * h) + g (x + p.1 * h))).sum) E
  | [], sum, args, _ => by simp [gaussSum, Sat]
  | (p, w) :: t, sum, args, hp => by
    unfold gaussSum
    refine (hf.sat (hp (p, w) (by simp)).1 args E hE).bind ?_
    rintro ⟨u, args⟩ rfl
    refine (hf.sat (hp (p, w) (by simp)).2 args E hE).bind ?_
    rintro ⟨v, args⟩ rfl
    refine (gaussSum_sat hf hE t _ args fun q hq => hp q (by simp [hq])).mono ?_
    rintro r hr
    rw [hr]; simp; ring

/-- the abscissae of all the tables lie between 0 and 1, the weights are positive -/
theorem gaussTable_mem {n : Nat} {t : List (ℚ × ℚ)} (h : gaussTable n = some t) :
    ∀ p ∈ t, 0 < p.1 ∧ p.1 < 1 ∧ 0 < p.2 := by
  unfold gaussTable at h
  split_ifs at h <;> cases h
  all_goals
    simp only [gauss6, gauss8, gauss10, gauss12, gauss14, List.forall_mem_cons]
    norm_num

theorem gauss_sat (hf : CallsOn f g a b) {x h : ℝ} {E : String → Prop} (hE : ∀ m, FromF f a b m → E m) {n : Nat}
    {t : List (ℚ × ℚ)} (ht : gaussTable n = some t) (args : A) (h1 : x - h ∈ Set.uIcc a b) (h2 : x + h ∈ Set.uIcc a b) :
    Sat (gauss n x h args f) (fun r => r.1 = gaussVal t g x h) E := by
  unfold gauss
  rw [ht]
  refine (gaussSum_sat hf hE t 0 args ?_).bind ?_
  · intro p hp
    obtain ⟨q1, q2, _⟩ := gaussTable_mem ht p hp
    have c1 : (0 : ℝ) < p.1 := by exact_mod_cast q1
    have c2 : (p.1 : ℝ) < 1 := by exact_mod_cast q2
    have conv := (convex_uIcc (𝕜 := ℝ) a b)
    constructor
    · have := conv h1 h2 (a := (1 + p.1) / 2) (b := (1 - p.1) / 2) (by linarith) (by linarith) (by ring)
      simp only [smul_eq_mul] at this
      convert this using 1; ring
    · have := conv h1 h2 (a := (1 - p.1) / 2) (b := (1 + p.1) / 2) (by linarith) (by linarith) (by ring)
      simp only [smul_eq_mul] at this
      convert this using 1; ring
  · rintro ⟨s, args⟩ hs
    show h * s = _
    rw [show s = _ from hs]; simp [gaussVal]

end

/-! ### Invariant -/

/-- the intervals that are still to be visited, besides the current one, when the current level is `d + 1` -/
noncomputable def pend (L : ℝ) (lr : Nat → Int) (aa : Nat → ℝ) : Nat → List (ℝ × Nat)
  | 0 => []
  | d + 1 => if lr (d + 2) = 1 then pend L lr aa d else (aa (d + 2) + L / 2 ^ (d + 1), d + 1) :: pend L lr aa d

/-- what has been summed for the intervals at the left -/
noncomputable def doneSum (lr : Nat → Int) (vl : Nat → ℝ) : Nat → ℝ
  | 0 => 0
  | d + 1 => (if lr (d + 2) = 1 then vl (d + 2) else 0) + doneSum lr vl d

theorem pend_congr {L : ℝ} {lr lr' : Nat → Int} {aa aa' : Nat → ℝ} : ∀ {d : Nat},
    (∀ j, j < d → lr' (j + 2) = lr (j + 2) ∧ aa' (j + 2) = aa (j + 2)) → pend L lr' aa' d = pend L lr aa d
  | 0, _ => rfl
  | d + 1, h => by
    unfold pend
    rw [(h d (by omega)).1, (h d (by omega)).2, pend_congr fun j hj => h j (by omega)]

theorem doneSum_congr {lr lr' : Nat → Int} {vl vl' : Nat → ℝ} : ∀ {d : Nat},
    (∀ j, j < d → lr' (j + 2) = lr (j + 2) ∧ vl' (j + 2) = vl (j + 2)) → doneSum lr' vl' d = doneSum lr vl d
  | 0, _ => rfl
  | d + 1, h => by
    unfold doneSum
    rw [(h d (by omega)).1, (h d (by omega)).2, doneSum_congr fun j hj => h j (by omega)]

/-- the positions of the current intervals at the levels `1, …, d + 1` -/
structure Geo (t : List (ℚ × ℚ)) (g : ℝ → ℝ) (a L : ℝ) (lr : Nat → Int) (aa hh gr : Nat → ℝ) (d : Nat) : Prop where
  hh : ∀ j, j ≤ d → hh (j + 1) = L / 2 ^ (j + 2)
  a1 : aa 1 = a
  l1 : lr 1 = 1
  step : ∀ j, j < d → (lr (j + 2) = -1 ∧ aa (j + 2) = aa (j + 1)) ∨ (lr (j + 2) = 1 ∧ aa (j + 2) = aa (j + 1) + L / 2 ^ (j + 1))
  gr : ∀ j, j < d → gr (j + 1) = Gd t g L (aa (j + 1) + L / 2 ^ (j + 1), j + 1)

section
variable {t : List (ℚ × ℚ)} {g : ℝ → ℝ} {a L : ℝ} {lr : Nat → Int} {aa hh gr : Nat → ℝ}

theorem Geo.pos {d : Nat} (G : Geo t g a L lr aa hh gr d) : ∀ j, j ≤ d → ∃ u : ℝ, 0 ≤ u ∧ u + 1 / 2 ^ j ≤ 1 ∧ aa (j + 1) = a + u * L
  | 0, _ => ⟨0, le_rfl, by norm_num, by rw [G.a1]; ring⟩
  | j + 1, h => by
    obtain ⟨u, h1, h2, h3⟩ := G.pos j (by omega)
    have p : (0 : ℝ) < 1 / 2 ^ (j + 1) := by positivity
    have e : (1 : ℝ) / 2 ^ j = 1 / 2 ^ (j + 1) + 1 / 2 ^ (j + 1) := by rw [pow_succ]; field_simp; norm_num
    rcases G.step j (by omega) with ⟨_, s⟩ | ⟨_, s⟩
    · exact ⟨u, h1, by linarith, by rw [s, h3]⟩
    · exact ⟨u + 1 / 2 ^ (j + 1), by linarith, by linarith, by rw [s, h3]; ring⟩

/-- the points of the current interval lie between the bounds -/
theorem Geo.mem {d : Nat} (G : Geo t g a L lr aa hh gr d) {v : ℝ} (h0 : 0 ≤ v) (h1 : v ≤ 1) :
    aa (d + 1) + v * (L / 2 ^ d) ∈ Set.uIcc a (a + L) := by
  obtain ⟨u, h2, h3, h4⟩ := G.pos d le_rfl
  have p : (0 : ℝ) < 1 / 2 ^ d := by positivity
  have : v * (1 / 2 ^ d) ≤ 1 / 2 ^ d := by nlinarith
  have q : 0 ≤ v * (1 / 2 ^ d) := by positivity
  have := (convex_uIcc (𝕜 := ℝ) a (a + L)) (Set.left_mem_uIcc) (Set.right_mem_uIcc) (a := 1 - (u + v * (1 / 2 ^ d)))
    (b := u + v * (1 / 2 ^ d)) (by linarith) (by linarith) (by ring)
  simp only [smul_eq_mul] at this
  rw [h4]
  convert this using 1; ring

theorem Geo.chain {d : Nat} (G : Geo t g a L lr aa hh gr d) :
    Chain L (pend L lr aa d) (aa (d + 1) + L / 2 ^ d) (a + L) := by
  induction d with
  | zero => simp [pend, Chain, G.a1]
  | succ d ih =>
    have ih := ih ⟨fun j h => G.hh j (by omega), G.a1, G.l1, fun j h => G.step j (by omega), fun j h => G.gr j (by omega)⟩
    have e : L / 2 ^ (d + 1) + L / 2 ^ (d + 1) = L / 2 ^ d := by rw [pow_succ]; ring
    rcases G.step d (by omega) with ⟨s1, s2⟩ | ⟨s1, s2⟩
    · unfold pend
      rw [if_neg (by rw [s1]; decide)]
      refine ⟨rfl, ?_⟩
      show Chain L _ (aa (d + 2) + L / 2 ^ (d + 1) + L / 2 ^ (d + 1)) _
      rw [add_assoc, e, s2]; exact ih
    · unfold pend
      rw [if_pos s1, s2, add_assoc, e]; exact ih

/-- the positions after the left interval at level `e + 2` has been replaced by the right one -/
theorem Geo.right {e : Nat} (G : Geo t g a L lr aa hh gr (e + 1)) (h1 : lr (e + 2) = -1) :
    Geo t g a L (Function.update lr (e + 2) 1) (Function.update aa (e + 2) (aa (e + 2) + L / 2 ^ (e + 1))) hh gr (e + 1) where
  hh := G.hh
  a1 := by rw [Function.update_of_ne (by omega)]; exact G.a1
  l1 := by rw [Function.update_of_ne (by omega)]; exact G.l1
  step := fun j hj => by
    by_cases h : j = e
    · subst h
      right
      have ha1 : aa (j + 2) = aa (j + 1) := by
        rcases G.step j (by omega) with ⟨_, h⟩ | ⟨h, _⟩
        · exact h
        · rw [h] at h1; exact absurd h1 (by decide)
      rw [Function.update_self, Function.update_self, Function.update_of_ne (by omega), ha1]
      exact ⟨rfl, rfl⟩
    · rw [Function.update_of_ne (by omega), Function.update_of_ne (by omega), Function.update_of_ne (by omega)]
      exact G.step j (by omega)
  gr := fun j hj => by
    rw [Function.update_of_ne (by omega)]
    exact G.gr j (by omega)

theorem Geo.left_est {e : Nat} (G : Geo t g a L lr aa hh gr (e + 1)) (h1 : lr (e + 2) = -1) :
    gr (e + 1) = Gd t g L (aa (e + 2) + L / 2 ^ (e + 1), e + 1) := by
  rw [G.gr e (by omega)]
  rcases G.step e (by omega) with ⟨_, h⟩ | ⟨h, _⟩
  · rw [h]
  · rw [h] at h1; exact absurd h1 (by decide)

theorem pend_left {e : Nat} (h1 : lr (e + 2) = -1) :
    pend L lr aa (e + 1) = (aa (e + 2) + L / 2 ^ (e + 1), e + 1) :: pend L lr aa e := by
  conv_lhs => unfold pend
  rw [if_neg (by rw [h1]; decide)]

theorem pend_right {e : Nat} (x : ℝ) : pend L (Function.update lr (e + 2) 1) (Function.update aa (e + 2) x) (e + 1) = pend L lr aa e := by
  conv_lhs => unfold pend
  rw [if_pos (by simp)]
  refine pend_congr fun j hj => ?_
  rw [Function.update_of_ne (by omega), Function.update_of_ne (by omega)]
  exact ⟨rfl, rfl⟩

theorem doneSum_left {e : Nat} {vl : Nat → ℝ} (h1 : lr (e + 2) = -1) : doneSum lr vl (e + 1) = doneSum lr vl e := by
  conv_lhs => unfold doneSum
  rw [if_neg (by rw [h1]; decide), zero_add]

theorem doneSum_right {e : Nat} {vl : Nat → ℝ} (x : ℝ) :
    doneSum (Function.update lr (e + 2) 1) (Function.update vl (e + 2) x) (e + 1) = x + doneSum lr vl e := by
  conv_lhs => unfold doneSum
  rw [if_pos (by simp), Function.update_self, doneSum_congr (lr := lr) (vl := vl)]
  intro j hj
  rw [Function.update_of_ne (by omega), Function.update_of_ne (by omega)]
  exact ⟨rfl, rfl⟩

end

/-- the sum of the Gauss estimates over the halves of the interval -/
noncomputable def Gh (t : List (ℚ × ℚ)) (g : ℝ → ℝ) (L : ℝ) (p : ℝ × Nat) : ℝ := ((halves L p).map (Gd t g L)).sum

/-- the sum of the absolute values of the Gauss estimates over the intervals of a list -/
noncomputable def absArea (t : List (ℚ × ℚ)) (g : ℝ → ℝ) (L : ℝ) (Q : List (ℝ × Nat)) : ℝ := (Q.map fun p => |Gd t g L p|).sum

/-- the error criterion of the interval `(x, d)`: the difference between the estimate over the interval and the one over its
halves, scaled with `1/(2 √2^d)`, is at most `tol/2^d` times the sum of the absolute values of the estimates over some partition
of the integration interval, or at most `tol` times the estimate itself -/
def Accepted (t : List (ℚ × ℚ)) (g : ℝ → ℝ) (a L tol : ℝ) (p : ℝ × Nat) : Prop :=
  ∃ Q, Chain L Q a (a + L) ∧
    |Gd t g L p - Gh t g L p| * (1 / 2 / SQRT_2 ^ p.2) ≤ max (tol / 2 ^ p.2 * absArea t g L Q) (tol * |Gh t g L p|)

/-- what holds for the intervals that have been accepted -/
structure Acc (q : Quadrature) (t : List (ℚ × ℚ)) (g : ℝ → ℝ) (a L : ℝ) (s : QState) (D : List (ℝ × Nat)) : Prop where
  lmx : s.lmx ≤ 33
  err : s.error = (D.map fun p => Gd t g L p - Gh t g L p).sum
  acc : s.mxl = false → ∀ p ∈ D, Accepted t g a L q.tol p
  deep : ∀ p ∈ D, p.2 ≤ 32

/-- the invariant of the iterations: `D` are the intervals that have been accepted, the current level is `d + 1` and `N` iterations
have been made -/
structure Inv (q : Quadrature) (t : List (ℚ × ℚ)) (g : ℝ → ℝ) (a L : ℝ) (s : QState) (D : List (ℝ × Nat)) (d N : Nat) :
    Prop extends Acc q t g a L s D where
  l : s.l = d + 1
  le : d ≤ 32
  geo : Geo t g a L s.lr s.aa s.hh s.gr d
  est : s.est = Gd t g L (s.aa (d + 1), d)
  eps : s.eps = q.tol / 2 ^ d
  ef : s.ef = 1 / 2 / SQRT_2 ^ d
  chain : Chain L D a (s.aa (d + 1))
  done : doneSum s.lr s.vl d = (D.map (Gh t g L)).sum
  area : s.area = absArea t g L (D.flatMap (halves L)) + |s.est| + absArea t g L (pend L s.lr s.aa d)
  cnt : 2 * D.length + (pend L s.lr s.aa d).length = N
  iter : s.n_iterations = q.inc N
  func : s.n_function = q.inc (q.n_gauss * (1 + 2 * N))

/-- at the end: the intervals `D` cover the integration interval -/
structure Covered (q : Quadrature) (t : List (ℚ × ℚ)) (g : ℝ → ℝ) (a L : ℝ) (s : QState) (ans : ℝ) (D : List (ℝ × Nat))
    (N : Nat) : Prop extends Acc q t g a L s D where
  chain : Chain L D a (a + L)
  ans : ans = (D.map (Gh t g L)).sum
  area : s.area = absArea t g L (D.flatMap (halves L))
  cnt : 2 * D.length = N + 1
  iter : s.n_iterations = q.inc N
  func : s.n_function = q.inc (q.n_gauss * (1 + 2 * N))

theorem sqrt2_pos : (0 : ℝ) < SQRT_2 := by unfold SQRT_2; norm_num

theorem wget_lt {β : Type} {v : Nat → β} {i : Nat} (h : i < 61) : wget v i = ok (v i) := if_pos h
theorem wset_lt {β : Type} {v : Nat → β} {i : Nat} (x : β) (h : i < 61) : wset v i x = ok (Function.update v i x) := if_pos h

/-- the state when the right interval at level `d + 1` has just been accepted -/
structure Up (q : Quadrature) (t : List (ℚ × ℚ)) (g : ℝ → ℝ) (a L : ℝ) (s : QState) (ans : ℝ) (D : List (ℝ × Nat))
    (d N : Nat) : Prop extends Acc q t g a L s D where
  le : d ≤ 32
  lr : s.lr (d + 1) = 1
  geo : Geo t g a L s.lr s.aa s.hh s.gr d
  eps : s.eps = q.tol / 2 ^ d
  ef : s.ef = 1 / 2 / SQRT_2 ^ d
  chain : Chain L D a (s.aa (d + 1) + L / 2 ^ d)
  done : doneSum s.lr s.vl d + ans = (D.map (Gh t g L)).sum
  area : s.area = absArea t g L (D.flatMap (halves L)) + absArea t g L (pend L s.lr s.aa d)
  cnt : 2 * D.length + (pend L s.lr s.aa d).length = N + 1
  iter : s.n_iterations = q.inc N
  func : s.n_function = q.inc (q.n_gauss * (1 + 2 * N))

theorem qReturn_sat {q : Quadrature} {t : List (ℚ × ℚ)} {g : ℝ → ℝ} {a L : ℝ} {D : List (ℝ × Nat)} {E : String → Prop}
    {N : Nat} : ∀ (d : Nat) (ans : ℝ) (s : QState), Up q t g a L s ans D d N →
      Sat (qReturn (d + 1) ans s) (fun r => match r.2 with
        | some ans => Covered q t g a L r.1 ans D N
        | none => ∃ e, Inv q t g a L r.1 D e N) E
  | 0, ans, s, U => by
    show Covered q t g a L s ans D N
    exact ⟨U.toAcc, by have := U.chain; rw [U.geo.a1] at this; simpa using this, by have := U.done; simpa [doneSum] using this,
      by have := U.area; simpa [pend, absArea] using this, by have := U.cnt; simpa [pend] using this, U.iter, U.func⟩
  | d + 1, ans, s, U => by
    have hle := U.le
    have c : L / 2 ^ (d + 1) + L / 2 ^ (d + 1) = L / 2 ^ d := by rw [pow_succ]; ring
    have hs : s.aa (d + 2) = s.aa (d + 1) + L / 2 ^ (d + 1) := by
      rcases U.geo.step d (by omega) with ⟨h, _⟩ | ⟨_, h⟩
      · exact absurd (h.symm.trans U.lr) (by decide)
      · exact h
    have hg : Geo t g a L s.lr s.aa s.hh s.gr d := ⟨fun j h => U.geo.hh j (by omega), U.geo.a1, U.geo.l1,
      fun j h => U.geo.step j (by omega), fun j h => U.geo.gr j (by omega)⟩
    have hp : pend L s.lr s.aa (d + 1) = pend L s.lr s.aa d := by
      conv_lhs => unfold pend
      rw [if_pos U.lr]
    have hd : doneSum s.lr s.vl (d + 1) = s.vl (d + 2) + doneSum s.lr s.vl d := by
      conv_lhs => unfold doneSum
      rw [if_pos U.lr]
    have heps : s.eps * 2 = q.tol / 2 ^ d := by rw [U.eps, pow_succ]; ring
    have hef : s.ef * SQRT_2 = 1 / 2 / SQRT_2 ^ d := by
      have := sqrt2_pos.ne'
      rw [U.ef, pow_succ]; field_simp
    have hch : Chain L D a (s.aa (d + 1) + L / 2 ^ d) := by
      have := U.chain; rw [hs, add_assoc, c] at this; exact this
    unfold qReturn
    simp only [wget_lt (v := s.lr) (show d + 1 < 61 by omega), wget_lt (v := s.vl) (show d + 2 < 61 by omega), ok_bind]
    by_cases hl : s.lr (d + 1) ≤ 0
    · obtain ⟨e, rfl⟩ : ∃ e, d = e + 1 := by
        cases d with
        | zero => exact absurd U.geo.l1 (by intro h; rw [h] at hl; exact absurd hl (by decide))
        | succ e => exact ⟨e, rfl⟩
      have hl1 : s.lr (e + 2) = -1 := by
        rcases hg.step e (by omega) with ⟨h, _⟩ | ⟨h, _⟩
        · exact h
        · rw [h] at hl; exact absurd hl (by decide)
      have hh4 : 4 * s.hh (e + 2) = L / 2 ^ (e + 1) := by
        rw [hg.hh (e + 1) le_rfl, show e + 1 + 2 = (e + 1) + 2 from rfl, pow_add]; ring
      rw [if_pos hl]
      simp only [wset_lt (v := s.vl) _ (show e + 1 + 1 < 61 by omega), wget_lt (v := s.gr) (show e + 1 < 61 by omega),
        wset_lt (v := s.lr) _ (show e + 1 + 1 < 61 by omega), wget_lt (v := s.aa) (show e + 1 + 1 < 61 by omega),
        wget_lt (v := s.hh) (show e + 1 + 1 < 61 by omega), wset_lt (v := s.aa) _ (show e + 1 + 1 < 61 by omega), ok_bind]
      refine ⟨e + 1, ?_⟩
      have hG := hg.right hl1
      rw [← hh4] at hG
      exact {
        lmx := U.lmx, err := U.err, acc := U.acc, deep := U.deep
        l := rfl
        le := by omega
        geo := hG
        est := by
          show s.gr (e + 1) = Gd t g L (Function.update s.aa (e + 2) _ (e + 2), e + 1)
          rw [Function.update_self, hh4, hg.left_est hl1]
        eps := heps
        ef := hef
        chain := by
          show Chain L D a (Function.update s.aa (e + 2) _ (e + 2))
          rw [Function.update_self, hh4]; exact hch
        done := by
          refine (doneSum_right _).trans ?_
          rw [← U.done, hd, doneSum_left hl1]; ring
        area := by
          refine Eq.trans ?_ (congrArg (fun z => _ + |s.gr (e + 1)| + absArea t g L z) (pend_right _).symm)
          refine U.area.trans ?_
          rw [hp, pend_left hl1, hg.left_est hl1]
          simp [absArea]; ring
        cnt := by
          refine (congrArg (fun z : List (ℝ × Nat) => _ + z.length) (pend_right _)).trans ?_
          have := U.cnt
          rw [hp, pend_left hl1, List.length_cons] at this
          show _ + _ = N
          omega
        iter := U.iter
        func := U.func }
    · rw [if_neg hl]
      have hl1 : s.lr (d + 1) = 1 := by
        cases d with
        | zero => exact hg.l1
        | succ e =>
          rcases hg.step e (by omega) with ⟨h, _⟩ | ⟨h, _⟩
          · rw [h] at hl; exact absurd (by decide) hl
          · exact h
      refine qReturn_sat d _ _ ?_
      exact {
        lmx := U.lmx, err := U.err, acc := U.acc, deep := U.deep
        le := by omega
        lr := hl1
        geo := hg
        eps := heps
        ef := hef
        chain := hch
        done := by
          show doneSum s.lr s.vl d + (ans + s.vl (d + 2)) = _
          rw [← U.done, hd]; ring
        area := by rw [← hp]; exact U.area
        cnt := by rw [← hp]; exact U.cnt
        iter := U.iter
        func := U.func }

theorem inc_add (q : Quadrature) (m n : Nat) : q.inc m + q.inc n = q.inc (m + n) := by
  unfold Quadrature.inc; split_ifs <;> rfl

theorem absArea_append (t : List (ℚ × ℚ)) (g : ℝ → ℝ) (L : ℝ) (P Q : List (ℝ × Nat)) :
    absArea t g L (P ++ Q) = absArea t g L P + absArea t g L Q := by simp [absArea]

open Classical in
theorem qStep_sat {A : Type} {q : Quadrature} {t : List (ℚ × ℚ)} (ht : gaussTable q.n_gauss = some t) {f : Callback ℝ A} {g : ℝ → ℝ}
    {a L : ℝ} (hf : CallsOn f g a (a + L)) {E : String → Prop} (hE : ∀ m, FromF f a (a + L) m → E m) {s : QState}
    {D : List (ℝ × Nat)} {d N : Nat} (I : Inv q t g a L s D d N) (args : A) :
    Sat (qStep q f s args) (fun r => ∃ D', match r.1.2 with
      | some ans => Covered q t g a L r.1.1 ans D' (N + 1)
      | none => ∃ e, Inv q t g a L r.1.1 D' e (N + 1)) E := by
  have hle := I.le
  have hl : s.l = d + 1 := I.l
  have hh : s.hh (d + 1) = L / 2 ^ (d + 2) := I.geo.hh d le_rfl
  have c1 : L / 2 ^ (d + 1) = 2 * (L / 2 ^ (d + 2)) := by rw [pow_succ _ (d + 1)]; ring
  have c0 : L / 2 ^ d = 4 * (L / 2 ^ (d + 2)) := by rw [pow_add]; ring
  have m0 := I.geo.mem (v := 0) le_rfl (by norm_num)
  have m1 := I.geo.mem (v := 1 / 2) (by norm_num) (by norm_num)
  have m2 := I.geo.mem (v := 1) (by norm_num) le_rfl
  rw [c0] at m0 m1 m2
  unfold qStep
  rw [hl, wget_lt (show d + 1 < 61 by omega), wget_lt (show d + 1 < 61 by omega)]
  simp only [ok_bind]
  rw [hh]
  refine (gauss_sat hf hE ht args (by convert m0 using 1; ring) (by convert m1 using 1; ring)).bind ?_
  rintro ⟨gl, args⟩ hgl
  refine (gauss_sat hf hE ht args (by convert m1 using 1; ring) (by convert m2 using 1; ring)).bind ?_
  rintro ⟨grl, args⟩ hgr
  rw [wset_lt _ (show d + 1 < 61 by omega)]
  simp only [ok_bind]
  have hgl : gl = Gd t g L (s.aa (d + 1), d + 1) := hgl
  have hgr : grl = Gd t g L (s.aa (d + 1) + L / 2 ^ (d + 1), d + 1) := by
    refine Eq.trans hgr ?_
    unfold Gd
    rw [c1]; congr 1; ring
  have hG : Gh t g L (s.aa (d + 1), d) = gl + grl := by simp [Gh, halves, hgl, hgr]
  have hA : absArea t g L (halves L (s.aa (d + 1), d)) = |gl| + |grl| := by simp [absArea, halves, hgl, hgr]
  have hge : Geo t g a L s.lr s.aa s.hh (Function.update s.gr (d + 1) grl) d := ⟨I.geo.hh, I.geo.a1, I.geo.l1, I.geo.step,
    fun j hj => by rw [Function.update_of_ne (by omega)]; exact I.geo.gr j hj⟩
  have hch : Chain L (D ++ [(s.aa (d + 1), d)]) a (s.aa (d + 1) + L / 2 ^ d) := I.chain.append ⟨rfl, rfl⟩
  have harea : s.area + (|gl| + |grl| - |s.est|) = absArea t g L ((D ++ [(s.aa (d + 1), d)]).flatMap (halves L)) +
      absArea t g L (pend L s.lr s.aa d) := by
    rw [List.flatMap_append, absArea_append, I.area]
    simp only [List.flatMap_cons, List.flatMap_nil, List.append_nil, hA]
    ring
  set fails : Prop := |s.est - (gl + grl)| * s.ef - max (s.eps * (s.area + (|gl| + |grl| - |s.est|))) (q.tol * |gl + grl|) > 0
    with hfails
  have hiter : s.n_iterations + q.inc 1 = q.inc (N + 1) := by rw [I.iter, inc_add]
  have hfunc : s.n_function + q.inc q.n_gauss + q.inc q.n_gauss = q.inc (q.n_gauss * (1 + 2 * (N + 1))) := by
    rw [I.func, inc_add, inc_add]; ring_nf
  have hlmx : (if fails ∧ s.k + 16 > 5000 then 6 else s.lmx) ≤ 33 := by
    split_ifs
    · omega
    · exact I.lmx
  by_cases hc : fails ∧ ¬ d + 1 ≥ (if fails ∧ s.k + 16 > 5000 then 6 else s.lmx)
  · rw [if_pos hc, wset_lt _ (show d + 1 + 1 < 61 by omega), wset_lt _ (show d + 1 + 1 < 61 by omega),
      wset_lt _ (show d + 1 + 1 < 61 by omega)]
    simp only [ok_bind]
    have hlt : d + 1 ≤ 32 := by have := hc.2; omega
    refine ⟨D, d + 1, ?_⟩
    have hpe : pend L (Function.update s.lr (d + 2) (-1)) (Function.update s.aa (d + 2) (s.aa (d + 1))) (d + 1) =
        (s.aa (d + 1) + L / 2 ^ (d + 1), d + 1) :: pend L s.lr s.aa d := by
      rw [pend_left (by simp), Function.update_self]
      congr 1
      refine pend_congr fun j hj => ?_
      rw [Function.update_of_ne (by omega), Function.update_of_ne (by omega)]
      exact ⟨rfl, rfl⟩
    exact {
      lmx := hlmx, err := I.err, acc := I.acc, deep := I.deep
      l := rfl
      le := hlt
      geo := {
        hh := fun j hj => by
          show Function.update s.hh (d + 2) _ (j + 1) = _
          by_cases h : j = d + 1
          · subst h
            rw [Function.update_self, pow_succ _ (d + 2)]; ring
          · rw [Function.update_of_ne (by omega)]; exact I.geo.hh j (by omega)
        a1 := (Function.update_of_ne (show 1 ≠ d + 2 by omega) (s.aa (d + 1)) s.aa).trans I.geo.a1
        l1 := (Function.update_of_ne (show 1 ≠ d + 2 by omega) (-1) s.lr).trans I.geo.l1
        step := fun j hj => by
          show (Function.update s.lr (d + 2) (-1) (j + 2) = -1 ∧
              Function.update s.aa (d + 2) (s.aa (d + 1)) (j + 2) = Function.update s.aa (d + 2) (s.aa (d + 1)) (j + 1)) ∨
            (Function.update s.lr (d + 2) (-1) (j + 2) = 1 ∧
              Function.update s.aa (d + 2) (s.aa (d + 1)) (j + 2) = Function.update s.aa (d + 2) (s.aa (d + 1)) (j + 1) + L / 2 ^ (j + 1))
          by_cases h : j = d
          · subst h
            left
            rw [Function.update_self, Function.update_self, Function.update_of_ne (by omega)]
            exact ⟨rfl, rfl⟩
          · rw [Function.update_of_ne (by omega), Function.update_of_ne (by omega), Function.update_of_ne (by omega)]
            exact I.geo.step j (by omega)
        gr := fun j hj => by
          show Function.update s.gr (d + 1) grl (j + 1) = Gd t g L (Function.update s.aa (d + 2) (s.aa (d + 1)) (j + 1) + _, _)
          by_cases h : j = d
          · subst h
            rw [Function.update_self, Function.update_of_ne (by omega)]; exact hgr
          · rw [Function.update_of_ne (by omega), Function.update_of_ne (by omega)]
            exact I.geo.gr j (by omega) }
      est := by
        show gl = Gd t g L (Function.update s.aa (d + 2) (s.aa (d + 1)) (d + 2), d + 1)
        rw [Function.update_self]; exact hgl
      eps := by
        show s.eps * 0.5 = _
        rw [I.eps, pow_succ]; ring
      ef := by
        show s.ef / SQRT_2 = _
        have := sqrt2_pos.ne'
        rw [I.ef, pow_succ]; field_simp
      chain := by
        show Chain L D a (Function.update s.aa (d + 2) (s.aa (d + 1)) (d + 2))
        rw [Function.update_self]; exact I.chain
      done := by
        show doneSum (Function.update s.lr (d + 2) (-1)) s.vl (d + 1) = _
        rw [doneSum_left (by simp), ← I.done]
        refine doneSum_congr fun j hj => ?_
        rw [Function.update_of_ne (by omega)]
        exact ⟨rfl, rfl⟩
      area := by
        refine Eq.trans ?_ (congrArg (fun z => _ + |gl| + absArea t g L z) hpe.symm)
        show s.area + (|gl| + |grl| - |s.est|) = _
        rw [I.area, hgr]
        simp [absArea]; ring
      cnt := by
        refine (congrArg (fun z : List (ℝ × Nat) => _ + z.length) hpe).trans ?_
        rw [List.length_cons, ← add_assoc, I.cnt]
      iter := hiter
      func := hfunc }
  · rw [if_neg hc, wget_lt (show d + 1 < 61 by omega)]
    simp only [ok_bind]
    refine Sat.mono (P := fun r => match r.1.2 with
      | some ans => Covered q t g a L r.1.1 ans (D ++ [(s.aa (d + 1), d)]) (N + 1)
      | none => ∃ e, Inv q t g a L r.1.1 (D ++ [(s.aa (d + 1), d)]) e (N + 1)) ?_ (fun r hr => ⟨_, hr⟩)
    have herr : s.error + (s.est - (gl + grl)) = ((D ++ [(s.aa (d + 1), d)]).map fun p => Gd t g L p - Gh t g L p).sum := by
      rw [List.map_append, List.sum_append, ← I.err]
      simp [hG, I.est]
    have hacc : (s.mxl || decide fails) = false → ∀ p ∈ D ++ [(s.aa (d + 1), d)], Accepted t g a L q.tol p := by
      intro h p hp
      rw [Bool.or_eq_false_iff] at h
      rcases List.mem_append.1 hp with hp | hp
      · exact I.acc h.1 p hp
      · rw [List.mem_singleton] at hp
        subst hp
        refine ⟨(D ++ [(s.aa (d + 1), d)]).flatMap (halves L) ++ pend L s.lr s.aa d, (hch.halves).append I.geo.chain, ?_⟩
        have hn : ¬ fails := by simpa using h.2
        rw [hfails, not_lt, sub_nonpos, harea] at hn
        rw [absArea_append, hG, ← I.est]
        rw [I.ef, I.eps] at hn
        exact hn
    have hdeep : ∀ p ∈ D ++ [(s.aa (d + 1), d)], p.2 ≤ 32 := by
      intro p hp
      rcases List.mem_append.1 hp with hp | hp
      · exact I.deep p hp
      · rw [List.mem_singleton] at hp; subst hp; exact hle
    have hdone : doneSum s.lr s.vl d + (gl + grl) = ((D ++ [(s.aa (d + 1), d)]).map (Gh t g L)).sum := by
      rw [List.map_append, List.sum_append, I.done]; simp [hG]
    have hlen : (D ++ [(s.aa (d + 1), d)]).length = D.length + 1 := by simp
    by_cases hlr : s.lr (d + 1) > 0
    · rw [if_pos hlr]
      refine (qReturn_sat d _ _ (D := D ++ [(s.aa (d + 1), d)]) (t := t) (g := g) (a := a) (L := L) (q := q) (N := N + 1) ?_).bind ?_
      · exact {
          lmx := hlmx, err := herr, acc := hacc, deep := hdeep
          le := hle
          lr := by
            cases d with
            | zero => exact I.geo.l1
            | succ e =>
              rcases I.geo.step e (by omega) with ⟨h, _⟩ | ⟨h, _⟩
              · rw [h] at hlr; exact absurd hlr (by decide)
              · exact h
          geo := hge
          eps := I.eps
          ef := I.ef
          chain := hch
          done := hdone
          area := harea
          cnt := by
            have := I.cnt
            show 2 * _ + (pend L s.lr s.aa d).length = _
            rw [hlen]; omega
          iter := hiter
          func := hfunc }
      · intro r hr; exact hr
    · rw [if_neg hlr]
      obtain ⟨e, rfl⟩ : ∃ e, d = e + 1 := by
        cases d with
        | zero => exact absurd I.geo.l1 (by intro h; rw [h] at hlr; exact hlr (by decide))
        | succ e => exact ⟨e, rfl⟩
      have hl1 : s.lr (e + 2) = -1 := by
        rcases I.geo.step e (by omega) with ⟨h, _⟩ | ⟨h, _⟩
        · exact h
        · rw [h] at hlr; exact absurd (by decide) hlr
      have hsub : subUsize (e + 1 + 1) 1 = ok (e + 1) := by simp [subUsize]
      rw [wset_lt _ (show e + 1 + 1 < 61 by omega), hsub]
      simp only [ok_bind]
      rw [wget_lt (show e + 1 < 61 by omega), wset_lt _ (show e + 1 + 1 < 61 by omega), wset_lt _ (show e + 1 + 1 < 61 by omega)]
      simp only [ok_bind]
      refine ⟨e + 1, ?_⟩
      have hGe := hge.right hl1
      rw [c0] at hGe hch
      exact {
        lmx := hlmx, err := herr, acc := hacc, deep := hdeep
        l := rfl
        le := hle
        geo := hGe
        est := by
          refine (hge.left_est hl1).trans ?_
          show _ = Gd t g L (Function.update s.aa (e + 2) _ (e + 2), e + 1)
          rw [Function.update_self, c0]
        eps := I.eps
        ef := I.ef
        chain := by
          show Chain L _ a (Function.update s.aa (e + 2) _ (e + 2))
          rw [Function.update_self]; exact hch
        done := by
          refine (doneSum_right _).trans ?_
          rw [← hdone, doneSum_left hl1]; ring
        area := by
          refine Eq.trans ?_ (congrArg (fun z => _ + |Function.update s.gr (e + 1 + 1) grl (e + 1)| + absArea t g L z) (pend_right _).symm)
          refine harea.trans ?_
          rw [pend_left hl1, hge.left_est hl1]
          simp [absArea]; ring
        cnt := by
          refine (congrArg (fun z : List (ℝ × Nat) => _ + z.length) (pend_right _)).trans ?_
          have := I.cnt
          rw [pend_left hl1, List.length_cons] at this
          rw [hlen]
          show _ + _ = N + 1
          omega
        iter := hiter
        func := hfunc }

theorem qLoop_sat {A : Type} {q : Quadrature} {t : List (ℚ × ℚ)} (ht : gaussTable q.n_gauss = some t) {f : Callback ℝ A} {g : ℝ → ℝ}
    {a L : ℝ} (hf : CallsOn f g a (a + L)) {E : String → Prop} (hE : ∀ m, FromF f a (a + L) m → E m)
    (hE' : E "integrate failed to converge") : ∀ (n : Nat) (s : QState) (D : List (ℝ × Nat)) (d N : Nat) (args : A),
    Inv q t g a L s D d N →
    Sat (qLoop q f n s args) (fun r => ∃ D M, M ≤ N + n ∧ Covered q t g a L r.1.1 r.1.2 D M) E
  | 0, _, _, _, _, _, _ => hE'
  | n + 1, s, D, d, N, args, I => by
    unfold qLoop
    refine (qStep_sat ht hf hE I args).bind ?_
    rintro ⟨⟨s', r⟩, args'⟩ ⟨D', h⟩
    cases r with
    | some ans => exact ⟨D', N + 1, by omega, h⟩
    | none =>
      obtain ⟨e, h⟩ := h
      refine (qLoop_sat ht hf hE hE' n s' D' e (N + 1) args' h).mono ?_
      rintro r ⟨D, M, h1, h2⟩
      exact ⟨D, M, by omega, h2⟩

theorem nBit_eq : nBit = 53 := by
  unfold nBit
  rw [Nat.floor_eq_iff (by norm_num)]
  norm_num

/-- the bounds are so close to each other that the number of levels underflows -/
def TooClose (a b : ℝ) : Prop :=
  b ≠ 0 ∧ (if b < 0 then -1 else 1) * a > 0 ∧ |1 - a / b| ≤ 1 / 10 ∧ 47 ≤ 0.5 - Real.log |1 - a / b| / LN2

theorem maxLevel_panic {a b : ℝ} (h : TooClose a b) : maxLevel a b = Res.panic := by
  obtain ⟨h1, h2, h3, h4⟩ := h
  unfold maxLevel
  simp only
  rw [if_pos ⟨h1, h2, by linarith⟩, nBit_eq]
  have : 47 ≤ ⌊0.5 - Real.log |1 - a / b| / LN2⌋₊ := Nat.le_floor (by exact_mod_cast h4)
  unfold subUsize
  by_cases h : ⌊0.5 - Real.log |1 - a / b| / LN2⌋₊ ≤ 53
  · rw [if_pos h]
    simp only [ok_bind]
    rw [if_neg (by omega)]; rfl
  · rw [if_neg h]; rfl

theorem maxLevel_sat {a b : ℝ} (h : ¬ TooClose a b) :
    Sat (maxLevel a b) (fun l => l ≤ 33) (fun m => m = "the lower and upper bounds must not be so close one from another") := by
  unfold maxLevel
  simp only
  rw [nBit_eq]
  by_cases hc : b ≠ 0 ∧ (if b < 0 then -1 else 1) * a > 0 ∧ |1 - a / b| ≤ 0.1
  · rw [if_pos hc]
    obtain ⟨h1, h2, h3⟩ := hc
    have h4 : ¬ 47 ≤ 0.5 - Real.log |1 - a / b| / LN2 := fun h4 => h ⟨h1, h2, by linarith, h4⟩
    have : ¬ 47 ≤ ⌊0.5 - Real.log |1 - a / b| / LN2⌋₊ := fun hn => h4 (by
      have := (Nat.le_floor_iff' (by norm_num)).1 hn
      exact_mod_cast this)
    unfold subUsize
    rw [if_pos (by omega)]
    simp only [ok_bind]
    rw [if_pos (by omega)]
    simp only [ok_bind]
    split_ifs with hl
    · exact rfl
    · show min (min 60 (53 * 5 / 8)) _ ≤ 33
      exact le_trans (min_le_left _ _) (by norm_num)
  · rw [if_neg hc]
    show min 60 (53 * 5 / 8) ≤ 33
    norm_num

/-- the parameters are valid -/
def Valid (q : Quadrature) : Prop := 2 ≤ q.n_iteration_max ∧ 10 / 2 ^ 52 ≤ q.tolerance ∧ q.n_gauss ∈ ({6, 8, 10, 12, 14} : Set Nat)

theorem validate_iff (q : Quadrature) : q.validate = ok () ↔ Valid q := by
  unfold Quadrature.validate Valid f64Eps
  constructor
  · intro h
    split_ifs at h with h1 h2 h3
    · exact ⟨by omega, by push Not at h2; linarith, by simpa using h3⟩
  · rintro ⟨h1, h2, h3⟩
    rw [if_neg (by omega), if_neg (by push Not; linarith), if_neg (by push Not; simpa using h3)]

theorem validate_err (q : Quadrature) (h : ¬ Valid q) : ∃ m, q.validate = err m := by
  by_contra hc
  push Not at hc
  refine h ((validate_iff q).1 ?_)
  unfold Quadrature.validate at *
  split_ifs at * <;> first | rfl | exact absurd rfl (hc _)

theorem table_of {q : Quadrature} (h : Valid q) : ∃ t, gaussTable q.n_gauss = some t := by
  obtain ⟨_, _, h⟩ := h
  unfold gaussTable
  rcases h with h | h | h | h | h <;> rw [h] <;> exact ⟨_, rfl⟩

/-- the messages of `integrate` itself, after the parameters have been validated -/
def Messages : List String := ["the lower and upper bounds must not be so close one from another", "integrate failed to converge",
  "quadrature.integrate cannot achieve the desired tolerance"]

/-- what is returned upon success, in terms of the accepted intervals `D` -/
structure Result (q : Quadrature) (t : List (ℚ × ℚ)) (g : ℝ → ℝ) (a b : ℝ) (r : QResult) (D : List (ℝ × Nat)) : Prop where
  chain : Chain (b - a) D a b
  ans : r.ans = ((D.flatMap (halves (b - a))).map (Gd t g (b - a))).sum
  deep : ∀ p ∈ D, p.2 ≤ 32
  accuracy : (∀ p ∈ D, Accepted t g a (b - a) q.tol p) ∨
    |(D.map (Gd t g (b - a))).sum - r.ans| ≤ 3 * q.tol * absArea t g (b - a) (D.flatMap (halves (b - a)))
  iter : r.n_iterations = if q.stats then 2 * D.length - 1 else 0
  func : r.n_function = if q.stats then q.n_gauss * (1 + 2 * (2 * D.length - 1)) else 0
  estimate : r.error_estimate = if q.stats then some ((D.map (Gd t g (b - a))).sum - r.ans) else none
  iter_max : 2 * D.length - 1 ≤ q.n_iteration_max

theorem sum_halves (t : List (ℚ × ℚ)) (g : ℝ → ℝ) (L : ℝ) (D : List (ℝ × Nat)) :
    (D.map (Gh t g L)).sum = ((D.flatMap (halves L)).map (Gd t g L)).sum := by
  induction D with
  | nil => rfl
  | cons p D ih => simp [Gh, ih]

theorem integrate_sat {A : Type} {q : Quadrature} (hq : Valid q) {t : List (ℚ × ℚ)} (ht : gaussTable q.n_gauss = some t)
    {f : Callback ℝ A} {g : ℝ → ℝ} {a b : ℝ} (hf : CallsOn f g a b) (hab : 10 / 2 ^ 52 ≤ |b - a|) (hc : ¬ TooClose a b) (args : A) :
    Sat (q.integrate a b args f) (fun r => ∃ D, Result q t g a b r.1 D) (fun m => m ∈ Messages ∨ FromF f a b m) := by
  obtain ⟨L, rfl⟩ : ∃ L, b = a + L := ⟨b - a, by ring⟩
  have hL : a + L - a = L := by ring
  unfold Quadrature.integrate
  rw [if_neg (by unfold f64Eps; push Not; linarith), (validate_iff q).2 hq]
  simp only [ok_bind]
  have hE : ∀ m, FromF f a (a + L) m → m ∈ Messages ∨ FromF f a (a + L) m := fun m h => Or.inr h
  have hl := maxLevel_sat hc
  cases hm : maxLevel a (a + L) with
  | panic => rw [hm] at hl; exact hl.elim
  | err m => rw [hm] at hl; left; rw [show m = _ from hl]; simp [Messages]
  | ok lmx =>
    rw [hm] at hl
    simp only [ok_bind]
    rw [hL]
    refine (gauss_sat hf hE ht args (by convert Set.left_mem_uIcc using 1; ring) (by convert Set.right_mem_uIcc using 1; ring)).bind ?_
    rintro ⟨est, args⟩ hest
    have ha1 : (qStart q a (a + L) lmx est).aa 1 = a := by simp [qStart]
    have hl1 : (qStart q a (a + L) lmx est).lr 1 = 1 := by simp [qStart]
    have hh1 : (qStart q a (a + L) lmx est).hh 1 = (a + L - a) / 4 := by simp [qStart]
    have I : Inv q t g a L (qStart q a (a + L) lmx est) [] 0 0 := {
      lmx := hl
      err := rfl
      acc := fun _ p hp => by simp at hp
      deep := fun p hp => by simp at hp
      l := rfl
      le := by omega
      geo := {
        hh := fun j hj => by
          obtain rfl : j = 0 := by omega
          refine hh1.trans ?_
          rw [hL]; norm_num
        a1 := ha1
        l1 := hl1
        step := fun j hj => by omega
        gr := fun j hj => by omega }
      est := by
        show est = Gd t g L ((qStart q a (a + L) lmx est).aa 1, 0)
        rw [ha1]
        refine Eq.trans hest ?_
        unfold Gd
        congr 1 <;> ring
      eps := by show q.tol = _; simp
      ef := by show (0.5 : ℝ) = _; norm_num
      chain := by
        exact ha1.symm
      done := rfl
      area := by show |est| = _; simp [absArea, pend, qStart]
      cnt := rfl
      iter := by show 0 = _; unfold Quadrature.inc; split_ifs <;> rfl
      func := by show q.inc _ = q.inc _; congr 1; ring }
    refine (qLoop_sat ht hf hE (by left; simp [Messages]) q.n_iteration_max _ _ _ _ args I).bind ?_
    rintro ⟨⟨s, ans⟩, args⟩ ⟨D, M, hM, C⟩
    have hs : s.error = (D.map (Gd t g L)).sum - ans := by
      have := C.err
      have hans : ans = _ := C.ans
      rw [hans]
      refine this.trans ?_
      clear this hans C
      induction D with
      | nil => simp
      | cons p D ih => simp only [List.map_cons, List.sum_cons, ih]; ring
    simp only
    by_cases hcond : s.mxl = true ∧ |s.error| > 3 * q.tol * s.area
    · rw [if_pos hcond]; left; simp [Messages]
    · rw [if_neg hcond]
      refine ⟨D, ?_⟩
      have hcnt := C.cnt
      have hM' : M = 2 * D.length - 1 := by omega
      exact {
        chain := by rw [hL]; exact C.chain
        ans := by rw [hL, ← sum_halves]; exact C.ans
        deep := C.deep
        accuracy := by
          rw [hL]
          by_cases hx : s.mxl = true
          · right
            have : ¬ |s.error| > 3 * q.tol * s.area := fun h => hcond ⟨hx, h⟩
            have ha : s.area = _ := C.area
            rw [hs, ha, gt_iff_lt, not_lt] at this
            exact this
          · left
            exact C.acc (by simpa using hx)
        iter := by rw [← hM']; exact C.iter
        func := by rw [← hM']; exact C.func
        estimate := by
          rw [hL]
          show (if q.stats = true then some s.error else none) = _
          rw [hs]
        iter_max := by omega }

end Russell.Lab.Quad
