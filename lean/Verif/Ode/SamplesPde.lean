import Verif.Ode.SamplesProps

/-!
# The Brusselator with diffusion: properties (C96)
-/

namespace Russell.Ode.Samples

open Russell Russell.Res Russell.Sparse Russell.Pde

/-! ### Loops -/

theorem bind_bind {α β γ : Type} (x : Res α) (f : α → Res β) (g : β → Res γ) : (x >>= f) >>= g = x >>= fun a => f a >>= g := by cases x <;> rfl

theorem putAll_append (c : Coo ℝ) (l l' : List (Entry ℝ)) : putAll c (l ++ l') = putAll c l >>= fun c => putAll c l' := forList_append l l' c

theorem forList_app {σ β : Type} {f : β → σ → Res σ} (l l' : List β) (s : σ) : forList (l ++ l') s f = forList l s f >>= fun s => forList l' s f :=
  forList_append l l' s

/-- a loop putting the entries `B b` and counting them -/
theorem loop_put {β : Type} {f : β → Coo ℝ × Nat → Res (Coo ℝ × Nat)} {B : β → List (Entry ℝ)} :
    ∀ {l : List β}, (∀ b ∈ l, ∀ st, f b st = putAll st.1 (B b) >>= fun c => ok (c, st.2 + (B b).length)) → ∀ st : Coo ℝ × Nat,
    forList l st f = putAll st.1 (l.flatMap B) >>= fun c => ok (c, st.2 + (l.flatMap B).length) := by
  intro l
  induction l with
  | nil => intro _ st; rfl
  | cons b l ih =>
    intro h st
    show (f b st >>= fun st => forList l st f) = _
    rw [h b (by simp), List.flatMap_cons, putAll_append, bind_bind, bind_bind]
    congr 1
    funext c
    rw [ok_bind, ih (fun b hb => h b (by simp [hb]))]
    congr 1
    funext c
    rw [List.length_append, Nat.add_assoc]

theorem addAt_vec {v : List ℝ} {N : Nat} {G : Nat → ℝ} (h : Lab.IsVec v N G) {i : Nat} (hi : i < N) (x : ℝ) :
    ∃ v', addAt v i x = ok v' ∧ Lab.IsVec v' N (fun k => if k = i then G k + x else G k) := by
  obtain ⟨v', e, h'⟩ := h.vset hi (G i + x)
  refine ⟨v', ?_, h'.congr fun k _ => ?_⟩
  · unfold addAt
    rw [h.vget hi, ok_bind]
    exact e
  · by_cases hk : k = i
    · subst hk; simp
    · simp [hk]

/-- a loop in which node `m` writes the entries `m` and `s + m` -/
theorem fill2 {s N : Nat} (hN : N = 2 * s) {body : Nat → List ℝ → Res (List ℝ)} {A B : Nat → ℝ} (hb : ∀ m < s, ∀ v G, Lab.IsVec v N G →
      ∃ v', body m v = ok v' ∧ Lab.IsVec v' N (fun k => if k = m then A m else if k = s + m then B m else G k)) {v : List ℝ} {G : Nat → ℝ} (hv : Lab.IsVec v N G) :
    ∃ v', forList (List.range s) v body = ok v' ∧ Lab.IsVec v' N (fun k => if k < s then A k else B (k - s)) := by
  have key : ∀ j, j ≤ s → ∃ v', forList (List.range j) v body = ok v' ∧
      Lab.IsVec v' N (fun k => if k < j then A k else if s ≤ k ∧ k < s + j then B (k - s) else G k) := by
    intro j
    induction j with
    | zero => intro _; exact ⟨v, rfl, hv.congr fun k _ => by rw [if_neg (by omega), if_neg (by omega)]⟩
    | succ j ih =>
      intro hj
      obtain ⟨v1, e1, h1⟩ := ih (by omega)
      obtain ⟨v2, e2, h2⟩ := hb j (by omega) v1 _ h1
      refine ⟨v2, ?_, h2.congr fun k hk => ?_⟩
      · rw [List.range_succ, forList_app, e1, ok_bind]
        show (body j v1 >>= fun s => ok s) = _
        rw [e2]; rfl
      · by_cases h1 : k = j
        · subst h1; rw [if_pos rfl, if_pos (by omega)]
        · rw [if_neg h1]
          by_cases h2 : k = s + j
          · subst h2; rw [if_pos rfl, if_neg (by omega), if_pos (by omega)]; congr 1; omega
          · rw [if_neg h2]
            by_cases h3 : k < j
            · rw [if_pos h3, if_pos (by omega)]
            · rw [if_neg h3, if_neg (show ¬ k < j + 1 by omega)]
              by_cases h4 : s ≤ k ∧ k < s + j
              · rw [if_pos h4, if_pos (show s ≤ k ∧ k < s + (j + 1) by omega)]
              · rw [if_neg h4, if_neg (show ¬ (s ≤ k ∧ k < s + (j + 1)) by omega)]
  obtain ⟨v', e, h⟩ := key s le_rfl
  refine ⟨v', e, h.congr fun k hk => ?_⟩
  by_cases h1 : k < s
  · rw [if_pos h1, if_pos h1]
  · rw [if_neg h1, if_neg h1, if_pos (by omega)]

/-! ### The molecule -/

/-- the neighbours of node `m` (itself, left, right, below, above) on an `n × n` grid and their coefficients in the discrete Laplacian times `alpha`;
`per`: the grid is periodic, otherwise it is mirrored at the boundary -/
noncomputable def star (per : Bool) (n : Nat) (alpha : ℝ) (m : Nat) : List (Nat × ℝ) :=
  let i := m % n
  let j := m / n
  [(m, -4 * (alpha * (n - 1) ^ 2)), (lef per n i + j * n, alpha * (n - 1) ^ 2), (rig per n i + j * n, alpha * (n - 1) ^ 2),
   (i + lef per n j * n, alpha * (n - 1) ^ 2), (i + rig per n j * n, alpha * (n - 1) ^ 2)]

theorem star_lt {per : Bool} {n m : Nat} {alpha : ℝ} (hn : 2 ≤ n) (hm : m < n * n) : ∀ p ∈ star per n alpha m, p.1 < n * n := by
  obtain ⟨i, j, hi, hj, rfl⟩ := ij_of hn hm
  intro p hp
  unfold star at hp
  rw [mod_ij hi, div_ij hi] at hp
  simp only [List.mem_cons, List.not_mem_nil, or_false] at hp
  rcases hp with rfl | rfl | rfl | rfl | rfl
  · exact ij_lt hi hj
  · exact ij_lt (lef_lt hn hi) hj
  · exact ij_lt (rig_lt hn hi) hj
  · exact ij_lt hi (lef_lt hn hj)
  · exact ij_lt hi (rig_lt hn hj)

/-- the grid lines -/
noncomputable def line (n : Nat) (i : Nat) : ℝ := i / (n - 1)

theorem molecule_eq {τ : Type} {F : Fdm2d ℝ} {n : Nat} {per : Bool} {T : Nat → Bool} {eF nF : Nat → ℝ → ℝ → ℝ} {alpha : ℝ} {P : List Nat}
    (H : F.Is n n (line n) (line n) per per T eF nF (-alpha) (-alpha) P) {m : Nat} (hm : m < n * n) (st : τ) (cb : Nat → ℝ → τ → Res τ) :
    loopOverMolecule F m st cb = forList (star per n alpha m) st fun p st => cb p.1 p.2 st := by
  have hn := H.grid.hx
  obtain ⟨i, j, hi, hj, rfl⟩ := ij_of hn hm
  have hp : (n : ℝ) - 1 ≠ 0 := by
    have : (2 : ℝ) ≤ n := by exact_mod_cast hn
    intro h
    linarith
  have hd : line n 1 - line n 0 = 1 / ((n : ℝ) - 1) := by unfold line; push_cast; ring
  unfold loopOverMolecule loopBand star
  rw [nn2 H hi hj, H.mol, mod_ij hi, div_ij hi, hd]
  have e1 : (2 * (-alpha / (1 / ((n : ℝ) - 1) * (1 / ((n : ℝ) - 1))) + -alpha / (1 / ((n : ℝ) - 1) * (1 / ((n : ℝ) - 1))))) = -4 * (alpha * ((n : ℝ) - 1) ^ 2) := by
    field_simp; ring
  have e2 : - -alpha / (1 / ((n : ℝ) - 1) * (1 / ((n : ℝ) - 1))) = alpha * ((n : ℝ) - 1) ^ 2 := by field_simp
  rw [e1, e2]
  rw [forRange_eq_forList]
  rfl

/-! ### The discrete equations -/

/-- a vector read at any position -/
def ext {N : Nat} (y : V N) (k : Nat) : ℝ := if h : k < N then y ⟨k, h⟩ else 0

theorem ext_vec {N : Nat} (y : V N) : Lab.IsVec (List.ofFn y) N (ext y) :=
  ⟨by simp, fun i hi => by simp [hi, ext]⟩

theorem vec_ofFn {N : Nat} {l : List ℝ} {G : Nat → ℝ} (h : Lab.IsVec l N G) {y : V N} (hy : ∀ i, y i = G i) : l = List.ofFn y :=
  h.unique ((ext_vec y).congr fun i hi => by simp [ext, hi, hy])

/-- the five-point formula (times `alpha`) of the values `w` at node `m` of the `n × n` grid on the unit square -/
noncomputable def lap (per : Bool) (n : Nat) (alpha : ℝ) (w : Nat → ℝ) (m : Nat) : ℝ :=
  let i := m % n
  let j := m / n
  alpha * (w (lef per n i + j * n) + w (rig per n i + j * n) + w (i + lef per n j * n) + w (i + rig per n j * n) - 4 * w m) * (n - 1) ^ 2

/-- the inhomogeneity -/
noncomputable def inhom (second_book : Bool) (t x y : ℝ) : ℝ :=
  if second_book = true ∧ 1.1 ≤ t ∧ (x - 0.3) ^ 2 + (y - 0.6) ^ 2 ≤ 0.1 ^ 2 then 5 else 0

/-- the right-hand sides of the discrete equations -/
noncomputable def brusU (second_book ignore : Bool) (n : Nat) (alpha t : ℝ) (u v : Nat → ℝ) (m : Nat) : ℝ :=
  1 - 4.4 * u m + u m ^ 2 * v m + (if ignore then 0 else lap second_book n alpha u m) + inhom second_book t (line n (m % n)) (line n (m / n))

/-- the right-hand sides of the discrete equations -/
noncomputable def brusV (second_book ignore : Bool) (n : Nat) (alpha : ℝ) (u v : Nat → ℝ) (m : Nat) : ℝ :=
  3.4 * u m - u m ^ 2 * v m + (if ignore then 0 else lap second_book n alpha v m)

theorem star_sum (per : Bool) (n : Nat) (alpha : ℝ) (w : Nat → ℝ) (m : Nat) : ((star per n alpha m).map fun p => p.2 * w p.1).sum = lap per n alpha w m := by
  simp [star, lap]
  ring

theorem star_loop {N s m : Nat} (hN : N = 2 * s) (hm : m < s) {yy : List ℝ} {Y : Nat → ℝ} (hy : Lab.IsVec yy N Y) :
    ∀ {l : List (Nat × ℝ)}, (∀ p ∈ l, p.1 < s) → ∀ {f : List ℝ} {G : Nat → ℝ}, Lab.IsVec f N G →
    ∃ f', (forList l f fun p f => do
      let uk ← vget yy p.1
      let vk ← vget yy (s + p.1)
      let f ← addAt f m (p.2 * uk)
      addAt f (s + m) (p.2 * vk)) = ok f' ∧
      Lab.IsVec f' N (fun k => if k = m then G k + (l.map fun p => p.2 * Y p.1).sum else if k = s + m then G k + (l.map fun p => p.2 * Y (s + p.1)).sum else G k) := by
  intro l
  induction l with
  | nil => intro _ f G hf; exact ⟨f, rfl, hf.congr fun k _ => by simp⟩
  | cons p l ih =>
    intro hp f G hf
    have h1 := hp p (by simp)
    obtain ⟨f1, e1, g1⟩ := addAt_vec hf (i := m) (by omega) (p.2 * Y p.1)
    obtain ⟨f2, e2, g2⟩ := addAt_vec g1 (i := s + m) (by omega) (p.2 * Y (s + p.1))
    obtain ⟨f3, e3, g3⟩ := ih (fun p h => hp p (by simp [h])) g2
    refine ⟨f3, ?_, g3.congr fun k _ => ?_⟩
    · simp only [forList]
      rw [hy.vget (by omega), ok_bind, hy.vget (by omega), ok_bind, e1, ok_bind, e2, ok_bind]
      exact e3
    · by_cases h1 : k = m
      · subst h1
        simp [show s ≠ 0 by omega]
        ring
      · by_cases h2 : k = s + m
        · subst h2
          simp [show s ≠ 0 by omega]
          ring
        · simp [h1, h2]

section
variable {F : Fdm2d ℝ} {n : Nat} {sb ig : Bool} {T : Nat → Bool} {eF nF : Nat → ℝ → ℝ → ℝ} {alpha : ℝ} {P : List Nat}

theorem forEach_line (H : F.Is n n (line n) (line n) sb sb T eF nF (-alpha) (-alpha) P) :
    F.grid.forEachCoord = (List.range (n * n)).map fun m => (m, line n (m % n), line n (m / n)) := forEach_eq H

theorem brusselatorF_eq (H : F.Is n n (line n) (line n) sb sb T eF nF (-alpha) (-alpha) P) {f : List ℝ} {t : ℝ} {y : V (2 * (n * n))} (hf : f.length = 2 * (n * n)) :
    ∃ f', brusselatorF (n * n) sb ig f t (List.ofFn y) F = ok (f', F) ∧ Lab.IsVec f' (2 * (n * n)) (fun k => if k < n * n then
      brusU sb ig n alpha t (ext y) (fun k => ext y (n * n + k)) k else brusV sb ig n alpha (ext y) (fun k => ext y (n * n + k)) (k - n * n)) := by
  have hy := ext_vec y
  have hn0 : n ≠ 0 := by have := H.grid.hx; omega
  have hf' : Lab.IsVec f (2 * (n * n)) (fun k => f[k]?.getD 0) := ⟨hf, fun i hi => by
    rw [List.getElem?_eq_getElem (by omega)]; rfl⟩
  unfold brusselatorF
  rw [forEach_line H, forList_map]
  have main : ∀ body : Nat → List ℝ → Res (List ℝ), (∀ m < n * n, ∀ v G, Lab.IsVec v (2 * (n * n)) G → ∃ v', body m v = ok v' ∧
      Lab.IsVec v' (2 * (n * n)) (fun k => if k = m then brusU sb ig n alpha t (ext y) (fun k => ext y (n * n + k)) m else
        if k = n * n + m then brusV sb ig n alpha (ext y) (fun k => ext y (n * n + k)) m else G k)) →
      ∃ f', (forList (List.range (n * n)) f body >>= fun f => ok (f, F)) = ok (f', F) ∧ Lab.IsVec f' (2 * (n * n)) (fun k => if k < n * n then
      brusU sb ig n alpha t (ext y) (fun k => ext y (n * n + k)) k else brusV sb ig n alpha (ext y) (fun k => ext y (n * n + k)) (k - n * n)) := by
    intro body hb
    obtain ⟨v', e, h⟩ := fill2 (s := n * n) (N := 2 * (n * n)) rfl hb hf'
    refine ⟨v', ?_, h⟩
    rw [e, ok_bind]
  refine main _ ?_
  · intro m hm v G hv
    dsimp only
    rw [hy.vget (by omega), ok_bind, hy.vget (by omega), ok_bind]
    obtain ⟨v1, e1, h1⟩ := hv.vset (i := m) (by omega) (1 - 4.4 * ext y m + ext y m * ext y m * ext y (n * n + m))
    obtain ⟨v2, e2, h2⟩ := h1.vset (i := n * n + m) (by omega) (3.4 * ext y m - ext y m * ext y m * ext y (n * n + m))
    rw [e1, ok_bind, e2, ok_bind]
    have h3 : ∃ v3, (if ig = true then ok v2 else loopOverMolecule F m v2 fun k amk f => do
        let uk ← vget (List.ofFn y) k
        let vk ← vget (List.ofFn y) (n * n + k)
        let f ← addAt f m (amk * uk)
        addAt f (n * n + m) (amk * vk)) = ok v3 ∧ Lab.IsVec v3 (2 * (n * n)) (fun k =>
          if k = m then 1 - 4.4 * ext y m + ext y m ^ 2 * ext y (n * n + m) + (if ig then 0 else lap sb n alpha (ext y) m)
          else if k = n * n + m then 3.4 * ext y m - ext y m ^ 2 * ext y (n * n + m) + (if ig then 0 else lap sb n alpha (fun k => ext y (n * n + k)) m) else G k) := by
      cases ig with
      | true =>
        refine ⟨v2, rfl, h2.congr fun k _ => ?_⟩
        by_cases h1 : k = m
        · subst h1; simp [hn0, pow_two]
        · by_cases h2 : k = n * n + m
          · subst h2; simp [hn0, pow_two]
          · simp [h1, h2]
      | false =>
        rw [if_neg (by simp), molecule_eq H hm]
        obtain ⟨v3, e3, g3⟩ := star_loop (s := n * n) rfl hm hy (star_lt H.grid.hx hm (per := sb) (alpha := alpha)) h2
        refine ⟨v3, e3, g3.congr fun k _ => ?_⟩
        rw [star_sum, star_sum sb n alpha (fun k => ext y (n * n + k))]
        by_cases h1 : k = m
        · subst h1; simp [hn0, pow_two]
        · by_cases h2 : k = n * n + m
          · subst h2; simp [hn0, pow_two]
          · simp [h1, h2]
    obtain ⟨v3, e3, h3⟩ := h3
    rw [e3, ok_bind]
    by_cases hc : sb = true ∧ (1.1 : ℝ) ≤ t
    · rw [if_pos hc]
      obtain ⟨v4, e4, h4⟩ := addAt_vec h3 (i := m) (by omega) (if (line n (m % n) - 0.3) * (line n (m % n) - 0.3) + (line n (m / n) - 0.6) * (line n (m / n) - 0.6) ≤ 0.01 then 5 else 0)
      refine ⟨v4, e4, h4.congr fun k _ => ?_⟩
      have hi : inhom sb t (line n (m % n)) (line n (m / n)) =
          if (line n (m % n) - 0.3) * (line n (m % n) - 0.3) + (line n (m / n) - 0.6) * (line n (m / n) - 0.6) ≤ 0.01 then 5 else 0 := by
        unfold inhom
        simp only [hc, true_and, ← pow_two]
        norm_num
      by_cases h1 : k = m
      · subst h1
        rw [if_pos rfl, if_pos rfl, if_pos rfl, brusU, hi]
      · by_cases h2 : k = n * n + m
        · subst h2
          rw [if_neg h1, if_neg h1, if_pos rfl, if_neg h1, if_pos rfl, brusV]
        · simp [h1, h2]
    · rw [if_neg hc]
      refine ⟨v3, rfl, h3.congr fun k _ => ?_⟩
      have hi : inhom sb t (line n (m % n)) (line n (m / n)) = 0 := by
        unfold inhom
        rw [if_neg]
        rintro ⟨h1, h2, _⟩
        exact hc ⟨h1, h2⟩
      by_cases h1 : k = m
      · subst h1
        rw [if_pos rfl, if_pos rfl, brusU, hi, add_zero]
      · by_cases h2 : k = n * n + m
        · subst h2
          rw [if_neg h1, if_pos rfl, if_neg h1, if_pos rfl, brusV]
        · simp [h1, h2]

/-- the entries of the Jacobian put for node `m` -/
noncomputable def block (sb ig : Bool) (n : Nat) (alpha : ℝ) (y : V (2 * (n * n))) (m : Nat) : List (Entry ℝ) :=
  [(m, m, -4.4 + 2 * ext y m * ext y (n * n + m)), (m, n * n + m, ext y m * ext y m), (n * n + m, m, 3.4 - 2 * ext y m * ext y (n * n + m)),
    (n * n + m, n * n + m, -(ext y m * ext y m))] ++
  if ig then [] else (star sb n alpha m).flatMap fun p => [(m, p.1, p.2), (n * n + m, n * n + p.1, p.2)]

/-- the entries of the Jacobian -/
noncomputable def entriesJ (sb ig : Bool) (n : Nat) (alpha : ℝ) (y : V (2 * (n * n))) : List (Entry ℝ) := (List.range (n * n)).flatMap (block sb ig n alpha y)

/-- entries multiplied by a number -/
noncomputable def scale (aa : ℝ) (es : List (Entry ℝ)) : List (Entry ℝ) := es.map fun e => (e.1, e.2.1, aa * e.2.2)

theorem scale_append (aa : ℝ) (l l' : List (Entry ℝ)) : scale aa (l ++ l') = scale aa l ++ scale aa l' := List.map_append

theorem scale_flatMap {β : Type} (aa : ℝ) (l : List β) (f : β → List (Entry ℝ)) : scale aa (l.flatMap f) = l.flatMap fun b => scale aa (f b) := by
  unfold scale
  rw [List.map_flatMap]

theorem block_length (sb ig : Bool) (n : Nat) (alpha : ℝ) (y : V (2 * (n * n))) (m : Nat) : (block sb ig n alpha y m).length = if ig then 4 else 14 := by
  cases ig <;> simp [block, star]

theorem entriesJ_length (sb ig : Bool) (n : Nat) (alpha : ℝ) (y : V (2 * (n * n))) :
    (entriesJ sb ig n alpha y).length = if ig then 4 * (n * n) else 4 * (n * n) + 2 * (n * n) * 5 := by
  unfold entriesJ
  rw [List.length_flatMap]
  simp only [block_length]
  cases ig <;> simp <;> ring

theorem brusselatorJ_eq (H : F.Is n n (line n) (line n) sb sb T eF nF (-alpha) (-alpha) P) (c : Coo ℝ) (aa x : ℝ) (y : V (2 * (n * n))) :
    brusselatorJ (n * n) (if ig then 4 * (n * n) else 4 * (n * n) + 2 * (n * n) * 5) ig c aa x (List.ofFn y) F =
      putAll c.reset (scale aa (entriesJ sb ig n alpha y)) >>= fun c => ok (c, F) := by
  have hy := ext_vec y
  unfold brusselatorJ
  rw [forRange_eq_forList, loop_put (B := fun m => scale aa (block sb ig n alpha y m)), ← scale_flatMap]
  · rw [bind_bind]
    congr 1
    funext c
    rw [ok_bind]
    dsimp only
    rw [if_pos]
    rw [scale, List.length_map, Nat.zero_add]
    exact entriesJ_length sb ig n alpha y
  · intro m hm st
    have hm := List.mem_range.1 hm
    rw [hy.vget (by omega), ok_bind, hy.vget (by omega), ok_bind]
    dsimp only
    rw [block, scale_append, putAll_append, bind_bind]
    congr 1
    funext c
    cases ig with
    | true => rfl
    | false =>
      rw [if_neg (by simp), if_neg (by simp), molecule_eq H hm]
      refine (loop_put (B := fun p : Nat × ℝ => scale aa [(m, p.1, p.2), (n * n + m, n * n + p.1, p.2)]) (fun b _ st => rfl) _).trans ?_
      rw [← scale_flatMap]
      congr 1

end

/-- what the entries `es` do to a vector -/
noncomputable def act (es : List (Entry ℝ)) (w : Nat → ℝ) (i : Nat) : ℝ := (es.map fun e => if e.1 = i then e.2.2 * w e.2.1 else 0).sum

theorem act_dense {N : Nat} {es : List (Entry ℝ)} (hes : ∀ e ∈ es, e.2.1 < N) (v : V N) (i : Fin N) :
    ∑ j : Fin N, denseOf Sym.no es i j * v j = act es (ext v) i := by
  unfold act
  simp only [denseOf_eq_sum]
  induction es with
  | nil => simp
  | cons e es ih =>
    simp only [List.map_cons, List.sum_cons, add_mul, Finset.sum_add_distrib]
    rw [ih fun e h => hes e (by simp [h])]
    congr 1
    have he := hes e (by simp)
    rw [Finset.sum_eq_single (⟨e.2.1, he⟩ : Fin N)]
    · by_cases h : e.1 = i
      · simp [Hits, h, ext, he]
      · simp [Hits, h]
    · intro j _ hj
      have : e.2.1 ≠ j := fun h => hj (Fin.ext h.symm)
      simp [Hits, this]
    · intro h; exact absurd (Finset.mem_univ _) h

theorem dense_scale (aa : ℝ) (es : List (Entry ℝ)) (i j : Nat) : denseOf Sym.no (scale aa es) i j = aa * denseOf Sym.no es i j := by
  rw [denseOf_eq_sum, denseOf_eq_sum, scale, List.map_map]
  induction es with
  | nil => simp
  | cons e es ih =>
    simp only [List.map_cons, List.sum_cons, mul_add, ← ih]
    congr 1
    simp [Hits]

theorem act_append (l l' : List (Entry ℝ)) (w : Nat → ℝ) (i : Nat) : act (l ++ l') w i = act l w i + act l' w i := by simp [act]

theorem act_none {l : List (Entry ℝ)} {i : Nat} (h : ∀ e ∈ l, e.1 ≠ i) (w : Nat → ℝ) : act l w i = 0 := by
  unfold act
  apply List.sum_eq_zero
  intro x hx
  obtain ⟨e, he, rfl⟩ := List.mem_map.1 hx
  rw [if_neg (h e he)]

/-- only the block of the node counts -/
theorem act_flatMap {s : Nat} {B : Nat → List (Entry ℝ)} {m i : Nat} (hm : m < s) (h : ∀ k < s, k ≠ m → ∀ e ∈ B k, e.1 ≠ i) (w : Nat → ℝ) :
    act ((List.range s).flatMap B) w i = act (B m) w i := by
  have key : ∀ j ≤ s, act ((List.range j).flatMap B) w i = if m < j then act (B m) w i else 0 := by
    intro j
    induction j with
    | zero => intro _; simp [act]
    | succ j ih =>
      intro hj
      rw [List.range_succ, List.flatMap_append, act_append, ih (by omega)]
      simp only [List.flatMap_cons, List.flatMap_nil, List.append_nil]
      by_cases hjm : j = m
      · subst hjm; simp
      · rw [act_none (h j (by omega) hjm)]
        by_cases h1 : m < j
        · rw [if_pos h1, if_pos (by omega), add_zero]
        · rw [if_neg h1, if_neg (by omega), add_zero]
  rw [key s le_rfl, if_pos hm]

theorem star_act (l : List (Nat × ℝ)) (s m : Nat) (hs : s ≠ 0) (w : Nat → ℝ) :
    act (l.flatMap fun p => [(m, p.1, p.2), (s + m, s + p.1, p.2)]) w m = (l.map fun p => p.2 * w p.1).sum ∧
    act (l.flatMap fun p => [(m, p.1, p.2), (s + m, s + p.1, p.2)]) w (s + m) = (l.map fun p => p.2 * w (s + p.1)).sum := by
  induction l with
  | nil => simp [act]
  | cons p l ih =>
    rw [List.flatMap_cons, act_append, act_append, ih.1, ih.2]
    simp [act, hs]

theorem act_entriesJ {sb ig : Bool} {n : Nat} {alpha : ℝ} {y : V (2 * (n * n))} (hn : 2 ≤ n) {m : Nat} (hm : m < n * n) (w : Nat → ℝ) :
    act (entriesJ sb ig n alpha y) w m = (-4.4 + 2 * ext y m * ext y (n * n + m)) * w m + ext y m * ext y m * w (n * n + m) + (if ig then 0 else lap sb n alpha w m) ∧
    act (entriesJ sb ig n alpha y) w (n * n + m) = (3.4 - 2 * ext y m * ext y (n * n + m)) * w m + -(ext y m * ext y m) * w (n * n + m) +
      (if ig then 0 else lap sb n alpha (fun k => w (n * n + k)) m) := by
  have hs : n * n ≠ 0 := by positivity
  have rows : ∀ k, ∀ e ∈ block sb ig n alpha y k, e.1 = k ∨ e.1 = n * n + k := by
    intro k e he
    unfold block at he
    rw [List.mem_append] at he
    rcases he with he | he
    · simp only [List.mem_cons, List.not_mem_nil, or_false] at he
      rcases he with rfl | rfl | rfl | rfl <;> simp
    · cases ig with
      | true => simp at he
      | false =>
        rw [if_neg (by simp), List.mem_flatMap] at he
        obtain ⟨p, _, he⟩ := he
        simp only [List.mem_cons, List.not_mem_nil, or_false] at he
        rcases he with rfl | rfl <;> simp
  unfold entriesJ
  rw [act_flatMap hm (fun k hk hkm e he => by rcases rows k e he with h | h <;> omega),
    act_flatMap (m := m) hm (fun k hk hkm e he => by rcases rows k e he with h | h <;> omega)]
  obtain ⟨h1, h2⟩ := star_act (star sb n alpha m) (n * n) m hs w
  have h0 : n ≠ 0 := by omega
  unfold block
  rw [act_append, act_append]
  constructor
  · congr 1
    · simp [act, h0]
    · cases ig with
      | true => simp [act]
      | false => rw [if_neg (by simp), if_neg (by simp), h1, star_sum]
  · congr 1
    · simp [act, h0]
    · cases ig with
      | true => simp [act]
      | false => rw [if_neg (by simp), if_neg (by simp), h2, ← star_sum]

/-! ### The sample -/

/-- the discrete equations -/
noncomputable def brusRhs (sb ig : Bool) (n : Nat) (alpha t : ℝ) (y : V (2 * (n * n))) : V (2 * (n * n)) := fun i =>
  if (i : Nat) < n * n then brusU sb ig n alpha t (ext y) (fun k => ext y (n * n + k)) i else brusV sb ig n alpha (ext y) (fun k => ext y (n * n + k)) (i - n * n)

/-- the initial values: `u` and `v` at the nodes -/
noncomputable def brusInit (sb : Bool) (n : Nat) : V (2 * (n * n)) := fun i =>
  if (i : Nat) < n * n then (if sb then 22 * line n (i / n) * (1 - line n (i / n)) ^ (1.5 : ℝ) else 0.5 + line n (i / n))
  else if sb then 27 * line n ((i - n * n) % n) * (1 - line n ((i - n * n) % n)) ^ (1.5 : ℝ) else 1 + 5 * line n ((i - n * n) % n)

theorem lap_deriv {N : Nat} (per : Bool) (n : Nat) (alpha : ℝ) (m : Nat) (g : Nat → Nat) (y : V N) :
    ∃ L : V N →L[ℝ] ℝ, HasFDerivAt (fun y : V N => lap per n alpha (fun k => ext y (g k)) m) L y ∧ ∀ v, L v = lap per n alpha (fun k => ext v (g k)) m := by
  have he : ∀ k, ∃ L : V N →L[ℝ] ℝ, HasFDerivAt (fun y : V N => ext y k) L y ∧ ∀ v, L v = ext v k := by
    intro k
    by_cases h : k < N
    · refine ⟨_, (hasFDerivAt_apply (𝕜 := ℝ) (⟨k, h⟩ : Fin N) y).congr_of_eventuallyEq (Filter.Eventually.of_forall fun y => by simp [ext, h]), fun v => ?_⟩
      simp [ext, h]
    · refine ⟨0, (hasFDerivAt_const (0 : ℝ) y).congr_of_eventuallyEq (Filter.Eventually.of_forall fun y => by simp [ext, h]), fun v => ?_⟩
      simp [ext, h]
  choose L hL hv using fun k => he (g k)
  refine ⟨_, ((((((hL _).add (hL _)).add (hL _)).add (hL _)).sub ((hL m).const_mul 4)).const_mul alpha).mul_const (((n : ℝ) - 1) ^ 2), fun v => ?_⟩
  simp [lap, hv]
  ring

theorem brus_deriv {sb ig : Bool} {n : Nat} (hn : 2 ≤ n) {alpha : ℝ} (t : ℝ) (y : V (2 * (n * n))) :
    HasFDerivAt (brusRhs sb ig n alpha t) (lin fun i j : Fin (2 * (n * n)) => denseOf Sym.no (entriesJ sb ig n alpha y) i j) y := by
  refine hasFDeriv_of fun i => ?_
  have hes : ∀ e ∈ entriesJ sb ig n alpha y, e.2.1 < 2 * (n * n) := by
    intro e he
    unfold entriesJ at he
    rw [List.mem_flatMap] at he
    obtain ⟨m, hm, he⟩ := he
    have hm := List.mem_range.1 hm
    unfold block at he
    rw [List.mem_append] at he
    rcases he with he | he
    · simp only [List.mem_cons, List.not_mem_nil, or_false] at he
      rcases he with rfl | rfl | rfl | rfl <;> dsimp only <;> omega
    · cases ig with
      | true => simp at he
      | false =>
        rw [if_neg (by simp), List.mem_flatMap] at he
        obtain ⟨p, hp, he⟩ := he
        have := star_lt hn hm p hp
        simp only [List.mem_cons, List.not_mem_nil, or_false] at he
        rcases he with rfl | rfl <;> dsimp only <;> omega
  obtain ⟨i, hi⟩ := i
  have pe : ∀ {k : Nat} (h : k < 2 * (n * n)), HasFDerivAt (fun y : V (2 * (n * n)) => ext y k) (ContinuousLinearMap.proj (R := ℝ) ⟨k, h⟩) y := by
    intro k h
    exact (hasFDerivAt_apply (𝕜 := ℝ) (⟨k, h⟩ : Fin (2 * (n * n))) y).congr_of_eventuallyEq (Filter.Eventually.of_forall fun y => by simp [ext, h])
  by_cases h : i < n * n
  · have h' : n * n + i < 2 * (n * n) := by omega
    have pu := pe hi
    have pv := pe h'
    obtain ⟨L, hL, hv⟩ := lap_deriv sb n alpha i (fun k => k) y
    have hD : ∃ D : V (2 * (n * n)) →L[ℝ] ℝ, HasFDerivAt (fun y : V (2 * (n * n)) => if ig = true then (0 : ℝ) else lap sb n alpha (ext y) i) D y ∧
        ∀ v, D v = if ig = true then (0 : ℝ) else lap sb n alpha (ext v) i := by
      cases ig with
      | true => exact ⟨0, by simpa using hasFDerivAt_const (0 : ℝ) y, by simp⟩
      | false => exact ⟨L, by simpa using hL, by simpa using hv⟩
    obtain ⟨D, hD, hDv⟩ := hD
    refine ⟨_, ((((((pu.const_mul (4.4 : ℝ)).const_sub 1).add ((pu.pow 2).mul pv)).add hD).add_const
      (inhom sb t (line n (i % n)) (line n (i / n)))).congr_of_eventuallyEq (Filter.Eventually.of_forall fun y => ?_)), fun v => ?_⟩
    · simp only [brusRhs, if_pos h, brusU]
      simp
    · rw [act_dense hes]
      rw [(act_entriesJ hn h (ext v)).1]
      simp [hDv, ext, hi, h']
      ring
  · have h1 : i - n * n < n * n := by omega
    have h2 : n * n + (i - n * n) = i := by omega
    have h' : i - n * n < 2 * (n * n) := by omega
    have pv := pe hi
    have pu := pe h'
    obtain ⟨L, hL, hv⟩ := lap_deriv sb n alpha (i - n * n) (fun k => n * n + k) y
    have hD : ∃ D : V (2 * (n * n)) →L[ℝ] ℝ, HasFDerivAt (fun y : V (2 * (n * n)) => if ig = true then (0 : ℝ) else lap sb n alpha (fun k => ext y (n * n + k)) (i - n * n)) D y ∧
        ∀ v, D v = if ig = true then (0 : ℝ) else lap sb n alpha (fun k => ext v (n * n + k)) (i - n * n) := by
      cases ig with
      | true => exact ⟨0, by simpa using hasFDerivAt_const (0 : ℝ) y, by simp⟩
      | false => exact ⟨L, by simpa using hL, by simpa using hv⟩
    obtain ⟨D, hD, hDv⟩ := hD
    refine ⟨_, ((((pu.const_mul (3.4 : ℝ)).sub ((pu.pow 2).mul pv)).add hD).congr_of_eventuallyEq (Filter.Eventually.of_forall fun y => ?_)), fun v => ?_⟩
    · simp only [brusRhs, if_neg h, brusV, h2]
      simp
    · rw [act_dense hes]
      have := (act_entriesJ (sb := sb) (ig := ig) (alpha := alpha) (y := y) hn h1 (ext v)).2
      rw [h2] at this
      rw [show ((⟨i, hi⟩ : Fin (2 * (n * n))) : Nat) = i from rfl, this]
      simp [hDv, ext, hi, h']
      ring

/-- **C96** `brusselator_pde`: for two points or more the sample is made of the discrete equations (reaction, five-point Laplacian with mirrored or
periodic boundary, inhomogeneity), with the derivative as Jacobian, and the initial values at the nodes. -/
theorem C96_brusselator_pde {eps : ℝ} (heps : 0 ≤ eps) (alpha : ℝ) {n : Nat} (hn : 2 ≤ n) (sb ig : Bool) :
    ∃ S, brusselatorPde eps alpha n sb ig = ok S ∧ S.system.Computes S.args (brusRhs sb ig n alpha) ∧ S.system.Consistent S.args (2 * (n * n)) (fun _ _ => True) ∧
      S.system.MassIs (1 : Matrix (Fin (2 * (n * n))) (Fin (2 * (n * n))) ℝ) ∧ S.x0 = 0 ∧ S.y0 = List.ofFn (brusInit sb n) := by
  obtain ⟨g, eg, hg, _⟩ := C46_uniform_2d (α := ℝ) (xmin := 0) (xmax := 1) (ymin := 0) (ymax := 1) hn hn one_pos one_pos
  have hX : (fun i : Nat => (0 : ℝ) + i * ((1 - 0) / ((n : ℝ) - 1))) = line n := by
    funext i
    unfold line
    ring
  rw [hX] at hg
  have hp : 0 < (n : ℝ) - 1 := by
    have : (2 : ℝ) ≤ n := by exact_mod_cast hn
    linarith
  have h01 : line n 0 < line n 1 := by
    unfold line
    push_cast
    rw [zero_div]
    positivity
  have hstep : ∀ i, 1 ≤ i → line n i - line n (i - 1) - (line n 1 - line n 0) = 0 := by
    intro i hi
    unfold line
    rw [Nat.cast_sub hi]
    push_cast
    ring
  set eops : List (EOp ℝ) := if sb then [.setPeriodic true true] else [] with heops
  set nops : List (Side × (ℝ → ℝ → ℝ)) := if sb then [] else [(.Xmin, fun _ _ => 0), (.Xmax, fun _ _ => 0), (.Ymin, fun _ _ => 0), (.Ymax, fun _ _ => 0)] with hnops
  obtain ⟨e, nb, ee, en, hF⟩ := C48_new_2d (eps := eps) eops nops (-alpha) (-alpha) hg h01 h01 heps
  obtain ⟨F, eF⟩ : ∃ F, Fdm2d.new eps g e nb (-alpha) (-alpha) = ok F := by
    rcases hF with ⟨_, _, h⟩ | ⟨h, _⟩
    · exact h
    · exfalso
      rcases h with ⟨i, h1, _, h3⟩ | ⟨i, h1, _, h3⟩ <;>
      · rw [hstep i h1, abs_zero] at h3
        linarith
  obtain ⟨px, py, T, fE, fN, P, H, _, hpx, hpy, _⟩ := setup2_is (S := (⟨hg, h01, h01, heps, e, nb, ee, en, eF⟩ : Setup2 eps g n n (line n) (line n) eops nops (-alpha) (-alpha) F))
  have hper : ∀ s, Per eops s ↔ sb = true := by
    intro s
    cases sb with
    | true =>
      refine iff_of_true ⟨[], .setPeriodic true true, [], by simp [heops], ?_, by simp⟩ rfl
      show (if s.isX then true else true) = true
      simp
    | false => simp [heops, Per, Since]
  have epx : px = sb := Bool.eq_iff_iff.2 (hpx.trans (hper _))
  have epy : py = sb := Bool.eq_iff_iff.2 (hpy.trans (hper _))
  subst epx
  subst epy
  have hinit : ∃ y0, (forList F.grid.forEachCoord (List.replicate (2 * (n * n)) (0 : ℝ)) fun mxy yy0 => do
      let m := mxy.1
      let x := mxy.2.1
      let y := mxy.2.2
      if py then
        let yy0 ← vset yy0 m (22 * y * (1 - y) ^ (1.5 : ℝ))
        vset yy0 (n * n + m) (27 * x * (1 - x) ^ (1.5 : ℝ))
      else
        let yy0 ← vset yy0 m (0.5 + y)
        vset yy0 (n * n + m) (1 + 5 * x)) = ok y0 ∧ y0 = List.ofFn (brusInit py n) := by
    rw [forEach_line H, forList_map]
    have main : ∀ body : Nat → List ℝ → Res (List ℝ), (∀ m < n * n, ∀ v G, Lab.IsVec v (2 * (n * n)) G → ∃ v', body m v = ok v' ∧
        Lab.IsVec v' (2 * (n * n)) (fun k => if k = m then (fun m => if py then 22 * line n (m / n) * (1 - line n (m / n)) ^ (1.5 : ℝ) else 0.5 + line n (m / n)) m else
          if k = n * n + m then (fun m => if py then 27 * line n (m % n) * (1 - line n (m % n)) ^ (1.5 : ℝ) else 1 + 5 * line n (m % n)) m else G k)) → ∃ y0, forList (List.range (n * n)) (List.replicate (2 * (n * n)) (0 : ℝ)) body = ok y0 ∧ y0 = List.ofFn (brusInit py n) := by
      intro body hb
      obtain ⟨v', e, h⟩ := fill2 (s := n * n) (N := 2 * (n * n)) rfl
        (A := fun m => if py then 22 * line n (m / n) * (1 - line n (m / n)) ^ (1.5 : ℝ) else 0.5 + line n (m / n))
        (B := fun m => if py then 27 * line n (m % n) * (1 - line n (m % n)) ^ (1.5 : ℝ) else 1 + 5 * line n (m % n)) hb (Lab.isVec_replicate _ 0)
      exact ⟨v', e, vec_ofFn h fun i => rfl⟩
    refine main _ ?_
    intro m hm v G hv
    have two : ∀ a b : ℝ, ∃ v', (vset v m a >>= fun v => vset v (n * n + m) b) = ok v' ∧
        Lab.IsVec v' (2 * (n * n)) (fun k => if k = m then a else if k = n * n + m then b else G k) := by
      intro a b
      obtain ⟨v1, e1, h1⟩ := hv.vset (i := m) (by omega) a
      obtain ⟨v2, e2, h2⟩ := h1.vset (i := n * n + m) (by omega) b
      refine ⟨v2, by rw [e1, ok_bind, e2], h2.congr fun k _ => ?_⟩
      by_cases h1 : k = m
      · subst h1; rw [if_neg (by omega), if_pos rfl, if_pos rfl]
      · simp [h1]
    cases py with
    | true => exact two _ _
    | false => exact two _ _
  obtain ⟨y0, ey, hy0⟩ := hinit
  set S : Sample (Fdm2d ℝ) := { system := { Sys.new (2 * (n * n)) (brusselatorF (n * n) py ig) with
      jac_nnz := if ig then 4 * (n * n) else 4 * (n * n) + 2 * (n * n) * 5, symmetric := Sym.no, sym_jac := some Sym.no,
      jacobian := some (brusselatorJ (n * n) (if ig then 4 * (n * n) else 4 * (n * n) + 2 * (n * n) * 5) ig) }, x0 := 0, y0, args := F } with hS
  have hC : S.system.Computes S.args (brusRhs py ig n alpha) := by
    refine ⟨rfl, fun f x y hf => ?_⟩
    obtain ⟨f', e1, h1⟩ := brusselatorF_eq (ig := ig) (t := x) (y := y) H hf
    rw [show S.system.function f x (List.ofFn y) S.args = brusselatorF (n * n) py ig f x (List.ofFn y) F from rfl, e1, vec_ofFn h1 (y := brusRhs py ig n alpha x y) fun i => rfl]
  refine ⟨S, ?_, hC, ⟨_, fun _ y => fun i j => denseOf Sym.no (entriesJ py ig n alpha y) i j, hC, ?_, fun x y _ => brus_deriv hn x y⟩, Or.inl ⟨rfl, rfl⟩, rfl, hy0⟩
  · unfold brusselatorPde
    dsimp only
    have e1 : unwrapM (Sys.setJacobian (Sys.new (2 * (n * n)) (brusselatorF (n * n) py ig)) (some (if ig then 4 * (n * n) else 4 * (n * n) + 2 * (n * n) * 5)) Sym.no
      (brusselatorJ (n * n) (if ig then 4 * (n * n) else 4 * (n * n) + 2 * (n * n) * 5) ig)) = ok S.system := rfl
    rw [e1, ok_bind, eg]
    dsimp only
    rw [ok_bind, ← heops, ee, ok_bind, ← hnops, en, ok_bind, eF]
    dsimp only
    rw [ok_bind, ey, ok_bind]
  · refine jac_of rfl (fun aa _ y => scale aa (entriesJ py ig n alpha y)) (fun c aa x y => brusselatorJ_eq H c aa x y) ?_ ?_ (fun aa x y i j => dense_scale aa _ i j)
    · intro aa x y e he
      obtain ⟨e', he', rfl⟩ := List.mem_map.1 he
      dsimp only
      unfold entriesJ at he'
      rw [List.mem_flatMap] at he'
      obtain ⟨m, hm, he'⟩ := he'
      have hm := List.mem_range.1 hm
      unfold block at he'
      rw [List.mem_append] at he'
      refine ⟨?_, ?_, by simp [hS, InTriangle]⟩
      all_goals
        rcases he' with he' | he'
        · simp only [List.mem_cons, List.not_mem_nil, or_false] at he'
          rcases he' with rfl | rfl | rfl | rfl <;> dsimp only <;> omega
        · cases ig with
          | true => simp at he'
          | false =>
            rw [if_neg (by simp), List.mem_flatMap] at he'
            obtain ⟨p, hp, he'⟩ := he'
            have := star_lt hn hm p hp
            simp only [List.mem_cons, List.not_mem_nil, or_false] at he'
            rcases he' with rfl | rfl <;> dsimp only <;> omega
    · intro aa x y
      rw [scale, List.length_map, entriesJ_length]

/-- **C96** `brusselator_pde` panics with less than two points. -/
theorem C96_brusselator_pde_panic (eps alpha : ℝ) {n : Nat} (hn : n < 2) (sb ig : Bool) : brusselatorPde eps alpha n sb ig = Res.panic := by
  unfold brusselatorPde Grid2d.newUniform
  rw [if_pos hn]
  rfl

theorem ext_init {n i j : Nat} (hi : i < n) (hj : j < n) :
    ext (brusInit true n) (i + j * n) = 22 * line n j * (1 - line n j) ^ (1.5 : ℝ) ∧ ext (brusInit true n) (n * n + (i + j * n)) = 27 * line n i * (1 - line n i) ^ (1.5 : ℝ) := by
  have h := ij_lt hi hj
  constructor
  · rw [ext, dif_pos (by omega)]
    simp [brusInit, h, div_ij hi]
  · rw [ext, dif_pos (by omega)]
    simp [brusInit, mod_ij hi]

/-- **C96** Deviation: `brusselator_pde` with `second_book` documents `v(t, 0, y) = v(t, 1, y)`, but the values at the two sides are separate unknowns with
different equations; they are equal initially and no solution keeps them equal (four points or more, with diffusion). -/
theorem C96_periodic_counterexample {eps : ℝ} (heps : 0 ≤ eps) {alpha : ℝ} (ha : alpha ≠ 0) {n : Nat} (hn : 4 ≤ n) :
    ∃ S F, brusselatorPde eps alpha n true false = ok S ∧ S.system.Computes S.args F ∧
      (∀ j < n, S.y0[n * n + (0 + j * n)]? = S.y0[n * n + (n - 1 + j * n)]? ∧ S.y0[0 + j * n]? = S.y0[n - 1 + j * n]?) ∧
      ∀ (I : Set ℝ) (Y : ℝ → V (2 * (n * n))), IsOpen I → S.x0 ∈ I → IsSolution 1 F I Y → S.y0 = List.ofFn (Y S.x0) →
        ¬ ∀ t ∈ I, ext (Y t) (n * n + (0 + 0 * n)) = ext (Y t) (n * n + (n - 1 + 0 * n)) := by
  obtain ⟨S, eS, hC, _, _, hx0, hy0⟩ := C96_brusselator_pde heps alpha (n := n) (by omega) true false
  have hp : 0 < (n : ℝ) - 1 := by
    have : (4 : ℝ) ≤ n := by exact_mod_cast hn
    linarith
  have l0 : line n 0 = 0 := by simp [line]
  have l1 : line n (n - 1) = 1 := by
    unfold line
    rw [Nat.cast_sub (by omega)]
    push_cast
    exact div_self hp.ne'
  have v0 : ∀ j < n, ext (brusInit true n) (n * n + (0 + j * n)) = 0 := fun j hj => by
    rw [(ext_init (by omega) hj).2, l0]; ring
  have v1 : ∀ j < n, ext (brusInit true n) (n * n + (n - 1 + j * n)) = 0 := fun j hj => by
    rw [(ext_init (by omega) hj).2, l1, sub_self, Real.zero_rpow (by norm_num)]; ring
  refine ⟨S, _, eS, hC, fun j hj => ?_, ?_⟩
  · have hq := ext_vec (brusInit true n)
    have h1 := ij_lt (show 0 < n by omega) hj
    have h2 := ij_lt (show n - 1 < n by omega) hj
    rw [hy0, hq.get _ (by omega), hq.get _ (by omega), hq.get _ (by omega), hq.get _ (by omega), v0 j hj, v1 j hj,
      (ext_init (show 0 < n by omega) hj).1, (ext_init (show n - 1 < n by omega) hj).1]
    exact ⟨rfl, rfl⟩
  · intro I Y hI h0 hY hy h
    rw [hx0] at h0 hy
    have hY0 : Y 0 = brusInit true n := by
      apply List.ofFn_injective
      rw [← hy, hy0]
    obtain ⟨d, hd, he⟩ := hY 0 h0
    rw [Matrix.one_mulVec, hY0] at he
    rw [hasDerivAt_pi] at hd
    have ha1 : n * n + (0 + 0 * n) < 2 * (n * n) := by nlinarith
    have hb1 : n * n + (n - 1 + 0 * n) < 2 * (n * n) := by
      have : n ≤ n * n := by nlinarith
      omega
    have da := hd ⟨_, ha1⟩
    have db := hd ⟨_, hb1⟩
    have hev : (fun t => Y t ⟨_, ha1⟩) =ᶠ[nhds 0] fun t => Y t ⟨_, hb1⟩ := by
      filter_upwards [hI.mem_nhds h0] with t ht
      have := h t ht
      rw [ext, ext, dif_pos ha1, dif_pos hb1] at this
      exact this
    have key := da.unique (db.congr_of_eventuallyEq hev)
    rw [he] at key
    simp only [brusRhs] at key
    rw [if_neg (by omega), if_neg (by omega)] at key
    rw [show n * n + (0 + 0 * n) - n * n = 0 + 0 * n by omega, show n * n + (n - 1 + 0 * n) - n * n = n - 1 + 0 * n by omega] at key
    have u0 : ∀ i < n, ext (brusInit true n) (i + 0 * n) = 0 := fun i hi => by
      rw [(ext_init hi (by omega)).1, l0]; ring
    simp only [brusV, lap] at key
    rw [mod_ij (show 0 < n by omega), div_ij (show 0 < n by omega), mod_ij (show n - 1 < n by omega), div_ij (show n - 1 < n by omega), u0 0 (by omega), u0 (n - 1) (by omega)] at key
    have e1 : lef true n 0 = n - 1 := by simp [lef]
    have e2 : rig true n 0 = 1 := by unfold rig; rw [if_pos (by omega)]
    have e3 : lef true n (n - 1) = n - 2 := by unfold lef; rw [if_pos (by omega)]; omega
    have e4 : rig true n (n - 1) = 0 := by simp [rig]
    rw [e1, e2, e3, e4, v0 0 (by omega), v1 0 (by omega), v0 1 (by omega), v1 1 (by omega), v0 (n - 1) (by omega), v1 (n - 1) (by omega),
      (ext_init (show 1 < n by omega) (show 0 < n by omega)).2, (ext_init (show n - 2 < n by omega) (show 0 < n by omega)).2] at key
    have e5 : line n (n - 2) = 1 - line n 1 := by
      unfold line
      rw [Nat.cast_sub (by omega)]
      field_simp
      push_cast
      ring
    have hh : 0 < line n 1 ∧ line n 1 < 1 / 2 := by
      have : (4 : ℝ) ≤ n := by exact_mod_cast hn
      unfold line
      push_cast
      refine ⟨by positivity, ?_⟩
      rw [div_lt_div_iff₀ hp (by norm_num)]
      linarith
    rw [e5, sub_sub_cancel] at key
    obtain ⟨p1, p2⟩ := hh
    generalize line n 1 = x at key p1 p2
    have q1 : x ^ (1.5 : ℝ) = x * Real.sqrt x := by
      rw [show (1.5 : ℝ) = 1 + 1 / 2 by norm_num, Real.rpow_add p1, Real.rpow_one, Real.sqrt_eq_rpow]
    have q2 : (1 - x) ^ (1.5 : ℝ) = (1 - x) * Real.sqrt (1 - x) := by
      rw [show (1.5 : ℝ) = 1 + 1 / 2 by norm_num, Real.rpow_add (by linarith), Real.rpow_one, Real.sqrt_eq_rpow]
    rw [q1, q2] at key
    have hs : Real.sqrt x < Real.sqrt (1 - x) := Real.sqrt_lt_sqrt p1.le (by linarith)
    have : 27 * x * (1 - x) * (Real.sqrt (1 - x) - Real.sqrt x) = 0 := by
      simp [ha, hp.ne'] at key
      linarith
    have hx1 : 1 - x ≠ 0 := by linarith
    have hs' : Real.sqrt (1 - x) - Real.sqrt x ≠ 0 := by linarith
    simp [p1.ne', hx1, hs'] at this

/-- four points per side -/
example := C96_periodic_counterexample (eps := 0) le_rfl (alpha := 1 / 500) (by norm_num) (le_refl 4)

/-- two points per side -/
example := C96_brusselator_pde (eps := 0) le_rfl (1 / 500) (le_refl 2) false false

end Russell.Ode.Samples
