import Verif.Lab.Dense

/-!
# Statements about computations: no panic, and a property of the result

`Post r Q` says that `r` is not a panic, and that `Q` holds for the value when `r` is one; nothing is said about errors.
-/

namespace Russell

open Russell.Res

/-- No panic, and `Q` holds for the value. -/
def Post {α : Type} (r : Res α) (Q : α → Prop) : Prop :=
  match r with
  | .ok a => Q a
  | .err _ => True
  | .panic => False

variable {α β : Type}

theorem Post.of_ok {r : Res α} {Q : α → Prop} {a : α} (h : Post r Q) (he : r = ok a) : Q a := by
  subst he; exact h

theorem Post.no_panic {r : Res α} {Q : α → Prop} (h : Post r Q) : r ≠ Res.panic := by
  intro he; subst he; exact h

theorem post_ok {Q : α → Prop} {a : α} (h : Q a) : Post (ok a) Q := h

theorem post_err {Q : α → Prop} (e : String) : Post (Res.err e) Q := trivial

theorem Post.mono {r : Res α} {Q R : α → Prop} (h : Post r Q) (hm : ∀ a, Q a → R a) : Post r R := by
  cases r with
  | ok a => exact hm a h
  | err e => trivial
  | panic => exact h

theorem Post.bind {r : Res α} {f : α → Res β} {Q : α → Prop} {R : β → Prop} (h : Post r Q)
    (hf : ∀ a, Q a → Post (f a) R) : Post (r >>= f) R := by
  cases r with
  | ok a => exact hf a h
  | err e => trivial
  | panic => exact h

/-- The value of a first step is known. -/
theorem Post.bind_ok {r : Res α} {f : α → Res β} {a : α} {R : β → Prop} (h : r = ok a) (hf : Post (f a) R) :
    Post (r >>= f) R := by
  subst h; exact hf

theorem post_forRange {f : Nat → α → Res α} (I : Nat → α → Prop) {lo hi : Nat} {s : α} (hle : lo ≤ hi) (h0 : I lo s)
    (hs : ∀ k s, lo ≤ k → k < hi → I k s → Post (f k s) (I (k + 1))) : Post (forRange lo hi s f) (I hi) := by
  obtain ⟨n, rfl⟩ := Nat.exists_eq_add_of_le hle
  clear hle
  induction n with
  | zero => rw [forRange_empty (by omega)]; exact h0
  | succ n ih =>
    rw [← Nat.add_assoc, forRange_succ_right (by omega)]
    exact Post.bind (ih fun k s h1 h2 h3 => hs k s h1 (by omega) h3) fun s hI => hs _ s (by omega) (by omega) hI

end Russell
