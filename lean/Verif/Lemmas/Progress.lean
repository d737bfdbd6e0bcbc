import Verif.History
import Verif.Lemmas.Loop

/-!
# Computations that end
-/

namespace Verif

open Outcome

/-- The computation ends; if it does not panic, its result satisfies `Q`. -/
def Outcome.Sat {α : Type u} (Q : α → Prop) : Outcome α → Prop
  | ok a => Q a
  | .panic => True
  | diverge => False

namespace Outcome

theorem Sat.ne_diverge {α : Type u} {Q : α → Prop} {o : Outcome α} (h : o.Sat Q) : o ≠ diverge := by
  rintro rfl; exact h

theorem sat_true {α : Type u} {o : Outcome α} (h : o ≠ diverge) : o.Sat (fun _ => True) := by
  cases o with
  | ok a => trivial
  | panic => trivial
  | diverge => exact absurd rfl h

theorem Sat.mono {α : Type u} {Q Q' : α → Prop} {o : Outcome α} (h : o.Sat Q) (hQ : ∀ a, Q a → Q' a) : o.Sat Q' := by
  cases o with
  | ok a => exact hQ a h
  | panic => trivial
  | diverge => exact h

theorem Sat.and_eq {α : Type u} {Q : α → Prop} {o : Outcome α} (h : o.Sat Q) : o.Sat (fun a => Q a ∧ o = ok a) := by
  cases o with
  | ok a => exact ⟨h, rfl⟩
  | panic => trivial
  | diverge => exact h

theorem Sat.bind {α : Type u} {β : Type v} {Q : α → Prop} {Q' : β → Prop} {o : Outcome α} {f : α → Outcome β} (h : o.Sat Q)
    (hf : ∀ a, Q a → (f a).Sat Q') : (o.bind f).Sat Q' := by
  cases o with
  | ok a => exact hf a h
  | panic => trivial
  | diverge => exact h

theorem Sat.of_ok {α : Type u} {Q : α → Prop} {o : Outcome α} {a : α} (h : o.Sat Q) (ho : o = ok a) : Q a := by
  subst ho; exact h

theorem sat_unwrap {α : Type u} {Q : α → Prop} {a : Option α} (h : ∀ x, a = some x → Q x) : (unwrap a).Sat Q := by
  cases a with
  | none => trivial
  | some a => exact h a rfl

theorem sat_index {α : Type u} {xs : List α} {i : Nat} : (Outcome.index xs i).Sat (fun x => xs[i]? = some x) :=
  sat_unwrap fun _ h => h

theorem sat_assert (b : Bool) : (assert b).Sat (fun _ => b = true) := by cases b <;> simp [Sat]

end Outcome

theorem loop_sat {σ : Type u} {ρ : Type v} {body : σ → Outcome (Step σ ρ)} (Inv : Nat → Nat → σ → Prop) (Post : ρ → Prop)
    (h : ∀ a b s, Inv a b s → (body s).Sat fun
      | .done r => Post r
      | .continue s' => ∃ a' b', (a' < a ∨ (a' = a ∧ b' < b)) ∧ Inv a' b' s') {a b : Nat} {s : σ} (hs : Inv a b s) :
    (loop body s).Sat Post := by
  refine loop_post (body := body) Inv (fun o => o.Sat Post) ?_ a b s hs
  intro a b s hs
  have := h a b s hs
  cases hb : body s with
  | panic => exact .inr (.inl ⟨rfl, trivial⟩)
  | diverge => rw [hb] at this; exact absurd this id
  | ok st =>
    rw [hb] at this
    cases st with
    | done r => exact .inl ⟨r, rfl, this⟩
    | «continue» s' =>
      obtain ⟨a', b', h1, h2⟩ := this
      exact .inr (.inr ⟨s', a', b', rfl, h1, h2⟩)

end Verif
