import Verif.Basic

/-!
# Loops that end
-/

namespace Verif

open Outcome

/-- A loop whose invariant carries a pair of numbers that decreases lexicographically ends, and what holds at all its exits
holds for its result. -/
theorem loop_post {σ : Type u} {ρ : Type v} {body : σ → Outcome (Step σ ρ)} (Inv : Nat → Nat → σ → Prop)
    (Post : Outcome ρ → Prop)
    (h : ∀ a b s, Inv a b s → (∃ r, body s = ok (.done r) ∧ Post (ok r)) ∨ (body s = .panic ∧ Post .panic) ∨
      ∃ s' a' b', body s = ok (.continue s') ∧ (a' < a ∨ (a' = a ∧ b' < b)) ∧ Inv a' b' s') :
    ∀ a b s, Inv a b s → Post (loop body s) := by
  intro a
  induction a using Nat.strongRecOn with
  | _ a iha =>
    intro b
    induction b using Nat.strongRecOn with
    | _ b ihb =>
      intro s hs
      rw [loop_unfold]
      rcases h a b s hs with ⟨r, hr, hp⟩ | ⟨hr, hp⟩ | ⟨s', a', b', hr, hlt, hs'⟩
      · rw [hr]; exact hp
      · rw [hr]; exact hp
      · rw [hr]
        rcases hlt with hlt | ⟨rfl, hlt⟩
        · exact iha a' hlt b' s' hs'
        · exact ihb b' hlt s' hs'

/-- Same, for loops that do not panic. -/
theorem loop_ok {σ : Type u} {ρ : Type v} {body : σ → Outcome (Step σ ρ)} (Inv : Nat → Nat → σ → Prop) (Post : ρ → Prop)
    (h : ∀ a b s, Inv a b s → (∃ r, body s = ok (.done r) ∧ Post r) ∨
      ∃ s' a' b', body s = ok (.continue s') ∧ (a' < a ∨ (a' = a ∧ b' < b)) ∧ Inv a' b' s') {a b : Nat} {s : σ}
    (hs : Inv a b s) : ∃ r, loop body s = ok r ∧ Post r := by
  refine loop_post (body := body) Inv (fun o => ∃ r, o = ok r ∧ Post r) ?_ a b s hs
  intro a b s hs
  rcases h a b s hs with ⟨r, hr, hp⟩ | h'
  · exact .inl ⟨r, hr, r, rfl, hp⟩
  · exact .inr (.inr h')

end Verif
