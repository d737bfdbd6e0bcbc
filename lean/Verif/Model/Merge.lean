import Verif.Model.Traits

/-!
# `Merge`

Model of `/repo/ufotofu/src/producer/merge.rs`.

This is the only place in the crate where two futures are in progress at the same time. A future
`async move { (p.produce().await, p) }` is modelled by the state of the producer `p` inside of it; polling it yields either
`Pending`, or `Ready` with the answer of `p.produce()` and the new state of `p`. When it becomes ready is up to the environment:
the schedules `ready₁` and `ready₂` say whether the first (second) future is ready at a given time, and time passes whenever
futures are polled. Both schedules are arbitrary.

Simplifications: the two wrapped producers share no state. The future of `produce` is polled until it is ready (it is not
dropped while suspended).
-/

namespace Verif

open Outcome

/-- merge.rs:9-12; `clock` (not in the code) is the position in the schedules. -/
structure Merge (σ₁ σ₂ : Type) where
  produceFuture₁ : Option σ₁
  produceFuture₂ : Option σ₂
  clock : Nat

namespace Merge

variable {σ₁ σ₂ I F E : Type}

/-- merge.rs:23-32 -/
def new (p₁ : σ₁) (p₂ : σ₂) : Merge σ₁ σ₂ where
  produceFuture₁ := some p₁
  produceFuture₂ := some p₂
  clock := 0

/-- One iteration of the loop of merge.rs:48-84, or one poll of the futures in it. `futures::future::select` polls the first
future first, and polls the second one only if the first is pending. -/
def produceBody (P₁ : Producer σ₁ I F E) (P₂ : Producer σ₂ I F E) (ready₁ ready₂ : Nat → Bool) (s : Merge σ₁ σ₂) :
    Outcome (Step (Merge σ₁ σ₂) (Merge σ₁ σ₂ × Except E (I ⊕ F))) := do
  let next := s.clock + 1
  match s.produceFuture₁, s.produceFuture₂ with
  | none, none => .panic
  | some p₁, none =>
    if ready₁ s.clock then
      let (p₁, result) ← P₁.produce p₁
      return .done (⟨some p₁, none, next⟩, result)
    else
      return .continue ⟨some p₁, none, next⟩
  | none, some p₂ =>
    if ready₂ s.clock then
      let (p₂, result) ← P₂.produce p₂
      return .done (⟨none, some p₂, next⟩, result)
    else
      return .continue ⟨none, some p₂, next⟩
  | some p₁, some p₂ =>
    if ready₁ s.clock then
      let (p₁, result) ← P₁.produce p₁
      match result with
      | .ok (.inr _) => return .continue ⟨none, some p₂, next⟩
      | result => return .done (⟨some p₁, some p₂, next⟩, result)
    else if ready₂ s.clock then
      let (p₂, result) ← P₂.produce p₂
      match result with
      | .ok (.inr _) => return .continue ⟨some p₁, none, next⟩
      | result => return .done (⟨some p₁, some p₂, next⟩, result)
    else
      return .continue ⟨some p₁, some p₂, next⟩

/-- merge.rs:47-85 -/
noncomputable def producer (P₁ : Producer σ₁ I F E) (P₂ : Producer σ₂ I F E) (ready₁ ready₂ : Nat → Bool) :
    Producer (Merge σ₁ σ₂) I F E where
  produce s := loop (produceBody P₁ P₂ ready₁ ready₂) s

end Merge

end Verif
