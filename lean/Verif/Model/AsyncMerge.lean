import Verif.Model.AsyncTraits

/-!
# `Merge`, poll by poll

Model of `/repo/ufotofu/src/producer/merge.rs`. Here the futures inside of `Merge` are state machines that are polled, and that are
kept when `produce` returns; `Verif/Model/Merge.lean` has schedules instead.
-/

namespace Verif.Async

open Outcome

variable {σ₁ σ₂ I F E : Type}

/-- A future `async move { (p.produce().await, p) }`, possibly polled before: the state that `p` had when the future was
created, and the state of the future. -/
abbrev InProgress {σ : Type} (P : Producer σ I F E) : Type := (p : σ) × (P.produce p).κ

/-- merge.rs:25-27, 28-30, 55, 60, 65, 74: a future that has not been polled yet -/
def InProgress.new {σ : Type} (P : Producer σ I F E) (p : σ) : InProgress P := ⟨p, (P.produce p).start⟩

/-- `Future::poll` of such a future -/
def InProgress.poll {σ : Type} {P : Producer σ I F E} (f : InProgress P) :
    Outcome (Poll (InProgress P) (σ × Except E (I ⊕ F))) :=
  ((P.produce f.1).poll f.2).bind fun
    | .pending k => ok (.pending ⟨f.1, k⟩)
    | .ready a => ok (.ready a)

/-- merge.rs:9-12 -/
structure Merge (P₁ : Producer σ₁ I F E) (P₂ : Producer σ₂ I F E) where
  produceFuture₁ : Option (InProgress P₁)
  produceFuture₂ : Option (InProgress P₂)

namespace Merge

variable {P₁ : Producer σ₁ I F E} {P₂ : Producer σ₂ I F E}

/-- merge.rs:23-32 -/
def new (P₁ : Producer σ₁ I F E) (P₂ : Producer σ₂ I F E) (p₁ : σ₁) (p₂ : σ₂) : Merge P₁ P₂ where
  produceFuture₁ := some (.new P₁ p₁)
  produceFuture₂ := some (.new P₂ p₂)

/-- One iteration of the loop of merge.rs:48-84, from the beginning or from the point where it has been suspended, within one
poll. There is nothing to remember between polls but the two futures: resuming `(&mut *fut).await` (merge.rs:54, 59) polls `fut`,
and resuming `select(..).await` (merge.rs:63) polls the first future and, if that is pending, the second one. -/
def pollBody (s : Merge P₁ P₂) : Outcome (Step (Merge P₁ P₂) (Poll (Merge P₁ P₂) (Merge P₁ P₂ × Except E (I ⊕ F)))) := do
  match s.produceFuture₁, s.produceFuture₂ with
  | none, none => .panic
  | some f₁, none =>
    match ← f₁.poll with
    | .pending f₁ => return .done (.pending ⟨some f₁, none⟩)
    | .ready (p₁, result) => return .done (.ready (⟨some (.new P₁ p₁), none⟩, result))
  | none, some f₂ =>
    match ← f₂.poll with
    | .pending f₂ => return .done (.pending ⟨none, some f₂⟩)
    | .ready (p₂, result) => return .done (.ready (⟨none, some (.new P₂ p₂)⟩, result))
  | some f₁, some f₂ =>
    match ← f₁.poll with
    | .ready (p₁, result) =>
      match result with
      | .ok (.inr _) => return .continue ⟨none, some f₂⟩
      | result => return .done (.ready (⟨some (.new P₁ p₁), some f₂⟩, result))
    | .pending f₁ =>
      match ← f₂.poll with
      | .ready (p₂, result) =>
        match result with
        | .ok (.inr _) => return .continue ⟨some f₁, none⟩
        | result => return .done (.ready (⟨some f₁, some (.new P₂ p₂)⟩, result))
      | .pending f₂ => return .done (.pending ⟨some f₁, some f₂⟩)

/-- merge.rs:47-85 -/
noncomputable def produce (s : Merge P₁ P₂) : Fut (Merge P₁ P₂ × Except E (I ⊕ F)) where
  κ := Merge P₁ P₂
  start := s
  poll := Verif.loop pollBody

/-- merge.rs:35-86 -/
noncomputable def producer (P₁ : Producer σ₁ I F E) (P₂ : Producer σ₂ I F E) : Producer (Merge P₁ P₂) I F E where
  produce := produce

end Merge

end Verif.Async
