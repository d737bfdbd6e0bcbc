import Verif.History

/-!
# When two implementations of a trait on the same states cannot be told apart
-/

namespace Verif

open Outcome

section

variable {σ I F E : Type}

/-- In state `s`, in which the items `shown` are exposed, every allowed call of `P'` does what that call of `P` does. -/
structure BulkProducer.SameAt (P' P : BulkProducer σ I F E) (s : σ) (shown : List I) : Prop where
  produce : P'.produce s = P.produce s
  slurp : P'.slurp s = P.slurp s
  expose : P'.exposeItems s = P.exposeItems s
  consider : ∀ k, k ≤ shown.length → P'.considerProduced s k = P.considerProduced s k
  bulkProduce : ∀ buf, buf ≠ [] → P'.bulkProduce s buf = P.bulkProduce s buf

/-- `P'` does what `P` does after every history of allowed calls from the state `s₀`. -/
def BulkProducer.Same (P' P : BulkProducer σ I F E) (s₀ : σ) : Prop :=
  ∀ handed s shown, ProducerRuns P s₀ handed s shown none → P'.SameAt P s shown

/-- In state `s`, whose exposed slots contain `slots`, every allowed call of `C'` does what that call of `C` does. -/
structure BulkConsumer.SameAt (C' C : BulkConsumer σ I F E) (s : σ) (slots : List I) : Prop where
  consume : ∀ x, C'.consume s x = C.consume s x
  close : ∀ f, C'.close s f = C.close s f
  flush : C'.flush s = C.flush s
  expose : C'.exposeSlots s = C.exposeSlots s
  write : ∀ ws, ws.length ≤ slots.length → C'.writeSlots s ws = C.writeSlots s ws
  consumeSlots : ∀ k, k ≤ slots.length → C'.consumeSlots s k = C.consumeSlots s k
  bulkConsume : ∀ buf, buf ≠ [] → C'.bulkConsume s buf = C.bulkConsume s buf

/-- `C'` does what `C` does after every history of allowed calls from the state `s₀` in which at most `N` items were consumed. -/
def BulkConsumer.SameUntil (C' C : BulkConsumer σ I F E) (s₀ : σ) (N : Nat) : Prop :=
  ∀ taken s slots, ConsumerRuns C s₀ taken s slots none → taken.length ≤ N → C'.SameAt C s slots

/-- `C'` does what `C` does after every history of allowed calls from the state `s₀`. -/
def BulkConsumer.Same (C' C : BulkConsumer σ I F E) (s₀ : σ) : Prop :=
  ∀ taken s slots, ConsumerRuns C s₀ taken s slots none → C'.SameAt C s slots

/-- After every history of allowed calls, `bulk_produce` does not claim to have written more items than fit. -/
def BulkProducer.ClaimsAtMost (P : BulkProducer σ I F E) (s₀ : σ) : Prop :=
  ∀ handed s shown buf s' k buf', ProducerRuns P s₀ handed s shown none → buf ≠ [] →
    P.bulkProduce s buf = ok (s', .ok (.inl k), buf') → k ≤ buf.length ∧ buf'.length = buf.length

/-- After every history of allowed calls, `expose_items` does not expose an empty slice. -/
def BulkProducer.ShowsSome (P : BulkProducer σ I F E) (s₀ : σ) : Prop :=
  ∀ handed s shown s', ProducerRuns P s₀ handed s shown none → P.exposeItems s ≠ ok (s', .ok (.inl []))

/-- After every history of allowed calls, `bulk_consume` does not claim to have consumed more items than it was given. -/
def BulkConsumer.ClaimsAtMost (C : BulkConsumer σ I F E) (s₀ : σ) : Prop :=
  ∀ taken s slots buf s' k, ConsumerRuns C s₀ taken s slots none → buf ≠ [] →
    C.bulkConsume s buf = ok (s', .ok k) → k ≤ buf.length

end

end Verif
