import Verif.Spec
import Verif.Model.TestDoubles

/-!
# Specification vocabulary for the test doubles
-/

namespace Verif

open Outcome

/-- The policy of a consumer that accepts `n` items and then answers everything with the error `e`. -/
def Policy.failAfter {I F E : Type} (n : Nat) (e : E) : Policy I F E where
  refuse l := if l.length < n then none else some e
  refuseClose l _ := if l.length < n then none else some e

/-- What the accessors of a `TestConsumer` say: it has consumed the items `l`, and `f` is the final value. -/
def TestConsumer.Seen {I F E : Type} (s : TestConsumer I F E) (l : List I) (f : Option F) : Prop :=
  s.consumed = ok l ∧ s.finalConsumed = f ∧ s.intoConsumed = (l, f)

/-- The pattern that is actually followed if the user asks for `p`: `p` itself, unless following it would suspend forever. -/
def effectivePattern (p : List Bool) : List Bool := if false ∈ p then p else p ++ [false]

/-- `y` follows the pattern given by the user. -/
def TestYielder.At (p : List Bool) (y : TestYielder) : Prop :=
  y.pattern = effectivePattern p ∧ y.index < (effectivePattern p).length

/-- Between `y` and `y'`, execution was suspended exactly `j` times: `j` successive entries of the pattern (cyclically, from
the current one on) said so, and the one after them did not. `y'` continues with the entry after that. Every suspension was
announced by a call of the waker. -/
def TestYielder.Suspends (p : List Bool) (y y' : TestYielder) (j : Nat) : Prop :=
  (∀ t, t < j → (effectivePattern p)[(y.index + t) % (effectivePattern p).length]? = some true) ∧
  (effectivePattern p)[(y.index + j) % (effectivePattern p).length]? = some false ∧
  y'.index = (y.index + j + 1) % (effectivePattern p).length ∧
  y'.suspensions = y.suspensions + j ∧ y'.wakes = y.wakes + j

/-- Calls of methods of a bulk producer from one state to another, `k` of which (calls of `expose_items`, possibly by
`bulk_produce`) exposed items. The calls need not be allowed ones. -/
inductive ProducerExposures {σ I F E : Type} (P : BulkProducer σ I F E) (s : σ) : Nat → σ → Prop where
  | start : ProducerExposures P s 0 s
  | produce {k s₁ s₂ r} : ProducerExposures P s k s₁ → P.produce s₁ = ok (s₂, r) → ProducerExposures P s k s₂
  | slurp {k s₁ s₂ r} : ProducerExposures P s k s₁ → P.slurp s₁ = ok (s₂, r) → ProducerExposures P s k s₂
  | expose {k s₁ s₂ xs} : ProducerExposures P s k s₁ → P.exposeItems s₁ = ok (s₂, .ok (.inl xs)) →
      ProducerExposures P s (k + 1) s₂
  | consider {k s₁ s₂ amount r} : ProducerExposures P s k s₁ → P.considerProduced s₁ amount = ok (s₂, r) →
      ProducerExposures P s k s₂
  | bulkProduce {k s₁ s₂ n buf buf'} : ProducerExposures P s k s₁ → P.bulkProduce s₁ buf = ok (s₂, .ok (.inl n), buf') →
      ProducerExposures P s (k + 1) s₂

/-- Calls of methods of a bulk consumer from one state to another, `k` of which (calls of `expose_slots`, possibly by
`bulk_consume`) exposed slots. The calls need not be allowed ones. -/
inductive ConsumerExposures {σ I F E : Type} (C : BulkConsumer σ I F E) (s : σ) : Nat → σ → Prop where
  | start : ConsumerExposures C s 0 s
  | consume {k s₁ s₂ x r} : ConsumerExposures C s k s₁ → C.consume s₁ x = ok (s₂, r) → ConsumerExposures C s k s₂
  | flush {k s₁ s₂ r} : ConsumerExposures C s k s₁ → C.flush s₁ = ok (s₂, r) → ConsumerExposures C s k s₂
  | expose {k s₁ s₂ xs} : ConsumerExposures C s k s₁ → C.exposeSlots s₁ = ok (s₂, .ok xs) → ConsumerExposures C s (k + 1) s₂
  | write {k s₁ ws} : ConsumerExposures C s k s₁ → ConsumerExposures C s k (C.writeSlots s₁ ws)
  | consumeSlots {k s₁ s₂ amount r} : ConsumerExposures C s k s₁ → C.consumeSlots s₁ amount = ok (s₂, r) →
      ConsumerExposures C s k s₂
  | bulkConsume {k s₁ s₂ n buf} : ConsumerExposures C s k s₁ → C.bulkConsume s₁ buf = ok (s₂, .ok n) →
      ConsumerExposures C s (k + 1) s₂

end Verif
