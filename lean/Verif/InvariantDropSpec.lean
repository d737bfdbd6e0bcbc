import Verif.ScramblerDropSpec

/-!
# What dropped calls of `Invariant` leave

`Invariant` (producer/invariant.rs, consumer/invariant.rs) checks at run time that its caller keeps to the contract. What a dropped
call leaves is given by what the dropped call of the wrapped producer or consumer leaves: every method awaits exactly once, and what
follows the `await` does not happen.
-/

namespace Verif.Async

open Outcome

variable {σ τ I F E : Type}

/-! ## Producer -/

/-- producer/invariant.rs:87-102: only after the `await` anything is assigned. -/
inductive InvariantProduceDropped {P : Producer σ I F E} (d : ItemDrops P) (s : InvariantSt σ) :
    ((invariantProducer P).produce s).κ → InvariantSt σ → Prop where
  | mk {k s'} : d.produce s.inner k s' → InvariantProduceDropped d s (Sum.inr ⟨(), Sum.inl k⟩) ⟨s', s.active, s.exposedSlots⟩

def invariantItemDrops {P : Producer σ I F E} (d : ItemDrops P) : ItemDrops (invariantProducer P) where
  produce := InvariantProduceDropped d

/-- producer/invariant.rs:106-112 -/
inductive InvariantSlurpDropped {P : BufferedProducer σ I F E} (d : SlurpDrops P) (s : InvariantSt σ) :
    ((invariantBufferedProducer P).slurp s).κ → InvariantSt σ → Prop where
  | mk {k s'} : d.slurp s.inner k s' → InvariantSlurpDropped d s (Sum.inr ⟨(), Sum.inl k⟩) ⟨s', s.active, s.exposedSlots⟩

def invariantSlurpDrops {P : BufferedProducer σ I F E} (d : SlurpDrops P) : SlurpDrops (invariantBufferedProducer P) where
  slurp := InvariantSlurpDropped d

/-- producer/invariant.rs:116-134 -/
inductive InvariantExposeDropped {P : BulkProducer σ I F E} (d : ProducerDrops P) (s : InvariantSt σ) :
    ((invariantBulkProducer P).exposeItems s).κ → InvariantSt σ → Prop where
  | mk {k s'} : d.exposeItems s.inner k s' → InvariantExposeDropped d s (Sum.inr ⟨(), Sum.inl k⟩) ⟨s', s.active, s.exposedSlots⟩

/-- producer/invariant.rs:142-146, what follows if `amount` is not too large -/
def invariantConsiderStep (P : BulkProducer σ I F E) (s : InvariantSt σ) (amount : Nat) : Fut (InvariantSt σ × Except E Unit) := do
  let exposedSlots ← sub s.exposedSlots amount
  let (inner, r) ← P.considerProduced s.inner amount
  return (⟨inner, s.active, exposedSlots⟩, r)

/-- producer/invariant.rs:136-147: `self.exposed_slots` has been reduced (to `e`) before the `await`. -/
inductive InvariantConsiderDropped {P : BulkProducer σ I F E} (d : ProducerDrops P) (s : InvariantSt σ) (amount : Nat) :
    ((invariantBulkProducer P).considerProduced s amount).κ → InvariantSt σ → Prop where
  | mk {k e kp s'} : HEq k (Sum.inr ⟨e, Sum.inl kp⟩ : (invariantConsiderStep P s amount).κ) →
      d.considerProduced s.inner amount kp s' → InvariantConsiderDropped d s amount (Sum.inr ⟨(), k⟩) ⟨s', s.active, e⟩

def invariantDrops {P : BulkProducer σ I F E} (d : ProducerDrops P) : ProducerDrops (invariantBulkProducer P) where
  exposeItems := InvariantExposeDropped d
  considerProduced := InvariantConsiderDropped d

/-! ## Consumer -/

/-- consumer/invariant.rs:86-94 -/
inductive InvariantConsumeDropped {C : Consumer τ I F E} (d : ConsumeDrops C) (t : InvariantSt τ) (x : I) :
    ((invariantConsumer C).consume t x).κ → InvariantSt τ → Prop where
  | mk {k t'} : d.consume t.inner x k t' → InvariantConsumeDropped d t x (Sum.inr ⟨(), Sum.inl k⟩) ⟨t', t.active, t.exposedSlots⟩

def invariantConsumeDrops {C : Consumer τ I F E} (d : ConsumeDrops C) : ConsumeDrops (invariantConsumer C) where
  consume := InvariantConsumeDropped d

/-- consumer/invariant.rs:96-101: `self.active = false` comes before the `await`. -/
inductive InvariantCloseDropped {C : Consumer τ I F E} (d : CloseDrops C) (t : InvariantSt τ) (fin : F) :
    ((invariantConsumer C).close t fin).κ → InvariantSt τ → Prop where
  | mk {k t'} : d.close t.inner fin k t' → InvariantCloseDropped d t fin (Sum.inr ⟨(), Sum.inl k⟩) ⟨t', false, t.exposedSlots⟩

def invariantCloseDrops {C : Consumer τ I F E} (d : CloseDrops C) : CloseDrops (invariantConsumer C) where
  close := InvariantCloseDropped d

/-- consumer/invariant.rs:108-114 -/
inductive InvariantFlushDropped {C : BufferedConsumer τ I F E} (d : FlushDrops C) (t : InvariantSt τ) :
    ((invariantBufferedConsumer C).flush t).κ → InvariantSt τ → Prop where
  | mk {k t'} : d.flush t.inner k t' → InvariantFlushDropped d t (Sum.inr ⟨(), Sum.inl k⟩) ⟨t', t.active, t.exposedSlots⟩

def invariantFlushDrops {C : BufferedConsumer τ I F E} (d : FlushDrops C) : FlushDrops (invariantBufferedConsumer C) where
  flush := InvariantFlushDropped d

/-- consumer/invariant.rs:121-136 -/
inductive InvariantExposeSlotsDropped {C : BulkConsumer τ I F E} (d : SlotDrops C) (t : InvariantSt τ) :
    ((invariantBulkConsumer C).exposeSlots t).κ → InvariantSt τ → Prop where
  | mk {k t'} : d.exposeSlots t.inner k t' → InvariantExposeSlotsDropped d t (Sum.inr ⟨(), Sum.inl k⟩) ⟨t', t.active, t.exposedSlots⟩

/-- consumer/invariant.rs:146-150, what follows if `amount` is not too large -/
def invariantConsumeSlotsStep (C : BulkConsumer τ I F E) (t : InvariantSt τ) (amount : Nat) : Fut (InvariantSt τ × Except E Unit) := do
  let exposedSlots ← sub t.exposedSlots amount
  let (inner, r) ← C.consumeSlots t.inner amount
  return (⟨inner, t.active, exposedSlots⟩, r)

/-- consumer/invariant.rs:138-151: `self.exposed_slots` has been reduced (to `e`) before the `await`. -/
inductive InvariantConsumeSlotsDropped {C : BulkConsumer τ I F E} (d : SlotDrops C) (t : InvariantSt τ) (amount : Nat) :
    ((invariantBulkConsumer C).consumeSlots t amount).κ → InvariantSt τ → Prop where
  | mk {k e kc t'} : HEq k (Sum.inr ⟨e, Sum.inl kc⟩ : (invariantConsumeSlotsStep C t amount).κ) →
      d.consumeSlots t.inner amount kc t' → InvariantConsumeSlotsDropped d t amount (Sum.inr ⟨(), k⟩) ⟨t', t.active, e⟩

def invariantSlotDrops {C : BulkConsumer τ I F E} (d : SlotDrops C) : SlotDrops (invariantBulkConsumer C) where
  exposeSlots := InvariantExposeSlotsDropped d
  consumeSlots := InvariantConsumeSlotsDropped d

/-- `bulk_consume` is the default (lib.rs:237-252), in terms of the two methods. -/
inductive InvariantBulkConsumeDropped {C : BulkConsumer τ I F E} (d : SlotDrops C) (t : InvariantSt τ) (ys : List I) :
    ((invariantBulkConsumer C).bulkConsume t ys).κ → InvariantSt τ → Prop where
  | exposing {k t'} : (invariantSlotDrops d).exposeSlots t k t' → InvariantBulkConsumeDropped d t ys (Sum.inl k) t'
  | consuming {t₁ slots k t'} : (invariantSlotDrops d).consumeSlots
        ((invariantBulkConsumer C).writeSlots t₁ (ys.take (min slots.length ys.length))) (min slots.length ys.length) k t' →
      InvariantBulkConsumeDropped d t ys (Sum.inr ⟨(t₁, .ok slots), Sum.inl k⟩) t'

def invariantConsumerDrops {C : BulkConsumer τ I F E} (d : SlotDrops C) : ConsumerDrops (invariantBulkConsumer C) where
  bulkConsume := InvariantBulkConsumeDropped d

end Verif.Async
