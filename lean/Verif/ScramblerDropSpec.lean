import Verif.ResumeSpec
import Verif.Model.AsyncScramblers

/-!
# Dropped calls of the two `BulkScrambler`s

What a dropped call of a scrambler leaves, given what a dropped call of the wrapped producer or consumer leaves. A scrambler awaits the
wrapped value only in `perform_operation`.
-/

namespace Verif

/-- First `xs`, then `c`. -/
def Script.after {I F E : Type} (xs : List I) (c : Script I F E) : Script I F E := fun i =>
  match xs[i]? with
  | some x => .ok (.inl x)
  | none => c (i - xs.length)

namespace Async

open Outcome

variable {σ I F E : Type}

/-- `slurp s k s'`: if the call of `slurp` in the state `s` is dropped when its future is in the state `k`, then the producer is left in
the state `s'`. -/
structure SlurpDrops (P : BufferedProducer σ I F E) where
  slurp : (s : σ) → (P.slurp s).κ → σ → Prop

/-- A producer that, after a dropped call of `slurp`, has still the same to emit. -/
structure SlurpDrops.Tolerated {P : BufferedProducer σ I F E} (d : SlurpDrops P) (R : σ → Script I F E → Prop) : Prop where
  slurp : ∀ {s c k s'}, R s c → (P.slurp s).Pending k → d.slurp s k s' → R s' c

/-- The same for `flush`. -/
structure FlushDrops (C : BufferedConsumer σ I F E) where
  flush : (t : σ) → (C.flush t).κ → σ → Prop

/-- A consumer that, after a dropped call of `flush`, has consumed what it had before. -/
structure FlushDrops.Tolerated {C : BufferedConsumer σ I F E} (d : FlushDrops C) (S : σ → List I → Prop) : Prop where
  flush : ∀ {t l k t'}, S t l → (C.flush t).Pending k → d.flush t k t' → S t' l

/-- What a dropped call of `close` leaves. -/
structure CloseDrops (C : Consumer σ I F E) where
  close : (t : σ) → (fin : F) → (C.close t fin).κ → σ → Prop

/-- A consumer that, after a dropped call of `close`, has consumed what it had before, and is not closed. -/
structure CloseDrops.Tolerated {C : Consumer σ I F E} (d : CloseDrops C) (S : σ → List I → Prop) : Prop where
  close : ∀ {t l f k t'}, S t l → (C.close t f).Pending k → d.close t f k t' → S t' l

/-! ## Producer -/

namespace ProducerScrambler

/-- producer/bulk_scrambler.rs:271-313 `perform_operation` is dropped. `again` are the items which have been put into the queue, and which
the wrapped producer has not been told about: `bulk_enqueue` comes before the `await` of `consider_produced` (lines 294-297). -/
inductive PerformDropped {P : BulkProducer σ I F E} (debug : Bool) (dp : ProducerDrops P) (di : ItemDrops P.toProducer)
    (ds : SlurpDrops P.toBufferedProducer) (s : ProducerScrambler σ I F E) :
    (performOperation debug P s).κ → (again : List I) → ProducerScrambler σ I F E → Prop where
  | producing {k inner} : di.produce s.inner k inner →
      PerformDropped debug dp di ds s (Sum.inr ⟨(), Sum.inr ⟨.produce, Sum.inl k⟩⟩) [] { s with inner := inner }
  | exposing {n k inner} : dp.exposeItems s.inner k inner →
      PerformDropped debug dp di ds s (Sum.inr ⟨(), Sum.inr ⟨.considerProduced n, Sum.inl k⟩⟩) [] { s with inner := inner }
  | considering {n inner₁ slots available buffer amount k inner} : dp.considerProduced inner₁ amount k inner →
      PerformDropped debug dp di ds s (Sum.inr ⟨(), Sum.inr ⟨.considerProduced n, Sum.inr ⟨(inner₁, .ok (.inl slots)),
        Sum.inr ⟨available, Sum.inr ⟨(buffer, amount), Sum.inl k⟩⟩⟩⟩⟩) (available.take amount)
        { s with inner := inner, buffer := buffer }
  | slurping {k inner} : ds.slurp s.inner k inner →
      PerformDropped debug dp di ds s (Sum.inr ⟨(), Sum.inr ⟨.slurp, Sum.inl k⟩⟩) [] { s with inner := inner }

/-- An iteration of the loop of `fill_queue`, if there is still something to do (`fillBody`). -/
def fillStep (debug : Bool) (P : BulkProducer σ I F E) (s : ProducerScrambler σ I F E) :
    Fut (Step (ProducerScrambler σ I F E) (ProducerScrambler σ I F E)) := do
  match ← performOperation debug P s with
  | (s, .ok none) => return .continue s
  | (s, .ok (some fin)) => return .continue { s with last := some (.ok fin) }
  | (s, .error err) => return .continue { s with last := some (.error err) }

/-- producer/bulk_scrambler.rs:247-269 `fill_queue` is dropped. -/
inductive FillDropped {P : BulkProducer σ I F E} (debug : Bool) (dp : ProducerDrops P) (di : ItemDrops P.toProducer)
    (ds : SlurpDrops P.toBufferedProducer) (s : ProducerScrambler σ I F E) :
    (fillQueue debug P s).κ → (again : List I) → ProducerScrambler σ I F E → Prop where
  | mk {s₁ k kp again s'} : HEq k (Sum.inl kp : (fillStep debug P s₁).κ) → PerformDropped debug dp di ds s₁ kp again s' →
      FillDropped debug dp di ds s (Sum.inl ⟨s₁, k⟩) again s'

/-- producer/bulk_scrambler.rs:217-234: `expose_items` awaits only `fill_queue`. -/
inductive ExposeDropped {P : BulkProducer σ I F E} (debug : Bool) (dp : ProducerDrops P) (di : ItemDrops P.toProducer)
    (ds : SlurpDrops P.toBufferedProducer) (s : ProducerScrambler σ I F E) :
    (exposeItems debug P s).κ → (again : List I) → ProducerScrambler σ I F E → Prop where
  | mk {k again s'} : FillDropped debug dp di ds s k again s' → ExposeDropped debug dp di ds s (Sum.inl k) again s'

/-- producer/bulk_scrambler.rs:165-177: `produce` awaits only `fill_queue`. -/
inductive ProduceDropped {P : BulkProducer σ I F E} (debug : Bool) (dp : ProducerDrops P) (di : ItemDrops P.toProducer)
    (ds : SlurpDrops P.toBufferedProducer) (s : ProducerScrambler σ I F E) :
    (produce debug P s).κ → (again : List I) → ProducerScrambler σ I F E → Prop where
  | mk {k again s'} : FillDropped debug dp di ds s k again s' → ProduceDropped debug dp di ds s (Sum.inl k) again s'

/-- producer/bulk_scrambler.rs:184-210: `slurp` awaits `fill_queue`, and then `slurp` of the wrapped producer, even if that has ended: the
final value has been put back. -/
inductive SlurpDropped {P : BulkProducer σ I F E} (debug : Bool) (dp : ProducerDrops P) (di : ItemDrops P.toProducer)
    (ds : SlurpDrops P.toBufferedProducer) (s : ProducerScrambler σ I F E) :
    (slurp debug P s).κ → (again : List I) → ProducerScrambler σ I F E → Prop where
  | filling {k again s'} : FillDropped debug dp di ds s k again s' → SlurpDropped debug dp di ds s (Sum.inl k) again s'
  | slurping {s₁ k inner} : ds.slurp s₁.inner k inner →
      SlurpDropped debug dp di ds s (Sum.inr ⟨(s₁, none), Sum.inl k⟩) [] { s₁ with inner := inner }
  | ended {s₁ fin k inner} : ds.slurp s₁.inner k inner →
      SlurpDropped debug dp di ds s (Sum.inr ⟨(s₁, some (.ok fin)), Sum.inl k⟩) [] { s₁ with inner := inner, last := some (.ok fin) }

end ProducerScrambler

/-- The methods of the scrambler are dropped while a method other than `consider_produced` of the wrapped producer is pending. -/
def producerScramblerDrops {P : BulkProducer σ I F E} (debug : Bool) (dp : ProducerDrops P) (di : ItemDrops P.toProducer)
    (ds : SlurpDrops P.toBufferedProducer) : ProducerDrops (producerScrambler debug P) where
  exposeItems s k s' := ProducerScrambler.ExposeDropped debug dp di ds s k [] s'
  considerProduced _ _ _ _ := False

def producerScramblerItemDrops {P : BulkProducer σ I F E} (debug : Bool) (dp : ProducerDrops P) (di : ItemDrops P.toProducer)
    (ds : SlurpDrops P.toBufferedProducer) : ItemDrops (producerScrambler debug P).toProducer where
  produce s k s' := ProducerScrambler.ProduceDropped debug dp di ds s k [] s'

/-! ## Consumer -/

namespace ConsumerScrambler

/-- consumer/bulk_scrambler.rs:244-287 `perform_operation` is dropped. `lost` are the items which have been taken out of the queue, and
which the wrapped consumer has not consumed: `dequeue` and `bulk_dequeue` come before the `await`s of `consume` and `consume_slots` (lines
250-256, 272-275). -/
inductive PerformDropped {C : BulkConsumer σ I F E} (debug : Bool) (dc : ConsumeDrops C.toConsumer) (dl : SlotDrops C)
    (df : FlushDrops C.toBufferedConsumer) (s : ConsumerScrambler σ I) :
    (performOperation debug C s).κ → (lost : List I) → ConsumerScrambler σ I → Prop where
  | consuming {buffer item x k inner} : dc.consume s.inner x k inner →
      PerformDropped debug dc dl df s (Sum.inr ⟨(), Sum.inr ⟨.consume, Sum.inr ⟨(buffer, item), Sum.inr ⟨x, Sum.inl k⟩⟩⟩⟩) [x]
        { s with inner := inner, buffer := buffer }
  | exposing {n k inner} : dl.exposeSlots s.inner k inner →
      PerformDropped debug dc dl df s (Sum.inr ⟨(), Sum.inr ⟨.consumeSlots n, Sum.inl k⟩⟩) [] { s with inner := inner }
  | consumingSlots {n inner₁ slots available buffer amount written k inner} :
      dl.consumeSlots (C.writeSlots inner₁ written) amount k inner →
      PerformDropped debug dc dl df s (Sum.inr ⟨(), Sum.inr ⟨.consumeSlots n, Sum.inr ⟨(inner₁, .ok slots),
        Sum.inr ⟨available, Sum.inr ⟨(buffer, amount, written), Sum.inl k⟩⟩⟩⟩⟩) (written.take amount)
        { s with inner := inner, buffer := buffer }
  | flushing {k inner} : df.flush s.inner k inner →
      PerformDropped debug dc dl df s (Sum.inr ⟨(), Sum.inr ⟨.flush, Sum.inl k⟩⟩) [] { s with inner := inner }

/-- An iteration of the loop that empties the queue, if there is something in it (`drainBody`). -/
def drainStep (debug : Bool) (C : BulkConsumer σ I F E) (s : ConsumerScrambler σ I) :
    Fut (Step (ConsumerScrambler σ I) (ConsumerScrambler σ I × Except E Unit)) := do
  match ← performOperation debug C s with
  | (s, .ok ()) => return .continue s
  | (s, .error e) => return .done (s, .error e)

/-- The loop that empties the queue is dropped. -/
inductive DrainDropped {C : BulkConsumer σ I F E} (debug : Bool) (dc : ConsumeDrops C.toConsumer) (dl : SlotDrops C)
    (df : FlushDrops C.toBufferedConsumer) (s : ConsumerScrambler σ I) :
    (drain debug C s).κ → (lost : List I) → ConsumerScrambler σ I → Prop where
  | mk {s₁ k kp lost s'} : HEq k (Sum.inl kp : (drainStep debug C s₁).κ) → PerformDropped debug dc dl df s₁ kp lost s' →
      DrainDropped debug dc dl df s ⟨s₁, k⟩ lost s'

/-- consumer/bulk_scrambler.rs:160-172: `consume` is pending only if the queue is full, and the item is not yet in the queue. -/
inductive ConsumeDropped {C : BulkConsumer σ I F E} (debug : Bool) (dc : ConsumeDrops C.toConsumer) (dl : SlotDrops C)
    (df : FlushDrops C.toBufferedConsumer) (s : ConsumerScrambler σ I) (x : I) :
    (consume debug C s x).κ → (lost : List I) → ConsumerScrambler σ I → Prop where
  | mk {buffer y k lost s'} : DrainDropped debug dc dl df { s with buffer := buffer } k lost s' →
      ConsumeDropped debug dc dl df s x (Sum.inr ⟨(buffer, some y), Sum.inl k⟩) lost s'

/-- `expose_slots` if the queue is full, consumer/bulk_scrambler.rs:219-229. -/
noncomputable def exposeStep (debug : Bool) (C : BulkConsumer σ I F E) (s : ConsumerScrambler σ I) :
    Fut (ConsumerScrambler σ I × Except E (List I)) := do
  match ← drain debug C s with
  | (s, .error e) => return (s, .error e)
  | (s, .ok ()) =>
    let (buffer, slots) ← s.buffer.exposeSlots
    let slots ← unwrap slots
    return ({ s with buffer := buffer }, .ok slots)

/-- consumer/bulk_scrambler.rs:204-231 -/
inductive ExposeDropped {C : BulkConsumer σ I F E} (debug : Bool) (dc : ConsumeDrops C.toConsumer) (dl : SlotDrops C)
    (df : FlushDrops C.toBufferedConsumer) (s : ConsumerScrambler σ I) :
    (exposeSlots debug C s).κ → (lost : List I) → ConsumerScrambler σ I → Prop where
  | mk {k kd lost s'} : HEq k (Sum.inl kd : (exposeStep debug C s).κ) → DrainDropped debug dc dl df s kd lost s' →
      ExposeDropped debug dc dl df s k lost s'

/-- consumer/bulk_scrambler.rs:189-197: `flush` awaits the loop, and then `flush` of the wrapped consumer. -/
inductive FlushDropped {C : BulkConsumer σ I F E} (debug : Bool) (dc : ConsumeDrops C.toConsumer) (dl : SlotDrops C)
    (df : FlushDrops C.toBufferedConsumer) (s : ConsumerScrambler σ I) :
    (flush debug C s).κ → (lost : List I) → ConsumerScrambler σ I → Prop where
  | draining {k lost s'} : DrainDropped debug dc dl df s k lost s' → FlushDropped debug dc dl df s (Sum.inl k) lost s'
  | flushing {s₁ k inner} : df.flush s₁.inner k inner →
      FlushDropped debug dc dl df s (Sum.inr ⟨(s₁, .ok ()), Sum.inl k⟩) [] { s₁ with inner := inner }

/-- consumer/bulk_scrambler.rs:174-182: `close` awaits the loop, and then `close` of the wrapped consumer. -/
inductive CloseDropped {C : BulkConsumer σ I F E} (debug : Bool) (dc : ConsumeDrops C.toConsumer) (dl : SlotDrops C)
    (df : FlushDrops C.toBufferedConsumer) (de : CloseDrops C.toConsumer) (s : ConsumerScrambler σ I) (fin : F) :
    (close debug C s fin).κ → (lost : List I) → ConsumerScrambler σ I → Prop where
  | draining {k lost s'} : DrainDropped debug dc dl df s k lost s' → CloseDropped debug dc dl df de s fin (Sum.inl k) lost s'
  | closing {s₁ k inner} : de.close s₁.inner fin k inner →
      CloseDropped debug dc dl df de s fin (Sum.inr ⟨(s₁, .ok ()), Sum.inl k⟩) [] { s₁ with inner := inner }

end ConsumerScrambler

end Async

end Verif
