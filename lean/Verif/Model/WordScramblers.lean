import Verif.Model.Scramblers
import Verif.Model.WordQueue

/-!
# The two `BulkScrambler`s with machine arithmetic

As `Model/Scramblers.lean`, with the queue of `Model/WordQueue.lean` and the sum in `advance_operations_index` as it is computed on a
machine.
-/

namespace Verif

open Outcome

/-! ## Producer -/

namespace WordProducerScrambler

variable {σ I F E : Type}

/-- producer/bulk_scrambler.rs:138-140 -/
def advance (w : Word) (s : ProducerScrambler σ I F E) : Outcome (ProducerScrambler σ I F E) := do
  let index ← mod (← w.add s.index 1) s.operations.length
  return { s with index := index }

/-- producer/bulk_scrambler.rs:271-313 `perform_operation` -/
def performOperation (w : Word) (debug : Bool) (P : BulkProducer σ I F E) (s : ProducerScrambler σ I F E) :
    Outcome (ProducerScrambler σ I F E × Except E (Option F)) := do
  debugAssert debug (s.buffer.len < s.buffer.capacity)
  match ← Outcome.index s.operations s.index with
  | .produce =>
    match ← P.produce s.inner with
    | (inner, .error e) => return ({ s with inner := inner }, .error e)
    | (inner, .ok (.inl item)) =>
      let (buffer, yay) ← WordFixed.enqueue w s.buffer item
      debugAssert debug yay.isNone
      return (← advance w { s with inner := inner, buffer := buffer }, .ok none)
    | (inner, .ok (.inr fin)) => return ({ s with inner := inner }, .ok (some fin))
  | .considerProduced n =>
    match ← P.exposeItems s.inner with
    | (inner, .error e) => return ({ s with inner := inner }, .error e)
    | (inner, .ok (.inl slots)) =>
      let available ← slice slots 0 (min slots.length n)
      let (buffer, amount) ← (WordFixed.queue w I).bulkEnqueue s.buffer available
      match ← P.considerProduced inner amount with
      | (inner, .error e) => return ({ s with inner := inner, buffer := buffer }, .error e)
      | (inner, .ok ()) => return (← advance w { s with inner := inner, buffer := buffer }, .ok none)
    | (inner, .ok (.inr fin)) => return ({ s with inner := inner }, .ok (some fin))
  | .slurp =>
    match ← P.slurp s.inner with
    | (inner, .error e) => return ({ s with inner := inner }, .error e)
    | (inner, .ok ()) => return (← advance w { s with inner := inner }, .ok none)

/-- Body of the `while` loop of `fill_queue`, producer/bulk_scrambler.rs:252-260. -/
def fillBody (w : Word) (debug : Bool) (P : BulkProducer σ I F E) (s : ProducerScrambler σ I F E) :
    Outcome (Step (ProducerScrambler σ I F E) (ProducerScrambler σ I F E)) := do
  if s.last.isNone && s.buffer.len < s.buffer.capacity then
    match ← performOperation w debug P s with
    | (s, .ok none) => return .continue s
    | (s, .ok (some fin)) => return .continue { s with last := some (.ok fin) }
    | (s, .error err) => return .continue { s with last := some (.error err) }
  else
    return .done s

/-- producer/bulk_scrambler.rs:247-269 `fill_queue` -/
noncomputable def fillQueue (w : Word) (debug : Bool) (P : BulkProducer σ I F E) (s : ProducerScrambler σ I F E) :
    Outcome (ProducerScrambler σ I F E × Option (Except E F)) := do
  let s ← loop (fillBody w debug P) s
  if s.buffer.len = 0 then
    return ({ s with last := none }, s.last)
  else
    return (s, none)

/-- producer/bulk_scrambler.rs:165-177 -/
noncomputable def produce (w : Word) (debug : Bool) (P : BulkProducer σ I F E) (s : ProducerScrambler σ I F E) :
    Outcome (ProducerScrambler σ I F E × Except E (I ⊕ F)) := do
  match ← fillQueue w debug P s with
  | (s, some last) => return (s, last.map .inr)
  | (s, none) =>
    let (buffer, item) ← WordFixed.dequeue w s.buffer
    let item ← unwrap item
    return ({ s with buffer := buffer }, .ok (.inl item))

/-- The second half of `slurp`, producer/bulk_scrambler.rs:199-209. -/
def slurpInner (P : BulkProducer σ I F E) (s : ProducerScrambler σ I F E) :
    Outcome (ProducerScrambler σ I F E × Except E Unit) := do
  match ← P.slurp s.inner with
  | (inner, .error err) =>
    if s.buffer.len = 0 then
      return ({ s with inner := inner }, .error err)
    else
      return ({ s with inner := inner, last := some (.error err) }, .ok ())
  | (inner, .ok ()) => return ({ s with inner := inner }, .ok ())

/-- producer/bulk_scrambler.rs:184-210 -/
noncomputable def slurp (w : Word) (debug : Bool) (P : BulkProducer σ I F E) (s : ProducerScrambler σ I F E) :
    Outcome (ProducerScrambler σ I F E × Except E Unit) := do
  match ← fillQueue w debug P s with
  | (s, some (.error err)) => return (s, .error err)
  | (s, some (.ok fin)) => slurpInner P { s with last := some (.ok fin) }
  | (s, none) => slurpInner P s

/-- producer/bulk_scrambler.rs:217-234 -/
noncomputable def exposeItems (w : Word) (debug : Bool) (P : BulkProducer σ I F E) (s : ProducerScrambler σ I F E) :
    Outcome (ProducerScrambler σ I F E × Except E (List I ⊕ F)) := do
  match ← fillQueue w debug P s with
  | (s, some last) => return (s, last.map .inr)
  | (s, none) =>
    let (buffer, slots) ← WordFixed.exposeItems w s.buffer
    let slots ← unwrap slots
    return ({ s with buffer := buffer }, .ok (.inl slots))

/-- producer/bulk_scrambler.rs:236-240 -/
def considerProduced (w : Word) (s : ProducerScrambler σ I F E) (amount : Nat) :
    Outcome (ProducerScrambler σ I F E × Except E Unit) := do
  let buffer ← WordFixed.considerDequeued w s.buffer amount
  return ({ s with buffer := buffer }, .ok ())

end WordProducerScrambler

/-- producer/bulk_scrambler.rs:157-241 -/
noncomputable def wordProducerScrambler {σ I F E : Type} (w : Word) (debug : Bool) (P : BulkProducer σ I F E) :
    BulkProducer (ProducerScrambler σ I F E) I F E where
  produce := WordProducerScrambler.produce w debug P
  slurp := WordProducerScrambler.slurp w debug P
  exposeItems := WordProducerScrambler.exposeItems w debug P
  considerProduced := WordProducerScrambler.considerProduced w

/-! ## Consumer -/

namespace WordConsumerScrambler

variable {σ I F E : Type}

/-- consumer/bulk_scrambler.rs:135-137 -/
def advance (w : Word) (s : ConsumerScrambler σ I) : Outcome (ConsumerScrambler σ I) := do
  let index ← mod (← w.add s.index 1) s.operations.length
  return { s with index := index }

/-- consumer/bulk_scrambler.rs:244-287 `perform_operation`. In the second case `slots` are the contents of the exposed slots,
whose first `available` ones are overwritten by `bulk_dequeue`. -/
def performOperation (w : Word) (debug : Bool) (C : BulkConsumer σ I F E) (s : ConsumerScrambler σ I) :
    Outcome (ConsumerScrambler σ I × Except E Unit) := do
  debugAssert debug (s.buffer.len > 0)
  match ← Outcome.index s.operations s.index with
  | .consume =>
    let (buffer, item) ← WordFixed.dequeue w s.buffer
    let item ← unwrap item
    match ← C.consume s.inner item with
    | (inner, .error e) => return ({ s with inner := inner, buffer := buffer }, .error e)
    | (inner, .ok ()) => return (← advance w { s with inner := inner, buffer := buffer }, .ok ())
  | .consumeSlots n =>
    match ← C.exposeSlots s.inner with
    | (inner, .error e) => return ({ s with inner := inner }, .error e)
    | (inner, .ok slots) =>
      let available ← slice slots 0 (min slots.length n)
      let (buffer, amount, written) ← (WordFixed.queue w I).bulkDequeue s.buffer available
      match ← C.consumeSlots (C.writeSlots inner written) amount with
      | (inner, .error e) => return ({ s with inner := inner, buffer := buffer }, .error e)
      | (inner, .ok ()) => return (← advance w { s with inner := inner, buffer := buffer }, .ok ())
  | .flush =>
    match ← C.flush s.inner with
    | (inner, .error e) => return ({ s with inner := inner }, .error e)
    | (inner, .ok ()) => return (← advance w { s with inner := inner }, .ok ())

/-- Body of the loop `while self.buffer.len() > 0 { self.perform_operation().await?; }`, consumer/bulk_scrambler.rs:163-165,
176-178, 191-193, 221-223. -/
def drainBody (w : Word) (debug : Bool) (C : BulkConsumer σ I F E) (s : ConsumerScrambler σ I) :
    Outcome (Step (ConsumerScrambler σ I) (ConsumerScrambler σ I × Except E Unit)) := do
  if s.buffer.len > 0 then
    match ← performOperation w debug C s with
    | (s, .ok ()) => return .continue s
    | (s, .error e) => return .done (s, .error e)
  else
    return .done (s, .ok ())

/-- consumer/bulk_scrambler.rs:163-165, 176-178, 191-193, 220-222 -/
noncomputable def drain (w : Word) (debug : Bool) (C : BulkConsumer σ I F E) (s : ConsumerScrambler σ I) :
    Outcome (ConsumerScrambler σ I × Except E Unit) :=
  loop (drainBody w debug C) s

/-- consumer/bulk_scrambler.rs:160-172; the `debug_assert` is `yay.is_some()` in the code. -/
noncomputable def consume (w : Word) (debug : Bool) (C : BulkConsumer σ I F E) (s : ConsumerScrambler σ I) (item : I) :
    Outcome (ConsumerScrambler σ I × Except E Unit) := do
  match ← WordFixed.enqueue w s.buffer item with
  | (buffer, some item) =>
    match ← drain w debug C { s with buffer := buffer } with
    | (s, .error e) => return (s, .error e)
    | (s, .ok ()) =>
      let (buffer, yay) ← WordFixed.enqueue w s.buffer item
      debugAssert debug yay.isSome
      return ({ s with buffer := buffer }, .ok ())
  | (buffer, none) => return ({ s with buffer := buffer }, .ok ())

/-- consumer/bulk_scrambler.rs:174-182 -/
noncomputable def close (w : Word) (debug : Bool) (C : BulkConsumer σ I F E) (s : ConsumerScrambler σ I) (fin : F) :
    Outcome (ConsumerScrambler σ I × Except E Unit) := do
  match ← drain w debug C s with
  | (s, .error e) => return (s, .error e)
  | (s, .ok ()) =>
    let (inner, r) ← C.close s.inner fin
    return ({ s with inner := inner }, r)

/-- consumer/bulk_scrambler.rs:189-197 -/
noncomputable def flush (w : Word) (debug : Bool) (C : BulkConsumer σ I F E) (s : ConsumerScrambler σ I) :
    Outcome (ConsumerScrambler σ I × Except E Unit) := do
  match ← drain w debug C s with
  | (s, .error e) => return (s, .error e)
  | (s, .ok ()) =>
    let (inner, r) ← C.flush s.inner
    return ({ s with inner := inner }, r)

/-- consumer/bulk_scrambler.rs:204-231 -/
noncomputable def exposeSlots (w : Word) (debug : Bool) (C : BulkConsumer σ I F E) (s : ConsumerScrambler σ I) :
    Outcome (ConsumerScrambler σ I × Except E (List I)) := do
  if s.buffer.len < s.buffer.capacity then
    let (buffer, slots) ← WordFixed.exposeSlots w s.buffer
    let slots ← unwrap slots
    return ({ s with buffer := buffer }, .ok slots)
  else
    match ← drain w debug C s with
    | (s, .error e) => return (s, .error e)
    | (s, .ok ()) =>
      let (buffer, slots) ← WordFixed.exposeSlots w s.buffer
      let slots ← unwrap slots
      return ({ s with buffer := buffer }, .ok slots)

/-- consumer/bulk_scrambler.rs:233-237 -/
def consumeSlots (w : Word) (s : ConsumerScrambler σ I) (amount : Nat) : Outcome (ConsumerScrambler σ I × Except E Unit) := do
  let buffer ← WordFixed.considerEnqueued w s.buffer amount
  return ({ s with buffer := buffer }, .ok ())

end WordConsumerScrambler

/-- consumer/bulk_scrambler.rs:152-238 -/
noncomputable def wordConsumerScrambler {σ I F E : Type} (w : Word) (debug : Bool) (C : BulkConsumer σ I F E) :
    BulkConsumer (ConsumerScrambler σ I) I F E where
  consume := WordConsumerScrambler.consume w debug C
  close := WordConsumerScrambler.close w debug C
  flush := WordConsumerScrambler.flush w debug C
  exposeSlots := WordConsumerScrambler.exposeSlots w debug C
  writeSlots s ws := { s with buffer := WordFixed.writeSlots w s.buffer ws }
  consumeSlots := WordConsumerScrambler.consumeSlots w

end Verif
