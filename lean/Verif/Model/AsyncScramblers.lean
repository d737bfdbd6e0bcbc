import Verif.Model.Scramblers
import Verif.Model.AsyncTraits

/-!
# The two `BulkScrambler`s, poll by poll

Model of `/repo/ufotofu/src/producer/bulk_scrambler.rs` and `/repo/ufotofu/src/consumer/bulk_scrambler.rs`, as
`Verif/Model/Scramblers.lean`, for wrapped producers and consumers whose futures may be pending. (The methods of the queue are
not asynchronous.)
-/

namespace Verif.Async

open Outcome

/-! ## Producer -/

namespace ProducerScrambler

variable {σ I F E : Type}

/-- producer/bulk_scrambler.rs:271-313 `perform_operation` -/
def performOperation (debug : Bool) (P : BulkProducer σ I F E) (s : ProducerScrambler σ I F E) :
    Fut (ProducerScrambler σ I F E × Except E (Option F)) := do
  debugAssert debug (s.buffer.len < s.buffer.capacity)
  match ← Outcome.index s.operations s.index with
  | .produce =>
    match ← P.produce s.inner with
    | (inner, .error e) => return ({ s with inner := inner }, .error e)
    | (inner, .ok (.inl item)) =>
      let (buffer, yay) ← s.buffer.enqueue item
      debugAssert debug yay.isNone
      return (← { s with inner := inner, buffer := buffer }.advance, .ok none)
    | (inner, .ok (.inr fin)) => return ({ s with inner := inner }, .ok (some fin))
  | .considerProduced n =>
    match ← P.exposeItems s.inner with
    | (inner, .error e) => return ({ s with inner := inner }, .error e)
    | (inner, .ok (.inl slots)) =>
      let available ← slice slots 0 (min slots.length n)
      let (buffer, amount) ← (Fixed.queue I).bulkEnqueue s.buffer available
      match ← P.considerProduced inner amount with
      | (inner, .error e) => return ({ s with inner := inner, buffer := buffer }, .error e)
      | (inner, .ok ()) => return (← { s with inner := inner, buffer := buffer }.advance, .ok none)
    | (inner, .ok (.inr fin)) => return ({ s with inner := inner }, .ok (some fin))
  | .slurp =>
    match ← P.slurp s.inner with
    | (inner, .error e) => return ({ s with inner := inner }, .error e)
    | (inner, .ok ()) => return (← { s with inner := inner }.advance, .ok none)

/-- Body of the `while` loop of `fill_queue`, producer/bulk_scrambler.rs:252-260. -/
def fillBody (debug : Bool) (P : BulkProducer σ I F E) (s : ProducerScrambler σ I F E) :
    Fut (Step (ProducerScrambler σ I F E) (ProducerScrambler σ I F E)) := do
  if s.last.isNone && s.buffer.len < s.buffer.capacity then
    match ← performOperation debug P s with
    | (s, .ok none) => return .continue s
    | (s, .ok (some fin)) => return .continue { s with last := some (.ok fin) }
    | (s, .error err) => return .continue { s with last := some (.error err) }
  else
    return .done s

/-- producer/bulk_scrambler.rs:247-269 `fill_queue` -/
noncomputable def fillQueue (debug : Bool) (P : BulkProducer σ I F E) (s : ProducerScrambler σ I F E) :
    Fut (ProducerScrambler σ I F E × Option (Except E F)) := do
  let s ← Fut.loop (fillBody debug P) s
  if s.buffer.len = 0 then
    return ({ s with last := none }, s.last)
  else
    return (s, none)

/-- producer/bulk_scrambler.rs:165-177 -/
noncomputable def produce (debug : Bool) (P : BulkProducer σ I F E) (s : ProducerScrambler σ I F E) :
    Fut (ProducerScrambler σ I F E × Except E (I ⊕ F)) := do
  match ← fillQueue debug P s with
  | (s, some last) => return (s, last.map .inr)
  | (s, none) =>
    let (buffer, item) ← s.buffer.dequeue
    let item ← unwrap item
    return ({ s with buffer := buffer }, .ok (.inl item))

/-- The second half of `slurp`, producer/bulk_scrambler.rs:199-209. -/
def slurpInner (P : BulkProducer σ I F E) (s : ProducerScrambler σ I F E) :
    Fut (ProducerScrambler σ I F E × Except E Unit) := do
  match ← P.slurp s.inner with
  | (inner, .error err) =>
    if s.buffer.len = 0 then
      return ({ s with inner := inner }, .error err)
    else
      return ({ s with inner := inner, last := some (.error err) }, .ok ())
  | (inner, .ok ()) => return ({ s with inner := inner }, .ok ())

/-- producer/bulk_scrambler.rs:184-210 -/
noncomputable def slurp (debug : Bool) (P : BulkProducer σ I F E) (s : ProducerScrambler σ I F E) :
    Fut (ProducerScrambler σ I F E × Except E Unit) := do
  match ← fillQueue debug P s with
  | (s, some (.error err)) => return (s, .error err)
  | (s, some (.ok fin)) => slurpInner P { s with last := some (.ok fin) }
  | (s, none) => slurpInner P s

/-- producer/bulk_scrambler.rs:217-234 -/
noncomputable def exposeItems (debug : Bool) (P : BulkProducer σ I F E) (s : ProducerScrambler σ I F E) :
    Fut (ProducerScrambler σ I F E × Except E (List I ⊕ F)) := do
  match ← fillQueue debug P s with
  | (s, some last) => return (s, last.map .inr)
  | (s, none) =>
    let (buffer, slots) ← s.buffer.exposeItems
    let slots ← unwrap slots
    return ({ s with buffer := buffer }, .ok (.inl slots))

/-- producer/bulk_scrambler.rs:236-240 -/
def considerProduced (s : ProducerScrambler σ I F E) (amount : Nat) :
    Fut (ProducerScrambler σ I F E × Except E Unit) := do
  let buffer ← s.buffer.considerDequeued amount
  return ({ s with buffer := buffer }, .ok ())

end ProducerScrambler

/-- producer/bulk_scrambler.rs:157-241, the trait implementations of `BulkScrambler`; `bulk_produce` is not overridden. -/
noncomputable def producerScrambler {σ I F E : Type} (debug : Bool) (P : BulkProducer σ I F E) :
    BulkProducer (ProducerScrambler σ I F E) I F E where
  produce := ProducerScrambler.produce debug P
  slurp := ProducerScrambler.slurp debug P
  exposeItems := ProducerScrambler.exposeItems debug P
  considerProduced := ProducerScrambler.considerProduced

/-! ## Consumer -/

namespace ConsumerScrambler

variable {σ I F E : Type}

/-- consumer/bulk_scrambler.rs:244-287 `perform_operation`. In the second case `slots` are the contents of the exposed slots,
whose first `available` ones are overwritten by `bulk_dequeue`. -/
def performOperation (debug : Bool) (C : BulkConsumer σ I F E) (s : ConsumerScrambler σ I) :
    Fut (ConsumerScrambler σ I × Except E Unit) := do
  debugAssert debug (s.buffer.len > 0)
  match ← Outcome.index s.operations s.index with
  | .consume =>
    let (buffer, item) ← s.buffer.dequeue
    let item ← unwrap item
    match ← C.consume s.inner item with
    | (inner, .error e) => return ({ s with inner := inner, buffer := buffer }, .error e)
    | (inner, .ok ()) => return (← { s with inner := inner, buffer := buffer }.advance, .ok ())
  | .consumeSlots n =>
    match ← C.exposeSlots s.inner with
    | (inner, .error e) => return ({ s with inner := inner }, .error e)
    | (inner, .ok slots) =>
      let available ← slice slots 0 (min slots.length n)
      let (buffer, amount, written) ← (Fixed.queue I).bulkDequeue s.buffer available
      match ← C.consumeSlots (C.writeSlots inner written) amount with
      | (inner, .error e) => return ({ s with inner := inner, buffer := buffer }, .error e)
      | (inner, .ok ()) => return (← { s with inner := inner, buffer := buffer }.advance, .ok ())
  | .flush =>
    match ← C.flush s.inner with
    | (inner, .error e) => return ({ s with inner := inner }, .error e)
    | (inner, .ok ()) => return (← { s with inner := inner }.advance, .ok ())

/-- Body of the loop `while self.buffer.len() > 0 { self.perform_operation().await?; }`, consumer/bulk_scrambler.rs:163-165,
176-178, 191-193, 221-223. -/
def drainBody (debug : Bool) (C : BulkConsumer σ I F E) (s : ConsumerScrambler σ I) :
    Fut (Step (ConsumerScrambler σ I) (ConsumerScrambler σ I × Except E Unit)) := do
  if s.buffer.len > 0 then
    match ← performOperation debug C s with
    | (s, .ok ()) => return .continue s
    | (s, .error e) => return .done (s, .error e)
  else
    return .done (s, .ok ())

/-- consumer/bulk_scrambler.rs:163-165, 176-178, 191-193, 220-222 -/
noncomputable def drain (debug : Bool) (C : BulkConsumer σ I F E) (s : ConsumerScrambler σ I) :
    Fut (ConsumerScrambler σ I × Except E Unit) :=
  Fut.loop (drainBody debug C) s

/-- consumer/bulk_scrambler.rs:160-172; the `debug_assert` is `yay.is_some()` in the code. -/
noncomputable def consume (debug : Bool) (C : BulkConsumer σ I F E) (s : ConsumerScrambler σ I) (item : I) :
    Fut (ConsumerScrambler σ I × Except E Unit) := do
  match ← s.buffer.enqueue item with
  | (buffer, some item) =>
    match ← drain debug C { s with buffer := buffer } with
    | (s, .error e) => return (s, .error e)
    | (s, .ok ()) =>
      let (buffer, yay) ← s.buffer.enqueue item
      debugAssert debug yay.isSome
      return ({ s with buffer := buffer }, .ok ())
  | (buffer, none) => return ({ s with buffer := buffer }, .ok ())

/-- consumer/bulk_scrambler.rs:174-182 -/
noncomputable def close (debug : Bool) (C : BulkConsumer σ I F E) (s : ConsumerScrambler σ I) (fin : F) :
    Fut (ConsumerScrambler σ I × Except E Unit) := do
  match ← drain debug C s with
  | (s, .error e) => return (s, .error e)
  | (s, .ok ()) =>
    let (inner, r) ← C.close s.inner fin
    return ({ s with inner := inner }, r)

/-- consumer/bulk_scrambler.rs:189-197 -/
noncomputable def flush (debug : Bool) (C : BulkConsumer σ I F E) (s : ConsumerScrambler σ I) :
    Fut (ConsumerScrambler σ I × Except E Unit) := do
  match ← drain debug C s with
  | (s, .error e) => return (s, .error e)
  | (s, .ok ()) =>
    let (inner, r) ← C.flush s.inner
    return ({ s with inner := inner }, r)

/-- consumer/bulk_scrambler.rs:204-231 -/
noncomputable def exposeSlots (debug : Bool) (C : BulkConsumer σ I F E) (s : ConsumerScrambler σ I) :
    Fut (ConsumerScrambler σ I × Except E (List I)) := do
  if s.buffer.len < s.buffer.capacity then
    let (buffer, slots) ← s.buffer.exposeSlots
    let slots ← unwrap slots
    return ({ s with buffer := buffer }, .ok slots)
  else
    match ← drain debug C s with
    | (s, .error e) => return (s, .error e)
    | (s, .ok ()) =>
      let (buffer, slots) ← s.buffer.exposeSlots
      let slots ← unwrap slots
      return ({ s with buffer := buffer }, .ok slots)

/-- consumer/bulk_scrambler.rs:233-237 -/
def consumeSlots (s : ConsumerScrambler σ I) (amount : Nat) : Fut (ConsumerScrambler σ I × Except E Unit) := do
  let buffer ← s.buffer.considerEnqueued amount
  return ({ s with buffer := buffer }, .ok ())

end ConsumerScrambler

/-- consumer/bulk_scrambler.rs:152-238, the trait implementations of `BulkScrambler`; `bulk_consume` is not overridden. The
exposed slots are those of the queue. -/
noncomputable def consumerScrambler {σ I F E : Type} (debug : Bool) (C : BulkConsumer σ I F E) :
    BulkConsumer (ConsumerScrambler σ I) I F E where
  consume := ConsumerScrambler.consume debug C
  close := ConsumerScrambler.close debug C
  flush := ConsumerScrambler.flush debug C
  exposeSlots := ConsumerScrambler.exposeSlots debug C
  writeSlots s ws := { s with buffer := s.buffer.writeSlots ws }
  consumeSlots := ConsumerScrambler.consumeSlots

end Verif.Async
