import Verif.Model.Traits
import Verif.Model.Queue

/-!
# The two `BulkScrambler`s

Model of `/repo/ufotofu/src/producer/bulk_scrambler.rs` and `/repo/ufotofu/src/consumer/bulk_scrambler.rs`.

The public types `BulkScrambler` are newtypes around `Invariant<BulkScrambler>`; their trait methods forward to the wrapped
`Invariant`, so they are `invariantBulkProducer (producerScrambler ..)` etc.

`debug` says whether the code is built with `debug_assertions`.
-/

namespace Verif

open Outcome

/-- `NonZeroUsize` -/
abbrev NonZero := { n : Nat // 0 < n }

/-- `debug_assert!` -/
def debugAssert (debug b : Bool) : Outcome Unit := if debug then assert b else ok ()

/-! ## Producer -/

/-- `/repo/ufotofu/src/producer/bulk_scrambler.rs:19-24` `BulkProducerOperation` -/
inductive ScrambleProduce where
  | produce
  | considerProduced (n : NonZero)
  | slurp
  deriving DecidableEq

/-- producer/bulk_scrambler.rs:26-34 `do_operations_make_progress` -/
def ScrambleProduce.makeProgress : List ScrambleProduce → Bool
  | [] => false
  | op :: ops => if op ≠ .slurp then true else makeProgress ops

/-- producer/bulk_scrambler.rs:113-130 `struct BulkScrambler` -/
structure ProducerScrambler (σ I F E : Type) where
  inner : σ
  buffer : Fixed I
  last : Option (Except E F)
  operations : List ScrambleProduce
  index : Nat

namespace ProducerScrambler

variable {σ I F E : Type}

/-- producer/bulk_scrambler.rs:62-78 `new_with_capacity` (and `new`, 53-55, with capacity 2048). `tmp` are the default values
that the queue is filled with. -/
def new (inner : σ) (operations : List ScrambleProduce) (capacity : Nat) (tmp : Nat → I) : ProducerScrambler σ I F E where
  inner := inner
  buffer := .new capacity tmp
  last := none
  operations := if ScrambleProduce.makeProgress operations then operations else operations ++ [.produce]
  index := 0

/-- producer/bulk_scrambler.rs:134-136 (and, through `Invariant`, 83-85). -/
def intoInner (s : ProducerScrambler σ I F E) : σ := s.inner

/-- producer/bulk_scrambler.rs:138-140 -/
def advance (s : ProducerScrambler σ I F E) : Outcome (ProducerScrambler σ I F E) := do
  let index ← mod (s.index + 1) s.operations.length
  return { s with index := index }

/-- producer/bulk_scrambler.rs:271-313 `perform_operation` -/
def performOperation (debug : Bool) (P : BulkProducer σ I F E) (s : ProducerScrambler σ I F E) :
    Outcome (ProducerScrambler σ I F E × Except E (Option F)) := do
  debugAssert debug (s.buffer.len < s.buffer.capacity)
  match ← Outcome.index s.operations s.index with
  | .produce =>
    match ← P.produce s.inner with
    | (inner, .error e) => return ({ s with inner := inner }, .error e)
    | (inner, .ok (.inl item)) =>
      let (buffer, yay) ← s.buffer.enqueue item
      debugAssert debug yay.isNone
      return (← { s with inner := inner, buffer := buffer }.advance, .ok none)
    | (inner, .ok (.inr fin)) => return ({ s with inner := inner }, .ok (some fin))
  | .considerProduced n =>
    match ← P.exposeItems s.inner with
    | (inner, .error e) => return ({ s with inner := inner }, .error e)
    | (inner, .ok (.inl slots)) =>
      let available ← slice slots 0 (min slots.length n)
      let (buffer, amount) ← (Fixed.queue I).bulkEnqueue s.buffer available
      match ← P.considerProduced inner amount with
      | (inner, .error e) => return ({ s with inner := inner, buffer := buffer }, .error e)
      | (inner, .ok ()) => return (← { s with inner := inner, buffer := buffer }.advance, .ok none)
    | (inner, .ok (.inr fin)) => return ({ s with inner := inner }, .ok (some fin))
  | .slurp =>
    match ← P.slurp s.inner with
    | (inner, .error e) => return ({ s with inner := inner }, .error e)
    | (inner, .ok ()) => return (← { s with inner := inner }.advance, .ok none)

/-- Body of the `while` loop of `fill_queue`, producer/bulk_scrambler.rs:252-260. -/
def fillBody (debug : Bool) (P : BulkProducer σ I F E) (s : ProducerScrambler σ I F E) :
    Outcome (Step (ProducerScrambler σ I F E) (ProducerScrambler σ I F E)) := do
  if s.last.isNone && s.buffer.len < s.buffer.capacity then
    match ← s.performOperation debug P with
    | (s, .ok none) => return .continue s
    | (s, .ok (some fin)) => return .continue { s with last := some (.ok fin) }
    | (s, .error err) => return .continue { s with last := some (.error err) }
  else
    return .done s

/-- producer/bulk_scrambler.rs:247-269 `fill_queue` -/
noncomputable def fillQueue (debug : Bool) (P : BulkProducer σ I F E) (s : ProducerScrambler σ I F E) :
    Outcome (ProducerScrambler σ I F E × Option (Except E F)) := do
  let s ← loop (fillBody debug P) s
  if s.buffer.len = 0 then
    return ({ s with last := none }, s.last)
  else
    return (s, none)

/-- producer/bulk_scrambler.rs:165-177 -/
noncomputable def produce (debug : Bool) (P : BulkProducer σ I F E) (s : ProducerScrambler σ I F E) :
    Outcome (ProducerScrambler σ I F E × Except E (I ⊕ F)) := do
  match ← s.fillQueue debug P with
  | (s, some last) => return (s, last.map .inr)
  | (s, none) =>
    let (buffer, item) ← s.buffer.dequeue
    let item ← unwrap item
    return ({ s with buffer := buffer }, .ok (.inl item))

/-- The second half of `slurp`, producer/bulk_scrambler.rs:199-209. -/
def slurpInner (P : BulkProducer σ I F E) (s : ProducerScrambler σ I F E) :
    Outcome (ProducerScrambler σ I F E × Except E Unit) := do
  match ← P.slurp s.inner with
  | (inner, .error err) =>
    if s.buffer.len = 0 then
      return ({ s with inner := inner }, .error err)
    else
      return ({ s with inner := inner, last := some (.error err) }, .ok ())
  | (inner, .ok ()) => return ({ s with inner := inner }, .ok ())

/-- producer/bulk_scrambler.rs:184-210 -/
noncomputable def slurp (debug : Bool) (P : BulkProducer σ I F E) (s : ProducerScrambler σ I F E) :
    Outcome (ProducerScrambler σ I F E × Except E Unit) := do
  match ← s.fillQueue debug P with
  | (s, some (.error err)) => return (s, .error err)
  | (s, some (.ok fin)) => slurpInner P { s with last := some (.ok fin) }
  | (s, none) => slurpInner P s

/-- producer/bulk_scrambler.rs:217-234 -/
noncomputable def exposeItems (debug : Bool) (P : BulkProducer σ I F E) (s : ProducerScrambler σ I F E) :
    Outcome (ProducerScrambler σ I F E × Except E (List I ⊕ F)) := do
  match ← s.fillQueue debug P with
  | (s, some last) => return (s, last.map .inr)
  | (s, none) =>
    let (buffer, slots) ← s.buffer.exposeItems
    let slots ← unwrap slots
    return ({ s with buffer := buffer }, .ok (.inl slots))

/-- producer/bulk_scrambler.rs:236-240 -/
def considerProduced (s : ProducerScrambler σ I F E) (amount : Nat) :
    Outcome (ProducerScrambler σ I F E × Except E Unit) := do
  let buffer ← s.buffer.considerDequeued amount
  return ({ s with buffer := buffer }, .ok ())

end ProducerScrambler

/-- producer/bulk_scrambler.rs:157-241, the trait implementations of `BulkScrambler`; `bulk_produce` is not overridden. -/
noncomputable def producerScrambler {σ I F E : Type} (debug : Bool) (P : BulkProducer σ I F E) :
    BulkProducer (ProducerScrambler σ I F E) I F E where
  produce := ProducerScrambler.produce debug P
  slurp := ProducerScrambler.slurp debug P
  exposeItems := ProducerScrambler.exposeItems debug P
  considerProduced := ProducerScrambler.considerProduced

/-! ## Consumer -/

/-- `/repo/ufotofu/src/consumer/bulk_scrambler.rs:18-23` `BulkConsumerOperation` -/
inductive ScrambleConsume where
  | consume
  | consumeSlots (n : NonZero)
  | flush
  deriving DecidableEq

/-- consumer/bulk_scrambler.rs:25-33 `do_operations_make_progress` -/
def ScrambleConsume.makeProgress : List ScrambleConsume → Bool
  | [] => false
  | op :: ops => if op ≠ .flush then true else makeProgress ops

/-- consumer/bulk_scrambler.rs:111-127 `struct BulkScrambler` -/
structure ConsumerScrambler (σ I : Type) where
  inner : σ
  buffer : Fixed I
  operations : List ScrambleConsume
  index : Nat

namespace ConsumerScrambler

variable {σ I F E : Type}

/-- consumer/bulk_scrambler.rs:61-76 `new_with_capacity` (and `new`, 52-54, with capacity 2048). `tmp` are the default values
that the queue is filled with. -/
def new (inner : σ) (operations : List ScrambleConsume) (capacity : Nat) (tmp : Nat → I) : ConsumerScrambler σ I where
  inner := inner
  buffer := .new capacity tmp
  operations := if ScrambleConsume.makeProgress operations then operations else operations ++ [.consume]
  index := 0

/-- consumer/bulk_scrambler.rs:131-133 (and, through `Invariant`, 81-83). -/
def intoInner (s : ConsumerScrambler σ I) : σ := s.inner

/-- consumer/bulk_scrambler.rs:135-137 -/
def advance (s : ConsumerScrambler σ I) : Outcome (ConsumerScrambler σ I) := do
  let index ← mod (s.index + 1) s.operations.length
  return { s with index := index }

/-- consumer/bulk_scrambler.rs:244-287 `perform_operation`. In the second case `slots` are the contents of the exposed slots,
whose first `available` ones are overwritten by `bulk_dequeue`. -/
def performOperation (debug : Bool) (C : BulkConsumer σ I F E) (s : ConsumerScrambler σ I) :
    Outcome (ConsumerScrambler σ I × Except E Unit) := do
  debugAssert debug (s.buffer.len > 0)
  match ← Outcome.index s.operations s.index with
  | .consume =>
    let (buffer, item) ← s.buffer.dequeue
    let item ← unwrap item
    match ← C.consume s.inner item with
    | (inner, .error e) => return ({ s with inner := inner, buffer := buffer }, .error e)
    | (inner, .ok ()) => return (← { s with inner := inner, buffer := buffer }.advance, .ok ())
  | .consumeSlots n =>
    match ← C.exposeSlots s.inner with
    | (inner, .error e) => return ({ s with inner := inner }, .error e)
    | (inner, .ok slots) =>
      let available ← slice slots 0 (min slots.length n)
      let (buffer, amount, written) ← (Fixed.queue I).bulkDequeue s.buffer available
      match ← C.consumeSlots (C.writeSlots inner written) amount with
      | (inner, .error e) => return ({ s with inner := inner, buffer := buffer }, .error e)
      | (inner, .ok ()) => return (← { s with inner := inner, buffer := buffer }.advance, .ok ())
  | .flush =>
    match ← C.flush s.inner with
    | (inner, .error e) => return ({ s with inner := inner }, .error e)
    | (inner, .ok ()) => return (← { s with inner := inner }.advance, .ok ())

/-- Body of the loop `while self.buffer.len() > 0 { self.perform_operation().await?; }`, consumer/bulk_scrambler.rs:163-165,
176-178, 191-193, 221-223. -/
def drainBody (debug : Bool) (C : BulkConsumer σ I F E) (s : ConsumerScrambler σ I) :
    Outcome (Step (ConsumerScrambler σ I) (ConsumerScrambler σ I × Except E Unit)) := do
  if s.buffer.len > 0 then
    match ← s.performOperation debug C with
    | (s, .ok ()) => return .continue s
    | (s, .error e) => return .done (s, .error e)
  else
    return .done (s, .ok ())

/-- consumer/bulk_scrambler.rs:163-165, 176-178, 191-193, 220-222 -/
noncomputable def drain (debug : Bool) (C : BulkConsumer σ I F E) (s : ConsumerScrambler σ I) :
    Outcome (ConsumerScrambler σ I × Except E Unit) :=
  loop (drainBody debug C) s

/-- consumer/bulk_scrambler.rs:160-172; the `debug_assert` is `yay.is_some()` in the code. -/
noncomputable def consume (debug : Bool) (C : BulkConsumer σ I F E) (s : ConsumerScrambler σ I) (item : I) :
    Outcome (ConsumerScrambler σ I × Except E Unit) := do
  match ← s.buffer.enqueue item with
  | (buffer, some item) =>
    match ← { s with buffer := buffer }.drain debug C with
    | (s, .error e) => return (s, .error e)
    | (s, .ok ()) =>
      let (buffer, yay) ← s.buffer.enqueue item
      debugAssert debug yay.isSome
      return ({ s with buffer := buffer }, .ok ())
  | (buffer, none) => return ({ s with buffer := buffer }, .ok ())

/-- consumer/bulk_scrambler.rs:174-182 -/
noncomputable def close (debug : Bool) (C : BulkConsumer σ I F E) (s : ConsumerScrambler σ I) (fin : F) :
    Outcome (ConsumerScrambler σ I × Except E Unit) := do
  match ← s.drain debug C with
  | (s, .error e) => return (s, .error e)
  | (s, .ok ()) =>
    let (inner, r) ← C.close s.inner fin
    return ({ s with inner := inner }, r)

/-- consumer/bulk_scrambler.rs:189-197 -/
noncomputable def flush (debug : Bool) (C : BulkConsumer σ I F E) (s : ConsumerScrambler σ I) :
    Outcome (ConsumerScrambler σ I × Except E Unit) := do
  match ← s.drain debug C with
  | (s, .error e) => return (s, .error e)
  | (s, .ok ()) =>
    let (inner, r) ← C.flush s.inner
    return ({ s with inner := inner }, r)

/-- consumer/bulk_scrambler.rs:204-231 -/
noncomputable def exposeSlots (debug : Bool) (C : BulkConsumer σ I F E) (s : ConsumerScrambler σ I) :
    Outcome (ConsumerScrambler σ I × Except E (List I)) := do
  if s.buffer.len < s.buffer.capacity then
    let (buffer, slots) ← s.buffer.exposeSlots
    let slots ← unwrap slots
    return ({ s with buffer := buffer }, .ok slots)
  else
    match ← s.drain debug C with
    | (s, .error e) => return (s, .error e)
    | (s, .ok ()) =>
      let (buffer, slots) ← s.buffer.exposeSlots
      let slots ← unwrap slots
      return ({ s with buffer := buffer }, .ok slots)

/-- consumer/bulk_scrambler.rs:233-237 -/
def consumeSlots (s : ConsumerScrambler σ I) (amount : Nat) : Outcome (ConsumerScrambler σ I × Except E Unit) := do
  let buffer ← s.buffer.considerEnqueued amount
  return ({ s with buffer := buffer }, .ok ())

end ConsumerScrambler

/-- consumer/bulk_scrambler.rs:152-238, the trait implementations of `BulkScrambler`; `bulk_consume` is not overridden. The
exposed slots are those of the queue. -/
noncomputable def consumerScrambler {σ I F E : Type} (debug : Bool) (C : BulkConsumer σ I F E) :
    BulkConsumer (ConsumerScrambler σ I) I F E where
  consume := ConsumerScrambler.consume debug C
  close := ConsumerScrambler.close debug C
  flush := ConsumerScrambler.flush debug C
  exposeSlots := ConsumerScrambler.exposeSlots debug C
  writeSlots s ws := { s with buffer := s.buffer.writeSlots ws }
  consumeSlots := ConsumerScrambler.consumeSlots

end Verif
