import Verif.Model.Consumers
import Verif.Model.Scramblers

/-!
# `TestYielder`, `TestProducer`, `TestConsumer`

Model of `/repo/ufotofu/src/test_yielder.rs`, `/repo/ufotofu/src/producer/test_producer.rs` and
`/repo/ufotofu/src/consumer/test_consumer.rs`.

The structs `TestProducer` and `TestConsumer` contain the *public* types `FromBoxedSlice` and `IntoVec`, i.e. `Invariant`s
around the types of that name in `Model/Producers.lean` and `Model/Consumers.lean`. `test` says whether the crate is compiled
with `cfg(test)`, in which case these wrappers check the invariants of the traits.

Simplification: `usize::MAX`, which `expose_slots` uses as "no bound" is modelled as the absence of a bound.
-/

namespace Verif

open Outcome

/-! ## `Invariant`, as selected by `cfg(test)` -/

section

variable {σ I F E : Type}

/-- `/repo/ufotofu/src/producer/invariant_noop.rs:64-93`, with a state that has the (unused) fields of `InvariantSt`, such
that both kinds of builds have the same type of states. -/
def unusedInvariantBulkProducer (P : BulkProducer σ I F E) : BulkProducer (InvariantSt σ) I F E where
  produce s := do
    let (inner, r) ← P.produce s.inner
    return ({ s with inner := inner }, r)
  slurp s := do
    let (inner, r) ← P.slurp s.inner
    return ({ s with inner := inner }, r)
  exposeItems s := do
    let (inner, r) ← P.exposeItems s.inner
    return ({ s with inner := inner }, r)
  considerProduced s amount := do
    let (inner, r) ← P.considerProduced s.inner amount
    return ({ s with inner := inner }, r)

/-- The type `Invariant` of the crate (`/repo/ufotofu/src/producer.rs`). -/
def publicProducer (test : Bool) (P : BulkProducer σ I F E) : BulkProducer (InvariantSt σ) I F E :=
  if test then invariantBulkProducer P else unusedInvariantBulkProducer P

/-- `/repo/ufotofu/src/consumer/invariant_noop.rs:60-100`, with a state that has the (unused) fields of `InvariantSt`. -/
def unusedInvariantBulkConsumer (C : BulkConsumer σ I F E) : BulkConsumer (InvariantSt σ) I F E where
  consume s item := do
    let (inner, r) ← C.consume s.inner item
    return ({ s with inner := inner }, r)
  close s fin := do
    let (inner, r) ← C.close s.inner fin
    return ({ s with inner := inner }, r)
  flush s := do
    let (inner, r) ← C.flush s.inner
    return ({ s with inner := inner }, r)
  exposeSlots s := do
    let (inner, r) ← C.exposeSlots s.inner
    return ({ s with inner := inner }, r)
  writeSlots s ws := { s with inner := C.writeSlots s.inner ws }
  consumeSlots s amount := do
    let (inner, r) ← C.consumeSlots s.inner amount
    return ({ s with inner := inner }, r)

/-- The type `Invariant` of the crate (`/repo/ufotofu/src/consumer.rs`). -/
def publicConsumer (test : Bool) (C : BulkConsumer σ I F E) : BulkConsumer (InvariantSt σ) I F E :=
  if test then invariantBulkConsumer C else unusedInvariantBulkConsumer C

end

/-! ## `TestYielder` -/

/-- `/repo/ufotofu/src/test_yielder.rs:14-17`. `wakes` counts the calls of `wake_by_ref`, `suspensions` how often `poll`
returned `Pending`; the code contains neither. -/
structure TestYielder where
  pattern : List Bool
  index : Nat
  wakes : Nat := 0
  suspensions : Nat := 0
  deriving DecidableEq, Repr

namespace TestYielder

/-- The patterns that are `true` throughout (including the empty one) get a `false` appended:
test_yielder.rs:20-34, producer/test_producer.rs:260-272, consumer/test_consumer.rs:260-272. -/
def extended (pattern : List Bool) : List Bool := if pattern.all (fun b => b) then pattern ++ [false] else pattern

/-- test_yielder.rs:20-34 -/
def new (pattern : List Bool) : TestYielder := { pattern := extended pattern, index := 0 }

/-- test_yielder.rs:61-71 `MaybeYield::poll`; `true` is `Pending`, `false` is `Ready`. -/
def poll (y : TestYielder) : Outcome (TestYielder × Bool) := do
  let doYield ← Outcome.index y.pattern y.index
  let index ← mod (y.index + 1) y.pattern.length
  let y := { y with index := index }
  if doYield then
    return ({ y with wakes := y.wakes + 1 }, true)
  else
    return (y, false)

/-- Polling the future once. An executor polls a suspended future again only after it has been woken. -/
def awaitBody (y : TestYielder) : Outcome (Step TestYielder TestYielder) := do
  match ← y.poll with
  | (y', false) => return .done y'
  | (y', true) => if y'.wakes = y.wakes then diverge else return .continue { y' with suspensions := y'.suspensions + 1 }

/-- test_yielder.rs:37-39 `maybe_yield().await` -/
noncomputable def maybeYield (y : TestYielder) : Outcome TestYielder := loop awaitBody y

end TestYielder

/-- `maybe_yield`, producer/test_producer.rs:326-331, consumer/test_consumer.rs:340-345. -/
noncomputable def maybeYield : Option TestYielder → Outcome (Option TestYielder)
  | none => return none
  | some y => return some (← y.maybeYield)

/-- A list of sizes together with the current index (producer/test_producer.rs:305, consumer/test_consumer.rs:307). -/
structure Sizes where
  sizes : List NonZero
  index : Nat

namespace Sizes

/-- An empty list of sizes is ignored: producer/test_producer.rs:247-255 and 295, consumer/test_consumer.rs:247-255 and 295. -/
def new (sizes : List NonZero) : Option Sizes := if sizes.length > 0 then some ⟨sizes, 0⟩ else none

/-- producer/test_producer.rs:392-393, consumer/test_consumer.rs:409-410 -/
def next (z : Sizes) : Outcome (Sizes × Nat) := do
  let maxLen ← Outcome.index z.sizes z.index
  let index ← mod (z.index + 1) z.sizes.length
  return ({ z with index := index }, maxLen)

end Sizes

/-! ## `TestProducer` -/

/-- `Result::unwrap` -/
def unwrapResult {E A : Type} : Except E A → Outcome A
  | .ok a => ok a
  | .error _ => .panic

/-- `Either::unwrap_left` -/
def unwrapLeft {A B : Type} : A ⊕ B → Outcome A
  | .inl a => ok a
  | .inr _ => .panic

/-- producer/test_producer.rs:302-307 -/
structure TestProducer (I F E : Type) where
  inner : InvariantSt (FromBoxedSlice I)
  last : Option (Except E F)
  sizes : Option Sizes
  yielder : Option TestYielder

namespace TestProducer

variable {I F E : Type}

/-- producer/test_producer.rs:216-223, 247-272, 291-298: `TestProducerBuilder::new(items, last)`, then
`.exposed_items_sizes(sizes)`, then `.yield_pattern(pattern)` if there is one, then `.build()`, up to the `Invariant`
around it. (Not giving any sizes has the same effect as giving an empty list.) -/
def new (items : List I) (last : Except E F) (sizes : List NonZero) (pattern : Option (List Bool)) : TestProducer I F E where
  inner := .new (.new items)
  last := some last
  sizes := Sizes.new sizes
  yielder := pattern.map fun p => .new (TestYielder.extended p)

/-- producer/test_producer.rs:310-312 -/
def remaining (s : TestProducer I F E) : Outcome (List I) := s.inner.inner.notYetProduced

/-- producer/test_producer.rs:314-316 -/
def intoData (s : TestProducer I F E) : List I × Option (Except E F) := (s.inner.inner.intoInner, s.last)

/-- producer/test_producer.rs:318-320 -/
def peekLast (s : TestProducer I F E) : Option (Except E F) := s.last

/-- producer/test_producer.rs:322-324 -/
def didAlreadyEmitLast (s : TestProducer I F E) : Bool := s.last.isNone

/-- The public type `FromBoxedSlice`. -/
abbrev slice (test : Bool) : BulkProducer (InvariantSt (FromBoxedSlice I)) I Unit Empty :=
  publicProducer test (FromBoxedSlice.producer I)

/-- producer/test_producer.rs:339-351 -/
noncomputable def produce (test : Bool) (s : TestProducer I F E) : Outcome (TestProducer I F E × Except E (I ⊕ F)) := do
  let yielder ← maybeYield s.yielder
  let s := { s with yielder := yielder }
  if (← s.remaining).isEmpty then
    let last ← unwrap s.last
    return ({ s with last := none }, last.map .inr)
  else
    let (inner, r) ← (slice test).produce s.inner
    let item ← unwrapLeft (← unwrapResult r)
    return ({ s with inner := inner }, .ok (.inl item))

/-- The check in producer/test_producer.rs:357-363 and 409-415: the last value is taken if it is an error and no items are
left. -/
def takeError (s : TestProducer I F E) : Outcome (TestProducer I F E × Option E) := do
  if (← s.remaining).isEmpty then
    match ← unwrap s.last with
    | .ok _ => return (s, none)
    | .error err => return ({ s with last := none }, some err)
  else
    return (s, none)

/-- producer/test_producer.rs:355-366 -/
noncomputable def slurp (s : TestProducer I F E) : Outcome (TestProducer I F E × Except E Unit) := do
  let yielder ← maybeYield s.yielder
  let s := { s with yielder := yielder }
  match ← s.takeError with
  | (s, some err) => return (s, .error err)
  | (s, none) => return (s, .ok ())

/-- producer/test_producer.rs:370-405 -/
noncomputable def exposeItems (test : Bool) (s : TestProducer I F E) :
    Outcome (TestProducer I F E × Except E (List I ⊕ F)) := do
  let yielder ← maybeYield s.yielder
  let s := { s with yielder := yielder }
  if (← s.remaining).isEmpty then
    let last ← unwrap s.last
    return ({ s with last := none }, last.map .inr)
  else
    match s.sizes with
    | none =>
      let (inner, r) ← (slice test).exposeItems s.inner
      let items ← unwrapLeft (← unwrapResult r)
      return ({ s with inner := inner }, .ok (.inl items))
    | some sizes =>
      let (sizes, maxLen) ← sizes.next
      let (inner, r) ← (slice test).exposeItems s.inner
      let innerSlots ← unwrapLeft (← unwrapResult r)
      let actualLen := min innerSlots.length maxLen
      let items ← Outcome.slice innerSlots 0 actualLen
      return ({ s with inner := inner, sizes := some sizes }, .ok (.inl items))

/-- producer/test_producer.rs:407-423 -/
noncomputable def considerProduced (test : Bool) (s : TestProducer I F E) (amount : Nat) :
    Outcome (TestProducer I F E × Except E Unit) := do
  let yielder ← maybeYield s.yielder
  let s := { s with yielder := yielder }
  match ← s.takeError with
  | (s, some err) => return (s, .error err)
  | (s, none) =>
    let (inner, r) ← (slice test).considerProduced s.inner amount
    unwrapResult r
    return ({ s with inner := inner }, .ok ())

/-- producer/test_producer.rs:334-424 -/
noncomputable def producer (test : Bool) (I F E : Type) : BulkProducer (TestProducer I F E) I F E where
  produce := produce test
  slurp := slurp
  exposeItems := exposeItems test
  considerProduced := considerProduced test

end TestProducer

/-! ## `TestConsumer` -/

/-- consumer/test_consumer.rs:302-309 -/
structure TestConsumer (I F E : Type) where
  inner : InvariantSt (IntoVec I)
  fin : Option F
  error : Option E
  consumptionsUntilError : Nat
  sizes : Option Sizes
  yielder : Option TestYielder

namespace TestConsumer

variable {I F E : Type}

/-- consumer/test_consumer.rs:218-225, 247-272, 289-298: `TestConsumerBuilder::new(error, consumptions)`, then
`.exposed_slot_sizes(sizes)`, then `.yield_pattern(pattern)` if there is one, then `.build()`, up to the `Invariant` around
it. -/
def new (error : E) (consumptions : Nat) (sizes : List NonZero) (pattern : Option (List Bool)) : TestConsumer I F E where
  inner := .new .new
  fin := none
  error := some error
  consumptionsUntilError := consumptions
  sizes := Sizes.new sizes
  yielder := pattern.map fun p => .new (TestYielder.extended p)

/-- consumer/test_consumer.rs:312-314 -/
def consumed (s : TestConsumer I F E) : Outcome (List I) := s.inner.inner.asRef

/-- consumer/test_consumer.rs:316-318 -/
def finalConsumed (s : TestConsumer I F E) : Option F := s.fin

/-- consumer/test_consumer.rs:320-322 -/
def intoConsumed (s : TestConsumer I F E) : List I × Option F := (s.inner.inner.intoVec, s.fin)

/-- consumer/test_consumer.rs:324-326 -/
def peekError (s : TestConsumer I F E) : Option E := s.error

/-- consumer/test_consumer.rs:328-330 -/
def didError (s : TestConsumer I F E) : Bool := s.error.isNone

/-- consumer/test_consumer.rs:332-338; `some err` is `Err(err)`. -/
def checkError (s : TestConsumer I F E) : Outcome (TestConsumer I F E × Option E) := do
  if s.consumptionsUntilError = 0 then
    let err ← unwrap s.error
    return ({ s with error := none }, some err)
  else
    return (s, none)

/-- The first two lines of every method: `self.maybe_yield().await; self.check_error()?`. -/
noncomputable def enter (s : TestConsumer I F E) : Outcome (TestConsumer I F E × Option E) := do
  let yielder ← maybeYield s.yielder
  { s with yielder := yielder }.checkError

variable [Inhabited I]

/-- The public type `IntoVec`. -/
abbrev vec (test : Bool) : BulkConsumer (InvariantSt (IntoVec I)) I Unit Empty :=
  publicConsumer test (IntoVec.consumer I)

/-- consumer/test_consumer.rs:366-373 -/
noncomputable def consume (test : Bool) (s : TestConsumer I F E) (item : I) :
    Outcome (TestConsumer I F E × Except E Unit) := do
  match ← s.enter with
  | (s, some err) => return (s, .error err)
  | (s, none) =>
    let (inner, r) ← (vec test).consume s.inner item
    unwrapResult r
    let left ← sub s.consumptionsUntilError 1
    return ({ s with inner := inner, consumptionsUntilError := left }, .ok ())

/-- consumer/test_consumer.rs:375-382 -/
noncomputable def close (test : Bool) (s : TestConsumer I F E) (fin : F) :
    Outcome (TestConsumer I F E × Except E Unit) := do
  match ← s.enter with
  | (s, some err) => return (s, .error err)
  | (s, none) =>
    let (inner, r) ← (vec test).close s.inner ()
    unwrapResult r
    return ({ s with inner := inner, fin := some fin }, .ok ())

/-- consumer/test_consumer.rs:386-392 -/
noncomputable def flush (test : Bool) (s : TestConsumer I F E) : Outcome (TestConsumer I F E × Except E Unit) := do
  match ← s.enter with
  | (s, some err) => return (s, .error err)
  | (s, none) =>
    let (inner, r) ← (vec test).flush s.inner
    unwrapResult r
    return ({ s with inner := inner }, .ok ())

/-- Body of the `while` loop of consumer/test_consumer.rs:417-419. -/
def growBody (minLen : Nat) (v : IntoVec I) : Outcome (Step (IntoVec I) (IntoVec I)) := do
  if (← v.remainingSlots) < minLen then
    return .continue v.makeSpaceEvenIfNotNeeded
  else
    return .done v

/-- consumer/test_consumer.rs:406-413; no bound is `none`. -/
def nextSize (s : TestConsumer I F E) : Outcome (TestConsumer I F E × Option Nat) := do
  match s.sizes with
  | none => return (s, none)
  | some sizes =>
    let (sizes, maxLen) ← sizes.next
    return ({ s with sizes := some sizes }, some maxLen)

/-- consumer/test_consumer.rs:399-428 -/
noncomputable def exposeSlots (test : Bool) (s : TestConsumer I F E) :
    Outcome (TestConsumer I F E × Except E (List I)) := do
  match ← s.enter with
  | (s, some err) => return (s, .error err)
  | (s, none) =>
    let (s, maxLen) ← s.nextSize
    let minLen := match maxLen with
      | none => 2048
      | some maxLen => min maxLen 2048
    let v ← loop (growBody minLen) s.inner.inner
    let (inner, r) ← (vec test).exposeSlots { s.inner with inner := v }
    let innerSlots ← unwrapResult r
    let bounded := match maxLen with
      | none => innerSlots.length
      | some maxLen => min innerSlots.length maxLen
    let actualLen := min bounded s.consumptionsUntilError
    let slots ← Outcome.slice innerSlots 0 actualLen
    return ({ s with inner := inner }, .ok slots)

/-- consumer/test_consumer.rs:430-439 -/
noncomputable def consumeSlots (test : Bool) (s : TestConsumer I F E) (amount : Nat) :
    Outcome (TestConsumer I F E × Except E Unit) := do
  match ← s.enter with
  | (s, some err) => return (s, .error err)
  | (s, none) =>
    let (inner, r) ← (vec test).consumeSlots s.inner amount
    unwrapResult r
    let left ← sub s.consumptionsUntilError amount
    return ({ s with inner := inner, consumptionsUntilError := left }, .ok ())

/-- consumer/test_consumer.rs:361-440 -/
noncomputable def consumer (test : Bool) (I F E : Type) [Inhabited I] : BulkConsumer (TestConsumer I F E) I F E where
  consume := consume test
  close := close test
  flush := flush test
  exposeSlots := exposeSlots test
  writeSlots s ws := { s with inner := (vec test).writeSlots s.inner ws }
  consumeSlots := consumeSlots test

end TestConsumer

end Verif
