import Verif.Model.TestDoubles
import Verif.Model.AsyncTraits

/-!
# The test doubles, poll by poll

Model of `/repo/ufotofu/src/test_yielder.rs`, `/repo/ufotofu/src/producer/test_producer.rs` and
`/repo/ufotofu/src/consumer/test_consumer.rs`, as `Verif/Model/TestDoubles.lean`. Here `maybe_yield` is a future that is pending
or ready according to the pattern.
-/

namespace Verif.Async

open Outcome

/-! ## `TestYielder` -/

namespace TestYielder

/-- test_yielder.rs:61-71 `MaybeYield::poll`, and test_yielder.rs:37-39 `maybe_yield`. (`suspensions` is not part of the code.) -/
def maybeYield (y : TestYielder) : Fut TestYielder where
  κ := TestYielder
  start := y
  poll y := do
    match ← y.poll with
    | (y, false) => return .ready y
    | (y, true) => return .pending { y with suspensions := y.suspensions + 1 }

end TestYielder

/-- `maybe_yield`, producer/test_producer.rs:326-331, consumer/test_consumer.rs:340-345. -/
def maybeYield : Option TestYielder → Fut (Option TestYielder)
  | none => return none
  | some y => return some (← TestYielder.maybeYield y)

/-! ## `TestProducer` -/

namespace TestProducer

variable {I F E : Type}

/-- producer/test_producer.rs:339-351 -/
noncomputable def produce (test : Bool) (s : TestProducer I F E) : Fut (TestProducer I F E × Except E (I ⊕ F)) := do
  let yielder ← maybeYield s.yielder
  let s := { s with yielder := yielder }
  if (← s.remaining).isEmpty then
    let last ← unwrap s.last
    return ({ s with last := none }, last.map .inr)
  else
    let (inner, r) ← (TestProducer.slice test).produce s.inner
    let item ← unwrapLeft (← unwrapResult r)
    return ({ s with inner := inner }, .ok (.inl item))

/-- producer/test_producer.rs:355-366 -/
noncomputable def slurp (s : TestProducer I F E) : Fut (TestProducer I F E × Except E Unit) := do
  let yielder ← maybeYield s.yielder
  let s := { s with yielder := yielder }
  match ← s.takeError with
  | (s, some err) => return (s, .error err)
  | (s, none) => return (s, .ok ())

/-- producer/test_producer.rs:370-405 -/
noncomputable def exposeItems (test : Bool) (s : TestProducer I F E) :
    Fut (TestProducer I F E × Except E (List I ⊕ F)) := do
  let yielder ← maybeYield s.yielder
  let s := { s with yielder := yielder }
  if (← s.remaining).isEmpty then
    let last ← unwrap s.last
    return ({ s with last := none }, last.map .inr)
  else
    match s.sizes with
    | none =>
      let (inner, r) ← (TestProducer.slice test).exposeItems s.inner
      let items ← unwrapLeft (← unwrapResult r)
      return ({ s with inner := inner }, .ok (.inl items))
    | some sizes =>
      let (sizes, maxLen) ← sizes.next
      let (inner, r) ← (TestProducer.slice test).exposeItems s.inner
      let innerSlots ← unwrapLeft (← unwrapResult r)
      let actualLen := min innerSlots.length maxLen
      let items ← Outcome.slice innerSlots 0 actualLen
      return ({ s with inner := inner, sizes := some sizes }, .ok (.inl items))

/-- producer/test_producer.rs:407-423 -/
noncomputable def considerProduced (test : Bool) (s : TestProducer I F E) (amount : Nat) :
    Fut (TestProducer I F E × Except E Unit) := do
  let yielder ← maybeYield s.yielder
  let s := { s with yielder := yielder }
  match ← s.takeError with
  | (s, some err) => return (s, .error err)
  | (s, none) =>
    let (inner, r) ← (TestProducer.slice test).considerProduced s.inner amount
    unwrapResult r
    return ({ s with inner := inner }, .ok ())

/-- producer/test_producer.rs:334-424 -/
noncomputable def producer (test : Bool) (I F E : Type) : BulkProducer (TestProducer I F E) I F E where
  produce := produce test
  slurp := slurp
  exposeItems := exposeItems test
  considerProduced := considerProduced test

end TestProducer

/-! ## `TestConsumer` -/

namespace TestConsumer

variable {I F E : Type}

/-- The first two lines of every method: `self.maybe_yield().await; self.check_error()?`. -/
noncomputable def enter (s : TestConsumer I F E) : Fut (TestConsumer I F E × Option E) := do
  let yielder ← maybeYield s.yielder
  { s with yielder := yielder }.checkError

variable [Inhabited I]

/-- consumer/test_consumer.rs:366-373 -/
noncomputable def consume (test : Bool) (s : TestConsumer I F E) (item : I) :
    Fut (TestConsumer I F E × Except E Unit) := do
  match ← enter s with
  | (s, some err) => return (s, .error err)
  | (s, none) =>
    let (inner, r) ← (TestConsumer.vec test).consume s.inner item
    unwrapResult r
    let left ← sub s.consumptionsUntilError 1
    return ({ s with inner := inner, consumptionsUntilError := left }, .ok ())

/-- consumer/test_consumer.rs:375-382 -/
noncomputable def close (test : Bool) (s : TestConsumer I F E) (fin : F) :
    Fut (TestConsumer I F E × Except E Unit) := do
  match ← enter s with
  | (s, some err) => return (s, .error err)
  | (s, none) =>
    let (inner, r) ← (TestConsumer.vec test).close s.inner ()
    unwrapResult r
    return ({ s with inner := inner, fin := some fin }, .ok ())

/-- consumer/test_consumer.rs:386-392 -/
noncomputable def flush (test : Bool) (s : TestConsumer I F E) : Fut (TestConsumer I F E × Except E Unit) := do
  match ← enter s with
  | (s, some err) => return (s, .error err)
  | (s, none) =>
    let (inner, r) ← (TestConsumer.vec test).flush s.inner
    unwrapResult r
    return ({ s with inner := inner }, .ok ())

/-- consumer/test_consumer.rs:399-428 -/
noncomputable def exposeSlots (test : Bool) (s : TestConsumer I F E) :
    Fut (TestConsumer I F E × Except E (List I)) := do
  match ← enter s with
  | (s, some err) => return (s, .error err)
  | (s, none) =>
    let (s, maxLen) ← s.nextSize
    let minLen := match maxLen with
      | none => 2048
      | some maxLen => min maxLen 2048
    let v ← loop (TestConsumer.growBody minLen) s.inner.inner
    let (inner, r) ← (TestConsumer.vec test).exposeSlots { s.inner with inner := v }
    let innerSlots ← unwrapResult r
    let bounded := match maxLen with
      | none => innerSlots.length
      | some maxLen => min innerSlots.length maxLen
    let actualLen := min bounded s.consumptionsUntilError
    let slots ← Outcome.slice innerSlots 0 actualLen
    return ({ s with inner := inner }, .ok slots)

/-- consumer/test_consumer.rs:430-439 -/
noncomputable def consumeSlots (test : Bool) (s : TestConsumer I F E) (amount : Nat) :
    Fut (TestConsumer I F E × Except E Unit) := do
  match ← enter s with
  | (s, some err) => return (s, .error err)
  | (s, none) =>
    let (inner, r) ← (TestConsumer.vec test).consumeSlots s.inner amount
    unwrapResult r
    let left ← sub s.consumptionsUntilError amount
    return ({ s with inner := inner, consumptionsUntilError := left }, .ok ())

/-- consumer/test_consumer.rs:361-440 -/
noncomputable def consumer (test : Bool) (I F E : Type) [Inhabited I] : BulkConsumer (TestConsumer I F E) I F E where
  consume := consume test
  close := close test
  flush := flush test
  exposeSlots := exposeSlots test
  writeSlots s ws := { s with inner := (TestConsumer.vec test).writeSlots s.inner ws }
  consumeSlots := consumeSlots test

end TestConsumer

end Verif.Async
