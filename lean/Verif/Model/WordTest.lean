import Verif.Model.WordAdaptors
import Verif.Model.TestDoubles

/-!
# `TestYielder`, `TestProducer` and `TestConsumer`, with machine arithmetic

`/repo/ufotofu/src/test_yielder.rs`, `/repo/ufotofu/src/producer/test_producer.rs` and `/repo/ufotofu/src/consumer/test_consumer.rs`
once more, with sums and differences as they are computed on a machine, around `FromBoxedSlice` and `IntoVec` with machine arithmetic,
and with `usize::MAX` in the role of "no bound". The types of the states and the functions that compute nothing are shared with
`Model/TestDoubles.lean`.
-/

namespace Verif

open Outcome

/-- `usize::MAX` -/
def Word.max (w : Word) : Nat := w.size - 1

section

variable {σ I F E : Type}

/-- The type `Invariant` of the crate (`/repo/ufotofu/src/producer.rs`). -/
def wordPublicProducer (w : Word) (test : Bool) (P : BulkProducer σ I F E) : BulkProducer (InvariantSt σ) I F E :=
  if test then wordInvariantBulkProducer w P else unusedInvariantBulkProducer P

/-- The type `Invariant` of the crate (`/repo/ufotofu/src/consumer.rs`). -/
def wordPublicConsumer (w : Word) (test : Bool) (C : BulkConsumer σ I F E) : BulkConsumer (InvariantSt σ) I F E :=
  if test then wordInvariantBulkConsumer w C else unusedInvariantBulkConsumer C

end

namespace WordTestYielder

/-- `/repo/ufotofu/src/test_yielder.rs:61-71` -/
def poll (w : Word) (y : TestYielder) : Outcome (TestYielder × Bool) := do
  let doYield ← Outcome.index y.pattern y.index
  let index ← mod (← w.add y.index 1) y.pattern.length
  let y := { y with index := index }
  if doYield then
    return ({ y with wakes := y.wakes + 1 }, true)
  else
    return (y, false)

/-- Polling the future once. -/
def awaitBody (w : Word) (y : TestYielder) : Outcome (Step TestYielder TestYielder) := do
  match ← poll w y with
  | (y', false) => return .done y'
  | (y', true) => if y'.wakes = y.wakes then diverge else return .continue { y' with suspensions := y'.suspensions + 1 }

/-- test_yielder.rs:37-39 -/
noncomputable def maybeYield (w : Word) (y : TestYielder) : Outcome TestYielder := loop (awaitBody w) y

end WordTestYielder

/-- `/repo/ufotofu/src/producer/test_producer.rs:326-331`, `/repo/ufotofu/src/consumer/test_consumer.rs:340-345` -/
noncomputable def wordMaybeYield (w : Word) : Option TestYielder → Outcome (Option TestYielder)
  | none => return none
  | some y => return some (← WordTestYielder.maybeYield w y)

/-- producer/test_producer.rs:392-393, consumer/test_consumer.rs:409-410 -/
def wordNextSize (w : Word) (z : Sizes) : Outcome (Sizes × Nat) := do
  let maxLen ← Outcome.index z.sizes z.index
  let index ← mod (← w.add z.index 1) z.sizes.length
  return ({ z with index := index }, maxLen)

namespace WordTestProducer

variable {I F E : Type}

/-- The public type `FromBoxedSlice`. -/
abbrev slice (w : Word) (test : Bool) : BulkProducer (InvariantSt (FromBoxedSlice I)) I Unit Empty :=
  wordPublicProducer w test (WordFromBoxedSlice.producer w I)

/-- producer/test_producer.rs:339-351 -/
noncomputable def produce (w : Word) (test : Bool) (s : TestProducer I F E) : Outcome (TestProducer I F E × Except E (I ⊕ F)) := do
  let yielder ← wordMaybeYield w s.yielder
  let s := { s with yielder := yielder }
  if (← s.remaining).isEmpty then
    let last ← unwrap s.last
    return ({ s with last := none }, last.map .inr)
  else
    let (inner, r) ← (slice w test).produce s.inner
    let item ← unwrapLeft (← unwrapResult r)
    return ({ s with inner := inner }, .ok (.inl item))

/-- producer/test_producer.rs:355-366 -/
noncomputable def slurp (w : Word) (s : TestProducer I F E) : Outcome (TestProducer I F E × Except E Unit) := do
  let yielder ← wordMaybeYield w s.yielder
  let s := { s with yielder := yielder }
  match ← s.takeError with
  | (s, some err) => return (s, .error err)
  | (s, none) => return (s, .ok ())

/-- producer/test_producer.rs:370-405 -/
noncomputable def exposeItems (w : Word) (test : Bool) (s : TestProducer I F E) :
    Outcome (TestProducer I F E × Except E (List I ⊕ F)) := do
  let yielder ← wordMaybeYield w s.yielder
  let s := { s with yielder := yielder }
  if (← s.remaining).isEmpty then
    let last ← unwrap s.last
    return ({ s with last := none }, last.map .inr)
  else
    match s.sizes with
    | none =>
      let (inner, r) ← (slice w test).exposeItems s.inner
      let items ← unwrapLeft (← unwrapResult r)
      return ({ s with inner := inner }, .ok (.inl items))
    | some sizes =>
      let (sizes, maxLen) ← wordNextSize w sizes
      let (inner, r) ← (slice w test).exposeItems s.inner
      let innerSlots ← unwrapLeft (← unwrapResult r)
      let actualLen := min innerSlots.length maxLen
      let items ← Outcome.slice innerSlots 0 actualLen
      return ({ s with inner := inner, sizes := some sizes }, .ok (.inl items))

/-- producer/test_producer.rs:407-423 -/
noncomputable def considerProduced (w : Word) (test : Bool) (s : TestProducer I F E) (amount : Nat) :
    Outcome (TestProducer I F E × Except E Unit) := do
  let yielder ← wordMaybeYield w s.yielder
  let s := { s with yielder := yielder }
  match ← s.takeError with
  | (s, some err) => return (s, .error err)
  | (s, none) =>
    let (inner, r) ← (slice w test).considerProduced s.inner amount
    unwrapResult r
    return ({ s with inner := inner }, .ok ())

/-- producer/test_producer.rs:334-424 -/
noncomputable def producer (w : Word) (test : Bool) (I F E : Type) : BulkProducer (TestProducer I F E) I F E where
  produce := produce w test
  slurp := slurp w
  exposeItems := exposeItems w test
  considerProduced := considerProduced w test

end WordTestProducer

namespace WordTestConsumer

variable {I F E : Type}

/-- The first two lines of every method: `self.maybe_yield().await; self.check_error()?`. -/
noncomputable def enter (w : Word) (s : TestConsumer I F E) : Outcome (TestConsumer I F E × Option E) := do
  let yielder ← wordMaybeYield w s.yielder
  { s with yielder := yielder }.checkError

variable [Inhabited I]

/-- The public type `IntoVec`. -/
abbrev vec (w : Word) (test : Bool) : BulkConsumer (InvariantSt (IntoVec I)) I Unit Empty :=
  wordPublicConsumer w test (WordIntoVec.consumer w I)

/-- consumer/test_consumer.rs:366-373 -/
noncomputable def consume (w : Word) (test : Bool) (s : TestConsumer I F E) (item : I) :
    Outcome (TestConsumer I F E × Except E Unit) := do
  match ← enter w s with
  | (s, some err) => return (s, .error err)
  | (s, none) =>
    let (inner, r) ← (vec w test).consume s.inner item
    unwrapResult r
    let left ← w.sub s.consumptionsUntilError 1
    return ({ s with inner := inner, consumptionsUntilError := left }, .ok ())

/-- consumer/test_consumer.rs:375-382 -/
noncomputable def close (w : Word) (test : Bool) (s : TestConsumer I F E) (fin : F) :
    Outcome (TestConsumer I F E × Except E Unit) := do
  match ← enter w s with
  | (s, some err) => return (s, .error err)
  | (s, none) =>
    let (inner, r) ← (vec w test).close s.inner ()
    unwrapResult r
    return ({ s with inner := inner, fin := some fin }, .ok ())

/-- consumer/test_consumer.rs:386-392 -/
noncomputable def flush (w : Word) (test : Bool) (s : TestConsumer I F E) : Outcome (TestConsumer I F E × Except E Unit) := do
  match ← enter w s with
  | (s, some err) => return (s, .error err)
  | (s, none) =>
    let (inner, r) ← (vec w test).flush s.inner
    unwrapResult r
    return ({ s with inner := inner }, .ok ())

/-- Body of the `while` loop of consumer/test_consumer.rs:417-419. -/
def growBody (w : Word) (minLen : Nat) (v : IntoVec I) : Outcome (Step (IntoVec I) (IntoVec I)) := do
  if (← WordIntoVec.remainingSlots w v) < minLen then
    return .continue (← WordIntoVec.makeSpaceEvenIfNotNeeded w v)
  else
    return .done v

omit [Inhabited I] in
/-- consumer/test_consumer.rs:406-413 -/
def nextSize (w : Word) (s : TestConsumer I F E) : Outcome (TestConsumer I F E × Nat) := do
  match s.sizes with
  | none => return (s, w.max)
  | some sizes =>
    let (sizes, maxLen) ← wordNextSize w sizes
    return ({ s with sizes := some sizes }, maxLen)

/-- consumer/test_consumer.rs:399-428 -/
noncomputable def exposeSlots (w : Word) (test : Bool) (s : TestConsumer I F E) :
    Outcome (TestConsumer I F E × Except E (List I)) := do
  match ← enter w s with
  | (s, some err) => return (s, .error err)
  | (s, none) =>
    let (s, maxLen) ← nextSize w s
    let minLen := min maxLen 2048
    let v ← loop (growBody w minLen) s.inner.inner
    let (inner, r) ← (vec w test).exposeSlots { s.inner with inner := v }
    let innerSlots ← unwrapResult r
    let actualLen := min (min innerSlots.length maxLen) s.consumptionsUntilError
    let slots ← Outcome.slice innerSlots 0 actualLen
    return ({ s with inner := inner }, .ok slots)

/-- consumer/test_consumer.rs:430-439 -/
noncomputable def consumeSlots (w : Word) (test : Bool) (s : TestConsumer I F E) (amount : Nat) :
    Outcome (TestConsumer I F E × Except E Unit) := do
  match ← enter w s with
  | (s, some err) => return (s, .error err)
  | (s, none) =>
    let (inner, r) ← (vec w test).consumeSlots s.inner amount
    unwrapResult r
    let left ← w.sub s.consumptionsUntilError amount
    return ({ s with inner := inner, consumptionsUntilError := left }, .ok ())

/-- consumer/test_consumer.rs:361-440 -/
noncomputable def consumer (w : Word) (test : Bool) (I F E : Type) [Inhabited I] : BulkConsumer (TestConsumer I F E) I F E where
  consume := consume w test
  close := close w test
  flush := flush w test
  exposeSlots := exposeSlots w test
  writeSlots s ws := { s with inner := (vec w test).writeSlots s.inner ws }
  consumeSlots := consumeSlots w test

end WordTestConsumer

end Verif
