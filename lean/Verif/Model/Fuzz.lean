import Verif.Model.Io
import Verif.Model.Merge
import Verif.Model.TestDoubles

/-!
# The fuzz targets of ufotofu and ufotofu_queues

Model of `/repo/fuzz/fuzz_targets/ufotofu/*.rs` and `/repo/fuzz/fuzz_targets/queues/*.rs` (file names without directory below). A
target is a function of its input that either returns or panics (or never ends); the fuzzer looks for inputs that make it panic.

The types `u16`, `i16` (and `u8` where bytes are not essential) are replaced by arbitrary types with decidable equality, and `0`
by the `default` of the type. A `TestProducer` or `TestConsumer` in the input is one that is created by the `Arbitrary`
implementation. `clone` is nothing. ufotofu is a dependency of the fuzz crate, so it is not compiled for testing (the flag `test`
of the test doubles is `false`, and `Invariant` is the one that does nothing); `debug` says whether there are debug assertions
(cargo-fuzz turns them on by default).

`pollster::block_on` is sequencing.
-/

namespace Verif

open Outcome

deriving instance DecidableEq for Except

namespace Fuzz

section

variable {I F E : Type}

/-- `assert_eq!` -/
def assertEq {A : Type} [DecidableEq A] (a b : A) : Outcome Unit := assert (decide (a = b))

/-- `Result::is_ok` -/
def isOk {A : Type} : Except E A → Bool
  | .ok _ => true
  | .error _ => false

/-- `Result::unwrap_err` -/
def unwrapErr {A : Type} : Except E A → Outcome E
  | .ok _ => .panic
  | .error e => ok e

/-- `Either::unwrap_right` -/
def unwrapRight {A B : Type} : A ⊕ B → Outcome B
  | .inl _ => .panic
  | .inr b => ok b

/-! ## The test doubles -/

/-- `TestProducer` -/
abbrev Pro (I F E : Type) := InvariantSt (TestProducer I F E)

/-- The methods of `TestProducer`. -/
noncomputable abbrev pro (I F E : Type) : BulkProducer (Pro I F E) I F E := publicProducer false (TestProducer.producer false I F E)

/-- `/repo/ufotofu/src/producer/test_producer.rs:137-148` -/
def Pro.arbitrary (items : List I) (last : Except E F) (sizes : List NonZero) (pattern : List Bool) : Pro I F E :=
  .new (.new items last sizes (some pattern))

/-- `/repo/ufotofu/src/producer/test_producer.rs:161-168` `PartialEq for TestProducer` -/
def Pro.same [DecidableEq I] [DecidableEq F] [DecidableEq E] (p q : Pro I F E) : Bool :=
  decide (p.inner.inner.inner.data = q.inner.inner.inner.data) && decide (p.inner.last = q.inner.last)

/-- `TestConsumer` -/
abbrev Con (I F E : Type) := InvariantSt (TestConsumer I F E)

/-- The methods of `TestConsumer`. -/
noncomputable abbrev con (I F E : Type) [Inhabited I] : BulkConsumer (Con I F E) I F E :=
  publicConsumer false (TestConsumer.consumer false I F E)

/-- `/repo/ufotofu/src/consumer/test_consumer.rs:142-153` -/
def Con.arbitrary (error : E) (untilError : Nat) (sizes : List NonZero) (pattern : List Bool) : Con I F E :=
  .new (.new error untilError sizes (some pattern))

/-- `/repo/ufotofu/src/consumer/test_consumer.rs:166-174` `PartialEq for TestConsumer` -/
def Con.same [DecidableEq I] [DecidableEq F] [DecidableEq E] (c d : Con I F E) : Outcome Bool := do
  let consumed₁ ← c.inner.consumed
  let consumed₂ ← d.inner.consumed
  return decide (consumed₁ = consumed₂) && decide (c.inner.fin = d.inner.fin) && decide (c.inner.error = d.inner.error)

/-- `assert_eq!` for two `TestConsumer`s. -/
def Con.assertSame [DecidableEq I] [DecidableEq F] [DecidableEq E] (c d : Con I F E) : Outcome Unit := do
  assert (← c.same d)

/-- `producer::BulkScrambler`, /repo/ufotofu/src/producer/bulk_scrambler.rs:41, 53-55, 88-111. -/
noncomputable abbrev scrambledPro {σ : Type} (debug : Bool) (P : BulkProducer σ I F E) :
    BulkProducer (InvariantSt (ProducerScrambler σ I F E)) I F E := publicProducer false (producerScrambler debug P)

/-- `producer::BulkScrambler::new` -/
def scramblePro {σ : Type} [Inhabited I] (s : σ) (ops : List ScrambleProduce) : InvariantSt (ProducerScrambler σ I F E) :=
  .new (.new s ops 2048 fun _ => default)

/-- `consumer::BulkScrambler`, /repo/ufotofu/src/consumer/bulk_scrambler.rs:40, 52-54, 86-109. -/
noncomputable abbrev scrambledCon {σ : Type} (debug : Bool) (C : BulkConsumer σ I F E) :
    BulkConsumer (InvariantSt (ConsumerScrambler σ I)) I F E := publicConsumer false (consumerScrambler debug C)

/-- `consumer::BulkScrambler::new` -/
def scrambleCon {σ : Type} [Inhabited I] (s : σ) (ops : List ScrambleConsume) : InvariantSt (ConsumerScrambler σ I) :=
  .new (.new s ops 2048 fun _ => default)

/-! ## Slices -/

variable [DecidableEq I] [DecidableEq F] [DecidableEq E] [Inhabited I]

/-- consume_full_slice.rs:6-26 -/
noncomputable def consumeFullSliceTarget (c : Con I F E) (items : List I) : Outcome Unit := do
  let expectedErr ← unwrap c.inner.peekError
  match ← consumeFullSlice (con I F E).toConsumer c items with
  | (c, .ok ()) =>
    assert (!c.inner.didError)
    assertEq (← c.inner.consumed) items
    assert c.inner.finalConsumed.isNone
  | (c, .error ⟨count, reason⟩) =>
    assert c.inner.didError
    assertEq reason expectedErr
    assertEq (← c.inner.consumed) (← slice items 0 count)
    assert c.inner.finalConsumed.isNone

/-- bulk_consume_full_slice.rs:6-17 -/
noncomputable def bulkConsumeFullSliceTarget (c : Con I F E) (items : List I) : Outcome Unit := do
  let (c', res) ← bulkConsumeFullSlice (con I F E) c items
  let (control, expected) ← consumeFullSlice (con I F E).toConsumer c items
  assertEq res expected
  c'.assertSame control

/-- overwrite_full_slice.rs:7-34 -/
noncomputable def overwriteFullSliceTarget (p : Pro I F E) (len : Nat) : Outcome Unit := do
  if len < 8192 then
    let expectedItems ← p.inner.remaining
    let expectedLast ← unwrap p.inner.peekLast
    match ← overwriteFullSlice (pro I F E).toProducer p (List.replicate len default) with
    | (p, .ok (), buf) =>
      assert (!p.inner.didAlreadyEmitLast)
      assertEq buf (← slice expectedItems 0 len)
    | (p, .error ⟨count, reason⟩, buf) =>
      assert p.inner.didAlreadyEmitLast
      match expectedLast with
      | .ok fin => assertEq reason (.inl fin)
      | .error err => assertEq reason (.inr err)
      assertEq (← slice buf 0 count) (← slice expectedItems 0 count)
  else
    return ()

/-- bulk_overwrite_full_slice.rs:6-23. (The contents of the two slices are not compared.) -/
noncomputable def bulkOverwriteFullSliceTarget (p : Pro I F E) (len : Nat) : Outcome Unit := do
  if len < 8192 then
    let (p', res, _) ← bulkOverwriteFullSlice (pro I F E) p (List.replicate len default)
    let (control, expected, _) ← overwriteFullSlice (pro I F E).toProducer p (List.replicate len default)
    assertEq res expected
    assert (p'.same control)
  else
    return ()

/-- The loop of bulk_consume.rs:34-37; returns the control and `consumed_so_far`. -/
noncomputable def consumeControl (items : List I) : Con I F E → Nat → Nat → Outcome (Con I F E × Nat)
  | control, consumed, 0 => return (control, consumed)
  | control, consumed, k + 1 => do
    let (control, r) ← (con I F E).consume control (← Outcome.index items consumed)
    assert (isOk r)
    consumeControl items control (consumed + 1) k

/-- State of the loop of bulk_consume.rs:19-50 and bulk_produce.rs:24-55. -/
structure LoopState (σ I : Type) where
  subject : σ
  control : σ
  soFar : Nat
  lengthIndex : Nat
  produced : List I := []
  producedControl : List I := []

/-- One iteration of the loop of bulk_consume.rs:19-50. -/
noncomputable def bulkConsumeTargetBody (items : List I) (sliceLengths : List NonZero) (st : LoopState (Con I F E) I) :
    Outcome (Step (LoopState (Con I F E) I) (Con I F E × Con I F E)) := do
  if st.lengthIndex < sliceLengths.length then
    if (← slice items st.soFar items.length).isEmpty then
      return .done (st.subject, st.control)
    else
      let sliceLength := min (← Outcome.index sliceLengths st.lengthIndex).val (← sub items.length st.soFar)
      if sliceLength = 0 then
        return .done (st.subject, st.control)
      else
        match ← (con I F E).bulkConsume st.subject (← slice items st.soFar (st.soFar + sliceLength)) with
        | (c, .ok numConsumed) =>
          let (control, soFar) ← consumeControl items st.control st.soFar numConsumed
          c.assertSame control
          return .continue { subject := c, control := control, soFar := soFar, lengthIndex := st.lengthIndex + 1 }
        | (c, .error err) =>
          let (control, r) ← (con I F E).consume st.control (← Outcome.index items st.soFar)
          assertEq err (← unwrapErr r)
          return .done (c, control)
  else
    return .done (st.subject, st.control)

/-- bulk_consume.rs:8-55 -/
noncomputable def bulkConsumeTarget (c : Con I F E) (items : List I) (sliceLengths : List NonZero) : Outcome Unit := do
  let (c, control) ← loop (bulkConsumeTargetBody items sliceLengths)
    { subject := c, control := c, soFar := 0, lengthIndex := 0 }
  c.assertSame control

/-- The loop of bulk_produce.rs:36-40; returns the control, `produced_control` and `produced_so_far`. -/
noncomputable def produceControl : Pro I F E → List I → Nat → Nat → Outcome (Pro I F E × List I × Nat)
  | control, producedControl, soFar, 0 => return (control, producedControl, soFar)
  | control, producedControl, soFar, k + 1 => do
    let (control, r) ← (pro I F E).produce control
    let item ← unwrapLeft (← unwrapResult r)
    produceControl control (producedControl ++ [item]) (soFar + 1) k

/-- One iteration of the loop of bulk_produce.rs:24-55; `&mut produced[produced_so_far..]` is overwritten by
`bulk_produce`. -/
noncomputable def bulkProduceTargetBody (numItems : Nat) (sliceLengths : List NonZero) (st : LoopState (Pro I F E) I) :
    Outcome (Step (LoopState (Pro I F E) I) (LoopState (Pro I F E) I)) := do
  if st.lengthIndex < sliceLengths.length then
    let sliceLength := min (← Outcome.index sliceLengths st.lengthIndex).val (← sub numItems st.soFar)
    if sliceLength = 0 then
      return .done st
    else
      let rest ← slice st.produced st.soFar st.produced.length
      match ← (pro I F E).bulkProduce st.subject rest with
      | (p, .ok (.inl num), rest) =>
        let produced := st.produced.take st.soFar ++ rest
        let (control, producedControl, soFar) ← produceControl st.control st.producedControl st.soFar num
        assertEq (← slice produced 0 soFar) producedControl
        assert (p.same control)
        return .continue { subject := p, control := control, soFar := soFar, lengthIndex := st.lengthIndex + 1,
                           produced := produced, producedControl := producedControl }
      | (p, .ok (.inr fin), rest) =>
        let (control, r) ← (pro I F E).produce st.control
        assertEq fin (← unwrapRight (← unwrapResult r))
        return .done { st with subject := p, control := control, produced := st.produced.take st.soFar ++ rest }
      | (p, .error err, rest) =>
        let (control, r) ← (pro I F E).produce st.control
        assertEq err (← unwrapErr r)
        return .done { st with subject := p, control := control, produced := st.produced.take st.soFar ++ rest }
  else
    return .done st

/-- bulk_produce.rs:9-60 -/
noncomputable def bulkProduceTarget (p : Pro I F E) (sliceLengths : List NonZero) : Outcome Unit := do
  let numItems := (← p.inner.remaining).length
  let st ← loop (bulkProduceTargetBody numItems sliceLengths)
    { subject := p, control := p, soFar := 0, lengthIndex := 0, produced := List.replicate numItems default }
  assertEq (← slice st.produced 0 st.soFar) st.producedControl
  assert (st.subject.same st.control)

/-! ## Pipes -/

/-- pipe.rs:6-44 -/
noncomputable def pipeTarget (p : Pro I F E) (c : Con I F E) : Outcome Unit := do
  let items ← p.inner.remaining
  let last ← unwrap p.inner.peekLast
  let consumerErr ← unwrap c.inner.peekError
  match ← pipe (pro I F E).toProducer (con I F E).toConsumer p c with
  | ((p, c), .ok ()) =>
    assert p.inner.didAlreadyEmitLast
    assertEq (← c.inner.consumed) items
    assertEq c.inner.finalConsumed (some (← unwrapResult last))
  | ((p, c), .error (.consumer err)) =>
    assert (!(p.inner.peekLast.isNone && !isOk last))
    assert c.inner.didError
    assertEq err consumerErr
    let consumed ← c.inner.consumed
    assertEq consumed (← slice items 0 consumed.length)
    assertEq (← p.inner.remaining)
      (← slice items (consumed.length + if p.inner.didAlreadyEmitLast then 0 else 1) items.length)
  | ((p, c), .error (.producer err)) =>
    assert p.inner.didAlreadyEmitLast
    assert (!c.inner.didError)
    assertEq err (← unwrapErr last)
    let consumed ← c.inner.consumed
    assertEq consumed (← slice items 0 consumed.length)
    assertEq (← p.inner.remaining) (← slice items consumed.length items.length)

/-- bulk_pipe.rs:6-21 -/
noncomputable def bulkPipeTarget (c : Con I F E) (p : Pro I F E) : Outcome Unit := do
  let ((p', c'), res) ← bulkPipe (pro I F E) (con I F E) p c
  let ((controlPro, controlCon), expected) ← pipe (pro I F E).toProducer (con I F E).toConsumer p c
  assertEq res expected
  c'.assertSame controlCon
  assert (p'.same controlPro)

/-- pipe_at_most.rs:6-55 -/
noncomputable def pipeAtMostTarget (p : Pro I F E) (c : Con I F E) (count : Nat) : Outcome Unit := do
  let items ← p.inner.remaining
  let last ← unwrap p.inner.peekLast
  let consumerErr ← unwrap c.inner.peekError
  match ← pipeAtMost (pro I F E).toProducer (con I F E).toConsumer p c count with
  | ((p, c), .ok amount) =>
    if amount < count then
      assert (p.inner.didAlreadyEmitLast || c.inner.didError)
    else
      assert (!p.inner.didAlreadyEmitLast && !c.inner.didError)
    assertEq (← c.inner.consumed) (← slice items 0 amount)
    if amount < count then
      assertEq c.inner.finalConsumed (some (← unwrapResult last))
    else
      return ()
  | ((p, c), .error (.consumer err)) =>
    assert (!(p.inner.peekLast.isNone && !isOk last))
    assert c.inner.didError
    assertEq err consumerErr
    let consumed ← c.inner.consumed
    assertEq consumed (← slice items 0 consumed.length)
    assertEq (← p.inner.remaining)
      (← slice items (consumed.length + if p.inner.didAlreadyEmitLast then 0 else 1) items.length)
    assert (consumed.length < count)
  | ((p, c), .error (.producer err)) =>
    assert p.inner.didAlreadyEmitLast
    assert (!c.inner.didError)
    assertEq err (← unwrapErr last)
    let consumed ← c.inner.consumed
    assertEq consumed (← slice items 0 consumed.length)
    assertEq (← p.inner.remaining) (← slice items consumed.length items.length)
    assert (consumed.length < count)

/-- bulk_pipe_at_most.rs:6-23 -/
noncomputable def bulkPipeAtMostTarget (c : Con I F E) (p : Pro I F E) (count : Nat) : Outcome Unit := do
  let ((p', c'), res) ← bulkPipeAtMost (pro I F E) (con I F E) p c count
  let ((controlPro, controlCon), expected) ← pipeAtMost (pro I F E).toProducer (con I F E).toConsumer p c count
  assertEq res expected
  c'.assertSame controlCon
  assert (p'.same controlPro)

/-! ## Slices and vectors -/

/-- from_boxed_slice.rs:10-22 -/
noncomputable def fromBoxedSliceTarget (debug : Bool) (input : List I) (ops : List ScrambleProduce) : Outcome Unit := do
  let p : InvariantSt (ProducerScrambler _ I Unit Empty) := scramblePro (InvariantSt.new (FromBoxedSlice.new input)) ops
  let ((_, v), res) ← pipe (scrambledPro debug (publicProducer false (FromBoxedSlice.producer I))).toProducer
    (publicConsumer false (IntoVec.consumer I)).toConsumer p (.new .new)
  assert (isOk res)
  assertEq input v.inner.intoVec

/-- from_slice.rs:10-21 -/
noncomputable def fromSliceTarget (debug : Bool) (input : List I) (ops : List ScrambleProduce) : Outcome Unit := do
  let p : InvariantSt (ProducerScrambler _ I Unit Empty) := scramblePro (InvariantSt.new (FromSlice.new input)) ops
  let ((_, v), res) ← pipe (scrambledPro debug (publicProducer false (FromSlice.producer I))).toProducer
    (publicConsumer false (IntoVec.consumer I)).toConsumer p (.new .new)
  assert (isOk res)
  assertEq input v.inner.intoVec

/-- The loops of into_vec.rs:16-18, compat.rs:35-37, compat_buf_read.rs:34-36: `assert!(c.consume(*item).await.is_ok())` for all
items (the other two files write `assert_eq!((), ..unwrap())`, which panics in the same cases). -/
noncomputable def consumeAll {σ : Type} (C : Consumer σ I F E) : σ → List I → Outcome σ
  | s, [] => return s
  | s, x :: xs => do
    let (s, r) ← C.consume s x
    assert (isOk r)
    consumeAll C s xs

/-- into_vec.rs:9-25. Left out: the assertion that the capacity of the vector is at least the given one (a guarantee of `Vec`,
whose capacities are not modelled). -/
noncomputable def intoVecTarget (debug : Bool) (input : List I) (ops : List ScrambleConsume) : Outcome Unit := do
  let v : InvariantSt (ConsumerScrambler _ I) := scrambleCon (InvariantSt.new (IntoVec.new : IntoVec I)) ops
  let C := scrambledCon debug (publicConsumer false (IntoVec.consumer I))
  let v ← consumeAll C.toConsumer v input
  let (v, r) ← C.flush v
  assert (isOk r)
  assertEq input v.inner.inner.inner.intoVec

/-! ## Scramblers and invariants -/

/-- One iteration of the loop of producer_bulk_scrambler_is_transparent.rs:15-17. -/
noncomputable def scramblerLoop (debug : Bool) :
    Pro I F E × InvariantSt (ProducerScrambler (Pro I F E) I F E) →
      Outcome (Step (Pro I F E × InvariantSt (ProducerScrambler (Pro I F E) I F E)) Unit)
  | (control, scrambler) => do
    if !control.inner.didAlreadyEmitLast then
      let (control, r₁) ← (pro I F E).produce control
      let (scrambler, r₂) ← (scrambledPro debug (pro I F E)).produce scrambler
      assertEq r₁ r₂
      return .continue (control, scrambler)
    else
      return .done ()

/-- producer_bulk_scrambler_is_transparent.rs:9-20 -/
noncomputable def producerScramblerTarget (debug : Bool) (control : Pro I F E) (ops : List ScrambleProduce) : Outcome Unit :=
  loop (scramblerLoop debug) (control, scramblePro control ops)

/-- One iteration of the loop of producer_invariant_is_transparent.rs:18-20. -/
noncomputable def invariantLoop (debug : Bool) :
    InvariantSt (ProducerScrambler (Pro I F E) I F E) × InvariantSt (InvariantSt (ProducerScrambler (Pro I F E) I F E)) →
      Outcome (Step (InvariantSt (ProducerScrambler (Pro I F E) I F E) ×
        InvariantSt (InvariantSt (ProducerScrambler (Pro I F E) I F E))) Unit)
  | (control, invarianted) => do
    if !control.inner.inner.inner.didAlreadyEmitLast then
      let (control, r₁) ← (scrambledPro debug (pro I F E)).produce control
      let (invarianted, r₂) ← (publicProducer false (scrambledPro debug (pro I F E))).produce invarianted
      assertEq r₁ r₂
      return .continue (control, invarianted)
    else
      return .done ()

/-- producer_invariant_is_transparent.rs:9-23 -/
noncomputable def producerInvariantTarget (debug : Bool) (p : Pro I F E) (ops : List ScrambleProduce) : Outcome Unit :=
  loop (invariantLoop debug) (scramblePro p ops, .new (scramblePro p ops))

/-- The rest of consumer_bulk_scrambler_is_mostly_transparent.rs:19-44 when `input` is what is left to be consumed. -/
noncomputable def consumerScramblerFrom (debug : Bool) (fin : F) :
    Con I F E → InvariantSt (ConsumerScrambler (Con I F E) I) → List I → Outcome Unit
  | control, scrambler, [] => do
    let (control, resClose) ← (con I F E).close control fin
    let (scrambler, r) ← (scrambledCon debug (con I F E)).close scrambler fin
    assertEq resClose r
    control.assertSame scrambler.inner.inner
  | control, scrambler, x :: input => do
    match ← (con I F E).consume control x with
    | (control, .error controlErr) =>
      match ← (scrambledCon debug (con I F E)).consume scrambler x with
      | (scrambler, .error err) =>
        assertEq controlErr err
        control.assertSame scrambler.inner.inner
      | (scrambler, .ok ()) =>
        let (scrambler, r) ← (scrambledCon debug (con I F E)).flush scrambler
        let err ← unwrapErr r
        assertEq controlErr err
        control.assertSame scrambler.inner.inner
    | (control, .ok ()) =>
      let (scrambler, r) ← (scrambledCon debug (con I F E)).consume scrambler x
      assert (isOk r)
      consumerScramblerFrom debug fin control scrambler input

/-- consumer_bulk_scrambler_is_mostly_transparent.rs:9-46 -/
noncomputable def consumerScramblerTarget (debug : Bool) (control : Con I F E) (ops : List ScrambleConsume) (input : List I)
    (fin : F) : Outcome Unit :=
  consumerScramblerFrom debug fin control (scrambleCon control ops) input

/-- The loop of consumer_invariant_is_transparent.rs:22-28. -/
noncomputable def consumerInvariantLoop (debug : Bool) :
    InvariantSt (ConsumerScrambler (Con I F E) I) → InvariantSt (InvariantSt (ConsumerScrambler (Con I F E) I)) → List I →
      Outcome (InvariantSt (ConsumerScrambler (Con I F E) I) × InvariantSt (InvariantSt (ConsumerScrambler (Con I F E) I)))
  | control, invarianted, [] => return (control, invarianted)
  | control, invarianted, x :: input => do
    let (control, r₁) ← (scrambledCon debug (con I F E)).consume control x
    let (invarianted, r₂) ← (publicConsumer false (scrambledCon debug (con I F E))).consume invarianted x
    assertEq r₁ r₂
    if control.inner.inner.inner.didError then
      return (control, invarianted)
    else
      consumerInvariantLoop debug control invarianted input

/-- consumer_invariant_is_transparent.rs:9-36 -/
noncomputable def consumerInvariantTarget (debug : Bool) (c : Con I F E) (ops : List ScrambleConsume) (input : List I)
    (fin : F) : Outcome Unit := do
  let (control, invarianted) ← consumerInvariantLoop debug (scrambleCon c ops) (.new (scrambleCon c ops)) input
  if !control.inner.inner.inner.didError then
    let (control, r₁) ← (scrambledCon debug (con I F E)).close control fin
    let (invarianted, r₂) ← (publicConsumer false (scrambledCon debug (con I F E))).close invarianted fin
    assertEq r₁ r₂
    control.inner.inner.assertSame invarianted.inner.inner.inner
  else
    control.inner.inner.assertSame invarianted.inner.inner.inner

/-! ## Merge -/

/-- The input of producer_merge.rs that belongs to one of the producers. -/
structure MergeInput (I F E : Type) where
  items : List I
  last : Except E F
  sizes : List NonZero
  pattern : List Bool

/-- producer_merge.rs:37-47: the producer marks its items. -/
def MergeInput.build (d : MergeInput I F E) (first : Bool) : Pro (I × Bool) F E :=
  .arbitrary (d.items.map fun item => (item, first)) d.last d.sizes d.pattern

/-- One iteration of the loop of producer_merge.rs:54-76; state = (merged, offset_1, offset_2). `ready₁` and `ready₂` say when
the futures of the producers are ready (see `Model/Merge.lean`). -/
noncomputable def mergeLoop (ready₁ ready₂ : Nat → Bool) (d₁ d₂ : MergeInput I F E) :
    Merge (Pro (I × Bool) F E) (Pro (I × Bool) F E) × Nat × Nat →
      Outcome (Step (Merge (Pro (I × Bool) F E) (Pro (I × Bool) F E) × Nat × Nat) Unit)
  | (merged, offset₁, offset₂) => do
    match ← (Merge.producer (pro (I × Bool) F E).toProducer (pro (I × Bool) F E).toProducer ready₁ ready₂).produce merged with
    | (merged, .ok (.inl (item, fromFirst))) =>
      if fromFirst then
        assertEq (← Outcome.index d₁.items offset₁) item
        return .continue (merged, offset₁ + 1, offset₂)
      else
        assertEq (← Outcome.index d₂.items offset₂) item
        return .continue (merged, offset₁, offset₂ + 1)
    | (_, .ok (.inr fin)) =>
      assertEq offset₁ d₁.items.length
      assertEq offset₂ d₂.items.length
      assert (decide (.ok fin = d₁.last) || decide (.ok fin = d₂.last))
      return .done ()
    | (_, .error err) =>
      assert (decide (.error err = d₁.last) || decide (.error err = d₂.last))
      return .done ()

/-- producer_merge.rs:12-78 -/
noncomputable def mergeTarget (ready₁ ready₂ : Nat → Bool) (d₁ d₂ : MergeInput I F E) : Outcome Unit :=
  loop (mergeLoop ready₁ ready₂ d₁ d₂) (.new (d₁.build true) (d₂.build false), 0, 0)

end

/-! ## Readers and writers

The two halves of the targets communicate by a TCP connection, which is not modelled: the sending half gets an arbitrary writer,
the receiving half an arbitrary reader. Then the halves are independent of each other. -/

/-- `.clamp(1, 2048)` -/
def clamp (n : Nat) : Nat := min (max n 1) 2048

/-- compat.rs:24, 28-39 and compat_buf_read.rs:24, 27-38; also returns the writer. -/
noncomputable def sendHalf {ω : Type} (debug : Bool) (W : AsyncWrite ω) (stream : ω) (input : List UInt8) (queueCapacity : Nat)
    (ops : List ScrambleConsume) : Outcome ω := do
  let C := scrambledCon debug (writerConsumer W (Fixed.queue UInt8))
  let sender := scrambleCon (QueueWriter.mk stream (Fixed.new (clamp queueCapacity) fun _ => default)) ops
  let sender ← consumeAll C.toConsumer sender input
  let (sender, r) ← C.close sender ()
  assert (isOk r)
  return sender.inner.inner.writer

/-- The loop of compat.rs:49-51 and compat_buf_read.rs:48-50, and the line after it. -/
noncomputable def produceAll {σ : Type} (P : Producer σ UInt8 Unit IoError) : σ → List UInt8 → Outcome Unit
  | s, [] => do
    let (_, r) ← P.produce s
    assertEq (.inr ()) (← unwrapResult r)
  | s, x :: xs => do
    let (s, r) ← P.produce s
    assertEq (.inl x) (← unwrapResult r)
    produceAll P s xs

/-- compat.rs:25, 41-54 -/
noncomputable def receiveHalf {ρ : Type} (debug : Bool) (Rd : AsyncRead ρ) (stream : ρ) (input : List UInt8) (queueCapacity : Nat)
    (ops : List ScrambleProduce) : Outcome Unit :=
  produceAll (scrambledPro debug (readerProducer Rd (Fixed.queue UInt8))).toProducer
    (scramblePro (QueueReader.mk stream (Fixed.new (clamp queueCapacity) fun _ => default)) ops) input

/-- compat_buf_read.rs:40-53 (the `BufReader` is the reader here) -/
noncomputable def receiveHalfBuf {ρ : Type} (debug : Bool) (Rd : AsyncBufRead ρ) (stream : ρ) (input : List UInt8)
    (ops : List ScrambleProduce) : Outcome Unit :=
  produceAll (scrambledPro debug (bufReaderProducer Rd)).toProducer (scramblePro stream ops) input

/-! ## Queues -/

section

variable {κ T : Type} [DecidableEq T]

/-- fixed_bulk.rs:12-18, static_bulk.rs:12-18; without the last two: fixed_enqueue_dequeue.rs:11-15,
static_enqueue_dequeue.rs:11-15. -/
inductive QueueOperation (T : Type) where
  | enqueue (item : T)
  | dequeue
  | bulkEnqueue (items : List T)
  | bulkDequeue (n : Nat)

/-- The match of fixed_bulk.rs:33-75, static_bulk.rs:27-69; `control` is the `VecDeque`. -/
def queueStep [Inhabited T] (Q : Queue κ T) (capacity : Nat) (control : List T) (test : κ) :
    QueueOperation T → Outcome (List T × κ)
  | .enqueue item => do
    let (control, controlResult) := if control.length ≥ capacity then (control, some item) else (control ++ [item], none)
    let (test, testResult) ← Q.enqueue test item
    assertEq testResult controlResult
    return (control, test)
  | .dequeue => do
    let controlResult := control.head?
    let (test, testResult) ← Q.dequeue test
    assertEq testResult controlResult
    return (control.drop 1, test)
  | .bulkEnqueue items => do
    let (test, amount) ← Q.bulkEnqueue test items
    return (control ++ items.take amount, test)
  | .bulkDequeue n => do
    if n > 0 then
      let (test, testAmount, testBuffer) ← Q.bulkDequeue test (List.replicate n default)
      let controlBuffer := control.take testAmount
      assertEq (← slice testBuffer 0 testAmount) (← slice controlBuffer 0 testAmount)
      return (control.drop testAmount, test)
    else
      return (control, test)

/-- The loop of fixed_bulk.rs:32-76, static_bulk.rs:26-70. -/
def queueLoop [Inhabited T] (Q : Queue κ T) (capacity : Nat) : List T → κ → List (QueueOperation T) → Outcome Unit
  | _, _, [] => return ()
  | control, test, op :: ops => do
    let (control, test) ← queueStep Q capacity control test op
    queueLoop Q capacity control test ops

/-- fixed_bulk.rs:20-77; restricted to the first two operations this is fixed_enqueue_dequeue.rs:17-48. -/
def fixedTarget [Inhabited T] (operations : List (QueueOperation T)) (capacity : Nat) : Outcome Unit := do
  if 1 ≤ capacity ∧ capacity ≤ 2048 then
    queueLoop (Fixed.queue T) capacity [] (Fixed.new capacity fun _ => default) operations
  else
    return ()

/-- static_bulk.rs:20-71; restricted to the first two operations this is static_enqueue_dequeue.rs:17-42. -/
def staticTarget [Inhabited T] (operations : List (QueueOperation T)) : Outcome Unit :=
  queueLoop (Static.queue T 42) 42 [] (Static.new 42 fun _ => default) operations

end

end Fuzz

end Verif
