# Design of the formal model of ufotofu

Source modelled: `/repo` (ufotofu, ufotofu_queues, ufotofu_codec, ufotofu_codec_endian), read as text.
Prover: Lean 4.33.0 (no Mathlib module is needed so far). Everything is under `lean/Verif/`.

## 1. How Rust is modelled

* **Outcome of a call.** `Outcome α = ok a | panic | diverge`. A Rust panic (failed `unwrap`, `expect`, slice index,
  `debug_assert!`, arithmetic on `% 0`, `usize` subtraction below zero) is the explicit value `panic`; a loop that never
  ends is the explicit value `diverge`.
* **`&mut self`** becomes a function returning the new state.
* **async.** The contract of the traits says that a method's future is polled to completion before the next call, so a
  method call on one value is one atomic state transition. Suspension is modelled only where it is observable:
  `TestYielder` (poll by poll), `Merge` (which of two pending futures becomes ready is an arbitrary schedule), and the
  mutex-shared codec adaptors (arbitrary interleaving of tasks, and futures that are dropped half way). That this is adequate is
  itself proved: `Model/Poll.lean` defines futures as state machines with `poll` (`pending` or `ready`), `Model/Async*.lean`
  restates all asynchronous code over them, and C61 and C62 say that polling to completion gives the sequential model, and that
  polling `Merge` and the shared adaptors gives the models with schedules and suspension points. Elsewhere, dropping a
  future half way is not modelled: the contract (`ufotofu/src/lib.rs:33`) forbids any call afterwards.
* **Loops** are one combinator `loop body s`, the limit of its fuelled version: it is `ok`/`panic` if some number of
  iterations reaches that, and `diverge` otherwise. Total correctness statements therefore include termination.
* **Slices** are lists; a `&mut [T]` returned to the caller is modelled by the contents of the slots plus an explicit
  `writeSlots` transition that stores what the caller wrote through the reference.
* **usize** is `Nat`. Subtractions are checked (below zero = `panic`). That this is adequate is itself proved: `Model/Word*.lean`
  restate all code that computes with `usize` (queues, adaptors, test doubles, scramblers, pipes) with sums that panic or wrap
  around at an arbitrary word size, and C58 and C64 say that no allowed call is affected as long as slices fit in memory and
  vectors grow to at most half of `usize::MAX` slots (which holds for all items that take up memory, as their vectors have at most
  `isize::MAX` bytes).
* **Clone** is the identity copy (but see C77 and C78, where it is an arbitrary function that may panic), **Default** an arbitrary value; `Drop` and allocation failure are not modelled.
* Traits are structures of functions over an arbitrary state type (`Producer`, `BufferedProducer`, `BulkProducer`,
  `Consumer`, ...). Quantifying over all such structures and states is quantifying over all implementations
  (including environment behaviour such as short reads, which lives in the state). Overridable methods
  (`bulk_produce`, `bulk_consume`) are fields; the trait defaults are separate definitions.

## 2. How properties are stated (independent of the model)

* `Script I F E := ℕ → Except E (I ⊕ F)`: what the n-th `produce` call returns. Finite and infinite sequences alike.
* `Plays P s c` / `BulkPlays P s c`: there is a relation closed under every contract-respecting method call such that
  every answer agrees with the script `c`. This is the contract of the traits ("no difference between producing in bulk
  or one at a time") for one producer state. It mentions no internals of any implementation.
* `Collects C D q s log` (items): the consumer in state `s`, having consumed `log`, accepts or refuses exactly according
  to the policy `q` (a function of everything consumed so far: `refuse`, `reject` an item, `refuseFlush`, `refuseClose`) under
  every contract-respecting call sequence, and the observation `D state consumed final` holds at all times.
* `Delays C D s log` / `Defers C D X s log`: the weaker contract of a consumer that may delay effects: what is observed is a
  prefix of what was consumed, all of it after a successful flush or close; `X : Faults` says which errors may occur when.
* Theorems about adaptors have the shape `BulkPlays P s c → BulkPlays (adaptor P) (wrap s) (transform c)`.
* `QueueSpec` (bounded FIFO as a list), `History` (arbitrary contract-respecting sequences of calls and their answers;
  `asBulk` gives producers and consumers without bulk methods empty buffers, so that the same histories apply to them),
  `AdaptorSpec` (sequence and policy transformers), `Monitor` (which calls of an arbitrary, possibly unlawful, inner value obey the
  contract), `TestSpec`, `MergeSpec` (interleavings, schedules), `IoSpec` (readers and writers), `CodecSpec` (languages of
  encodings, lawful encoders and decoders), `SharedSpec` (sequential executions of concurrent calls).

Property theorems are in `lean/Verif/Props/*.lean`; models in `lean/Verif/Model/*.lean`; the specification vocabulary in
`lean/Verif/Spec.lean` and the files just named; helper lemmas in `lean/Verif/Lemmas/*.lean`. A concrete non-trivial instance
(`example`) stands beside each property theorem with hypotheses. The instances they share (test doubles with fixed contents, a
buffering consumer, small codecs, schedules of two tasks) are in `lean/Verif/Cases.lean`, `CodecCases.lean` and
`SharedCases.lean`. `lean/Verif/RepoTests.lean` runs the unit and documentation tests of the repository on the model, as a check
of the model against the code.

## 3. Per property

| id | what is modelled | how proved |
|----|------------------|-----------|
| C01, C02 | `Fixed`, `Static` ring buffers field by field | refinement to a bounded list, induction over operation lists; exactly the capacities and calls that go wrong (`QueueSame.lean`) |
| C03 | same | case analysis on the invariant |
| C04 | `DataDebugger` as the list of entries printed | equality with the abstract list |
| C05 | same, two fillers | corollary of refinement over operation lists |
| C06, C08 | trait default methods | induction on the slice |
| C07, C09 | bulk default methods, `loop` | induction on the remaining length; equality with C06/C08 results |
| C10–C14 | `pipe`, `bulk_pipe`, `pipe_at_most`, `bulk_pipe_at_most` | induction on the stopping index, for arbitrary lawful producers/consumers; divergence if there is none |
| C15 | operation lists over lawful producers/consumers | induction over operation lists |
| C16–C18 | `FromSlice`, `FromBoxedSlice`, `IntoVec`, `Empty` | simulation relation |
| C19 | instances of C10–C13 | corollary |
| C20–C24 | `Limit`, `MapItem`, `MapFinal`, `MapError` (producer and consumer) | simulation transformers; C24: negation by witness plus partial; C20: exactly the sequences for which `slurp` goes wrong, by the ideal producer of a sequence (`SlurpExact.lean`) |
| C25, C26 | `Invariant` wrappers | simulation plus misuse cases; negation for the error path of consider_produced/consume_slots plus partial; exact description of what is detected, for all clients |
| C27–C29 | `BulkScrambler` (producer and consumer), on top of the `Fixed` model | simulation with queue refinement, termination measure; negations for the defects listed below; C27: exactly the sequences for which `slurp` goes wrong (`SlurpExact.lean`) |
| C30–C32 | `TestProducer`, `TestConsumer`, `TestYielder` | simulation; induction on the pattern |
| C33, C34 | `Merge` with `select` polled under an arbitrary readiness schedule; every allowed merge is emitted under some fair schedules (`merge_exact`) | invariant over all schedules; induction on the interleaving |
| C35, C36 | smol compat adaptors over arbitrary reader/writer state machines; `read_exact`, `write_all` of futures-lite modelled from their documented loops | simulation |
| C37–C39 | endian codecs over byte lists | list/bit-vector arithmetic, C07, C09 |
| C40–C42, C45 | codec adaptors over arbitrary lawful codecs | induction over value lists; negation for empty encodings; equivalence with "no empty encodings" |
| C43, C44 | shared codec adaptors: tasks, lock, suspension points as a transition system | invariant over all reachable states: equivalence to a sequential execution |
| C46 | error conversions | case analysis, integer ranges |
| C47 | default and overridden bulk methods on empty buffers | proof for defaults; negation for reader/writer |
| C48 | nesting of adaptors | composition theorem; with `slurp`: a weaker law that all adaptors preserve, and exactly the stacks without deviation (`StacksExact.lean`) |
| C49, C50 | shared codec adaptors as in C43, C44, after errors and with dropped futures | corollaries, also for shared values that check their contract (`Props/SharedContract.lean`); the invariant of C43 with a step for dropped futures (`Lemmas/SharedDrop.lean`); negations by concrete schedules |
| C51 | `bulkProduceDefault`, `bulkConsumeDefault` for arbitrary required methods | laws that speak of the required methods only (DefaultsSpec) imply the full laws; buffer contents by unfolding |
| C52 | `proptest/absolute.rs`, `proptest/relative.rs` assertion by assertion, the bodies of the macros of `proptest.rs` | laws of the codec (CodecSpec, ProptestSpec) and of the test doubles (C30, C31) determine every compared value |
| C53 | same | inversion of the assertions at `IntoVec`/`FromSlice`; two counterexample codecs; conditions equivalent to silence on all inputs |
| C54 | `errors.rs`, `decode_error.rs`: `Display`, `source`, `into_reason` | injectivity of concatenation and of decimal notation |
| C55 | all 24 fuzz targets (`Model/Fuzz.lean`), with the test producers and consumers that `Arbitrary` generates | each target against the laws of the functions that it exercises; loops of the targets by induction over the input |
| C56 | `pipe`, `bulk_pipe`, `pipe_at_most`, `bulk_pipe_at_most` after a consumer error | position of the producer read off the loop invariant (`PipeEnd`); counterexample consumer |
| C57 | the piping functions and `(bulk_)consume_full_slice` with consumers that satisfy only `Defers`/`BulkDefers` (C36, C43) | a loop that moves items in each round returns a good result or runs for ever (`loop_or_forever`) |
| C58 | a second model of `Fixed` and `Static` with `usize` sums and differences that panic or wrap around (`Word`) | under the ring invariant all sums fit in a word, so each method equals that of the first model (`WordFixed.fifoLaw`); beyond, an explicit history |
| C59 | the generators of test vectors as functions on a map from folder and number to contents; `Arbitrary` and `Debug` are arbitrary functions | what decoding returns for all byte strings (`Grammar.Meaning`) and an induction over the corpus |
| C60 | `Arbitrary` as a function on the remaining bytes and a hint; the implementations for the parts are parameters | unfolding, C30, C31, C32; hints add up along sequential composition |
| C61 | all asynchronous functions a second time, over futures that are state machines with `poll` (`Fut`, `Model/Poll.lean`, `Model/Async*.lean`) | `Fut.run` is a monad morphism that commutes with loops; each method of the second model is mapped to that of the first |
| C62 | `Merge` with the two futures in progress as fields; the shared adaptors with critical sections that are futures | a run of polls determines a schedule (`merge_scheduled`), resp. suspension points (`suspension_implements`) of the models in C33, C43 |
| C63 | as C61 | `Fut.Always`: a Hoare logic for the number of times a future is pending (`Lemmas/PollCount.lean`) |
| C64 | all code outside the queues that computes with `usize` a second time, on the same states, with `Word` (`Model/Word*.lean`) | `Same` (`WordSpec.lean`): no allowed call after any history differs; invariants along histories (`KeepsInv`), and computations that agree (`Outcome.Agree`) |
| C65 | as C61; wrapped futures that, once pending, do not go on when polled again (`HangSpec.lean`) | closure of that property under sequencing and loops (`Lemmas/Hang.lean`); `Merge` by cases |
| C66 | shared decoders as in C44, with dropped futures | as C50; negation by a concrete schedule |
| C67 | as C60, for the derived implementations of `Invariant` | unfolding, C25, C26; negation for all wrapped types; exactly which wrappers are lawful (`Props/ArbitraryInvariantExact.lean`) |
| C68 | after every history of allowed calls on the adaptor, the value `into_inner` gives back `BulkPlays`/`BulkCollects` what is left | C20–C31 histories; `ForwardsCalls`: a history of the adaptor is one of the inner value; negations for scramblers and failed writers |
| C69 | equality as an equivalence with what the clients of both values know, for all pairs of histories | C30/C31 accessors after every history (new: after histories of consumers that have ended); negations for producers |
| C70 | `BulkCollects` with the policy "refuse after as many items as the slice is long"; accessors after every history | law of the consumer (C07's vocabulary), cases over the last call |
| C71 | equations of the constructors, for every allocator (an oracle that sees all earlier requests) | unfolding; C01 for the queue that is returned; negations with a rounding allocator and for capacity 0 |
| C72 | `Queue.Alike`: equal answers, equal printed items, and panics at the same call, for all call sequences including forbidden ones | `Static` methods are `Fixed` methods on the same ring buffer, call by call |
| C73 | `bareReader`, `bareWriter` (`IoDirectSpec.lean`): adaptors that have no queue at all; equality of all results, with the queue state unchanged | methods mirror each other, lifted through every loop; invariant of histories for "only `expose_items` fills" |
| C74 | lexicographic order of byte lists against the order of the integers, for the encodings of C37–C39 | induction over the number of bytes |
| C75 | the two scramblers with `debug := true` against `debug := false`, method by method and along histories | the asserted facts follow from the preceding lines (producer), or contradict the queue just emptied (consumer) |
| C76 | the poll-level models of the piping functions; `Fut.Pending` is the set of states between polls, and dropping a future is no longer polling it | a pending sequence is pending in its first or in its second part, a pending loop in the current iteration; the completed iterations preserve what the pipes preserve |
| C77 | the functions that call `clone`, with an arbitrary `clone` (Model/Clone.lean); `exposingClones` is a producer as seen by a client that clones what is exposed | the slice producers are images of those that copy, on the slice of clones; queue calls as for C01 |
| C78 | the same, where `clone` may panic and the functions return the state that they leave; `ActsAsCloningFifo` goes on after panics, with `keepsAll` or `losesDequeued` | clones are made before `consider_*`, so the laws of exposed slots and items apply; `dequeue` clones last (finding 27) |
| C79 | `recordedProducer`, `recordedConsumer` keep the list of the calls that they get (CallsSpec.lean); `PassedOn` relates a call of an adaptor to those that it makes, `PipeCalls` etc. give the calls by result | method by method; loop invariants on the two records |
| C80 | `recordedProducer`, `recordedConsumer` inside the scramblers; `ScrambledProducer`, `ScrambledConsumer` (ScramblerCallsSpec.lean) say which calls are made by which call of the client; `ProduceTurns`, `ConsumeTurns`: the operations in turn | loop invariants for filling and emptying the queue, with the queue as a list (C01); `When` is partial correctness |
| C81 | `pipe` into `encoder` around `writerConsumer`; `decoder` around `readerProducer`/`bufReaderProducer` of what was written; `CutAfter` says where the file ends | C10's loop with `EncodesLaw.deferred`, C36, C35, C41 |
| C82 | `ConsumerRunsCosting`: histories of calls with the sum of what they cost; `IntoVec.enlargements`, `IntoVec.moves` | induction over histories, with the invariants of C64 |
| C83 | recorded calls (C79); `cutShort`: the rounds that took only part of the exposed items | loop invariant: after `j` such rounds the vector has `2 ^ j * (n + 1) - 1` items at least |
| C84 | `DeferringLayers` (StacksSpec.lean): stacks with their consumer, initial state, wrapped consumer, and the errors that may come out (`Faults.limit`, `Faults.mapFinal`) | induction over the stack with C26, C28 and laws for `Limit` and `MapFinal`; pipes by C57 |
| C85 | `Shuffle`, `MergeOf`, `Async.MergeTree` (MergeTreeSpec.lean) over the poll-level model of `Merge` (C62) | induction over the tree with C33, C34, C62; interleavings of shuffles are shuffles; pipes by C10 |
| C86 | `ScramblingLayers` (ScramblingSpec.lean): stacks as data, with their state, producer and transformation of sequences | induction over the stack with C20, C23, C25, C27; a scrambler that never slurps cannot tell `P` from `P.noSlurp`; negation where a slurping scrambler is around a `Limit` |
| C87 | `SourceLayers`, `SinkLayers` (ItemStacksSpec.lean): stacks as data, with the functions on lists they denote | induction over the stacks with C20–C23, C25, C26; end to end with `PipeResult`; examples go from one codec to another |
| C88 | `applyAsync`, `core` (AsyncStacksSpec.lean): the stacks of C84, C86 and C87 made of the polled adaptors | induction over the stacks with C61, C63 and C71; end to end with C86 and C87 |
| C89 | `Async.Network`, `Merged` (NetworkSpec.lean): networks with the finite sequences they allow | induction over the network with C62 (merges) and C87, C88 (stacks); multiplexing by filtering the interleaving |
| C90 | `HastyLaw` (HastySpec.lean): as `BulkPlaysLaw`, but `consider_produced` may report the error that comes next | the proofs of C09, C11, C13, C20, C27 with one more case; witnesses where that case breaks the claim |
| C91 | `Rests`, `BufRests`, `BulkRests` (AgainSpec.lean): every further call, of every method, is answered with the last value; `EndsResting`, `BulkEndsResting`: so after every history that has ended | invariants of the states after the end; for the scrambler the states of C27 split into before and after the end of the wrapped producer; `Asked` for answers that change |
| C92 | `Refuses` (RefuseSpec.lean): every further method that takes items fails with the same error, in all states that can follow; `Offered`: the answers to items offered regardless of errors | invariants of the states after the end; for shared encoders over the serial order of C65 |
| C93 | `Shape` (PaceSpec.lean): the sequences at the leaves, the stacks and the merges; `Allows`: what they allow, without a schedule; `CanEmit`: some polled network of the shape emits it | leaves that are pending as often as prescribed (`Async.Paced`), by recursion over the shape for all prescribed numbers |
| C94 | `Shape.Equiv` (PaceSpec.lean): the same can be emitted | through the exact description of C93; witnesses for the laws that fail |
| C95 | `StreamNetwork` (StreamSpec.lean): what may have been emitted at some time, and with what the network may end, from beginnings of the sequences of the leaves | induction over the network, as for C89; the pipe over the specification of pipe_at_most |
| C96 | `EncodedNetwork` (Props/EncodedStreams.lean): what the consumer of bytes gets, from what the network may emit (C89) | networks with decoders as leaves (C41), piped into encoders as for C81 |
| C97 | `Timeline` and its `merge`, `limit`, … (TimingSpec.lean), `Timed`: the answers of a producer with the number of pending polls before each | induction over the network; the futures kept in a merge may have been polled before |
| C98 | `Grammar.Splits`: bytes as encodings and a rest; `Grammar.Ending`; `Recoded` | strong induction on the number of bytes; `encoder_pipe` of C81 |
| C99 | `DecodeFn.Client`, `EncodeFn.Client`: codecs act through allowed calls; `FramesRead`, `FramesWritten` | histories of `Limit` (C20, C21, C68); uniqueness of finite scripts |
| C100 | `Fut.Pending` as for C76; the state of the dropped future is taken apart (`bulkConsumeStep`, `bulkOverwriteStep`) | `pending_bind`, `pending_loop`; a witness computed for a producer that exposes one byte at a time |
| C101 | `DecodeFn.ClientToTheEnd`: a codec that runs out of bytes has acted through allowed calls; `Message`, `MessagesRead`, `MessagesWritten` | C99; `limit_histories` says that a `Limit` that has ended with `None` has handed out exactly its limit |
| C102 | `ResumeSpec.lean`: relations between the state of a dropped future and the state of the producer or consumer that it leaves (`ProducerDrops`, `ConsumerDrops`), `BulkPipeRetried`; for the test doubles every dropped call is in `maybe_yield` | `bulk_pipe_left` (C76 for given invariants); `PipeResult.advance` |
| C103 | `ResumeSpec.lean`: what a dropped call of `Limit`, `MapItem` or `MapFinal` leaves, given what the dropped call of the wrapped producer or consumer leaves | the laws of C10–C13 for the adaptors; `limit_pipe_producing` ties the limit to the items that have been piped |
| C104 | `ResumeSpec.lean`, `ConsiderDropSpec.lean`: dropped calls of `bulk_consume_full_slice`, `bulk_overwrite_full_slice` and `bulk_pipe_at_most`, with the number of items transferred | the loop invariants of C76 and C100, for given invariants of the producer and the consumer; then the specifications of the calls (C07, C09, C14) from the state that is left |
| C105 | `IoDropSpec.lean`: what dropped calls of the adaptors for readers and writers leave, given what a dropped `read`, `fill_buf`, `write`, `flush` or `close` leaves | where the loops of `read_exact`, `write_all` and `flush_internal_buffer` are pending (`Fut.pending_loop`, with the iterations before as invariants); then the laws of C35 and C36 from the state that is left |
| C106 | `ScramblerDropSpec.lean`: what dropped calls of the scramblers leave, with the items that are emitted again or lost as an index of the relation | where `perform_operation` is pending in the loops of `fill_queue` and of the consumer (`Fut.pending_loop`, with the iterations before as invariants); then the laws of C27 and C28 from the state that is left |
| C107 | `InvariantDropSpec.lean`: what dropped calls of `Invariant` leave, for all nine methods; `Panics`: the first poll panics | every method awaits once, so the pending states are those of the wrapped producer or consumer; tolerance is preserved by the relations `InvariantSt.Plays` and `InvariantSt.Collects` of C25 and C26 |
| C108 | `ItemDropSpec.lean`: what dropped calls of `consume_full_slice`, `overwrite_full_slice` and `pipe_at_most` leave | induction over the relations of `ItemDropSpec.lean` for the slices (the model is recursive there); for `pipe_at_most` the invariant of the loop; then the theorems of C06, C08 and C12 from the state that is left |
| C109 | `CodecDropSpec.lean`: what dropped calls of `Encoder::consume` and `Decoder::produce` leave, for the endian-specific encodings | the theorems on dropped calls of `bulk_consume_full_slice` and `bulk_overwrite_full_slice` (C104), then the theorems of C40 and C41 from the state that is left; induction on the number of drops |
| C110 | `CloseDropSpec.lean`: what dropped calls of `close`, and of the four pipes while `close` is pending, leave | the invariants of the loops (C76) give the items that have been moved; then the theorems of C10–C12 and C14, and the law of `close` |
| C111 | `Props/ResumeCounts.lean`: sequences of dropped calls, each with the rest of the buffer or of the bound | induction on the number of drops, from what a single dropped call leaves (C104, C108) |

## 4. Trusted base

* The Lean 4 kernel; axioms at most `propext`, `Classical.choice`, `Quot.sound`. No axioms of our own.
* The reading of the Rust code into the definitions in `lean/Verif/Model` (each cites file and lines).
* External code, modelled from its documentation:
  - `futures-lite`'s `read_exact` and `write_all` (loops over `read`/`write`), readers that stay at the end once they have
    reported it (`fill_buf`);
  - `wb_async_utils::Mutex`: a task that awaits the lock may get it when nobody has it, in any order; the guard releases it when dropped;
  - `either`, `select`-style polling in `Merge`: left first, as in the code;
  - `pollster::block_on` runs a future to completion; an executor polls a future again and again until it is ready (C61,
    C62: at any time). Wakers are not values of the model. C65 says that futures of the crate wait only for futures that they have
    just polled; that those at the bottom keep the waker and call it is trusted;
  - crate `arbitrary` (C60): implementations for the parts of test doubles are parameters; those used in the examples are written
    down as documented there; `derive(Arbitrary)` creates the fields in order (C67; its guard against recursion is left out);
  - `to_be_bytes` etc. of the standard library.
* Simplifications: `usize` is `Nat` except in C58 and C64, which justify it (a limit or count of `usize::MAX` that stands for "no
  bound" in the code may be any number in the model); items are values without identity, so
  zero-sized types need no special treatment; `Clone` copies (except in C77, C78); `Default` is an arbitrary value.
* Not modelled: memory allocation failure (other than in the constructors of `Fixed`, C71), `Drop`, `no_std`/nightly feature
  variants that repeat the same code, derive-generated code other than `Arbitrary` of `Invariant` (C67), Debug output other than
  queues.
* C70 is about code that the crate does not compile: `consumer/into_slice.rs`, whose synchronous methods are modelled as methods
  of the current traits. C71 trusts the model of `Vec`'s requests for memory in `Model/QueueNightly.lean`.

## 5. Findings

Each is proved as a theorem (named in parentheses) unless it says otherwise.

1. **Queues of capacity 0.** `consider_dequeued(0)` panics (remainder by zero) although it is within the contract
   (`fixed_capacity_zero_panics`, `static_capacity_zero_panics`).
2. **`Invariant` wrappers miss some misuse.** Errors returned by `consider_produced` / `consume_slots` do not deactivate the
   wrapper, and the counter of exposed items is stale after other calls (`producer_invariant_misses_consider_error`,
   `consumer_invariant_misses_consume_slots_error`, `producer_invariant_misses_stale_exposure`,
   `consumer_invariant_misses_stale_exposure`).
3. **`Limit` producer: `slurp` leaks an error at the limit.** When the limit has been reached, `slurp` still forwards to the inner
   producer and can return an error that `produce` would never have returned (`limit_slurp_leaks_error`). A scrambler that slurps
   then emits this error from `produce` (`scrambler_slurp_leaks_error`).
4. **`MapError` works for one call only.** The function is taken out of its `Option` by every call, successful or not; so
   the second call panics, and so do bulk methods (`map_error_panics`, `map_error_bulk_produce_panics`, ...).
5. **Producer scrambler.** `slurp` slurps the inner producer again after its final value, a contract violation
   (`producer_scrambler_slurp_panics`, `producer_scrambler_not_lawful`); capacity 0 panics (`producer_scrambler_capacity_zero`);
   an inner producer that exposes an empty slice makes it loop forever (`producer_scrambler_empty_slice_diverges`).
6. **Consumer scrambler.** A `debug_assert` is inverted, so `consume` panics in debug builds
   (`consumer_scrambler_debug_consume_panics`); with capacity 0 it drops items (`consumer_scrambler_capacity_zero`).
7. **`Merge`** prefers its first producer; the second can starve (`merge_starves`). Not forbidden by the documentation.
8. **Readers.** With a queue of capacity 0 exposing panics (`reader_capacity_zero_panics`). `produce` turns reader errors of
   kind `UnexpectedEof` into the final value, the bulk methods do not (`reader_unexpected_eof_swallowed`). Bulk-producing into an
   empty buffer reports the final value though there are bytes left (`reader_empty_buffer_ends`, `buf_reader_empty_buffer_ends`).
9. **Writers.** Capacity 0 panics (`writer_capacity_zero_panics`). Bulk-consuming an empty buffer fails with `WriteZero`
   (`writer_empty_buffer_fails`). After an error of `write_all` the queue still contains
   bytes that were already written; no call may follow, but `into_inner` gives back the writer and this queue, so a client that
   recovers the bytes that were not written repeats some (C68, `writer_error_keeps_written`).
10. **Codecs with empty encodings.** A `Decoder` first asks whether there are bytes, so values with empty encodings are lost at the
    end of the stream (`empty_encoding_not_inverse`) and repeated forever before it (`empty_encoding_endless`).
11. **Shared adaptors break the contract of the inner value.** After an error or final value has been returned to one task, the
    calls of the others still reach the inner consumer or producer (`shared_encoder_misuse`, `shared_decoder_misuse`).
12. **Dropping a future of a shared encoder** in its critical section, which is allowed, leaves an incomplete encoding
    to which the others append (`shared_encoder_dropped`).
13. **Proptest helper** `assert_encoding_does_not_care_about_consumer_details` accepts that one of two successful encodings is a
    strict prefix of the other, so an encoder whose output depends on the number of exposed slots passes all property tests
    for all inputs (`fuzz_blind_to_consumer`).
14. **Proptest helper** `assert_decoding_reads_no_excessive_bytes` skips decodings that read exactly one byte (`len() > 1`), so a
    decoder of an empty encoding that reads one byte too many passes all property tests for all inputs
    (`fuzz_blind_to_overreading`).
15. **Building without `std`** (by reading; the model has no notion of features): `errors.rs:18,72,114` and the `Debug`
    implementations of the `Invariant` wrappers name `std::fmt` although the crate is `no_std` and links `std` only with the
    feature of that name.
16. **After a consumer error `pipe` and `bulk_pipe` differ.** `pipe` has lost the refused item (`pipe_leaves`), `bulk_pipe` lets the
    producer emit it again, possibly together with items that were already consumed (`bulk_pipe_may_repeat`). The documentation
    is silent about it.
17. **What the fuzz targets cannot find** (C55; the targets themselves find nothing, for any input).
    - `producer_invariant_is_transparent.rs`, `consumer_invariant_is_transparent.rs`: outside of `cfg(test)` the `Invariant`
      wrapper is the one without checks (`producer.rs:71-78`, `consumer.rs:57-64`), and fuzz builds are not test builds. So the
      wrapper with checks is not fuzzed at all. The former also stops as soon as the innermost producer has emitted its last
      value; items that are still in the buffer of the scrambler are not compared.
    - The bulk queue targets do not notice if bulk methods move no items at all (`queue_target_blind`).
    - With debug assertions (the default of `cargo fuzz`) all targets with a consumer `BulkScrambler` fail on inputs of more
      than 2048 items (finding 6; `into_vec_target_panics`, `send_half_panics`, `consumer_scrambler_target_panics`,
      `consumer_invariant_target_panics`). That the bug went unnoticed suggests that such long inputs were never generated.
    - Equality of `TestProducer`s ignores the position (`test_producer_eq_partial`), so the target for `bulk_pipe` cannot see
      finding 16.
    - `bulk_overwrite_full_slice.rs` does not compare the contents of the buffers.
    - `TestProducer::into_data` is documented to return "the last one" too, but returns `None` for it once it has been emitted
      (`test_producer_accessors`: it returns all items and `peek_last`, which is `None` then).
18. **Queues of more than 2⁶³ zero-sized items overflow** (C58, on a 64-bit machine). `Fixed::<()>::new(usize::MAX)` can be created
    without allocating anything. `read + amount` then exceeds `usize::MAX` in histories that respect the documented invariants; the
    queue panics whether or not overflow checks are on (`word_fixed_overflows`, `word_static_overflows`). The bound is sharp
    (`word_fixed_fifo_iff`), and queues of items that take up memory are not affected (`word_fixed_fifo_sized`).
19. **Test vectors** (C59).
    - The relative generators write the absolute encoding of the value to `reencoded` (they ask for `T: Encodable`, not
      `RelativeEncodable`). Decoded relative to `yay_relative_to` it may yield another value (`relative_reencoded_absolute`).
    - Files of earlier runs are not removed, so one number may be both in `yay` and in `nay` (`stale_vectors`).
    - Inputs in `yay` may have bytes after the encoding, also for canonic codecs (`vectors_with_trailing_bytes`);
      `generate_test_vectors_canonic_absolute` writes no `reencoded` from which the encoding could be told.
20. **The size hint of `TestProducer`** (C60, `arbitrary_test_producer_hint_wrong`). `size_hint` in
    producer/test_producer.rs:150-157 is that of `TestConsumer`: it adds up the hints for `Error`, `usize` and the two slices, but
    `arbitrary` reads `Box<[Item]>` and `Result<Final, Error>` instead of the first two. For `u16` the lower bound is ten bytes,
    but six suffice; it is wrong for all item and final types and all sensible error types (`arbitrary_test_producer_hint_never`).
    libfuzzer discards inputs that are shorter than the lower bound, so such inputs are never tried.
21. **`IntoVec` with items that take up no memory** (C64, `word_into_vec_overflows`). After `usize::MAX` items, `consume` panics
    (with overflow checks at the sum, without them at the index), although the consumer's error type is `Infallible`. `expose_slots`
    panics with overflow checks; without them it exposes an empty slice, which its contract forbids, so that
    `bulk_consume_full_slice` never returns. (`make_space_if_needed`, into_vec.rs:151-155, computes `consumed * 2 + 1`, which wraps
    around to `usize::MAX`.)
22. **Dropped futures of shared decoders** (C66, `shared_decoder_dropped`; as finding 12 for encoders). If the future of `produce` of
    one of several shared decoders is dropped after it has read some bytes, then the other decoders go on in the middle of a value,
    and answer `Ok` with values that nobody has encoded.
23. **`Invariant` from random bytes** (C67, `arbitrary_invariant_inactive`, `arbitrary_invariant_unchecked`). The checked `Invariant`
    derives `Arbitrary` for all its fields. So a wrapper from random bytes may be inactive from the start, and then it panics at the
    first call although the caller made no mistake; and it may allow `consider_produced` or `consume_slots` before anything has been
    exposed. The implementations should create `inner` only and call `new`. (The test doubles do: C60.)
24. **`into_inner` of the scramblers** (C68, `producer_scrambler_into_inner_loses`, `consumer_scrambler_into_inner_loses`). They drop
    their buffer: items that have been taken from the producer but not handed out, or that have been accepted but not yet passed
    on, are gone, without any error. The documentation of `into_inner` does not mention it. (Readers and writers give the queue
    back.)
25. **Equality of `TestProducer`s** (C69, `test_producer_eq_forgets_last`, `test_producer_eq_changes_at_the_end`). It is documented to
    consider "only the values that have been or will be emitted (regular, final, and error)". But the last value is taken out of
    its field when it is emitted: two producers that have emitted different final values (or one a final value, the other an
    error) are equal, and a producer is not equal to a clone made before it emitted its last value. Items, in contrast, count
    whether they have been emitted or not.
26. **`try_new` of `Fixed` may panic** (C71, `fixed_try_new_panics`), as far as `Vec` documents its behaviour: only
    `try_with_capacity` is fallible; if it provides more memory than requested, `into_boxed_slice` shrinks the allocation, and
    that may fail. (The current `Vec` does not over-allocate, so this does not happen today, `fixed_try_new`.) Also, "a single
    heap allocation" is none for capacity 0 (`fixed_zero_allocates_nothing`). Minor: `new_in_with_manual_tmps` and
    `try_new_in_with_manual_tmps` (fixed.rs:166-167) require `T: Default` although avoiding that is their purpose.
27. **`dequeue` loses items whose `clone` panics** (C78, `fixed_unwound_loses`, `static_unwound_loses`). It advances the read index and
    decrements the amount before it clones the item (fixed.rs:275-279, static_.rs:112-116), so that after a caught panic the item is
    gone. All other functions clone first. Related (C77, `dequeue_keeps_originals`): `dequeue` clones although it could move, so
    the original stays in the buffer (and is not dropped) until it is overwritten.
28. **Errors of `consider_produced`** (C90, `bulk_produce_hasty_loses`, `bulk_pipe_at_most_hasty_differs`, `limit_hasty_fails`). The trait
    lets `consider_produced` fail. If a producer uses this to report the error that comes after the items marked as produced, then
    the default `bulk_produce` (lib.rs:482) answers with that error without saying that it has written items to the buffer, so
    these are lost, and `bulk_overwrite_full_slice` reports too small a count, or fails though the whole slice has been overwritten;
    `bulk_pipe_at_most` fails where `pipe_at_most` returns `Ok(count)`; `Limit` reports an error that lies beyond the limit.
    `bulk_pipe` and `BulkScrambler` are right also for such producers. No producer in the repository fails in
    `consider_produced` on its own account.
29. **`Limit` asked again** (C91, `limit_again`, `limit_not_resting`). `Limit::produce` decrements `remaining` before it asks the wrapped
    producer (limit.rs:54-65), also if that answers with its final value. If such a `Limit` is asked again and the wrapped producer
    repeats its final value, as slices and readers do, the answers are `Some(fin)` for some time and then `None`: the final value of
    the same stream changes. Only calls that the documentation forbids show this.
30. **`Merge` after an error** (C91, `merge_goes_on_after_error`). After an error of one producer, `Merge` keeps both futures
    (merge.rs:63-82), so items of the other producer follow if it is asked again, though `Merge` has emitted its last value.
    (After a final value it asks the producer that ended last once more; its panic for calls after the end, merge.rs:50-52, is not reached.) As 29, only forbidden calls show this.
31. **Who checks the rules for calls after the end** (C92). `Invariant` checks if `cfg(test)` applies to the crate `ufotofu` itself
    (`consumer.rs:57-64`, `producer.rs:71-78`), that is, in its own unit tests only. In tests of crates that depend on it (also
    `ufotofu_codec`), in documentation tests, in the fuzz targets, and in every other build the wrapper does nothing, although
    custom consumers are advised to use it (`consumer/invariant.rs:3-11`). There, violations show in several ways: `IntoVec` and `TestConsumer` silently go on
    after `close` (`into_vec_after_close`, `test_consumer_after_close`), a consumer `BulkScrambler` that has failed to deliver an
    item drops it and accepts further ones (`consumer_scrambler_after_error`), the error of `Limit` changes from `Some` to `None`
    (`limit_consumer_again`), and `TestConsumer` panics in an `unwrap` whose comment (test_consumer.rs:334) says that
    the invariant wrapper has panicked before (`test_consumer_again`).
32. **Starting again after a drop** (C102–C111; forbidden by lib.rs:33). Even with producers and consumers that tolerate dropped calls:
    `bulk_pipe` repeats items if it was dropped while `consider_produced` was pending (`bulk_pipe_repeats`), panics if it was dropped
    while `close` was pending (`bulk_pipe_dropped_closing`); `pipe` loses an item if it was dropped while `consume` was
    pending. `Limit` lowers its limit before the `await` (producer/limit.rs:54-65 and 91-94, consumer/limit.rs:44-52 and 79-82), so a dropped call
    counts: `pipe` from a `Limit` then ends successfully one item too early (`limit_pipe_loses`), and `bulk_pipe` into a
    `Limit` fails too early (`limit_bulk_pipe_loses`). Lowering it after the `await` would avoid this. The consumer `MapItem` calls its function before the `await`, so it is called twice for an item
    that is offered again (`map_item_consume_dropped`). The transfers of slices and `bulk_pipe_at_most` lose their count (C104): started again,
    they repeat items (`bulk_consume_full_slice_repeats`), lose items (`bulk_overwrite_full_slice_loses`), move more than `count` items
    (`bulk_pipe_at_most_exceeds`) or move items twice (`bulk_pipe_at_most_repeats`). So do their item-wise counterparts (C108: `consume_full_slice_repeats`, `overwrite_full_slice_loses`,
    `pipe_at_most_exceeds`), and `pipe_at_most` loses the item it holds (`pipe_at_most_loses`). A dropped call of
    an `Encoder` or `Decoder` shifts all later integers (C109: `encoder_misaligned`, `decoder_misaligned`). A pipe
    that is dropped while `close` is pending loses the final value, and panics when it is started again from a `TestProducer` (C110). `WriterToBulkConsumer` calls `consider_dequeued` only after `write_all` has been completed (C105): if the
    flush is dropped after a part of the buffer has been written, that part is written again (`writer_repeats`, `writer_close_repeats`); the adaptors for readers
    have no such problem. The `BulkScrambler`s move items to or from their queue before the `await`s of `consider_produced`, `consume` and
    `consume_slots` (C106): if they are dropped there, the producer scrambler repeats these items (`producer_scrambler_repeats`), and the
    consumer scrambler loses them (`consumer_scrambler_loses`, `consumer_scrambler_close_loses`).
    `Invariant`, which exists to find callers that break the contract, does not notice calls after a drop (C107,
    `invariant_pipe_unnoticed`); a dropped `close` of it cannot be repeated (`invariant_close_again`).

## 6. Wrong programs

`seeded/LOG.jsonl` has one line per edit of a model definition (a plausible bug) made in a scratch copy. `theorems_failed` are the
declarations whose proofs no longer compile; `dependent_theorems` are the theorems of the manifest that depend on them (a lower
bound, as modules that import a broken module are not compiled). Some edits are controls that change nothing observable; their
notes say so. Where an edit survived though it falsified an English claim, the theorems named in `theorems_tightened` were added
or strengthened and the edit was repeated (with a `b` after its identifier).
