import Verif.Model.Fuzz
import Verif.Lemmas.Loop

/-!
# The tests of the repository, run on the model

The unit tests and documentation tests of `/repo`, transcribed. They prove nothing about all inputs; they check that the model
agrees with the code (which passes these tests) on what its authors chose to write down. Tests that need a network
(`reader.rs:245-343`) and `IntoVec::with_capacity` (`into_vec.rs:51-60`; capacities of vectors are not modelled) are left out, as are
the tests of `into_slice.rs`, which is not compiled.
-/

namespace Verif

namespace RepoTests

open Outcome

section

variable {σ I F E : Type}

/-- The results of calling `produce` `n` times, and the state afterwards. -/
def produceTimes (P : Producer σ I F E) : Nat → σ → Outcome (σ × List (Except E (I ⊕ F)))
  | 0, s => ok (s, [])
  | n + 1, s => do
    let (s, r) ← P.produce s
    let (s, rs) ← produceTimes P n s
    return (s, r :: rs)

/-- The results of calling `consume` with each of the items, and the state afterwards. -/
def consumeEach (C : Consumer σ I F E) : List I → σ → Outcome (σ × List (Except E Unit))
  | [], s => ok (s, [])
  | x :: xs, s => do
    let (s, r) ← C.consume s x
    let (s, rs) ← consumeEach C xs s
    return (s, r :: rs)

/-- What is observed at the start and after each of `n` calls of `produce`. -/
def observe {A : Type} (P : Producer σ I F E) (obs : σ → Outcome A) : Nat → σ → Outcome (List A)
  | 0, s => do return [← obs s]
  | n + 1, s => do
    let a ← obs s
    let (s, _) ← P.produce s
    let rest ← observe P obs n s
    return a :: rest

end

/-! ## `ufotofu_queues` -/

section

variable {κ : Type}

/-- fixed.rs:436-450, static_.rs:174-188 `enqueues_and_dequeues_with_correct_amount` -/
def correctAmount (Q : Queue κ UInt8) (q : κ) : Outcome (List (Option UInt8) × List Nat × Option UInt8 × Nat) := do
  let (q, a) ← Q.enqueue q 7
  let (q, b) ← Q.enqueue q 21
  let (q, c) ← Q.enqueue q 196
  let l₁ := Q.len q
  let (q, d) ← Q.enqueue q 233
  let l₂ := Q.len q
  let (q, e) ← Q.dequeue q
  return ([a, b, c, d], [l₁, l₂], e, Q.len q)

example : correctAmount (Fixed.queue UInt8) (Fixed.new 4 fun _ => 0) = ok ([none, none, none, none], [3, 4], some 7, 3) := rfl

example : correctAmount (Static.queue UInt8 4) (Static.new 4 fun _ => 0) = ok ([none, none, none, none], [3, 4], some 7, 3) := rfl

/-- fixed.rs:453-461, static_.rs:191-199 `bulk_enqueues_and_dequeues_with_correct_amount` (`b"ufo"`) -/
def bulkCorrectAmount (Q : Queue κ UInt8) (q : κ) : Outcome (Nat × Nat) := do
  let (q, a) ← Q.bulkEnqueue q [117, 102, 111]
  let (_, b, _) ← Q.bulkDequeue q [0, 0, 0, 0]
  return (a, b)

example : bulkCorrectAmount (Fixed.queue UInt8) (Fixed.new 4 fun _ => 0) = ok (3, 3) := rfl

example : bulkCorrectAmount (Static.queue UInt8 4) (Static.new 4 fun _ => 0) = ok (3, 3) := rfl

/-- fixed.rs:464-470, static_.rs:202-208 `returns_item_on_enqueue_when_queue_is_full` -/
def enqueueTwice (Q : Queue κ UInt8) (q : κ) : Outcome (Option UInt8 × Option UInt8) := do
  let (q, a) ← Q.enqueue q 7
  let (_, b) ← Q.enqueue q 0
  return (a, b)

example : enqueueTwice (Fixed.queue UInt8) (Fixed.new 1 fun _ => 0) = ok (none, some 0) := rfl

example : enqueueTwice (Static.queue UInt8 1) (Static.new 1 fun _ => 0) = ok (none, some 0) := rfl

/-- fixed.rs:473-482, static_.rs:211-220 `returns_none_on_dequeue_when_queue_is_empty` -/
def dequeueTwice (Q : Queue κ UInt8) (q : κ) : Outcome (Option UInt8) := do
  let (q, _) ← Q.enqueue q 7
  let (q, _) ← Q.dequeue q
  let (_, b) ← Q.dequeue q
  return b

example : dequeueTwice (Fixed.queue UInt8) (Fixed.new 1 fun _ => 0) = ok none := rfl

example : dequeueTwice (Static.queue UInt8 1) (Static.new 1 fun _ => 0) = ok none := rfl

/-- fixed.rs:485-502, static_.rs:223-240 `returnes_none_on_enqueue_slots_when_none_are_available` -/
def slotsUsedUp (Q : Queue κ UInt8) (q : κ) : Outcome (Option (List UInt8)) := do
  let (q, slots) ← Q.exposeSlots q
  let _ ← unwrap slots
  let q ← Q.considerEnqueued (Q.writeSlots q [116, 111]) 2
  let (q, slots) ← Q.exposeSlots q
  let _ ← unwrap slots
  let q ← Q.considerEnqueued (Q.writeSlots q [116, 111]) 2
  let (_, slots) ← Q.exposeSlots q
  return slots

example : slotsUsedUp (Fixed.queue UInt8) (Fixed.new 4 fun _ => 0) = ok none := rfl

example : slotsUsedUp (Static.queue UInt8 4) (Static.new 4 fun _ => 0) = ok none := rfl

/-- fixed.rs:505-517, static_.rs:243-255 `returns_none_on_dequeue_slots_when_none_are_available` (`b"tofu"`) -/
def itemsUsedUp (Q : Queue κ UInt8) (q : κ) : Outcome (Option (List UInt8)) := do
  let (q, _) ← Q.bulkEnqueue q [116, 111, 102, 117]
  let (q, items) ← Q.exposeItems q
  let _ ← unwrap items
  let q ← Q.considerDequeued q 4
  let (_, items) ← Q.exposeItems q
  return items

example : itemsUsedUp (Fixed.queue UInt8) (Fixed.new 4 fun _ => 0) = ok none := rfl

example : itemsUsedUp (Static.queue UInt8 4) (Static.new 4 fun _ => 0) = ok none := rfl

/-- fixed.rs:520-560, static_.rs:258-289 `test_debug_impl`, without the punctuation: at each point length and entries. -/
def debugs (Q : Queue κ UInt8) (entries : κ → Outcome (List UInt8)) (q : κ) : Outcome (List (Nat × List UInt8)) := do
  let (q, _) ← Q.enqueue q 7
  let (q, _) ← Q.enqueue q 21
  let (q, _) ← Q.enqueue q 196
  let a ← entries q
  let (q₁, _) ← Q.dequeue q
  let b ← entries q₁
  let (q₂, _) ← Q.dequeue q₁
  let c ← entries q₂
  let (q₃, _) ← Q.enqueue q₂ 33
  let d ← entries q₃
  let (q₄, _) ← Q.enqueue q₃ 17
  let e ← entries q₄
  let (q₅, _) ← Q.enqueue q₄ 200
  let f ← entries q₅
  return [(Q.len q, a), (Q.len q₁, b), (Q.len q₂, c), (Q.len q₃, d), (Q.len q₄, e), (Q.len q₅, f)]

example : debugs (Fixed.queue UInt8) Fixed.debugEntries (Fixed.new 4 fun _ => 0) =
    ok [(3, [7, 21, 196]), (2, [21, 196]), (1, [196]), (2, [196, 33]), (3, [196, 33, 17]), (4, [196, 33, 17, 200])] := rfl

example : debugs (Static.queue UInt8 4) Static.debugEntries (Static.new 4 fun _ => 0) =
    ok [(3, [7, 21, 196]), (2, [21, 196]), (1, [196]), (2, [196, 33]), (3, [196, 33, 17]), (4, [196, 33, 17, 200])] := rfl

end

/-! ## `IntoVec` -/

section

/-- into_vec.rs:33-39, 98-104 -/
example : (do
    let (c, rs) ← consumeEach (IntoVec.consumer Nat).toConsumer [4, 7] IntoVec.new
    return (rs, c.intoVec)) = ok ([.ok (), .ok ()], [4, 7]) := rfl

/-- into_vec.rs:72-81 -/
example : (do
    let (c, rs) ← consumeEach (IntoVec.consumer Nat).toConsumer [4, 7] (IntoVec.fromVec [1, 2, 3])
    return (rs, c.intoVec)) = ok ([.ok (), .ok ()], [1, 2, 3, 4, 7]) := rfl

/-- into_vec.rs:217-223 (the output shows the two fields) -/
example : (IntoVec.new : IntoVec UInt8) = { v := [], consumed := 0 } := rfl

/-- into_vec.rs:226-235 (`b"ufotofu"`) -/
example : (do
    let (c, r) ← bulkConsumeFullSlice (IntoVec.consumer UInt8) IntoVec.new [117, 102, 111, 116, 111, 102, 117]
    let (c, r') ← (IntoVec.consumer UInt8).close c ()
    return (r, r', c.intoVec)) = ok (.ok (), .ok (), [117, 102, 111, 116, 111, 102, 117]) := by
  have h : bulkConsumeFullSlice (IntoVec.consumer UInt8) IntoVec.new [117, 102, 111, 116, 111, 102, 117] =
      ok (⟨[117, 102, 111, 116, 111, 102, 117], 7⟩, .ok ()) := by
    unfold bulkConsumeFullSlice
    rw [loop_eq_of_fuel (n := 5)]
    · rfl
    · decide
  rw [h]
  rfl

end

/-! ## `Limit`, `Empty`, `FromSlice`, `FromBoxedSlice` -/

/-- consumer/limit.rs:18-23 -/
example : (do
    let (_, rs) ← consumeEach (limitConsumer (IntoVec.consumer Nat).toConsumer) [0, 1, 2] { inner := IntoVec.new, remaining := 2 }
    return rs) = ok [.ok (), .ok (), .error none] := rfl

/-- producer/limit.rs:20-25 -/
example : (do
    let (_, rs) ← produceTimes (limitProducer (FromBoxedSlice.producer Nat).toProducer) 3
      { inner := FromBoxedSlice.new [0, 1, 2], remaining := 2 }
    return rs) = ok [.ok (.inl 0), .ok (.inl 1), .ok (.inr none)] := rfl

/-- producer/limit.rs:27-33 -/
example : (do
    let (_, rs) ← produceTimes (limitProducer (FromBoxedSlice.producer Nat).toProducer) 4
      { inner := FromBoxedSlice.new [0, 1, 2], remaining := 4 }
    return rs) = ok [.ok (.inl 0), .ok (.inl 1), .ok (.inl 2), .ok (.inr (some ()))] := rfl

/-- empty.rs:24-28 -/
example : (do
    let (_, rs) ← produceTimes (EmptyProducer.producer Bool UInt8 String).toProducer 1 (EmptyProducer.new 17)
    return rs) = ok [.ok (.inr 17)] := rfl

/-- from_slice.rs:24-31 -/
example : (do
    let (_, rs) ← produceTimes (FromSlice.producer Nat).toProducer 4 (FromSlice.new [1, 2, 3])
    return rs) = ok [.ok (.inl 1), .ok (.inl 2), .ok (.inl 3), .ok (.inr ())] := rfl

/-- from_slice.rs:45-57 -/
example : observe (FromSlice.producer Nat).toProducer (fun s => ok s.offset) 4 (FromSlice.new [1, 2, 3]) = ok [0, 1, 2, 3, 3] := rfl

/-- from_slice.rs:70-82 -/
example : observe (FromSlice.producer Nat).toProducer FromSlice.producedSoFar 4 (FromSlice.new [1, 2, 3]) =
    ok [[], [1], [1, 2], [1, 2, 3], [1, 2, 3]] := rfl

/-- from_slice.rs:95-107 -/
example : observe (FromSlice.producer Nat).toProducer FromSlice.notYetProduced 4 (FromSlice.new [1, 2, 3]) =
    ok [[1, 2, 3], [2, 3], [3], [], []] := rfl

/-- from_slice.rs:120-126 -/
example : observe (FromSlice.producer Nat).toProducer (fun s => ok s.intoInner) 2 (FromSlice.new [1, 2, 3]) =
    ok [[1, 2, 3], [1, 2, 3], [1, 2, 3]] := rfl

/-- from_boxed_slice.rs:32-39, 54-61 -/
example : (do
    let (_, rs) ← produceTimes (FromBoxedSlice.producer Nat).toProducer 4 (FromBoxedSlice.new [1, 2, 3])
    return rs) = ok [.ok (.inl 1), .ok (.inl 2), .ok (.inl 3), .ok (.inr ())] := rfl

/-- from_boxed_slice.rs:76-88 -/
example : observe (FromBoxedSlice.producer Nat).toProducer (fun s => ok s.offset) 4 (FromBoxedSlice.new [1, 2, 3]) =
    ok [0, 1, 2, 3, 3] := rfl

/-- from_boxed_slice.rs:101-113 -/
example : observe (FromBoxedSlice.producer Nat).toProducer FromBoxedSlice.producedSoFar 4 (FromBoxedSlice.new [1, 2, 3]) =
    ok [[], [1], [1, 2], [1, 2, 3], [1, 2, 3]] := rfl

/-- from_boxed_slice.rs:126-138 -/
example : observe (FromBoxedSlice.producer Nat).toProducer FromBoxedSlice.notYetProduced 4 (FromBoxedSlice.new [1, 2, 3]) =
    ok [[1, 2, 3], [2, 3], [3], [], []] := rfl

/-- from_boxed_slice.rs:151-157 -/
example : observe (FromBoxedSlice.producer Nat).toProducer (fun s => ok s.intoInner) 2 (FromBoxedSlice.new [1, 2, 3]) =
    ok [[1, 2, 3], [1, 2, 3], [1, 2, 3]] := rfl

/-! ## `TestProducer`, `TestConsumer` -/

section

/-- The public producer, and the one of `new(items, last).build()`. -/
noncomputable abbrev pro (F E : Type) := publicProducer false (TestProducer.producer false Nat F E)

abbrev build {F E : Type} (items : List Nat) (last : Except E F) (sizes : List NonZero := []) : InvariantSt (TestProducer Nat F E) :=
  .new (TestProducer.new items last sizes none)

/-- test_producer.rs:32-39, 180-187, 207-214, 282-289 -/
example : (do
    let (_, rs) ← produceTimes (pro Nat Empty).toProducer 4 (build [1, 2, 3] (.ok 9999))
    return rs) = ok [.ok (.inl 1), .ok (.inl 2), .ok (.inl 3), .ok (.inr 9999)] := rfl

/-- test_producer.rs:52-58 -/
example : observe (pro Unit Unit).toProducer (fun s => s.inner.remaining) 2 (build [1, 2, 3, 4] (.ok ())) =
    ok [[1, 2, 3, 4], [2, 3, 4], [3, 4]] := rfl

/-- test_producer.rs:72-78 -/
example : (do
    let (s, _) ← produceTimes (pro Unit Nat).toProducer 2 (build [1, 2, 3, 4] (.error 999))
    return s.inner.intoData) = ok ([1, 2, 3, 4], some (.error 999)) := rfl

/-- test_producer.rs:94-99 -/
example : (do
    let (s, _) ← produceTimes (pro Nat Empty).toProducer 1 (build [1, 2, 3] (.ok 9999))
    return s.inner.peekLast) = ok (some (.ok 9999)) := rfl

/-- test_producer.rs:113-121 -/
example : observe (pro Nat Empty).toProducer (fun s => ok s.inner.didAlreadyEmitLast) 2 (build [1] (.ok 9999)) =
    ok [false, false, true] := rfl

/-- test_producer.rs:237-245 -/
example : (do
    let (s, a) ← (pro Nat Empty).exposeItems (build [1, 2, 3, 4] (.ok 9999) [⟨2, by decide⟩, ⟨1, by decide⟩])
    let (s, b) ← (pro Nat Empty).exposeItems s
    let (_, c) ← (pro Nat Empty).exposeItems s
    return (a, b, c)) = ok (.ok (.inl [1, 2]), .ok (.inl [1]), .ok (.inl [1, 2])) := rfl

noncomputable abbrev con (F E : Type) := publicConsumer false (TestConsumer.consumer false Nat F E)

abbrev buildCon (F : Type) {E : Type} (error : E) (n : Nat) (sizes : List NonZero := []) : InvariantSt (TestConsumer Nat F E) :=
  .new (TestConsumer.new error n sizes none)

/-- test_consumer.rs:26-33, 184-191, 209-216, 280-287 -/
example : (do
    let (s, rs) ← consumeEach (con Unit Nat).toConsumer [4, 7, 99] (buildCon Unit 404 2)
    return (rs, ← s.inner.consumed)) = ok ([.ok (), .ok (), .error 404], [4, 7]) := rfl

/-- test_consumer.rs:44-50 -/
example : (do
    let (s, rs) ← consumeEach (con Unit Unit).toConsumer [4, 7] (buildCon Unit () 999)
    return (rs, ← s.inner.consumed)) = ok ([.ok (), .ok ()], [4, 7]) := rfl

/-- test_consumer.rs:62-69, 81-88 -/
example : (do
    let (s, rs) ← consumeEach (con Nat Unit).toConsumer [4] (buildCon Nat () 999)
    let (s', r) ← (con Nat Unit).close s 17
    return (rs, s.inner.finalConsumed, r, s'.inner.finalConsumed, s'.inner.intoConsumed)) =
    ok ([.ok ()], none, .ok (), some 17, [4], some 17) := rfl

/-- test_consumer.rs:100-107, 119-126 -/
example : (do
    let (s, rs) ← consumeEach (con Unit Nat).toConsumer [4] (buildCon Unit 404 1)
    let (s', r) ← (con Unit Nat).consume s 99
    return (rs, s.inner.peekError, s.inner.didError, r, s'.inner.peekError, s'.inner.didError)) =
    ok ([.ok ()], some 404, false, .error 404, none, true) := rfl

/-- test_consumer.rs:237-245 -/
example : (do
    let (s, a) ← (con Unit Unit).exposeSlots (buildCon Unit () 999 [⟨76, by decide⟩, ⟨1, by decide⟩])
    let (s, b) ← (con Unit Unit).exposeSlots s
    let (_, c) ← (con Unit Unit).exposeSlots s
    return ((← unwrapResult a).length, (← unwrapResult b).length, (← unwrapResult c).length)) = ok (76, 1, 76) := by
  generalize hw : List.replicate 127 0 = w
  have len : w.length = 127 := by rw [← hw]; rfl
  have grow : loop (TestConsumer.growBody 76) (⟨[], 0⟩ : IntoVec Nat) = ok ⟨w, 0⟩ :=
    (loop_eq_of_fuel (n := 9) (by decide)).trans (by rw [← hw]; rfl)
  have enough (n : Nat) (h : n ≤ 127) : loop (TestConsumer.growBody n) (⟨w, 0⟩ : IntoVec Nat) = ok ⟨w, 0⟩ := by
    rw [loop_unfold]
    simp [TestConsumer.growBody, IntoVec.remainingSlots, Outcome.sub, len, Nat.not_lt.mpr h]
  simp [buildCon, con, publicConsumer, unusedInvariantBulkConsumer, TestConsumer.consumer, TestConsumer.exposeSlots,
    TestConsumer.enter, TestConsumer.checkError, TestConsumer.nextSize, maybeYield, TestConsumer.new, Sizes.new, Sizes.next,
    Outcome.index, Outcome.mod, InvariantSt.new, IntoVec.new, IntoVec.fromVec, grow, enough, len, IntoVec.consumer, IntoVec.exposeSlots,
    IntoVec.makeSpaceIfNeeded, Outcome.slice, unwrapResult]

end

end RepoTests

end Verif
