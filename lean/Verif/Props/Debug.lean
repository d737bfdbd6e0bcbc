import Verif.Props.Scramblers
import Verif.Lemmas.Debug

/-!
# Builds with and without debug assertions (C75)

The only uses of `debug_assert!` in the repository are in the two scramblers.
-/

namespace Verif

open Outcome

section

variable {σ I F E : Type}

/-! ## Producers -/

/-- A producer that emits zeros but exposes nothing. -/
def zerosThenNothing : BulkProducer Unit Nat Unit Nat where
  produce s := ok (s, .ok (.inl 0))
  slurp s := ok (s, .ok ())
  exposeItems s := ok (s, .ok (.inl []))
  considerProduced s _ := ok (s, .ok ())

/-- **C75, producers.** The `BulkScrambler` for producers is the same with and without debug assertions, whatever the wrapped
producer does and whatever calls are made. -/
theorem producer_scrambler_debug_same (P : BulkProducer σ I F E) : producerScrambler true P = producerScrambler false P := by
  have h : ProducerScrambler.fillQueue true P = ProducerScrambler.fillQueue false P := by
    funext s; simp only [ProducerScrambler.fillQueue, ProducerScrambler.fillBody_debug]
  have h1 : ProducerScrambler.produce true P = ProducerScrambler.produce false P := by
    funext s; simp only [ProducerScrambler.produce, h]
  have h2 : ProducerScrambler.slurp true P = ProducerScrambler.slurp false P := by
    funext s; simp only [ProducerScrambler.slurp, h]
  have h3 : ProducerScrambler.exposeItems true P = ProducerScrambler.exposeItems false P := by
    funext s; simp only [ProducerScrambler.exposeItems, h]
  simp only [producerScrambler, h1, h2, h3]

/-- For example around a producer that violates the contract: it exposes empty slices. -/
example : (producerScrambler true zerosThenNothing).exposeItems
      (.new () [.considerProduced ⟨3, by decide⟩, .produce] 4 fun _ => 0) =
    (producerScrambler false zerosThenNothing).exposeItems
      (.new () [.considerProduced ⟨3, by decide⟩, .produce] 4 fun _ => 0) := by
  rw [producer_scrambler_debug_same]

/-! ## Consumers -/

/-- **C75, consumers: which calls differ.** With debug assertions every method of the `BulkScrambler` for consumers does the same
as without, except that `consume` panics where it would have succeeded, if its buffer is full (and has room for at least one
item). -/
theorem consumer_scrambler_debug_exact (C : BulkConsumer σ I F E) :
    (∀ s x, (consumerScrambler true C).consume s x = ((consumerScrambler false C).consume s x).bind fun
      | (t, .error e) => ok (t, .error e)
      | (t, .ok ()) => if s.buffer.len = s.buffer.capacity ∧ 0 < s.buffer.capacity then .panic else ok (t, .ok ())) ∧
    (consumerScrambler true C).close = (consumerScrambler false C).close ∧
    (consumerScrambler true C).flush = (consumerScrambler false C).flush ∧
    (consumerScrambler true C).exposeSlots = (consumerScrambler false C).exposeSlots ∧
    (consumerScrambler true C).writeSlots = (consumerScrambler false C).writeSlots ∧
    (consumerScrambler true C).consumeSlots = (consumerScrambler false C).consumeSlots ∧
    (consumerScrambler true C).bulkConsume = (consumerScrambler false C).bulkConsume := by
  have hd : ConsumerScrambler.drain true C = ConsumerScrambler.drain false C := by
    funext s; simp only [ConsumerScrambler.drain, ConsumerScrambler.drainBody_debug]
  have he : ConsumerScrambler.exposeSlots true C = ConsumerScrambler.exposeSlots false C := by
    funext s; simp only [ConsumerScrambler.exposeSlots, hd]
  refine ⟨fun s x => ?_, ?_, ?_, he, rfl, rfl, ?_⟩
  · simp only [consumerScrambler, ConsumerScrambler.consume, hd]
    by_cases hfull : s.buffer.amount = s.buffer.capacity
    · have h1 : s.buffer.enqueue x = ok (s.buffer, some x) := by simp [Fixed.enqueue, hfull]
      simp only [h1, bind_eq, bind_ok]
      cases h2 : ConsumerScrambler.drain false C s with
      | panic => rfl
      | diverge => rfl
      | ok r =>
        obtain ⟨t, e | _⟩ := r
        · rfl
        · obtain ⟨h3, h4⟩ := ConsumerScrambler.drain_empty h2
          have h3' : t.buffer.amount = 0 := h3
          by_cases hcap : 0 < s.buffer.capacity
          · have h5 : ¬ t.buffer.amount = t.buffer.capacity := by omega
            simp only [bind_ok, Fixed.enqueue, h5, if_false, Fixed.len, hfull, hcap, and_self, if_true]
            cases t.buffer.writeTo with
            | ok i => cases h6 : setIndex t.buffer.data i x <;> simp [h6, debugAssert, assert]
            | panic => simp
            | diverge => simp
          · have h5 : t.buffer.amount = t.buffer.capacity := by omega
            simp [Fixed.enqueue, h5, debugAssert, assert, Fixed.len, hcap]
    · cases h1 : s.buffer.enqueue x with
      | panic => simp
      | diverge => simp
      | ok r =>
        obtain ⟨q, _ | y⟩ := r
        · simp [Fixed.len, hfull]
        · simp only [Fixed.enqueue, hfull, if_false, bind_eq, bind_eq_ok, pure_eq] at h1
          obtain ⟨_, _, _, _, h1⟩ := h1
          simp at h1
  · funext s f; simp only [consumerScrambler, ConsumerScrambler.close, hd]
  · funext s; simp only [consumerScrambler, ConsumerScrambler.flush, hd]
  · simp only [consumerScrambler, he]

/-- For example with capacity one, around a vector: the second item would have to empty the buffer. -/
example : ∃ t u : ConsumerScrambler (IntoVec Nat) Nat,
    t.buffer.len = t.buffer.capacity ∧ (consumerScrambler false (IntoVec.consumer Nat)).consume t 2 = ok (u, .ok ()) ∧
    (consumerScrambler true (IntoVec.consumer Nat)).consume t 2 = .panic := by
  let t : ConsumerScrambler (IntoVec Nat) Nat := ⟨IntoVec.new, ⟨[1], 0, 1⟩, [.consume], 0⟩
  have h : loopFuel (ConsumerScrambler.drainBody false (IntoVec.consumer Nat)) 2 ⟨IntoVec.new, ⟨[1], 0, 1⟩, [.consume], 0⟩ =
      ok (⟨⟨[1], 1⟩, ⟨[1], 0, 0⟩, [.consume], 0⟩, .ok ()) := rfl
  have h' : ConsumerScrambler.drain false (IntoVec.consumer Nat) t =
      ok (⟨⟨[1], 1⟩, ⟨[1], 0, 0⟩, [.consume], 0⟩, .ok ()) := by
    rw [ConsumerScrambler.drain, loop_eq_of_fuel (n := 2) (by rw [h]; simp)]; exact h
  have he : t.buffer.enqueue 2 = ok (t.buffer, some 2) := rfl
  have h1 : (consumerScrambler false (IntoVec.consumer Nat)).consume t 2 =
      ok (⟨⟨[1], 1⟩, ⟨[2], 0, 1⟩, [.consume], 0⟩, .ok ()) := by
    simp only [consumerScrambler, ConsumerScrambler.consume, bind_eq, he, bind_ok, h']
    rfl
  refine ⟨t, _, rfl, h1, ?_⟩
  rw [(consumer_scrambler_debug_exact _).1, h1]
  rfl

/-- **C75, consumers: calls.** Every call other than `consume` does the same with as without debug assertions; a call of
`consume` does the same too, unless the buffer is full (and has room for at least one item) and the call would have succeeded,
in which case it panics. -/
theorem consumer_scrambler_debug_call (C : BulkConsumer σ I F E) (s : ConsumerScrambler σ I) (slots : List I)
    (op : ConsumerOp I F) :
    (consumerScrambler true C).call s slots op = (consumerScrambler false C).call s slots op ∨
    ∃ x t, op = .consume x ∧ s.buffer.len = s.buffer.capacity ∧ 0 < s.buffer.capacity ∧
      (consumerScrambler false C).consume s x = ok (t, .ok ()) ∧ (consumerScrambler true C).call s slots op = .panic := by
  obtain ⟨h1, h2, h3, h4, h5, h6, h7⟩ := consumer_scrambler_debug_exact C
  cases op with
  | consume x =>
    simp only [BulkConsumer.call, h1]
    cases h : (consumerScrambler false C).consume s x with
    | panic => exact .inl rfl
    | diverge => exact .inl rfl
    | ok r =>
      obtain ⟨t, e | _⟩ := r
      · exact .inl rfl
      · by_cases hf : s.buffer.len = s.buffer.capacity ∧ 0 < s.buffer.capacity
        · exact .inr ⟨x, t, rfl, hf.1, hf.2, h, by simp [hf]⟩
        · exact .inl (by simp only [bind_ok, if_neg hf])
  | close f => exact .inl (by simp only [BulkConsumer.call, h2])
  | flush => exact .inl (by simp only [BulkConsumer.call, h3])
  | exposeSlots => exact .inl (by simp only [BulkConsumer.call, h4])
  | write ws => exact .inl (by simp only [BulkConsumer.call, h5])
  | consumeSlots k => exact .inl (by simp only [BulkConsumer.call, h6])
  | bulkConsume buf => exact .inl (by simp only [BulkConsumer.call, h7])

/-- **C75, consumers: histories.** Whatever happens with debug assertions can happen without them, too. (The converse fails:
`consumer_scrambler_debug_consume_panics`.) -/
theorem consumer_scrambler_debug_runs (C : BulkConsumer σ I F E) {s₀ s : ConsumerScrambler σ I} {taken slots : List I}
    {ended : Option (ConsumerEnd I F E)} (h : ConsumerRuns (consumerScrambler true C) s₀ taken s slots ended) :
    ConsumerRuns (consumerScrambler false C) s₀ taken s slots ended := by
  generalize he : ended = e at h
  induction h generalizing ended with
  | start => exact .start
  | call _ ha hc ih =>
    refine .call (ih rfl) ha ?_
    rcases consumer_scrambler_debug_call C _ _ _ with h | ⟨_, _, _, _, _, _, h⟩
    · rw [← h]; exact hc
    · rw [h] at hc; exact nomatch hc

/-- For example with capacity one: one item. -/
example : ∃ s, ConsumerRuns (consumerScrambler false (IntoVec.consumer Nat))
    (.new IntoVec.new [] 1 fun _ => 0) [1] s [] none :=
  ⟨_, consumer_scrambler_debug_runs _ (.call (op := .consume 1) (r := ⟨[1], [], none⟩) .start trivial rfl)⟩

/-- In particular debug assertions make no difference as long as `consume` is not called on a full buffer. -/
theorem consumer_scrambler_debug_same (C : BulkConsumer σ I F E) {s : ConsumerScrambler σ I} {slots : List I}
    {op : ConsumerOp I F} (h : ∀ x, op = .consume x → s.buffer.len ≠ s.buffer.capacity) :
    (consumerScrambler true C).call s slots op = (consumerScrambler false C).call s slots op := by
  rcases consumer_scrambler_debug_call C s slots op with h' | ⟨x, _, h1, h2, _⟩
  · exact h'
  · exact absurd h2 (h x h1)

/-- A scrambler with an empty buffer: `consume` does the same in both builds. -/
example : (consumerScrambler true Case.C).call (.new (Case.con 4) [.flush] 3 fun _ => 0) [] (.consume 7) =
    (consumerScrambler false Case.C).call (.new (Case.con 4) [.flush] 3 fun _ => 0) [] (.consume 7) :=
  consumer_scrambler_debug_same Case.C (fun _ _ => by decide)

end

end Verif
