import Verif.Lemmas.ScramblerCalls

/-!
# C80: scramblers cycle through their operations

Nothing is assumed about the wrapped producer or consumer.
-/

namespace Verif

open Outcome

variable {σ I F E : Type}

/-- **C80, producers.** After any history of calls of a scrambler, the calls made of the wrapped producer are those of
`ScrambledProducer`: the operations in turn, whenever the queue is filled, and a `slurp` for a `slurp`. -/
theorem producer_scrambler_calls (debug : Bool) (P : BulkProducer σ I F E) (s : σ) (ops : List ScrambleProduce) {cap : Nat}
    (hcap : 0 < cap) (tmp : Nat → I) {client : List (ProducerOp I)} {handed shown : List I} {ended : Option (Except E F)}
    {t : ProducerScrambler (Recorded σ (ProducerOp I)) I F E}
    (h : ProducerRunsBy (producerScrambler debug (recordedProducer P)) (.new ⟨s, []⟩ ops cap tmp) client handed t shown ended) :
    ∃ st, (st = none ↔ ended ≠ none) ∧ ScrambledProducer (ScrambleProduce.cycle ops) cap client handed.length st t.inner.calls := by
  have h' := ProducerScrambler.runs_calls debug (ProducerScrambler.at_new hcap) h
  cases ended with
  | none => obtain ⟨st, _, _, _, hT⟩ := h'.1 rfl; exact ⟨some st, by simp, hT⟩
  | some v => exact ⟨none, by simp, h'.2 (by simp)⟩

/-- **C80, producers.** If the client does not call `slurp`, then the calls made of the wrapped producer are the operations in turn,
over and over; only the last one may be cut short, when the wrapped producer has come to an end. -/
theorem producer_scrambler_cycles (debug : Bool) (P : BulkProducer σ I F E) (s : σ) (ops : List ScrambleProduce) {cap : Nat}
    (hcap : 0 < cap) (tmp : Nat → I) {client : List (ProducerOp I)} {handed shown : List I} {ended : Option (Except E F)}
    {t : ProducerScrambler (Recorded σ (ProducerOp I)) I F E}
    (h : ProducerRunsBy (producerScrambler debug (recordedProducer P)) (.new ⟨s, []⟩ ops cap tmp) client handed t shown ended)
    (hs : .slurp ∉ client) :
    ∃ n done last, t.inner.calls = done ++ last ∧ ProduceTurns (ScrambleProduce.cycle ops) n done ∧
      (last = [] ∨ ∃ op k, (ScrambleProduce.cycle ops)[n % (ScrambleProduce.cycle ops).length]? = some op ∧ op.Fails last k) := by
  have key : ∀ j b, TurnsThen (ScrambleProduce.cycle ops) j b t.inner.calls →
      ∃ n done last, t.inner.calls = done ++ last ∧ ProduceTurns (ScrambleProduce.cycle ops) n done ∧
      (last = [] ∨ ∃ op k, (ScrambleProduce.cycle ops)[n % (ScrambleProduce.cycle ops).length]? = some op ∧ op.Fails last k) := by
    rintro j (_ | _) h
    · exact ⟨j, _, [], (List.append_nil _).symm, h, .inl rfl⟩
    · obtain ⟨done, op, last, k, h1, h2, h3, h4⟩ := h
      exact ⟨j, done, last, h1, h2, .inr ⟨op, k, h3, h4⟩⟩
  obtain ⟨st, _, hT⟩ := producer_scrambler_calls debug P s ops hcap tmp h
  have h' := hT.turns hs
  cases st with
  | none => obtain ⟨j, h'⟩ := h'; exact key _ _ h'
  | some st => exact key _ _ h'

/-- **C80, producers.** The wrapped producer is never asked for more than the items handed out, the capacity of the queue, and the one
that is not there. -/
theorem producer_scrambler_ahead (debug : Bool) (P : BulkProducer σ I F E) (s : σ) (ops : List ScrambleProduce) {cap : Nat}
    (hcap : 0 < cap) (tmp : Nat → I) {client : List (ProducerOp I)} {handed shown : List I} {ended : Option (Except E F)}
    {t : ProducerScrambler (Recorded σ (ProducerOp I)) I F E}
    (h : ProducerRunsBy (producerScrambler debug (recordedProducer P)) (.new ⟨s, []⟩ ops cap tmp) client handed t shown ended) :
    ProducerOp.requested t.inner.calls ≤ handed.length + cap + 1 ∧
      (ended ≠ none → ProducerOp.requested t.inner.calls ≤ handed.length + 1) := by
  obtain ⟨st, hst, hT⟩ := producer_scrambler_calls debug P s ops hcap tmp h
  have h' := hT.owes
  cases st with
  | none =>
    have h' : ProducerOp.requested t.inner.calls ≤ handed.length + 1 := h'
    exact ⟨by omega, fun _ => h'⟩
  | some st =>
    obtain ⟨h1, h2⟩ := h'
    refine ⟨?_, fun he => absurd (hst.mpr he) (by simp)⟩
    split at h2 <;> omega

/-- **C80, the public type of producers.** It is an `Invariant` around the scrambler. -/
theorem public_producer_scrambler_calls (debug : Bool) (P : BulkProducer σ I F E) (s : σ) (ops : List ScrambleProduce) {cap : Nat}
    (hcap : 0 < cap) (tmp : Nat → I) {client : List (ProducerOp I)} {handed shown : List I} {ended : Option (Except E F)}
    {t : InvariantSt (ProducerScrambler (Recorded σ (ProducerOp I)) I F E)}
    (h : ProducerRunsBy (invariantBulkProducer (producerScrambler debug (recordedProducer P))) (.new (.new ⟨s, []⟩ ops cap tmp)) client
      handed t shown ended) :
    ∃ st, (st = none ↔ ended ≠ none) ∧
      ScrambledProducer (ScrambleProduce.cycle ops) cap client handed.length st t.inner.inner.calls :=
  producer_scrambler_calls debug P s ops hcap tmp (h.ofInvariant rfl)

/-- A producer for the concrete cases below: it counts, and exposes three items at a time. -/
def counter : BulkProducer Nat Nat Unit Empty where
  produce s := ok (s + 1, .ok (.inl s))
  slurp s := ok (s, .ok ())
  exposeItems s := ok (s, .ok (.inl [s, s + 1, s + 2]))
  considerProduced s k := ok (s + k, .ok ())

/-- A concrete case: with a queue for four items and the operations `consider_produced(2)`, `slurp`, `produce`, a `produce` fills the
queue: two items at once, one, and of two further ones only the one that there is room for. A second `produce` fills it again; it is
the turn of `slurp`, then of `produce`. -/
theorem scrambled_counter (debug : Bool) : ∃ t, ProducerRunsBy (producerScrambler debug (recordedProducer counter))
      (.new ⟨0, []⟩ [.considerProduced ⟨2, by decide⟩, .slurp, .produce] 4 (fun _ => 9)) [.produce, .produce] [0, 1] t [] none ∧
    t.inner.calls = [.exposeItems, .considerProduced 2, .slurp, .produce, .exposeItems, .considerProduced 1, .slurp, .produce] := by
  have h1 : (producerScrambler debug (recordedProducer counter)).call
      (.new ⟨0, []⟩ [.considerProduced ⟨2, by decide⟩, .slurp, .produce] 4 (fun _ => 9)) [] .produce =
      ok (⟨⟨4, [.exposeItems, .considerProduced 2, .slurp, .produce, .exposeItems, .considerProduced 1]⟩, ⟨[0, 1, 2, 3], 1, 3⟩, none,
        [.considerProduced ⟨2, by decide⟩, .slurp, .produce], 1⟩, ⟨[0], [], none⟩) := by
    simp only [BulkProducer.call, producerScrambler, ProducerScrambler.produce, ProducerScrambler.fillQueue, bind_eq]
    rw [loop_eq_of_fuel (n := 6) (by cases debug <;> (intro h; cases h))]
    cases debug <;> rfl
  have h2 : (producerScrambler debug (recordedProducer counter)).call
      ⟨⟨4, [.exposeItems, .considerProduced 2, .slurp, .produce, .exposeItems, .considerProduced 1]⟩, ⟨[0, 1, 2, 3], 1, 3⟩, none,
        [.considerProduced ⟨2, by decide⟩, .slurp, .produce], 1⟩ [] .produce =
      ok (⟨⟨5, [.exposeItems, .considerProduced 2, .slurp, .produce, .exposeItems, .considerProduced 1, .slurp, .produce]⟩,
        ⟨[4, 1, 2, 3], 2, 3⟩, none, [.considerProduced ⟨2, by decide⟩, .slurp, .produce], 0⟩, ⟨[1], [], none⟩) := by
    simp only [BulkProducer.call, producerScrambler, ProducerScrambler.produce, ProducerScrambler.fillQueue, bind_eq]
    rw [loop_eq_of_fuel (n := 6) (by cases debug <;> (intro h; cases h))]
    cases debug <;> rfl
  exact ⟨_, .call (op := .produce) (.call (op := .produce) .start trivial h1) trivial h2, rfl⟩

/-- What the theorems say about this case. -/
example (debug : Bool) : ∃ t, ProducerRunsBy (producerScrambler debug (recordedProducer counter))
      (.new ⟨0, []⟩ [.considerProduced ⟨2, by decide⟩, .slurp, .produce] 4 (fun _ => 9)) [.produce, .produce] [0, 1] t [] none ∧
    (∃ st, (st = none ↔ (none : Option (Except Empty Unit)) ≠ none) ∧
      ScrambledProducer [.considerProduced ⟨2, by decide⟩, .slurp, .produce] 4 [.produce, .produce] 2 st t.inner.calls) ∧
    (∃ n done last, t.inner.calls = done ++ last ∧ ProduceTurns [.considerProduced ⟨2, by decide⟩, .slurp, .produce] n done ∧
      (last = [] ∨ ∃ op k, [ScrambleProduce.considerProduced ⟨2, by decide⟩, .slurp, .produce][n % 3]? = some op ∧ op.Fails last k)) ∧
    ProducerOp.requested t.inner.calls ≤ 2 + 4 + 1 := by
  obtain ⟨t, h, _⟩ := scrambled_counter debug
  exact ⟨t, h, producer_scrambler_calls debug counter 0 _ (by decide) _ h,
    producer_scrambler_cycles debug counter 0 _ (by decide) _ h (by decide),
    (producer_scrambler_ahead debug counter 0 _ (by decide) _ h).1⟩

/-- The public type in a concrete case: a `slurp` fills the queue before it is passed on. -/
theorem scrambled_slurp (debug : Bool) : ∃ t, ProducerRunsBy (invariantBulkProducer (producerScrambler debug (recordedProducer counter)))
      (.new (.new ⟨0, []⟩ [.slurp] 1 (fun _ => 9))) [.slurp] [] t [] none ∧
    t.inner.inner.calls = [.slurp, .produce, .slurp] := by
  have h1 : (invariantBulkProducer (producerScrambler debug (recordedProducer counter))).call
      (.new (.new ⟨0, []⟩ [.slurp] 1 (fun _ => 9))) [] .slurp =
      ok (⟨⟨⟨1, [.slurp, .produce, .slurp]⟩, ⟨[0], 0, 1⟩, none, [.slurp, .produce], 0⟩, true, 0⟩, ⟨[], [], none⟩) := by
    simp only [BulkProducer.call, invariantBulkProducer, invariantBufferedProducer, InvariantSt.checkInactive, InvariantSt.new, assert,
      if_true, producerScrambler, ProducerScrambler.slurp, ProducerScrambler.fillQueue, bind_eq, bind_ok]
    rw [loop_eq_of_fuel (n := 4) (by cases debug <;> (intro h; cases h))]
    cases debug <;> rfl
  exact ⟨_, .call (op := .slurp) .start trivial h1, rfl⟩

/-- What the theorem says about it. -/
example (debug : Bool) : ∃ t, ProducerRunsBy (invariantBulkProducer (producerScrambler debug (recordedProducer counter)))
      (.new (.new ⟨0, []⟩ [.slurp] 1 (fun _ => 9))) [.slurp] [] t [] none ∧
    ∃ st, (st = none ↔ (none : Option (Except Empty Unit)) ≠ none) ∧
      ScrambledProducer [.slurp, .produce] 1 [.slurp] 0 st t.inner.inner.calls := by
  obtain ⟨t, h, _⟩ := scrambled_slurp debug
  exact ⟨t, h, public_producer_scrambler_calls debug counter 0 _ (by decide) _ h⟩

/-- **C80, consumers.** After any history of calls of a scrambler, the calls made of the wrapped consumer are those of
`ScrambledConsumer`: the operations in turn, whenever the queue is emptied, and then a `flush` for a `flush` and a `close` for a
`close`. -/
theorem consumer_scrambler_calls (debug : Bool) (C : BulkConsumer σ I F E) (s : σ) (ops : List ScrambleConsume) {cap : Nat}
    (hcap : 0 < cap) (tmp : Nat → I) {client : List (ConsumerOp I F)} {taken slots : List I} {ended : Option (ConsumerEnd I F E)}
    {t : ConsumerScrambler (Recorded σ (ConsumerOp I F)) I}
    (h : ConsumerRunsBy (consumerScrambler debug (recordedConsumer C)) (.new ⟨s, []⟩ ops cap tmp) client taken t slots ended) :
    ∃ st, (st = none ↔ ended ≠ none) ∧ ScrambledConsumer (ScrambleConsume.cycle ops) cap client taken st t.inner.calls := by
  have h' := ConsumerScrambler.runs_calls debug (ConsumerScrambler.at_new hcap) h
  cases ended with
  | none => obtain ⟨j, q, _, _, _, hT⟩ := h'.1 rfl; exact ⟨some (j, q), by simp, hT⟩
  | some v => exact ⟨none, by simp, h'.2 (by simp)⟩

/-- **C80, consumers.** If the client calls neither `flush` nor `close`, then the calls made of the wrapped consumer are the operations
in turn, over and over; they pass on all items except the last ones, which are at most as many as fit into the queue. -/
theorem consumer_scrambler_cycles (debug : Bool) (C : BulkConsumer σ I F E) (s : σ) (ops : List ScrambleConsume) {cap : Nat}
    (hcap : 0 < cap) (tmp : Nat → I) {client : List (ConsumerOp I F)} {taken slots : List I}
    {t : ConsumerScrambler (Recorded σ (ConsumerOp I F)) I}
    (h : ConsumerRunsBy (consumerScrambler debug (recordedConsumer C)) (.new ⟨s, []⟩ ops cap tmp) client taken t slots none)
    (hf : .flush ∉ client) (hc : ∀ f, .close f ∉ client) :
    ∃ n passed queued, taken = passed ++ queued ∧ queued.length ≤ cap ∧
      ConsumeTurns (ScrambleConsume.cycle ops) n passed t.inner.calls := by
  obtain ⟨st, hst, hT⟩ := consumer_scrambler_calls debug C s ops hcap tmp h
  have h' := hT.turns hf hc
  cases st with
  | none => exact absurd rfl (hst.mp rfl)
  | some st => obtain ⟨h1, xs, h2, h3⟩ := h'; exact ⟨_, _, _, h2, h1, h3⟩

/-- **C80, consumers.** The same if an operation has failed: it was the last one. At most as many items as fit into the queue were
taken too many. -/
theorem consumer_scrambler_stops (debug : Bool) (C : BulkConsumer σ I F E) (s : σ) (ops : List ScrambleConsume) {cap : Nat}
    (hcap : 0 < cap) (tmp : Nat → I) {client : List (ConsumerOp I F)} {taken slots : List I} {ended : ConsumerEnd I F E}
    {t : ConsumerScrambler (Recorded σ (ConsumerOp I F)) I}
    (h : ConsumerRunsBy (consumerScrambler debug (recordedConsumer C)) (.new ⟨s, []⟩ ops cap tmp) client taken t slots (some ended))
    (hf : .flush ∉ client) (hc : ∀ f, .close f ∉ client) :
    ∃ n passed queued done last op, taken = passed ++ queued ∧ queued.length ≤ cap ∧ t.inner.calls = done ++ last ∧
      ConsumeTurns (ScrambleConsume.cycle ops) n passed done ∧
      (ScrambleConsume.cycle ops)[n % (ScrambleConsume.cycle ops).length]? = some op ∧ op.Fails queued last := by
  obtain ⟨st, hst, hT⟩ := consumer_scrambler_calls debug C s ops hcap tmp h
  obtain rfl := hst.mpr (by simp)
  exact hT.turns hf hc

/-- **C80, the public type of consumers.** It is an `Invariant` around the scrambler. -/
theorem public_consumer_scrambler_calls (debug : Bool) (C : BulkConsumer σ I F E) (s : σ) (ops : List ScrambleConsume) {cap : Nat}
    (hcap : 0 < cap) (tmp : Nat → I) {client : List (ConsumerOp I F)} {taken slots : List I} {ended : Option (ConsumerEnd I F E)}
    {t : InvariantSt (ConsumerScrambler (Recorded σ (ConsumerOp I F)) I)}
    (h : ConsumerRunsBy (invariantBulkConsumer (consumerScrambler debug (recordedConsumer C))) (.new (.new ⟨s, []⟩ ops cap tmp)) client
      taken t slots ended) :
    ∃ st, (st = none ↔ ended ≠ none) ∧ ScrambledConsumer (ScrambleConsume.cycle ops) cap client taken st t.inner.inner.calls :=
  consumer_scrambler_calls debug C s ops hcap tmp (h.ofInvariant rfl)

/-- A consumer for the concrete cases below: it exposes two slots at a time, and fails when it is passed the item `0`. -/
def picky : BulkConsumer Unit Nat Unit Unit where
  consume s x := ok (s, if x = 0 then .error () else .ok ())
  close s _ := ok (s, .ok ())
  flush s := ok (s, .ok ())
  exposeSlots s := ok (s, .ok [7, 7])
  writeSlots s _ := s
  consumeSlots s _ := ok (s, .ok ())

/-- A concrete case: with a queue for three items and the operations `consume_slots(2)`, `consume`, `flush`, nothing is called for the
first three items. For the fourth, the queue is emptied. `flush` empties it again; it is the turn of `flush`, and then of
`consume_slots`, for which there is only one item. -/
theorem scrambled_consumer : ∃ t, ConsumerRunsBy (consumerScrambler false (recordedConsumer picky))
      (.new ⟨(), []⟩ [.consumeSlots ⟨2, by decide⟩, .consume, .flush] 3 (fun _ => 9))
      [.bulkConsume [1, 2], .consume 3, .consume 4, .flush] [1, 2, 3, 4] t [] none ∧
    t.inner.calls = [.exposeSlots, .write [1, 2], .consumeSlots 2, .consume 3, .flush, .exposeSlots, .write [4, 7], .consumeSlots 1,
      .flush] := by
  have h1 : (consumerScrambler false (recordedConsumer picky)).call
      (.new ⟨(), []⟩ [.consumeSlots ⟨2, by decide⟩, .consume, .flush] 3 (fun _ => 9)) [] (.bulkConsume [1, 2]) =
      ok (⟨⟨(), []⟩, ⟨[1, 2, 9], 0, 2⟩, [.consumeSlots ⟨2, by decide⟩, .consume, .flush], 0⟩, ⟨[1, 2], [], none⟩) := rfl
  have h2 : (consumerScrambler false (recordedConsumer picky)).call
      ⟨⟨(), []⟩, ⟨[1, 2, 9], 0, 2⟩, [.consumeSlots ⟨2, by decide⟩, .consume, .flush], 0⟩ [] (.consume 3) =
      ok (⟨⟨(), []⟩, ⟨[1, 2, 3], 0, 3⟩, [.consumeSlots ⟨2, by decide⟩, .consume, .flush], 0⟩, ⟨[3], [], none⟩) := rfl
  have h3 : (consumerScrambler false (recordedConsumer picky)).call
      ⟨⟨(), []⟩, ⟨[1, 2, 3], 0, 3⟩, [.consumeSlots ⟨2, by decide⟩, .consume, .flush], 0⟩ [] (.consume 4) =
      ok (⟨⟨(), [.exposeSlots, .write [1, 2], .consumeSlots 2, .consume 3]⟩, ⟨[4, 2, 3], 0, 1⟩,
        [.consumeSlots ⟨2, by decide⟩, .consume, .flush], 2⟩, ⟨[4], [], none⟩) := by
    simp only [BulkConsumer.call, consumerScrambler, ConsumerScrambler.consume, ConsumerScrambler.drain, bind_eq]
    rw [show (⟨[1, 2, 3], 0, 3⟩ : Fixed Nat).enqueue 4 = ok (⟨[1, 2, 3], 0, 3⟩, some 4) from rfl]
    simp only [bind_ok]
    rw [loop_eq_of_fuel (n := 4) (by intro h; cases h)]
    rfl
  have h4 : (consumerScrambler false (recordedConsumer picky)).call
      ⟨⟨(), [.exposeSlots, .write [1, 2], .consumeSlots 2, .consume 3]⟩, ⟨[4, 2, 3], 0, 1⟩,
        [.consumeSlots ⟨2, by decide⟩, .consume, .flush], 2⟩ [] .flush =
      ok (⟨⟨(), [.exposeSlots, .write [1, 2], .consumeSlots 2, .consume 3, .flush, .exposeSlots, .write [4, 7], .consumeSlots 1, .flush]⟩,
        ⟨[4, 2, 3], 1, 0⟩, [.consumeSlots ⟨2, by decide⟩, .consume, .flush], 1⟩, ⟨[], [], none⟩) := by
    simp only [BulkConsumer.call, consumerScrambler, ConsumerScrambler.flush, ConsumerScrambler.drain, bind_eq]
    rw [loop_eq_of_fuel (n := 4) (by intro h; cases h)]
    rfl
  exact ⟨_, .call (op := .flush) (.call (op := .consume 4) (.call (op := .consume 3)
    (.call (op := .bulkConsume [1, 2]) .start (by simp [ConsumerOp.Allowed]) h1) trivial h2) trivial h3) trivial h4, rfl⟩

/-- What the theorem says about it. -/
example : ∃ t, ConsumerRunsBy (consumerScrambler false (recordedConsumer picky))
      (.new ⟨(), []⟩ [.consumeSlots ⟨2, by decide⟩, .consume, .flush] 3 (fun _ => 9))
      [.bulkConsume [1, 2], .consume 3, .consume 4, .flush] [1, 2, 3, 4] t [] none ∧
    ∃ st, (st = none ↔ (none : Option (ConsumerEnd Nat Unit Unit)) ≠ none) ∧
      ScrambledConsumer [.consumeSlots ⟨2, by decide⟩, .consume, .flush] 3 [.bulkConsume [1, 2], .consume 3, .consume 4, .flush]
        [1, 2, 3, 4] st t.inner.calls := by
  obtain ⟨t, h, _⟩ := scrambled_consumer
  exact ⟨t, h, consumer_scrambler_calls false picky () _ (by decide) _ h⟩

/-- A concrete case without `flush`. -/
theorem scrambled_slots : ∃ t, ConsumerRunsBy (consumerScrambler false (recordedConsumer picky))
      (.new ⟨(), []⟩ [] 2 (fun _ => 9)) [.consume 1, .consume 5, .exposeSlots] [1, 5] t [1, 5] none ∧
    t.inner.calls = [.consume 1, .consume 5] := by
  have h1 : (consumerScrambler false (recordedConsumer picky)).call (.new ⟨(), []⟩ [] 2 (fun _ => 9)) [] (.consume 1) =
      ok (⟨⟨(), []⟩, ⟨[1, 9], 0, 1⟩, [.consume], 0⟩, ⟨[1], [], none⟩) := rfl
  have h2 : (consumerScrambler false (recordedConsumer picky)).call ⟨⟨(), []⟩, ⟨[1, 9], 0, 1⟩, [.consume], 0⟩ [] (.consume 5) =
      ok (⟨⟨(), []⟩, ⟨[1, 5], 0, 2⟩, [.consume], 0⟩, ⟨[5], [], none⟩) := rfl
  have h3 : (consumerScrambler false (recordedConsumer picky)).call ⟨⟨(), []⟩, ⟨[1, 5], 0, 2⟩, [.consume], 0⟩ [] .exposeSlots =
      ok (⟨⟨(), [.consume 1, .consume 5]⟩, ⟨[1, 5], 0, 0⟩, [.consume], 0⟩, ⟨[], [1, 5], none⟩) := by
    simp only [BulkConsumer.call, consumerScrambler, ConsumerScrambler.exposeSlots, ConsumerScrambler.drain, bind_eq]
    rw [loop_eq_of_fuel (n := 4) (by intro h; cases h)]
    rfl
  exact ⟨_, .call (op := .exposeSlots) (.call (op := .consume 5) (.call (op := .consume 1) .start trivial h1) trivial h2) trivial h3,
    rfl⟩

/-- A concrete case in which the wrapped consumer fails: after it has refused the item `0`, the item `5` stays in the queue. -/
theorem scrambled_refusal : ∃ t, ConsumerRunsBy (consumerScrambler false (recordedConsumer picky))
      (.new ⟨(), []⟩ [] 2 (fun _ => 9)) [.consume 0, .consume 5, .exposeSlots] [0, 5] t [] (some (.failed () [])) ∧
    t.inner.calls = [.consume 0] := by
  have h1 : (consumerScrambler false (recordedConsumer picky)).call (.new ⟨(), []⟩ [] 2 (fun _ => 9)) [] (.consume 0) =
      ok (⟨⟨(), []⟩, ⟨[0, 9], 0, 1⟩, [.consume], 0⟩, ⟨[0], [], none⟩) := rfl
  have h2 : (consumerScrambler false (recordedConsumer picky)).call ⟨⟨(), []⟩, ⟨[0, 9], 0, 1⟩, [.consume], 0⟩ [] (.consume 5) =
      ok (⟨⟨(), []⟩, ⟨[0, 5], 0, 2⟩, [.consume], 0⟩, ⟨[5], [], none⟩) := rfl
  have h3 : (consumerScrambler false (recordedConsumer picky)).call ⟨⟨(), []⟩, ⟨[0, 5], 0, 2⟩, [.consume], 0⟩ [] .exposeSlots =
      ok (⟨⟨(), [.consume 0]⟩, ⟨[0, 5], 1, 1⟩, [.consume], 0⟩, ⟨[], [], (some (.failed () []))⟩) := by
    simp only [BulkConsumer.call, consumerScrambler, ConsumerScrambler.exposeSlots, ConsumerScrambler.drain, bind_eq]
    rw [loop_eq_of_fuel (n := 4) (by intro h; cases h)]
    rfl
  exact ⟨_, .call (op := .exposeSlots) (.call (op := .consume 5) (.call (op := .consume 0) .start trivial h1) trivial h2) trivial h3,
    rfl⟩

/-- What the theorems say about these cases. -/
example : ∃ t, ConsumerRunsBy (consumerScrambler false (recordedConsumer picky))
      (.new ⟨(), []⟩ [] 2 (fun _ => 9)) [.consume 1, .consume 5, .exposeSlots] [1, 5] t [1, 5] none ∧
    ∃ n passed queued, [1, 5] = passed ++ queued ∧ queued.length ≤ 2 ∧ ConsumeTurns [.consume] n passed t.inner.calls := by
  obtain ⟨t, h, _⟩ := scrambled_slots
  exact ⟨t, h, consumer_scrambler_cycles false picky () _ (by decide) _ h (by simp) (by simp)⟩

example : ∃ t, ConsumerRunsBy (consumerScrambler false (recordedConsumer picky))
      (.new ⟨(), []⟩ [] 2 (fun _ => 9)) [.consume 0, .consume 5, .exposeSlots] [0, 5] t [] (some (.failed () [])) ∧
    ∃ n passed queued done last op, [0, 5] = passed ++ queued ∧ queued.length ≤ 2 ∧ t.inner.calls = done ++ last ∧
      ConsumeTurns [.consume] n passed done ∧ [ScrambleConsume.consume][n % 1]? = some op ∧ op.Fails queued last := by
  obtain ⟨t, h, _⟩ := scrambled_refusal
  exact ⟨t, h, consumer_scrambler_stops false picky () _ (by decide) _ h (by simp) (by simp)⟩

/-- The public type in a concrete case. -/
example : ∃ t, ConsumerRunsBy (invariantBulkConsumer (consumerScrambler true (recordedConsumer picky)))
      (.new (.new ⟨(), []⟩ [.flush] 2 (fun _ => 9))) [.consume 1, .exposeSlots, .write [2], .consumeSlots 1] [1, 2] t [] none ∧
    t.inner.inner.calls = [] ∧
    ∃ st, (st = none ↔ (none : Option (ConsumerEnd Nat Unit Unit)) ≠ none) ∧
      ScrambledConsumer [.flush, .consume] 2 [.consume 1, .exposeSlots, .write [2], .consumeSlots 1] [1, 2] st t.inner.inner.calls := by
  have h1 : (invariantBulkConsumer (consumerScrambler true (recordedConsumer picky))).call
      (.new (.new ⟨(), []⟩ [.flush] 2 (fun _ => 9))) [] (.consume 1) =
      ok (⟨⟨⟨(), []⟩, ⟨[1, 9], 0, 1⟩, [.flush, .consume], 0⟩, true, 0⟩, ⟨[1], [], none⟩) := rfl
  have h2 : (invariantBulkConsumer (consumerScrambler true (recordedConsumer picky))).call
      ⟨⟨⟨(), []⟩, ⟨[1, 9], 0, 1⟩, [.flush, .consume], 0⟩, true, 0⟩ [] .exposeSlots =
      ok (⟨⟨⟨(), []⟩, ⟨[1, 9], 0, 1⟩, [.flush, .consume], 0⟩, true, 1⟩, ⟨[], [9], none⟩) := rfl
  have h3 : (invariantBulkConsumer (consumerScrambler true (recordedConsumer picky))).call
      ⟨⟨⟨(), []⟩, ⟨[1, 9], 0, 1⟩, [.flush, .consume], 0⟩, true, 1⟩ [9] (.write [2]) =
      ok (⟨⟨⟨(), []⟩, ⟨[1, 2], 0, 1⟩, [.flush, .consume], 0⟩, true, 1⟩, ⟨[], [2], none⟩) := rfl
  have h4 : (invariantBulkConsumer (consumerScrambler true (recordedConsumer picky))).call
      ⟨⟨⟨(), []⟩, ⟨[1, 2], 0, 1⟩, [.flush, .consume], 0⟩, true, 1⟩ [2] (.consumeSlots 1) =
      ok (⟨⟨⟨(), []⟩, ⟨[1, 2], 0, 2⟩, [.flush, .consume], 0⟩, true, 0⟩, ⟨[2], [], none⟩) := rfl
  have h := ConsumerRunsBy.call (op := .consumeSlots 1) (.call (op := .write [2]) (.call (op := .exposeSlots)
    (.call (op := .consume 1) .start trivial h1) trivial h2) (by simp [ConsumerOp.Allowed]) h3) (by simp [ConsumerOp.Allowed]) h4
  exact ⟨_, h, rfl, public_consumer_scrambler_calls true picky () _ (by decide) _ h⟩

end Verif
