import Verif.Model.Fuzz
import Verif.Props.TestDoubles

/-!
# C69: equality of test producers, and of test consumers

`/repo/ufotofu/src/producer/test_producer.rs:160`: "This implementation considers only the values that have been or will be
emitted (regular, final, and error)". `/repo/ufotofu/src/consumer/test_consumer.rs:165`: "This implementation considers only the
consumed items, the consumed final value, and the stored error value".
-/

namespace Verif

open Outcome

/-! ## Producers -/

section

variable {I F E : Type} [DecidableEq I] [DecidableEq F] [DecidableEq E]

/-- **C69**, for producers. After arbitrary histories, two `TestProducer`s are equal exactly if they have been built with the
same items, and either both have yet to emit the same final value or error, or both have emitted theirs. How many of the items
have been emitted does not matter, nor do the configured sizes and patterns. -/
theorem test_producer_eq_partial (test : Bool) {items₁ items₂ handed₁ handed₂ shown₁ shown₂ : List I}
    {last₁ last₂ : Except E F} {sizes₁ sizes₂ : List NonZero} {pattern₁ pattern₂ : Option (List Bool)}
    {p q : Fuzz.Pro I F E} {ended₁ ended₂ : Option (Except E F)}
    (hp : ProducerRuns (TestProducer.producer test I F E) (TestProducer.new items₁ last₁ sizes₁ pattern₁) handed₁ p.inner shown₁
      ended₁)
    (hq : ProducerRuns (TestProducer.producer test I F E) (TestProducer.new items₂ last₂ sizes₂ pattern₂) handed₂ q.inner shown₂
      ended₂) :
    p.same q = true ↔ items₁ = items₂ ∧
      (ended₁ = none ∧ ended₂ = none ∧ last₁ = last₂ ∨ ended₁ ≠ none ∧ ended₂ ≠ none) := by
  obtain ⟨h1, h2, h3⟩ := test_producer_accessors test _ _ _ _ hp
  obtain ⟨k1, k2, k3⟩ := test_producer_accessors test _ _ _ _ hq
  have hd : p.inner.inner.inner.data = items₁ := congrArg Prod.fst h1
  have kd : q.inner.inner.inner.data = items₂ := congrArg Prod.fst k1
  have e : p.same q = (decide (items₁ = items₂) && decide (p.inner.peekLast = q.inner.peekLast)) := by
    rw [← hd, ← kd]; rfl
  rw [e, Bool.and_eq_true, decide_eq_true_iff, decide_eq_true_iff]
  refine and_congr_right fun _ => ?_
  rcases ended₁ with _ | r₁ <;> rcases ended₂ with _ | r₂
  · rw [(h2 rfl).2.1, (k2 rfl).2.1]; simp
  · rw [(h2 rfl).2.1, (k3 _ rfl).1]; simp
  · rw [(h3 _ rfl).1, (k2 rfl).2.1]; simp
  · rw [(h3 _ rfl).1, (k3 _ rfl).1]; simp

/-- Two producers of the items 1 and 2 whose final values differ: different at first, equal in the end. -/
theorem Case.test_producer_runs : ∃ p q p' q' : Fuzz.Pro Nat Nat String,
    ProducerRuns (TestProducer.producer true Nat Nat String) (TestProducer.new [1, 2] (.ok 7) [] none) [1] p.inner [] none ∧
    ProducerRuns (TestProducer.producer true Nat Nat String) (TestProducer.new [1, 2] (.ok 8) [] none) [] q.inner [] none ∧
    ProducerRuns (TestProducer.producer true Nat Nat String) (TestProducer.new [1, 2] (.ok 7) [] none) [1, 2] p'.inner []
      (some (.ok 7)) ∧
    ProducerRuns (TestProducer.producer true Nat Nat String) (TestProducer.new [1, 2] (.ok 8) [] none) [1, 2] q'.inner []
      (some (.ok 8)) :=
  ⟨.new _, .new _, .new _, .new _,
    .call (op := .produce) (r := ⟨[_], [], none⟩) .start trivial rfl,
    .start,
    .call (op := .produce) (r := ⟨[], [], _⟩) (.call (op := .produce) (r := ⟨[_], [], none⟩)
      (.call (op := .produce) (r := ⟨[_], [], none⟩) .start trivial rfl) trivial rfl) trivial rfl,
    .call (op := .produce) (r := ⟨[], [], _⟩) (.call (op := .produce) (r := ⟨[_], [], none⟩)
      (.call (op := .produce) (r := ⟨[_], [], none⟩) .start trivial rfl) trivial rfl) trivial rfl⟩

example : ∃ p q : Fuzz.Pro Nat Nat String, p.same q = false :=
  let ⟨p, q, _, _, h1, h2, _⟩ := Case.test_producer_runs
  ⟨p, q, Bool.eq_false_iff.mpr fun h => by simpa using (test_producer_eq_partial true h1 h2).mp h⟩

/-- **C69** fails: two producers, one of which has emitted the final value 7 and the other of which has emitted the final value
8, are considered equal; "the values that have been emitted" include the final values. -/
theorem test_producer_eq_forgets_last : ∃ p q : Fuzz.Pro Nat Nat String,
    ProducerRuns (TestProducer.producer true Nat Nat String) (TestProducer.new [1, 2] (.ok 7) [] none) [1, 2] p.inner []
      (some (.ok 7)) ∧
    ProducerRuns (TestProducer.producer true Nat Nat String) (TestProducer.new [1, 2] (.ok 8) [] none) [1, 2] q.inner []
      (some (.ok 8)) ∧
    p.same q = true :=
  let ⟨_, _, p, q, _, _, h1, h2⟩ := Case.test_producer_runs
  ⟨p, q, h1, h2, (test_producer_eq_partial true h1 h2).mpr ⟨rfl, .inr ⟨nofun, nofun⟩⟩⟩

/-- **C69** fails in the other direction too: a producer is different from itself, once it has emitted its final value; though
the values that it "has emitted or will emit" are always the same. Emitting items makes no such difference. -/
theorem test_producer_eq_changes_at_the_end : ∃ p p' p₀ : Fuzz.Pro Nat Nat String,
    ProducerRuns (TestProducer.producer true Nat Nat String) (TestProducer.new [1, 2] (.ok 7) [] none) [] p₀.inner [] none ∧
    ProducerRuns (TestProducer.producer true Nat Nat String) (TestProducer.new [1, 2] (.ok 7) [] none) [1] p.inner [] none ∧
    ProducerRuns (TestProducer.producer true Nat Nat String) (TestProducer.new [1, 2] (.ok 7) [] none) [1, 2] p'.inner []
      (some (.ok 7)) ∧
    p₀.same p = true ∧ p.same p' = false :=
  let ⟨p, _, p', _, h1, _, h2, _⟩ := Case.test_producer_runs
  ⟨p, p', .new _, .start, h1, h2, (test_producer_eq_partial true (p := .new _) .start h1).mpr ⟨rfl, .inl ⟨rfl, rfl, rfl⟩⟩,
    Bool.eq_false_iff.mpr fun h => by simpa using (test_producer_eq_partial true h1 h2).mp h⟩

end

/-! ## Consumers -/

/-- The final value with which a consumer has been closed successfully. -/
def ConsumerEnd.closedWith {I F E : Type} : Option (ConsumerEnd I F E) → Option F
  | some (.closed f) => some f
  | _ => none

/-- The error with which a method of a consumer has failed. -/
def ConsumerEnd.failedWith {I F E : Type} : Option (ConsumerEnd I F E) → Option E
  | some (.failed e _) | some (.closeFailed e _) | some (.flushFailed e) => some e
  | _ => none

section

variable {I F E : Type} [Inhabited I]

/-- **C31**, for all histories, including those that have ended: the accessors report the items that have been consumed, the
final value, and the error until it is emitted. The error is emitted after exactly `n` items. -/
theorem test_consumer_accessors (test : Bool) (e : E) (n : Nat) (sizes : List NonZero) (pattern : Option (List Bool))
    {taken slots : List I} {t : TestConsumer I F E} {ended : Option (ConsumerEnd I F E)}
    (h : ConsumerRuns (TestConsumer.consumer test I F E) (TestConsumer.new e n sizes pattern) taken t slots ended) :
    taken.length ≤ n ∧ t.Seen taken (ConsumerEnd.closedWith ended) ∧
    (ConsumerEnd.failedWith ended = none → t.peekError = some e ∧ t.didError = false) ∧
    (∀ e', ConsumerEnd.failedWith ended = some e' → e' = e ∧ taken.length = n ∧ t.peekError = none ∧ t.didError = true) := by
  rcases ended with _ | ended
  · obtain ⟨h1, h2, h3, h4⟩ := test_consumer_records test e n sizes pattern h
    exact ⟨h1, h2, fun _ => ⟨h3, h4⟩, nofun⟩
  generalize hend : some ended = ended' at h
  cases h with
  | start => cases hend
  | @call taken s slots op t' r hr hop hcall =>
    have hrec := (test_consumer_records test e n sizes pattern hr).1
    obtain ⟨_, ⟨sl, hR⟩, hsl⟩ := hr.after (TestConsumer.law test n e) (TestConsumer.ready_new test e n sizes pattern)
    rw [List.nil_append] at hR hsl
    by_cases hn : taken.length < n
    · -- Nothing fails; the history has ended because the consumer was closed.
      cases op with
      | consume x =>
        obtain ⟨s₁, h1⟩ := (test_consumer_accepts test e n sizes pattern hr hn).1 x
        simp only [BulkConsumer.call, h1, bind_ok] at hcall
        obtain ⟨rfl, rfl⟩ : s₁ = t ∧ _ = r := by simpa using hcall
        cases hend
      | flush =>
        obtain ⟨s₁, h1⟩ := (test_consumer_accepts test e n sizes pattern hr hn).2.2.1
        simp only [BulkConsumer.call, h1, bind_ok] at hcall
        obtain ⟨rfl, rfl⟩ : s₁ = t ∧ _ = r := by simpa using hcall
        cases hend
      | exposeSlots =>
        obtain ⟨s₁, _, h1⟩ := (test_consumer_accepts test e n sizes pattern hr hn).2.2.2
        simp only [BulkConsumer.call, h1, bind_ok] at hcall
        obtain ⟨rfl, rfl⟩ : s₁ = t ∧ _ = r := by simpa using hcall
        cases hend
      | write ws =>
        obtain ⟨rfl, rfl⟩ : _ = t ∧ _ = r := by simpa [BulkConsumer.call] using hcall
        cases hend
      | consumeSlots k =>
        obtain ⟨s₁, h1, _⟩ := TestConsumer.consumeSlots_law (hsl hop.1) hop.1 hop.2
        have h1 : (TestConsumer.consumer test I F E).consumeSlots s k = ok (s₁, .ok ()) := h1
        simp only [BulkConsumer.call, h1, bind_ok] at hcall
        obtain ⟨rfl, rfl⟩ : s₁ = t ∧ _ = r := by simpa using hcall
        cases hend
      | bulkConsume buf =>
        rcases hb : (TestConsumer.consumer test I F E).bulkConsume s buf with ⟨s₁, e' | k⟩ | _ | _
        · exfalso
          rcases bulkConsumeDefault_error rfl hb with h1 | ⟨t₁, slots', h1, h2⟩
          · obtain ⟨s₂, _, h3⟩ := (test_consumer_accepts test e n sizes pattern hr hn).2.2.2
            rw [h3] at h1; cases h1
          · obtain ⟨s₂, ⟨_, slots₂, h3, h4, h5, _⟩ | ⟨h3, _⟩⟩ := TestConsumer.expose_law hR
            · have h3 : (TestConsumer.consumer test I F E).exposeSlots s = ok (s₂, .ok slots₂) := h3
              rw [h3] at h1
              cases h1
              have h6 := (TestConsumer.law test n e).write _ _ _ (buf.take (min slots'.length buf.length)) h4
                (by simp only [List.length_take]; omega)
              have hlen : (buf.take (min slots'.length buf.length) ++
                  slots'.drop (buf.take (min slots'.length buf.length)).length).length = slots'.length := by
                simp only [List.length_append, List.length_take, List.length_drop]; omega
              obtain ⟨s₃, h7, _⟩ := TestConsumer.consumeSlots_law (k := min slots'.length buf.length) h6
                (List.ne_nil_of_length_pos (by omega)) (by omega)
              have h2 : ((TestConsumer.consumer test I F E).writeSlots t₁
                (buf.take (min slots'.length buf.length))).consumeSlots test _ = _ := h2
              rw [h7] at h2; cases h2
            · exact h3 hn
        · simp only [BulkConsumer.call, hb, bind_ok] at hcall
          obtain ⟨rfl, rfl⟩ : s₁ = t ∧ _ = r := by simpa using hcall
          cases hend
        · simp [BulkConsumer.call, hb] at hcall
        · simp [BulkConsumer.call, hb] at hcall
      | close f =>
        obtain ⟨s₁, h1, h2⟩ := (test_consumer_accepts test e n sizes pattern hr hn).2.1 f
        simp only [BulkConsumer.call, h1, bind_ok] at hcall
        obtain ⟨rfl, rfl⟩ : s₁ = t ∧ _ = r := by simpa using hcall
        have herr : s₁.error = some e := by
          have h1 : s.close test f = _ := h1
          obtain ⟨s₂, _, _, _, ⟨_, _, h3, h4⟩ | ⟨h3, _⟩⟩ := hR.enter
          · obtain ⟨v, h5, _⟩ := h4.vec.close
            simp only [TestConsumer.close, bind_eq, h3, h5, bind_ok, unwrapResult, pure_eq] at h1
            obtain rfl : _ = s₁ := by simpa using h1
            exact h4.error
          · exact absurd hn h3
        simp only [List.append_nil]
        exact ⟨hrec, h2, fun _ => ⟨herr, by simp [TestConsumer.didError, herr]⟩, nofun⟩
    · obtain ⟨s₁, h1, h2, h3, hc, hcl, hf, hx, hs, hb⟩ := test_consumer_fails test e n sizes pattern hr (by omega)
      have hfin : ∀ {ended : Option (ConsumerEnd I F E)}, ConsumerEnd.closedWith ended = none →
          ConsumerEnd.failedWith ended = some e →
          (taken ++ []).length ≤ n ∧ s₁.Seen (taken ++ []) (ConsumerEnd.closedWith ended) ∧
          (ConsumerEnd.failedWith ended = none → s₁.peekError = some e ∧ s₁.didError = false) ∧
          (∀ e', ConsumerEnd.failedWith ended = some e' →
            e' = e ∧ (taken ++ []).length = n ∧ s₁.peekError = none ∧ s₁.didError = true) := by
        intro ended h4 h5
        rw [List.append_nil, h4, h5]
        refine ⟨hrec, h1, nofun, fun e' he => ⟨by injection he with he; exact he.symm, by omega, h2, h3⟩⟩
      cases op with
      | write ws =>
        obtain ⟨rfl, rfl⟩ : _ = t ∧ _ = r := by simpa [BulkConsumer.call] using hcall
        cases hend
      | _ =>
        simp only [BulkConsumer.call, hc, hcl, hf, hx, hs, hb, bind_ok] at hcall
        obtain ⟨rfl, rfl⟩ : s₁ = t ∧ _ = r := by simpa using hcall
        exact hfin rfl rfl

/-- Consumers that have been closed with 7 or with 8, and consumers that have failed with "e" or with "d". -/
theorem Case.test_consumer_runs : ∃ c d c' d' : Fuzz.Con Nat Nat String,
    ConsumerRuns (TestConsumer.consumer true Nat Nat String) (TestConsumer.new "e" 2 [] none) [5] c.inner [] (some (.closed 7)) ∧
    ConsumerRuns (TestConsumer.consumer true Nat Nat String) (TestConsumer.new "e" 4 [] (some [true])) [5] d.inner []
      (some (.closed 8)) ∧
    ConsumerRuns (TestConsumer.consumer true Nat Nat String) (TestConsumer.new "e" 1 [] none) [5] c'.inner []
      (some (.flushFailed "e")) ∧
    ConsumerRuns (TestConsumer.consumer true Nat Nat String) (TestConsumer.new "d" 1 [] none) [5] d'.inner []
      (some (.closeFailed "d" 8)) := by
  obtain ⟨d₁, hd₁⟩ : ∃ d₁ : TestConsumer Nat Nat String, ConsumerRuns (TestConsumer.consumer true Nat Nat String)
      (TestConsumer.new "e" 4 [] (some [true])) [5] d₁ [] none := by
    obtain ⟨d₁, h1⟩ := (test_consumer_accepts true "e" 4 [] (some [true])
      (ConsumerRuns.start (C := TestConsumer.consumer true Nat Nat String)) (by decide)).1 5
    exact ⟨d₁, .call (op := .consume 5) (r := ⟨[5], [], none⟩) .start trivial (by simp [BulkConsumer.call, h1])⟩
  obtain ⟨d₂, h2, _⟩ := (test_consumer_accepts true "e" 4 [] (some [true]) hd₁ (by decide)).2.1 8
  exact ⟨.new _, .new d₂, .new _, .new _,
    .call (op := .close 7) (r := ⟨[], [], some (.closed 7)⟩)
      (.call (op := .consume 5) (r := ⟨[5], [], none⟩) .start trivial rfl) trivial rfl,
    .call (op := .close 8) (r := ⟨[], [], some (.closed 8)⟩) hd₁ trivial (by simp [BulkConsumer.call, h2, InvariantSt.new]),
    .call (op := .flush) (r := ⟨[], [], some (.flushFailed "e")⟩)
      (.call (op := .consume 5) (r := ⟨[5], [], none⟩) .start trivial rfl) trivial rfl,
    .call (op := .close 8) (r := ⟨[], [], some (.closeFailed "d" 8)⟩)
      (.call (op := .consume 5) (r := ⟨[5], [], none⟩) .start trivial rfl) trivial rfl⟩

example : ∃ c d : Fuzz.Con Nat Nat String, c.inner.Seen [5] (some 7) ∧ c.inner.peekError = some "e" ∧
    d.inner.Seen [5] none ∧ d.inner.didError = true :=
  let ⟨c, _, _, d, h1, _, _, h2⟩ := Case.test_consumer_runs
  have a := test_consumer_accessors _ _ _ _ _ h1
  have b := test_consumer_accessors _ _ _ _ _ h2
  ⟨c, d, a.2.1, (a.2.2.1 rfl).1, b.2.1, (b.2.2.2 _ rfl).2.2.2⟩

variable [DecidableEq I] [DecidableEq F] [DecidableEq E]

/-- **C69**, for consumers. After arbitrary histories, comparing two `TestConsumer`s does not panic, and they are equal exactly
if they have consumed the same items and the same final value (or none), and either both still store the same error, or both
have emitted theirs. When they emit the error does not matter, nor do the configured sizes and patterns. -/
theorem test_consumer_eq (test : Bool) {e₁ e₂ : E} {n₁ n₂ : Nat} {taken₁ taken₂ slots₁ slots₂ : List I}
    {sizes₁ sizes₂ : List NonZero} {pattern₁ pattern₂ : Option (List Bool)} {c d : Fuzz.Con I F E}
    {ended₁ ended₂ : Option (ConsumerEnd I F E)}
    (hc : ConsumerRuns (TestConsumer.consumer test I F E) (TestConsumer.new e₁ n₁ sizes₁ pattern₁) taken₁ c.inner slots₁ ended₁)
    (hd : ConsumerRuns (TestConsumer.consumer test I F E) (TestConsumer.new e₂ n₂ sizes₂ pattern₂) taken₂ d.inner slots₂ ended₂) :
    ∃ b, c.same d = ok b ∧
      (b = true ↔ taken₁ = taken₂ ∧ ConsumerEnd.closedWith ended₁ = ConsumerEnd.closedWith ended₂ ∧
        (ConsumerEnd.failedWith ended₁ = none ∧ ConsumerEnd.failedWith ended₂ = none ∧ e₁ = e₂ ∨
          ConsumerEnd.failedWith ended₁ ≠ none ∧ ConsumerEnd.failedWith ended₂ ≠ none)) := by
  obtain ⟨_, ⟨h1, h2, _⟩, h3, h4⟩ := test_consumer_accessors test _ _ _ _ hc
  obtain ⟨_, ⟨k1, k2, _⟩, k3, k4⟩ := test_consumer_accessors test _ _ _ _ hd
  refine ⟨decide (taken₁ = taken₂) && decide (c.inner.finalConsumed = d.inner.finalConsumed) &&
    decide (c.inner.peekError = d.inner.peekError), by simp [Fuzz.Con.same, h1, k1]; rfl, ?_⟩
  rw [Bool.and_eq_true, Bool.and_eq_true, decide_eq_true_iff, decide_eq_true_iff, decide_eq_true_iff, h2, k2, and_assoc]
  refine and_congr_right fun _ => and_congr_right fun _ => ?_
  rcases hf : ConsumerEnd.failedWith ended₁ with _ | x <;> rcases kf : ConsumerEnd.failedWith ended₂ with _ | y
  · rw [(h3 hf).1, (k3 kf).1]; simp
  · rw [(h3 hf).1, (k4 _ kf).2.2.1]; simp
  · rw [(h4 _ hf).2.2.1, (k3 kf).1]; simp
  · rw [(h4 _ hf).2.2.1, (k4 _ kf).2.2.1]; simp

/-- Consumers that have been closed with different values are different; consumers that have failed with different errors are
equal; a consumer that has failed is different from one that has been closed. -/
example : ∃ c d c' d' : Fuzz.Con Nat Nat String, c.same d = ok false ∧ c'.same d' = ok true ∧ c.same c' = ok false := by
  obtain ⟨c, d, c', d', h1, h2, h3, h4⟩ := Case.test_consumer_runs
  obtain ⟨b₁, i1, i2⟩ := test_consumer_eq true h1 h2
  obtain ⟨b₂, j1, j2⟩ := test_consumer_eq true h3 h4
  obtain ⟨b₃, k1, k2⟩ := test_consumer_eq true h1 h3
  refine ⟨c, d, c', d', ?_, ?_, ?_⟩
  · rw [i1, show b₁ = false by cases b₁ <;> simp_all [ConsumerEnd.closedWith]]
  · rw [j1, j2.mpr ⟨rfl, rfl, .inr ⟨nofun, nofun⟩⟩]
  · rw [k1, show b₃ = false by cases b₃ <;> simp_all [ConsumerEnd.closedWith]]

end

end Verif
