import Verif.Lemmas.Slices
import Verif.Cases

/-!
# C15: mixing bulk and item-wise calls
-/

namespace Verif

open Outcome

section

variable {σ I F E : Type}

/-- **C15, producers.** For every lawful bulk producer and every finite history of allowed calls: the items handed out
(followed by those currently exposed) are what repeated `produce` calls on the initial state give, and if the history ended
with a final value or error `r`, then that is what `produce` answers after the items handed out. -/
theorem producer_history {P : BulkProducer σ I F E} {s : σ} {c : Script I F E} (hP : BulkPlays P s c)
    {handed : List I} {s' : σ} {shown : List I} {ended : Option (Except E F)}
    (h : ProducerRuns P s handed s' shown ended) :
    (ended = none → ∃ s'', Emits P.toProducer s (handed ++ shown) s'') ∧
    ∃ s₁, Emits P.toProducer s handed s₁ ∧
      ∀ r, ended = some r → ∃ s₂, P.produce s₁ = ok (s₂, r.map .inr) := by
  obtain ⟨R, hR, n, hn⟩ := hP
  obtain ⟨h1, h2, h3⟩ := h.after hR hn
  have hplays : Plays P.toProducer s c := BulkPlays.toPlays ⟨R, hR, n, hn⟩
  refine ⟨fun hn => ?_, ?_⟩
  · obtain ⟨h4, _, _⟩ := h2 hn
    obtain ⟨s'', h5, _⟩ := hplays.emits (h1.append h4)
    exact ⟨s'', h5⟩
  · obtain ⟨s₁, h4, h5⟩ := hplays.emits h1
    refine ⟨s₁, h4, fun r hr => ?_⟩
    obtain ⟨s₂, h6, _⟩ := h5.step
    refine ⟨s₂, ?_⟩
    rw [h6, Script.drop_apply, Nat.add_zero, h3 r hr]

/-- A history of a `TestProducer`: expose two items, consider one of them produced, produce the second, bulk-produce the third,
get the error. -/
example : ∃ s, ProducerRuns Case.P (Case.pro (.error "broken")) [1, 2, 3] s [] (some (.error "broken")) ∧
    ∃ s₁ s₂, Emits Case.P.toProducer (Case.pro (.error "broken")) [1, 2, 3] s₁ ∧
      Case.P.produce s₁ = ok (s₂, .error "broken") := by
  have h0 := ProducerRuns.start (P := Case.P) (s₀ := Case.pro (.error "broken"))
  have h1 := h0.call (op := .exposeItems) (r := ⟨[], [1, 2], none⟩) trivial rfl
  have h2 := h1.call (op := .considerProduced 1) (r := ⟨[1], [2], none⟩) ⟨by decide, by decide⟩ rfl
  have h3 := h2.call (op := .produce) (r := ⟨[2], [], none⟩) trivial rfl
  have h4 := h3.call (op := .bulkProduce [0, 0]) (r := ⟨[3], [], none⟩) (by simp [ProducerOp.Allowed]) rfl
  have h6 := h4.call (op := .produce) (r := ⟨[], [], some (.error "broken")⟩) trivial rfl
  obtain ⟨_, s₁, h7, h8⟩ := producer_history (Case.plays _) h6
  obtain ⟨s₂, h9⟩ := h8 _ rfl
  exact ⟨_, h6, s₁, s₂, h7, h9⟩

/-- **C15, producers: safety.** After every history that has not ended, every allowed call returns (no panic, no
divergence). -/
theorem producer_history_safe {P : BulkProducer σ I F E} {s : σ} {c : Script I F E} (hP : BulkPlays P s c)
    {handed : List I} {s' : σ} {shown : List I} (h : ProducerRuns P s handed s' shown none) {op : ProducerOp I}
    (hop : op.Allowed shown) : ∃ s'' r, P.call s' shown op = ok (s'', r) := by
  obtain ⟨R, hR, n, hn⟩ := hP
  obtain ⟨_, h2, _⟩ := h.after hR hn
  obtain ⟨h4, ⟨m, h5⟩, h6⟩ := h2 rfl
  obtain ⟨s'', r, h7, _⟩ := hR.call h5 h4 h6 hop
  exact ⟨s'', r, h7⟩

example : ∃ s shown, ProducerRuns Case.P (Case.pro (.ok ())) [1] s shown none ∧
    ∃ s' r, Case.P.call s shown (.considerProduced 1) = ok (s', r) := by
  have h0 := ProducerRuns.start (P := Case.P) (s₀ := Case.pro (.ok ()))
  have h1 := h0.call (op := .exposeItems) (r := ⟨[], [1, 2], none⟩) trivial rfl
  have h2 := h1.call (op := .considerProduced 1) (r := ⟨[1], [2], none⟩) ⟨by decide, by decide⟩ rfl
  exact ⟨_, _, h2, producer_history_safe (Case.plays _) h2 ⟨by decide, by decide⟩⟩

/-- A history of a slice producer: expose, consider one of the three items, produce one, then bulk-produce the rest. -/
example : ProducerRuns (FromSlice.producer Nat) (FromSlice.new [1, 2, 3]) [1, 2, 3] ⟨[1, 2, 3], 3⟩ [] none := by
  have h0 := ProducerRuns.start (P := FromSlice.producer Nat) (s₀ := FromSlice.new [1, 2, 3])
  have h1 := h0.call (op := .exposeItems) (s' := ⟨[1, 2, 3], 0⟩) (r := ⟨[], [1, 2, 3], none⟩) trivial rfl
  have h2 := h1.call (op := .considerProduced 1) (s' := ⟨[1, 2, 3], 1⟩) (r := ⟨[1], [2, 3], none⟩)
    ⟨by decide, by decide⟩ rfl
  have h3 := h2.call (op := .produce) (s' := ⟨[1, 2, 3], 2⟩) (r := ⟨[2], [], none⟩) trivial rfl
  exact h3.call (op := .bulkProduce [0, 0]) (s' := ⟨[1, 2, 3], 3⟩) (r := ⟨[3], [], none⟩)
    (by simp [ProducerOp.Allowed]) rfl

/-- The items that a history of calls has taken from the client, counting those of an unsuccessful last call that were
taken before the error. -/
def ConsumerEnd.ItemsTaken (ended : Option (ConsumerEnd I F E)) (taken all : List I) : Prop :=
  match ended with
  | some (.failed _ offered) => ∃ i, i ≤ offered.length ∧ all = taken ++ offered.take i
  | _ => all = taken

/-- The final value that a history of calls has successfully given to the consumer. -/
def ConsumerEnd.final : Option (ConsumerEnd I F E) → Option F
  | some (.closed f) => some f
  | _ => none

/-- **C15, consumers.** For every lawful bulk consumer and every finite history of allowed calls there is a list of items
`all` (those consumed by successful calls, plus, if the last call failed, the beginning of the items offered to it) such that
consuming `all` with repeated `consume` calls from the initial state succeeds, and the consumer is observed to have
consumed exactly these and the final value given to it. If the history ended with an error `e`, then the item-wise client
gets the same error: for the item that follows `all` (any item, if only slots were requested), or when closing. -/
theorem consumer_history {C : BulkConsumer σ I F E} {D : σ → List I → Option F → Prop} {q : Policy I F E} {s : σ}
    {l : List I} (hC : BulkCollects C D q s l) {taken : List I} {s' : σ} {slots : List I}
    {ended : Option (ConsumerEnd I F E)} (h : ConsumerRuns C s taken s' slots ended) :
    ∃ all s₁, ConsumerEnd.ItemsTaken ended taken all ∧ Consumes C.toConsumer s all s₁ ∧
      D s₁ (l ++ all) none ∧ D s' (l ++ all) (ConsumerEnd.final ended) ∧
      match ended with
      | none => True
      | some (.closed f) => ∃ s₂, C.close s₁ f = ok (s₂, .ok ()) ∧ D s₂ (l ++ all) (some f)
      | some (.failed e offered) =>
        (∃ x s₂, (taken ++ offered)[all.length]? = some x ∧ C.consume s₁ x = ok (s₂, .error e)) ∨
        (all = taken ∧ ∀ x, ∃ s₂, C.consume s₁ x = ok (s₂, .error e))
      | some (.closeFailed e f) => ∃ s₂, C.close s₁ f = ok (s₂, .error e)
      | some (.flushFailed e) => q.refuseFlush (l ++ all) = some e := by
  obtain ⟨R, hR, sl, hsl⟩ := hC
  have hA := h.after hR hsl
  have hcol : Collects C.toConsumer D q s l := BulkCollects.toCollects ⟨R, hR, sl, hsl⟩
  match ended with
  | none =>
    obtain ⟨h1, ⟨sl', h2⟩, _⟩ := hA
    obtain ⟨s₁, h3, h4⟩ := hcol.consumes h1
    exact ⟨taken, s₁, rfl, h3, h4.observe, hR.base.observe _ _ ⟨sl', h2⟩, trivial⟩
  | some (.closed f) =>
    obtain ⟨h1, h2, h5⟩ := hA
    obtain ⟨s₁, h3, h4⟩ := hcol.consumes h1
    obtain ⟨s₂, h6, h7⟩ := h4.close_ok f h2
    exact ⟨taken, s₁, rfl, h3, h4.observe, h5, s₂, h6, h7⟩
  | some (.failed e offered) =>
    obtain ⟨h1, ⟨h2, h5⟩ | ⟨i, h2, h5⟩⟩ := hA
    · obtain ⟨s₁, h3, h4⟩ := hcol.consumes h1
      refine ⟨taken, s₁, ⟨0, by simp, by simp⟩, h3, h4.observe, h5, .inr ⟨rfl, fun x => ?_⟩⟩
      obtain ⟨s₂, h6, _⟩ := h4.consume_err x (e := e) (by simp [Policy.answer, h2])
      exact ⟨s₂, h6⟩
    · have hlt := h2.lt
      obtain ⟨h6, x, h7, h8⟩ := h2
      obtain ⟨s₁, h3, h4⟩ := hcol.consumes (Policy.accepts_append.mpr ⟨h1, h6⟩)
      rw [← List.append_assoc] at h4
      obtain ⟨s₂, h9, _⟩ := h4.consume_err x h8
      refine ⟨taken ++ offered.take i, s₁, ⟨i, by omega, rfl⟩, h3, by simpa using h4.observe,
        by simpa [ConsumerEnd.final] using h5, .inl
        ⟨x, s₂, ?_, h9⟩⟩
      rw [List.getElem?_append_right (by simp)]
      simpa [Nat.min_eq_left (Nat.le_of_lt hlt)] using h7
  | some (.closeFailed e f) =>
    obtain ⟨h1, h2, h5⟩ := hA
    obtain ⟨s₁, h3, h4⟩ := hcol.consumes h1
    obtain ⟨s₂, h6, _⟩ := h4.close_err f h2
    exact ⟨taken, s₁, rfl, h3, h4.observe, h5, s₂, h6⟩
  | some (.flushFailed e) =>
    obtain ⟨h1, h2, h5⟩ := hA
    obtain ⟨s₁, h3, h4⟩ := hcol.consumes h1
    exact ⟨taken, s₁, rfl, h3, h4.observe, h5, h2⟩

/-- A history of a `TestConsumer` that accepts two items. (See below for one that uses slots.) -/
example : ∃ s, ConsumerRuns Case.C (Case.con 2) [1, 2] s [] (some (.failed "full" [4, 5])) ∧
    ∃ all s₁, ConsumerEnd.ItemsTaken (some (.failed "full" [4, 5]) : Option (ConsumerEnd Nat Unit String)) [1, 2] all ∧
      Consumes Case.C.toConsumer (Case.con 2) all s₁ := by
  have h0 := ConsumerRuns.start (C := Case.C) (s₀ := Case.con 2)
  have h1 := h0.call (op := .consume 1) (r := ⟨[1], [], none⟩) trivial rfl
  have h2 := h1.call (op := .flush) (r := ⟨[], [], none⟩) trivial rfl
  have h4 := h2.call (op := .consume 2) (r := ⟨[2], [], none⟩) trivial rfl
  have h5 := h4.call (op := .bulkConsume [4, 5]) (r := ⟨[], [], some (.failed "full" [4, 5])⟩) (by simp [ConsumerOp.Allowed]) rfl
  obtain ⟨all, s₁, h6, h7, _⟩ := consumer_history (Case.collects 2) h5
  exact ⟨_, h5, all, s₁, h6, h7⟩

/-- **C15, consumers: safety.** After every history that has not ended, every allowed call returns. -/
theorem consumer_history_safe {C : BulkConsumer σ I F E} {D : σ → List I → Option F → Prop} {q : Policy I F E} {s : σ}
    {l : List I} (hC : BulkCollects C D q s l) {taken : List I} {s' : σ} {slots : List I}
    (h : ConsumerRuns C s taken s' slots none) {op : ConsumerOp I F} (hop : op.Allowed slots) :
    ∃ s'' r, C.call s' slots op = ok (s'', r) := by
  obtain ⟨R, hR, sl, hsl⟩ := hC
  obtain ⟨h1, ⟨sl', h2⟩, h3⟩ := h.after hR hsl
  obtain ⟨s'', r, h7, _⟩ := hR.call h2 h3 hop
  exact ⟨s'', r, h7⟩

example : ∃ s slots, ConsumerRuns Case.C (Case.con 2) [1] s slots none ∧
    ∃ s' r, Case.C.call s slots .exposeSlots = ok (s', r) := by
  have h0 := ConsumerRuns.start (C := Case.C) (s₀ := Case.con 2)
  have h1 := h0.call (op := .consume 1) (r := ⟨[1], [], none⟩) trivial rfl
  exact ⟨_, _, h1, consumer_history_safe (Case.collects 2) h1 trivial⟩

/-- A history of an `IntoVec`: consume an item, expose slots, write to two of them, consume these, close. -/
example : ConsumerRuns (IntoVec.consumer Nat) (IntoVec.fromVec [7]) [1, 2, 3] ⟨[7, 1, 2, 3, 0, 0, 0], 4⟩ []
    (some (.closed ())) := by
  have h0 := ConsumerRuns.start (C := IntoVec.consumer Nat) (s₀ := IntoVec.fromVec [7])
  have h1 := h0.call (op := .bulkConsume [1, 2]) (s' := ⟨[7, 1, 2], 3⟩) (r := ⟨[1, 2], [], none⟩)
    (by simp [ConsumerOp.Allowed]) rfl
  have h2 := h1.call (op := .exposeSlots) (s' := ⟨[7, 1, 2, 0, 0, 0, 0], 3⟩) (r := ⟨[], [0, 0, 0, 0], none⟩) trivial rfl
  have h3 := h2.call (op := .write [3]) (s' := ⟨[7, 1, 2, 3, 0, 0, 0], 3⟩) (r := ⟨[], [3, 0, 0, 0], none⟩)
    (by simp [ConsumerOp.Allowed]) rfl
  have h4 := h3.call (op := .consumeSlots 1) (s' := ⟨[7, 1, 2, 3, 0, 0, 0], 4⟩) (r := ⟨[3], [0, 0, 0], none⟩)
    ⟨by decide, by decide⟩ rfl
  exact h4.call (op := .close ()) (s' := ⟨[7, 1, 2, 3, 0, 0, 0], 4⟩) (r := ⟨[], [], some (.closed ())⟩) trivial rfl

/-- **C15, consumers that delay their effects.** After every history of allowed calls, what the consumer is observed to have
consumed is a prefix of what was passed to it (and is everything, with the final value, after closing it), and errors are
only reported if `X` allows them. -/
theorem deferring_consumer_history {C : BulkConsumer σ I F E} {D : σ → List I → Option F → Prop} {X : Faults I F E}
    (hX : X.Regular) {s : σ} {l : List I} (hC : BulkDefers C D X s l) {taken : List I} {s' : σ} {slots : List I}
    {ended : Option (ConsumerEnd I F E)} (h : ConsumerRuns C s taken s' slots ended) :
    match ended with
    | none => ∃ d, d <+: l ++ taken ∧ D s' d none
    | some (.closed f) => D s' (l ++ taken) (some f)
    | some (.failed e offered) => ∃ d, (offered = [] → X.exposing (l ++ taken) d e) ∧
        (offered ≠ [] → X.during (l ++ taken ++ offered) d e) ∧ D s' d none
    | some (.closeFailed e f) => ∃ d, X.closing (l ++ taken) f d e ∧ D s' d none
    | some (.flushFailed e) => ∃ d, X.during (l ++ taken) d e ∧ D s' d none := by
  obtain ⟨R, hR, sl, hsl⟩ := hC
  have hA := h.afterDeferring hX hR hsl
  match ended with
  | none => exact hR.base.observe _ _ hA.1
  | some (.closed f) => exact hA
  | some (.failed e offered) => exact hA
  | some (.closeFailed e f) => exact hA
  | some (.flushFailed e) => exact hA

/-- A consumer that has room for two items and passes them on later: two items were passed to it. -/
example (n : Nat) : ∃ d, d <+: [1, 2] ∧ TestConsumer.Seen (Case.con n) d none :=
  deferring_consumer_history (Policy.regular_faults _) (Case.defers n) (Case.del_runs n)

/-- **C15** for delaying consumers that may fail at any time. -/
theorem delaying_consumer_history {C : BulkConsumer σ I F E} {D : σ → List I → Option F → Prop} {s : σ}
    {l : List I} (hC : BulkDelays C D s l) {taken : List I} {s' : σ} {slots : List I}
    {ended : Option (ConsumerEnd I F E)} (h : ConsumerRuns C s taken s' slots ended) :
    match ended with
    | none => ∃ d, d <+: l ++ taken ∧ D s' d none
    | some (.closed f) => D s' (l ++ taken) (some f)
    | some (.failed _ offered) => ∃ d, d <+: l ++ taken ++ offered ∧ D s' d none
    | some (.closeFailed _ _) => ∃ d, d <+: l ++ taken ∧ D s' d none
    | some (.flushFailed _) => ∃ d, d <+: l ++ taken ∧ D s' d none := by
  have hA := deferring_consumer_history Faults.regular_any hC h
  match ended with
  | none => exact hA
  | some (.closed f) => exact hA
  | some (.failed e offered) =>
    obtain ⟨d, h1, h2, h3⟩ := hA
    refine ⟨d, ?_, h3⟩
    cases offered with
    | nil => simpa [Faults.any] using h1 rfl
    | cons x offered => exact h2 (by simp)
  | some (.closeFailed e f) => exact hA
  | some (.flushFailed e) => exact hA

/-- With the third item the first two are passed on, but only one of them is accepted. -/
example : ∃ s d, d <+: [1, 2, 3] ∧ Case.SeenInside s d none :=
  let ⟨s, h⟩ := Case.del_fails
  ⟨s, delaying_consumer_history (Case.delays 1) h⟩

/-- **C15** for delaying consumers whose errors are those of the policy `q`: after an error `e`, the items consumed are a prefix
`d` of those passed to the consumer, and `e` is what the policy answers to the next one of those items, to flushing, or to
the failed call. -/
theorem deferring_consumer_errors {C : BulkConsumer σ I F E} {D : σ → List I → Option F → Prop} {q : Policy I F E}
    {s : σ} {l : List I} (hC : BulkDefers C D q.faults s l) {taken : List I} {s' : σ} {slots : List I} {e : E}
    {offered : List I} (h : ConsumerRuns C s taken s' slots (some (.failed e offered))) :
    ∃ d, D s' d none ∧ d <+: l ++ taken ++ offered ∧
      ((∃ x, d ++ [x] <+: l ++ taken ++ offered ∧ q.answer d x = some e) ∨ q.refuseFlush d = some e ∨
        (offered = [] ∧ d = l ++ taken ∧ q.refuse d = some e)) := by
  obtain ⟨d, h1, h2, h3⟩ := deferring_consumer_history q.regular_faults hC h
  refine ⟨d, h3, ?_⟩
  cases offered with
  | nil =>
    obtain ⟨h4, h5 | h5 | ⟨h5, h6⟩⟩ := h1 rfl
    · exact ⟨by simpa using h4, .inl (by simpa using h5)⟩
    · exact ⟨by simpa using h4, .inr (.inl h5)⟩
    · exact ⟨by simpa using h4, .inr (.inr ⟨rfl, h5, by rw [h5]; exact h6⟩)⟩
  | cons x offered =>
    obtain ⟨h4, h5 | h5⟩ := h2 (by simp)
    · exact ⟨h4, .inl h5⟩
    · exact ⟨h4, .inr (.inl h5)⟩

example : ∃ s d, Case.SeenInside s d none ∧ d <+: [1, 2, 3] ∧
    ((∃ x, d ++ [x] <+: [1, 2, 3] ∧ (Case.policy 1).answer d x = some "full") ∨ (Case.policy 1).refuseFlush d = some "full" ∨
      (([3] : List Nat) = [] ∧ d = [1, 2] ∧ (Case.policy 1).refuse d = some "full")) :=
  let ⟨s, h⟩ := Case.del_fails
  ⟨s, deferring_consumer_errors (Case.defers 1) h⟩

/-- The same, directly after a successful flush: everything that was passed to the consumer has been consumed. -/
theorem deferring_consumer_flush {C : BulkConsumer σ I F E} {D : σ → List I → Option F → Prop} {X : Faults I F E}
    (hX : X.Regular) {s : σ} {l : List I} (hC : BulkDefers C D X s l) {taken : List I} {s' : σ} {slots : List I}
    (h : ConsumerRuns C s taken s' slots none) {s'' : σ} (hf : C.flush s' = ok (s'', .ok ())) :
    D s'' (l ++ taken) none := by
  obtain ⟨R, hR, sl, hsl⟩ := hC
  have hA := h.afterDeferring hX hR hsl
  obtain ⟨s₃, ⟨h1, _, h2⟩ | ⟨e, d, h1, _⟩⟩ := hR.base.flush _ _ hA.1
  · rw [hf] at h1; injection h1 with h1; injection h1 with h1; subst h1; exact h2
  · rw [hf] at h1; injection h1 with h1; injection h1 with _ h1; cases h1

example : ∃ s, Case.SeenInside s [1, 2] none :=
  let ⟨s, h⟩ := Case.del_flush
  ⟨s, deferring_consumer_flush (Policy.regular_faults _) (Case.defers 5) (Case.del_runs 5) h⟩

theorem delaying_consumer_flush {C : BulkConsumer σ I F E} {D : σ → List I → Option F → Prop} {s : σ}
    {l : List I} (hC : BulkDelays C D s l) {taken : List I} {s' : σ} {slots : List I}
    (h : ConsumerRuns C s taken s' slots none) {s'' : σ} (hf : C.flush s' = ok (s'', .ok ())) :
    D s'' (l ++ taken) none :=
  deferring_consumer_flush Faults.regular_any hC h hf

example : ∃ s, Case.SeenInside s [1, 2] none :=
  let ⟨s, h⟩ := Case.del_flush
  ⟨s, delaying_consumer_flush (Case.delays 5) (Case.del_runs 5) h⟩

/-- Safety for delaying consumers: every allowed call returns. -/
theorem deferring_consumer_history_safe {C : BulkConsumer σ I F E} {D : σ → List I → Option F → Prop} {X : Faults I F E}
    (hX : X.Regular) {s : σ} {l : List I} (hC : BulkDefers C D X s l) {taken : List I} {s' : σ} {slots : List I}
    (h : ConsumerRuns C s taken s' slots none) {op : ConsumerOp I F} (hop : op.Allowed slots) :
    ∃ s'' r, C.call s' slots op = ok (s'', r) := by
  obtain ⟨R, hR, sl, hsl⟩ := hC
  obtain ⟨⟨sl', h2⟩, h3⟩ := h.afterDeferring hX hR hsl
  obtain ⟨s'', r, h7, _⟩ := hR.call hX h2 h3 hop
  exact ⟨s'', r, h7⟩

example (n : Nat) : ∃ s r, Case.B.call ⟨Case.con n, ⟨[1, 2], 0, 2⟩, [.consume], 0⟩ [] (.bulkConsume [3, 4]) = ok (s, r) :=
  deferring_consumer_history_safe (Policy.regular_faults _) (Case.defers n) (Case.del_runs n) (by simp [ConsumerOp.Allowed])

theorem delaying_consumer_history_safe {C : BulkConsumer σ I F E} {D : σ → List I → Option F → Prop} {s : σ}
    {l : List I} (hC : BulkDelays C D s l) {taken : List I} {s' : σ} {slots : List I}
    (h : ConsumerRuns C s taken s' slots none) {op : ConsumerOp I F} (hop : op.Allowed slots) :
    ∃ s'' r, C.call s' slots op = ok (s'', r) :=
  deferring_consumer_history_safe Faults.regular_any hC h hop

example (n : Nat) : ∃ s r, Case.B.call ⟨Case.con n, ⟨[1, 2], 0, 2⟩, [.consume], 0⟩ [] (.close ()) = ok (s, r) :=
  delaying_consumer_history_safe (Case.delays n) (Case.del_runs n) trivial

end

end Verif
