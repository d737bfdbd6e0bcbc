import Verif.Props.Invariant
import Verif.Props.History
import Verif.Props.Pipe
import Verif.Props.PipeAtMost

/-!
# C16–C19: `FromSlice`, `FromBoxedSlice`, `IntoVec`, `Empty`
-/

namespace Verif

open Outcome

section

variable {T : Type}

/-! ## C16 -/

/-- **C16.** `FromSlice` emits exactly its slice and then `()`, under every mix of calls, without panicking. -/
theorem from_slice_plays (xs : List T) :
    BulkPlays (FromSlice.producer T) (FromSlice.new xs) (Script.ofList xs (.ok ())) :=
  ⟨_, FromSlice.law, 0, FromSlice.ready_new xs⟩

/-- **C16**, the public type in test builds. -/
theorem from_slice_invariant_plays (xs : List T) :
    BulkPlays (invariantBulkProducer (FromSlice.producer T)) (.new (FromSlice.new xs)) (Script.ofList xs (.ok ())) :=
  producer_invariant_plays (from_slice_plays xs)

/-- **C16**, the public type in other builds. -/
theorem from_slice_noop_plays (xs : List T) :
    BulkPlays (invariantNoopBulkProducer (FromSlice.producer T)) (FromSlice.new xs) (Script.ofList xs (.ok ())) :=
  producer_invariant_noop_plays (from_slice_plays xs)

/-- **C16**, the same for `FromBoxedSlice`. -/
theorem from_boxed_slice_plays (xs : List T) :
    BulkPlays (FromBoxedSlice.producer T) (FromBoxedSlice.new xs) (Script.ofList xs (.ok ())) :=
  ⟨_, FromBoxedSlice.law, 0, FromBoxedSlice.ready_new xs⟩

theorem from_boxed_slice_invariant_plays (xs : List T) :
    BulkPlays (invariantBulkProducer (FromBoxedSlice.producer T)) (.new (FromBoxedSlice.new xs))
      (Script.ofList xs (.ok ())) :=
  producer_invariant_plays (from_boxed_slice_plays xs)

theorem from_boxed_slice_noop_plays (xs : List T) :
    BulkPlays (invariantNoopBulkProducer (FromBoxedSlice.producer T)) (FromBoxedSlice.new xs)
      (Script.ofList xs (.ok ())) :=
  producer_invariant_noop_plays (from_boxed_slice_plays xs)

/-- The position after a history is the number of items handed out. -/
theorem FromSlice.runs_state {xs handed shown : List T} {s : FromSlice T} {ended : Option (Except Empty Unit)}
    (h : ProducerRuns (FromSlice.producer T) (FromSlice.new xs) handed s shown ended) :
    s.data = xs ∧ s.pos = handed.length ∧ s.pos + shown.length ≤ xs.length := by
  induction h with
  | start => simp [FromSlice.new]
  | @call handed s shown op s' r _ hop hcall ih =>
    obtain ⟨data, pos⟩ := s
    obtain ⟨rfl, rfl, h3⟩ := ih
    simp only at h3
    cases op with
    | produce =>
      simp only [BulkProducer.call, FromSlice.producer, FromSlice.produce] at hcall
      split at hcall
      · simp at hcall; obtain ⟨rfl, rfl⟩ := hcall; simp; omega
      · rename_i hne
        rw [index_of_lt (by omega)] at hcall
        simp at hcall; obtain ⟨rfl, rfl⟩ := hcall; simp; omega
    | slurp =>
      simp [BulkProducer.call, FromSlice.producer, FromSlice.slurp] at hcall
      obtain ⟨rfl, rfl⟩ := hcall; simp; omega
    | exposeItems =>
      simp only [BulkProducer.call, FromSlice.producer, FromSlice.exposeItems] at hcall
      rw [slice_of_le (by omega) (Nat.le_refl _)] at hcall
      simp only [bind_eq, bind_ok] at hcall
      split at hcall <;> simp at hcall <;> obtain ⟨rfl, rfl⟩ := hcall <;> simp <;> omega
    | considerProduced k =>
      obtain ⟨_, hk⟩ := hop
      simp [BulkProducer.call, FromSlice.producer, FromSlice.considerProduced] at hcall
      obtain ⟨rfl, rfl⟩ := hcall; simp; omega
    | bulkProduce buf =>
      simp only [BulkProducer.call, FromSlice.producer, FromSlice.exposeItems, FromSlice.considerProduced,
        bulkProduceDefault] at hcall
      rw [slice_of_le (by omega) (Nat.le_refl _)] at hcall
      simp only [bind_eq, bind_ok] at hcall
      split at hcall <;> simp at hcall <;> obtain ⟨rfl, rfl⟩ := hcall <;> simp <;> omega

/-- A history: one item by itself, one as part of a slice. -/
theorem Case.slice_runs : ProducerRuns (FromSlice.producer Nat) (FromSlice.new [1, 2, 3]) [1, 2] ⟨[1, 2, 3], 2⟩ [3] none := by
  have h0 := ProducerRuns.start (P := FromSlice.producer Nat) (s₀ := FromSlice.new [1, 2, 3])
  have h1 := h0.call (op := .produce) (s' := ⟨[1, 2, 3], 1⟩) (r := ⟨[1], [], none⟩) trivial rfl
  have h2 := h1.call (op := .exposeItems) (s' := ⟨[1, 2, 3], 1⟩) (r := ⟨[], [2, 3], none⟩) trivial rfl
  exact h2.call (op := .considerProduced 1) (s' := ⟨[1, 2, 3], 2⟩) (r := ⟨[2], [3], none⟩)
    ⟨by decide, by decide⟩ rfl

/-- The same with a boxed slice. -/
theorem Case.boxed_slice_runs : ProducerRuns (FromBoxedSlice.producer Nat) (FromBoxedSlice.new [1, 2, 3]) [1, 2] ⟨[1, 2, 3], 2⟩ [3] none := by
  have h0 := ProducerRuns.start (P := FromBoxedSlice.producer Nat) (s₀ := FromBoxedSlice.new [1, 2, 3])
  have h1 := h0.call (op := .produce) (s' := ⟨[1, 2, 3], 1⟩) (r := ⟨[1], [], none⟩) trivial rfl
  have h2 := h1.call (op := .exposeItems) (s' := ⟨[1, 2, 3], 1⟩) (r := ⟨[], [2, 3], none⟩) trivial rfl
  exact h2.call (op := .considerProduced 1) (s' := ⟨[1, 2, 3], 2⟩) (r := ⟨[2], [3], none⟩)
    ⟨by decide, by decide⟩ rfl

/-- **C16, accessors.** After every history of allowed calls, `produced_so_far` is what was handed out, followed by
`not_yet_produced` it is the original slice, `offset` is the number of items handed out, and `into_inner`/`as_ref` give the
original slice. -/
theorem from_slice_accessors {xs handed shown : List T} {s : FromSlice T} {ended : Option (Except Empty Unit)}
    (h : ProducerRuns (FromSlice.producer T) (FromSlice.new xs) handed s shown ended) :
    s.producedSoFar = ok handed ∧ (∃ rest, s.notYetProduced = ok rest ∧ handed ++ rest = xs) ∧
      s.offset = handed.length ∧ s.intoInner = xs := by
  obtain ⟨h1, h2, h3⟩ := FromSlice.runs_state h
  obtain ⟨h4, _⟩ := h.after FromSlice.law (FromSlice.ready_new xs)
  have hlen : handed.length ≤ xs.length := by omega
  have hp : handed = xs.take handed.length := h4.prefix (Script.ofList_startsWith xs (.ok ())) hlen
  refine ⟨?_, ⟨xs.drop handed.length, ?_, ?_⟩, h2, h1⟩
  · rw [FromSlice.producedSoFar, FromSlice.offset, slice_of_le (by omega) (by rw [h1]; omega), h1, h2, List.drop_zero, ← hp]
  · rw [FromSlice.notYetProduced, FromSlice.offset, slice_of_le (by rw [h1]; omega) (Nat.le_refl _), h1, h2, List.take_length]
  · conv => lhs; arg 1; rw [hp]
    exact List.take_append_drop _ _

example : (⟨[1, 2, 3], 2⟩ : FromSlice Nat).producedSoFar = ok [1, 2] ∧
    ∃ rest, (⟨[1, 2, 3], 2⟩ : FromSlice Nat).notYetProduced = ok rest ∧ [1, 2] ++ rest = [1, 2, 3] :=
  ⟨(from_slice_accessors Case.slice_runs).1, (from_slice_accessors Case.slice_runs).2.1⟩

/-- **C16, accessors**, the public type in test builds. -/
theorem from_slice_invariant_accessors {xs handed shown : List T} {t : InvariantSt (FromSlice T)}
    {ended : Option (Except Empty Unit)}
    (h : ProducerRuns (invariantBulkProducer (FromSlice.producer T)) (.new (FromSlice.new xs)) handed t shown ended) :
    t.inner.producedSoFar = ok handed ∧ (∃ rest, t.inner.notYetProduced = ok rest ∧ handed ++ rest = xs) ∧
      t.inner.offset = handed.length ∧ t.inner.intoInner = xs := by
  have := h.invariant_state.1
  rw [invariantNoopBulkProducer_eq rfl] at this
  exact from_slice_accessors this

/-- One item has been produced, two are exposed. -/
example : ∃ t, ProducerRuns (invariantBulkProducer (FromSlice.producer Nat)) (.new (FromSlice.new [1, 2, 3])) [1] t [2, 3] none ∧
    t.inner.producedSoFar = ok [1] ∧ t.inner.intoInner = [1, 2, 3] := by
  have h0 := ProducerRuns.start (P := invariantBulkProducer (FromSlice.producer Nat)) (s₀ := .new (FromSlice.new [1, 2, 3]))
  have h1 := h0.call (op := .produce) (s' := ⟨⟨[1, 2, 3], 1⟩, true, 0⟩) (r := ⟨[1], [], none⟩) trivial rfl
  have h2 := h1.call (op := .exposeItems) (s' := ⟨⟨[1, 2, 3], 1⟩, true, 2⟩) (r := ⟨[], [2, 3], none⟩) trivial rfl
  have h := from_slice_invariant_accessors h2
  exact ⟨_, h2, h.1, h.2.2.2⟩

/-- The position after a history is the number of items handed out. -/
theorem FromBoxedSlice.runs_state {xs handed shown : List T} {s : FromBoxedSlice T} {ended : Option (Except Empty Unit)}
    (h : ProducerRuns (FromBoxedSlice.producer T) (FromBoxedSlice.new xs) handed s shown ended) :
    s.data = xs ∧ s.pos = handed.length ∧ s.pos + shown.length ≤ xs.length := by
  induction h with
  | start => simp [FromBoxedSlice.new]
  | @call handed s shown op s' r _ hop hcall ih =>
    obtain ⟨data, pos⟩ := s
    obtain ⟨rfl, rfl, h3⟩ := ih
    simp only at h3
    cases op with
    | produce =>
      simp only [BulkProducer.call, FromBoxedSlice.producer, FromBoxedSlice.produce] at hcall
      split at hcall
      · simp at hcall; obtain ⟨rfl, rfl⟩ := hcall; simp; omega
      · rename_i hne
        rw [index_of_lt (by omega)] at hcall
        simp at hcall; obtain ⟨rfl, rfl⟩ := hcall; simp; omega
    | slurp =>
      simp [BulkProducer.call, FromBoxedSlice.producer, FromBoxedSlice.slurp] at hcall
      obtain ⟨rfl, rfl⟩ := hcall; simp; omega
    | exposeItems =>
      simp only [BulkProducer.call, FromBoxedSlice.producer, FromBoxedSlice.exposeItems] at hcall
      rw [slice_of_le (by omega) (Nat.le_refl _)] at hcall
      simp only [bind_eq, bind_ok] at hcall
      split at hcall <;> simp at hcall <;> obtain ⟨rfl, rfl⟩ := hcall <;> simp <;> omega
    | considerProduced k =>
      obtain ⟨_, hk⟩ := hop
      simp [BulkProducer.call, FromBoxedSlice.producer, FromBoxedSlice.considerProduced] at hcall
      obtain ⟨rfl, rfl⟩ := hcall; simp; omega
    | bulkProduce buf =>
      simp only [BulkProducer.call, FromBoxedSlice.producer, FromBoxedSlice.exposeItems, FromBoxedSlice.considerProduced,
        bulkProduceDefault] at hcall
      rw [slice_of_le (by omega) (Nat.le_refl _)] at hcall
      simp only [bind_eq, bind_ok] at hcall
      split at hcall <;> simp at hcall <;> obtain ⟨rfl, rfl⟩ := hcall <;> simp <;> omega

/-- **C16, accessors of `FromBoxedSlice`.** After every history of allowed calls, `produced_so_far` is what was handed out, followed by
`not_yet_produced` it is the original slice, `offset` is the number of items handed out, and `into_inner`/`as_ref` give the
original slice. -/
theorem from_boxed_slice_accessors {xs handed shown : List T} {s : FromBoxedSlice T} {ended : Option (Except Empty Unit)}
    (h : ProducerRuns (FromBoxedSlice.producer T) (FromBoxedSlice.new xs) handed s shown ended) :
    s.producedSoFar = ok handed ∧ (∃ rest, s.notYetProduced = ok rest ∧ handed ++ rest = xs) ∧
      s.offset = handed.length ∧ s.intoInner = xs := by
  obtain ⟨h1, h2, h3⟩ := FromBoxedSlice.runs_state h
  obtain ⟨h4, _⟩ := h.after FromBoxedSlice.law (FromBoxedSlice.ready_new xs)
  have hlen : handed.length ≤ xs.length := by omega
  have hp : handed = xs.take handed.length := h4.prefix (Script.ofList_startsWith xs (.ok ())) hlen
  refine ⟨?_, ⟨xs.drop handed.length, ?_, ?_⟩, h2, h1⟩
  · rw [FromBoxedSlice.producedSoFar, FromBoxedSlice.offset, slice_of_le (by omega) (by rw [h1]; omega), h1, h2, List.drop_zero, ← hp]
  · rw [FromBoxedSlice.notYetProduced, FromBoxedSlice.offset, slice_of_le (by rw [h1]; omega) (Nat.le_refl _), h1, h2, List.take_length]
  · conv => lhs; arg 1; rw [hp]
    exact List.take_append_drop _ _

example : (⟨[1, 2, 3], 2⟩ : FromBoxedSlice Nat).producedSoFar = ok [1, 2] := (from_boxed_slice_accessors Case.boxed_slice_runs).1

/-- **C16, accessors of `FromBoxedSlice`**, the public type in test builds. -/
theorem from_boxed_slice_invariant_accessors {xs handed shown : List T} {t : InvariantSt (FromBoxedSlice T)}
    {ended : Option (Except Empty Unit)}
    (h : ProducerRuns (invariantBulkProducer (FromBoxedSlice.producer T)) (.new (FromBoxedSlice.new xs)) handed t shown
      ended) :
    t.inner.producedSoFar = ok handed ∧ (∃ rest, t.inner.notYetProduced = ok rest ∧ handed ++ rest = xs) ∧
      t.inner.offset = handed.length ∧ t.inner.intoInner = xs := by
  have := h.invariant_state.1
  rw [invariantNoopBulkProducer_eq rfl] at this
  exact from_boxed_slice_accessors this

example : (⟨⟨[1, 2, 3], 2⟩, true, 1⟩ : InvariantSt (FromBoxedSlice Nat)).inner.producedSoFar = ok [1, 2] := by
  have h0 := ProducerRuns.start (P := invariantBulkProducer (FromBoxedSlice.producer Nat)) (s₀ := .new (FromBoxedSlice.new [1, 2, 3]))
  have h1 := h0.call (op := .produce) (s' := ⟨⟨[1, 2, 3], 1⟩, true, 0⟩) (r := ⟨[1], [], none⟩) trivial rfl
  have h2 := h1.call (op := .exposeItems) (s' := ⟨⟨[1, 2, 3], 1⟩, true, 2⟩) (r := ⟨[], [2, 3], none⟩) trivial rfl
  have h3 := h2.call (op := .considerProduced 1) (s' := ⟨⟨[1, 2, 3], 2⟩, true, 1⟩) (r := ⟨[2], [3], none⟩)
    ⟨by decide, by decide⟩ rfl
  exact (from_boxed_slice_invariant_accessors h3).1

/-! ## C17 -/

section

variable [Inhabited T]

/-- **C17.** `IntoVec` accepts everything under every mix of calls, without panicking, and `as_ref` and `into_vec` always give
the initial vector followed by the consumed items. -/
theorem into_vec_collects (v : List T) :
    BulkCollects (IntoVec.consumer T) (fun s l _ => s.asRef = ok l ∧ s.intoVec = l) Policy.acceptAll
      (IntoVec.fromVec v) v :=
  ⟨_, IntoVec.law, [], IntoVec.ready_fromVec v⟩

theorem into_vec_new_collects :
    BulkCollects (IntoVec.consumer T) (fun s l _ => s.asRef = ok l ∧ s.intoVec = l) Policy.acceptAll
      IntoVec.new [] := into_vec_collects []

/-- **C17**, the public type in test builds. -/
theorem into_vec_invariant_collects (v : List T) :
    BulkCollects (invariantBulkConsumer (IntoVec.consumer T)) (fun s l _ => s.inner.asRef = ok l ∧ s.inner.intoVec = l)
      Policy.acceptAll (.new (IntoVec.fromVec v)) v :=
  consumer_invariant_collects (into_vec_collects v)

/-- **C17**, the public type in other builds. -/
theorem into_vec_noop_collects (v : List T) :
    BulkCollects (invariantNoopBulkConsumer (IntoVec.consumer T)) (fun s l _ => s.asRef = ok l ∧ s.intoVec = l)
      Policy.acceptAll (IntoVec.fromVec v) v :=
  consumer_invariant_noop_collects (into_vec_collects v)

/-- **C17, contents.** After every history of allowed calls (ended or not), `as_ref` and `into_vec` give the initial vector
followed by exactly the items consumed; no call ever fails. -/
theorem into_vec_contents {v taken slots : List T} {s : IntoVec T} {ended : Option (ConsumerEnd T Unit Empty)}
    (h : ConsumerRuns (IntoVec.consumer T) (IntoVec.fromVec v) taken s slots ended) :
    s.asRef = ok (v ++ taken) ∧ s.intoVec = v ++ taken ∧ (ended = none ∨ ended = some (.closed ())) := by
  obtain ⟨all, s₁, h1, _, _, ⟨h2, h3⟩, _⟩ := consumer_history (into_vec_collects v) h
  match ended with
  | none => cases h1; exact ⟨h2, h3, .inl rfl⟩
  | some (.closed ()) => cases h1; exact ⟨h2, h3, .inr rfl⟩
  | some (.failed e _) => cases e
  | some (.closeFailed e _) => cases e
  | some (.flushFailed e) => cases e

example : ∃ s : IntoVec Nat, ConsumerRuns (IntoVec.consumer Nat) (IntoVec.fromVec [7]) [8, 9] s [] none ∧ s.intoVec = [7, 8, 9] := by
  obtain ⟨s, h⟩ : ∃ s, ConsumerRuns (IntoVec.consumer Nat) (IntoVec.fromVec [7]) [8, 9] s [] none :=
    ⟨_, .call (op := .consume 9) (r := ⟨[9], [], none⟩) (.call (op := .consume 8) (r := ⟨[8], [], none⟩) .start trivial rfl)
      trivial rfl⟩
  exact ⟨s, h, (into_vec_contents h).2.1⟩

/-- **C17, contents**, the public type in test builds. -/
theorem into_vec_invariant_contents {v taken slots : List T} {t : InvariantSt (IntoVec T)}
    {ended : Option (ConsumerEnd T Unit Empty)}
    (h : ConsumerRuns (invariantBulkConsumer (IntoVec.consumer T)) (.new (IntoVec.fromVec v)) taken t slots ended) :
    t.inner.asRef = ok (v ++ taken) ∧ t.inner.intoVec = v ++ taken ∧ (ended = none ∨ ended = some (.closed ())) := by
  have := h.invariant_state.1
  rw [invariantNoopBulkConsumer_eq rfl] at this
  exact into_vec_contents this

example : ∃ t : InvariantSt (IntoVec Nat), ConsumerRuns (invariantBulkConsumer (IntoVec.consumer Nat)) (.new (IntoVec.fromVec [7]))
    [8, 9] t [] (some (.closed ())) ∧ t.inner.intoVec = [7, 8, 9] := by
  obtain ⟨s, h⟩ : ∃ s, ConsumerRuns (invariantBulkConsumer (IntoVec.consumer Nat)) (.new (IntoVec.fromVec [7])) [8, 9] s []
      (some (.closed ())) :=
    ⟨_, .call (op := .close ()) (r := ⟨[], [], some (.closed ())⟩)
      (.call (op := .consume 9) (r := ⟨[9], [], none⟩) (.call (op := .consume 8) (r := ⟨[8], [], none⟩) .start trivial rfl)
        trivial rfl) trivial rfl⟩
  exact ⟨s, h, (into_vec_invariant_contents h).2.1⟩

/-- **C17.** After every history that has not ended, `expose_slots` gives a non-empty slice. -/
theorem into_vec_exposes {v taken slots : List T} {s : IntoVec T}
    (h : ConsumerRuns (IntoVec.consumer T) (IntoVec.fromVec v) taken s slots none) :
    ∃ s' slots', slots' ≠ [] ∧ s.exposeSlots = ok (s', .ok slots') := by
  obtain ⟨_, ⟨sl, h1⟩, _⟩ := h.after IntoVec.law (IntoVec.ready_fromVec v)
  obtain ⟨s', slots', h2, h3, _⟩ := IntoVec.law.expose_ok s _ sl h1 rfl
  exact ⟨s', slots', h2, h3⟩

example : ∃ (s' : IntoVec Nat) (slots' : List Nat), slots' ≠ [] ∧ (IntoVec.fromVec [7]).exposeSlots = ok (s', .ok slots') :=
  into_vec_exposes (taken := []) (slots := []) .start

end

/-! ## C18 -/

section

variable {I F E : Type}

/-- **C18.** `Empty` emits the empty sequence and then its final value, under every mix of calls. -/
theorem empty_plays (f : F) : BulkPlays (EmptyProducer.producer I F E) (EmptyProducer.new f) (Script.ofList [] (.ok f)) :=
  ⟨_, EmptyProducer.law, 0, rfl, f, rfl, rfl⟩

theorem empty_invariant_plays (f : F) : BulkPlays (invariantBulkProducer (EmptyProducer.producer I F E))
    (.new (EmptyProducer.new f)) (Script.ofList [] (.ok f)) :=
  producer_invariant_plays (empty_plays f)

theorem empty_noop_plays (f : F) : BulkPlays (invariantNoopBulkProducer (EmptyProducer.producer I F E))
    (EmptyProducer.new f) (Script.ofList [] (.ok f)) :=
  producer_invariant_noop_plays (empty_plays f)

/-- **C18, histories.** Nothing is ever handed out, no error occurs, and only the first call other than `slurp` ends the
sequence, with the final value. -/
theorem empty_histories {f : F} {handed shown : List I} {s : EmptyProducer F} {ended : Option (Except E F)}
    (h : ProducerRuns (EmptyProducer.producer I F E) (EmptyProducer.new f) handed s shown ended) :
    handed = [] ∧ shown = [] ∧ (ended = none ∧ s = EmptyProducer.new f ∨ ended = some (.ok f)) := by
  induction h with
  | start => simp
  | @call handed s shown op s' r _ hop hcall ih =>
    obtain ⟨rfl, rfl, ⟨_, rfl⟩ | ih⟩ := ih
    · cases op with
      | considerProduced k => exact absurd rfl hop.1
      | _ =>
        simp [BulkProducer.call, EmptyProducer.producer, EmptyProducer.produce, EmptyProducer.slurp,
          EmptyProducer.exposeItems, EmptyProducer.new, bulkProduceDefault] at hcall
        obtain ⟨rfl, rfl⟩ := hcall; simp [EmptyProducer.new]
    · cases ih

example : ∃ s : EmptyProducer Nat, ProducerRuns (EmptyProducer.producer Nat Nat Empty) (EmptyProducer.new 5) [] s [] (some (.ok 5)) :=
  ⟨_, .call (op := .exposeItems) (r := ⟨[], [], some (.ok 5)⟩) (.call (op := .slurp) (r := ⟨[], [], none⟩) .start trivial rfl)
    trivial rfl⟩

/-- **C18.** The first `produce`, `expose_items` or `bulk_produce` call returns the final value, also after any number of
`slurp` calls (which do nothing). `consider_produced` does not do anything either (though there is never a reason to call
it). -/
theorem empty_ends (f : F) (op : ProducerOp I) (h1 : op ≠ .slurp) (h2 : ∀ k, op ≠ .considerProduced k) :
    (EmptyProducer.producer I F E).slurp (EmptyProducer.new f) = ok (EmptyProducer.new f, .ok ()) ∧
    (∀ k, (EmptyProducer.producer I F E).considerProduced (EmptyProducer.new f) k = ok (EmptyProducer.new f, .ok ())) ∧
    (EmptyProducer.producer I F E).call (EmptyProducer.new f) [] op = ok (⟨none⟩, ⟨[], [], some (.ok f)⟩) := by
  refine ⟨rfl, fun _ => rfl, ?_⟩
  cases op with
  | slurp => exact absurd rfl h1
  | considerProduced k => exact absurd rfl (h2 k)
  | produce => rfl
  | exposeItems => rfl
  | bulkProduce buf => rfl

example : (EmptyProducer.producer Nat Nat Empty).call (EmptyProducer.new 5) [] .exposeItems = ok (⟨none⟩, ⟨[], [], some (.ok 5)⟩) :=
  (empty_ends 5 .exposeItems (by simp) (by simp)).2.2

end

/-! ## C19 -/

section

variable [Inhabited T]

/-- **C19.** `pipe` copies the slice to the end of the vector. -/
theorem pipe_slice_into_vec (xs v : List T) :
    ∃ s t, pipe (FromSlice.producer T).toProducer (IntoVec.consumer T).toConsumer (FromSlice.new xs) (IntoVec.fromVec v) =
      ok ((s, t), .ok ()) ∧ t.intoVec = v ++ xs := by
  obtain ⟨s, t, h1, _, h2⟩ := pipe_spec (from_slice_plays xs).toPlays (into_vec_collects v).toCollects
    (.closed (xs := xs) (f := ()) (Script.ofList_startsWith _ _) (by simp) (by simp [Script.ofList_end, Except.map]) rfl)
  exact ⟨s, t, h1, h2⟩

/-- **C19.** `bulk_pipe` copies the slice to the end of the vector. -/
theorem bulk_pipe_slice_into_vec (xs v : List T) :
    ∃ s t, bulkPipe (FromSlice.producer T) (IntoVec.consumer T) (FromSlice.new xs) (IntoVec.fromVec v) =
      ok ((s, t), .ok ()) ∧ t.intoVec = v ++ xs := by
  obtain ⟨s, t, h1, ⟨_, h2⟩, _⟩ := bulk_pipe_spec (from_slice_plays xs) (into_vec_collects v)
    (.closed (xs := xs) (f := ()) (Script.ofList_startsWith _ _) (by simp) (by simp [Script.ofList_end, Except.map]) rfl)
  exact ⟨s, t, h1, h2⟩

omit [Inhabited T] in
/-- What must come out of bounded piping of a slice into a vector. -/
theorem slice_into_vec_result (xs v : List T) (n : Nat) :
    ∃ fin, AtMostResult (E₁ := Empty) (E₂ := Empty) (Script.ofList xs (.ok ())) Policy.acceptAll v n (xs.take n) fin
      (.ok (min n xs.length)) := by
  by_cases h : n ≤ xs.length
  · refine ⟨none, ?_⟩
    rw [Nat.min_eq_left h]
    exact .full (by simp; omega) ((Script.ofList_startsWith _ _).take _) (by simp)
  · refine ⟨some (), ?_⟩
    rw [Nat.min_eq_right (by omega), List.take_of_length_le (by omega)]
    exact .closed (by omega) (.closed (f := ()) (Script.ofList_startsWith _ _) (by simp)
      (by simp [Script.ofList_end, Except.map]) rfl)

/-- **C19.** `pipe_at_most(n)` copies the first `n` items and returns how many that are. -/
theorem pipe_at_most_slice_into_vec (xs v : List T) (n : Nat) :
    ∃ s t, pipeAtMost (FromSlice.producer T).toProducer (IntoVec.consumer T).toConsumer (FromSlice.new xs)
      (IntoVec.fromVec v) n = ok ((s, t), .ok (min n xs.length)) ∧ t.intoVec = v ++ xs.take n := by
  obtain ⟨fin, h⟩ := slice_into_vec_result xs v n
  obtain ⟨s, t, h1, ⟨_, h2⟩, _⟩ := pipe_at_most_spec (from_slice_plays xs).toPlays (into_vec_collects v).toCollects h
  exact ⟨s, t, h1, h2⟩

/-- **C19.** `bulk_pipe_at_most(n)` copies the first `n` items and returns how many that are. -/
theorem bulk_pipe_at_most_slice_into_vec (xs v : List T) (n : Nat) :
    ∃ s t, bulkPipeAtMost (FromSlice.producer T) (IntoVec.consumer T) (FromSlice.new xs)
      (IntoVec.fromVec v) n = ok ((s, t), .ok (min n xs.length)) ∧ t.intoVec = v ++ xs.take n := by
  obtain ⟨fin, h⟩ := slice_into_vec_result xs v n
  obtain ⟨s, t, h1, ⟨_, h2⟩, _⟩ := bulk_pipe_at_most_spec (from_slice_plays xs) (into_vec_collects v) h
  exact ⟨s, t, h1, h2⟩

/-- **C19**, the public types in test builds. -/
theorem bulk_pipe_slice_into_vec_invariant (xs v : List T) :
    ∃ s t, bulkPipe (invariantBulkProducer (FromSlice.producer T)) (invariantBulkConsumer (IntoVec.consumer T))
      (.new (FromSlice.new xs)) (.new (IntoVec.fromVec v)) = ok ((s, t), .ok ()) ∧ t.inner.intoVec = v ++ xs := by
  obtain ⟨s, t, h1, ⟨_, h2⟩, _⟩ := bulk_pipe_spec (from_slice_invariant_plays xs) (into_vec_invariant_collects v)
    (.closed (xs := xs) (f := ()) (Script.ofList_startsWith _ _) (by simp) (by simp [Script.ofList_end, Except.map]) rfl)
  exact ⟨s, t, h1, h2⟩

end

end

end Verif
