import Verif.Lemmas.Calls
import Verif.Lemmas.Proptest
import Verif.Model.Codec
import Verif.Model.Endian
import Verif.Model.Consumers

/-!
# C79: which calls adaptors and piping functions make

The wrapped producers and consumers are arbitrary; in particular they need not be lawful.
-/

namespace Verif

open Outcome

variable {σ τ I F E E₁ E₂ B φ : Type}

/-! ## Adaptors of producers -/

/-- **C79, `MapItem` producers.** -/
theorem map_item_producer_calls (f : φ → I → φ × B) (P : BulkProducer σ I F E) (t t' : MapItemSt (Recorded σ (ProducerOp I)) φ) :
    (∀ r, (mapItemBufferedProducer f (recordedProducer P).toBufferedProducer).produce t = ok (t', r) →
      t'.inner.calls = t.inner.calls ++ [.produce]) ∧
    (∀ r, (mapItemBufferedProducer f (recordedProducer P).toBufferedProducer).slurp t = ok (t', r) →
      t'.inner.calls = t.inner.calls ++ [.slurp]) := by
  constructor
  · intro r h
    simp only [mapItemBufferedProducer, mapItemProducer, bind_eq] at h
    rcases hp : (recordedProducer P).produce t.inner with ⟨s, e | x | f⟩ | _ | _ <;> rw [hp] at h <;> cases h <;>
      exact recorded_produce hp
  · intro r h
    simp only [mapItemBufferedProducer, bind_eq] at h
    rcases hp : (recordedProducer P).slurp t.inner with ⟨s, r⟩ | _ | _ <;> rw [hp] at h <;> cases h
    exact recorded_slurp hp

/-- A concrete case: producing one item of `[1, 2]`, then slurping. -/
example :
    (mapItemBufferedProducer (fun (c x : Nat) => (c + 1, c + x))
      (recordedProducer (FromSlice.producer Nat)).toBufferedProducer).produce
      ⟨⟨.new [1, 2], []⟩, 5⟩ = ok (⟨⟨⟨[1, 2], 1⟩, [.produce]⟩, 6⟩, .ok (.inl 6)) ∧
    (mapItemBufferedProducer (fun (c x : Nat) => (c + 1, c + x))
      (recordedProducer (FromSlice.producer Nat)).toBufferedProducer).slurp
      ⟨⟨⟨[1, 2], 1⟩, [.produce]⟩, 6⟩ = ok (⟨⟨⟨[1, 2], 1⟩, [.produce, .slurp]⟩, 6⟩, .ok ()) :=
  ⟨rfl, rfl⟩

/-- **C79, `MapFinal` producers.** -/
theorem map_final_producer_calls (P : BulkProducer σ I F E) (s : σ) (fn : Option (F → B)) {ops : List (ProducerOp I)}
    {t : MapFinalSt (Recorded σ (ProducerOp I)) F B}
    (h : (mapFinalBulkProducer (recordedProducer P)).Performs ⟨⟨s, []⟩, fn⟩ ops t) :
    PassedOnAll ProducerOp.PassedOn ops t.inner.calls := by
  refine ProducerForwards.performs (log := fun t => t.inner.calls) ⟨?_, ?_, ?_, ?_, rfl⟩ h rfl
  · intro t t' r h
    simp only [mapFinalBulkProducer, mapFinalBufferedProducer, mapFinalProducer, bind_eq] at h
    rcases hp : (recordedProducer P).produce t.inner with ⟨s, e | x | f⟩ | _ | _ <;> rw [hp] at h <;>
      try (cases h <;> exact recorded_produce hp)
    rcases hf : t.fn with _ | fn <;> rw [hf] at h <;> cases h
    exact recorded_produce hp
  · intro t t' r h
    simp only [mapFinalBulkProducer, mapFinalBufferedProducer, bind_eq] at h
    rcases hp : (recordedProducer P).slurp t.inner with ⟨s, r⟩ | _ | _ <;> rw [hp] at h <;> cases h
    exact recorded_slurp hp
  · intro t t' r h
    simp only [mapFinalBulkProducer, bind_eq] at h
    rcases hp : (recordedProducer P).exposeItems t.inner with ⟨s, e | x | f⟩ | _ | _ <;> rw [hp] at h <;>
      try (cases h <;> exact recorded_exposeItems hp)
    rcases hf : t.fn with _ | fn <;> rw [hf] at h <;> cases h
    exact recorded_exposeItems hp
  · intro t k t' r h
    simp only [mapFinalBulkProducer, bind_eq] at h
    rcases hp : (recordedProducer P).considerProduced t.inner k with ⟨s, r⟩ | _ | _ <;> rw [hp] at h <;> cases h
    exact recorded_considerProduced hp

/-- A concrete case: all methods, on `[1, 2, 3]`. -/
example : ∃ t, (mapFinalBulkProducer (recordedProducer (FromSlice.producer Nat))).Performs ⟨⟨.new [1, 2, 3], []⟩, some fun _ => 9⟩
    [.produce, .slurp, .exposeItems, .considerProduced 1, .bulkProduce [7, 7, 7], .bulkProduce [7]] t ∧
    t.inner.calls = [.produce, .slurp, .exposeItems, .considerProduced 1, .exposeItems, .considerProduced 1, .exposeItems] :=
  ⟨_, .of_all rfl, rfl⟩

/-- **C79, `MapError` producers.** -/
theorem map_error_producer_calls (P : BulkProducer σ I F E) (s : σ) (fn : Option (E → B)) {ops : List (ProducerOp I)}
    {t : MapErrorSt (Recorded σ (ProducerOp I)) E B}
    (h : (mapErrorBulkProducer (recordedProducer P)).Performs ⟨⟨s, []⟩, fn⟩ ops t) :
    PassedOnAll ProducerOp.PassedOn ops t.inner.calls := by
  refine ProducerForwards.performs (log := fun t => t.inner.calls) ⟨?_, ?_, ?_, ?_, rfl⟩ h rfl
  · intro t t' r h
    simp only [mapErrorBulkProducer, mapErrorBufferedProducer, mapErrorProducer, bind_eq, mapErrTake] at h
    rcases hp : (recordedProducer P).produce t.inner with ⟨s, r⟩ | _ | _ <;> rw [hp] at h <;> rcases hf : t.fn with _ | fn <;>
      rw [hf] at h <;> cases h
    exact recorded_produce hp
  · intro t t' r h
    simp only [mapErrorBulkProducer, mapErrorBufferedProducer, bind_eq, mapErrTake] at h
    rcases hp : (recordedProducer P).slurp t.inner with ⟨s, r⟩ | _ | _ <;> rw [hp] at h <;> rcases hf : t.fn with _ | fn <;>
      rw [hf] at h <;> cases h
    exact recorded_slurp hp
  · intro t t' r h
    simp only [mapErrorBulkProducer, bind_eq, mapErrTake] at h
    rcases hp : (recordedProducer P).exposeItems t.inner with ⟨s, r⟩ | _ | _ <;> rw [hp] at h <;>
      rcases hf : t.fn with _ | fn <;> rw [hf] at h <;> cases h
    exact recorded_exposeItems hp
  · intro t k t' r h
    simp only [mapErrorBulkProducer, bind_eq, mapErrTake] at h
    rcases hp : (recordedProducer P).considerProduced t.inner k with ⟨s, r⟩ | _ | _ <;> rw [hp] at h <;>
      rcases hf : t.fn with _ | fn <;> rw [hf] at h <;> cases h
    exact recorded_considerProduced hp

/-- A concrete case: a single call (this adaptor panics on the second one, see C24). -/
example : ∃ t, (mapErrorBulkProducer (recordedProducer (FromSlice.producer Nat))).Performs ⟨⟨.new [1, 2, 3], []⟩, some fun _ => 9⟩
    [.slurp] t ∧
    t.inner.calls = [.slurp] :=
  ⟨_, .of_all rfl, rfl⟩

/-- **C79, `Invariant` producers.** -/
theorem invariant_producer_calls (P : BulkProducer σ I F E) (s : σ) {ops : List (ProducerOp I)}
    {t : InvariantSt (Recorded σ (ProducerOp I))}
    (h : (invariantBulkProducer (recordedProducer P)).Performs (.new ⟨s, []⟩) ops t) :
    PassedOnAll ProducerOp.PassedOn ops t.inner.calls := by
  refine ProducerForwards.performs (log := fun t => t.inner.calls) ⟨?_, ?_, ?_, ?_, rfl⟩ h rfl
  · intro ⟨t, a, n⟩ t' r h
    cases a
    · cases h
    · simp only [invariantBulkProducer, invariantBufferedProducer, invariantProducer, bind_eq, InvariantSt.checkInactive, assert,
        if_true, bind_ok] at h
      rcases hp : (recordedProducer P).produce t with ⟨s, e | x | f⟩ | _ | _ <;> rw [hp] at h <;> cases h <;>
        exact recorded_produce hp
  · intro ⟨t, a, n⟩ t' r h
    cases a
    · cases h
    · simp only [invariantBulkProducer, invariantBufferedProducer, bind_eq, InvariantSt.checkInactive, assert, if_true,
        bind_ok] at h
      rcases hp : (recordedProducer P).slurp t with ⟨s, e | ⟨⟩⟩ | _ | _ <;> rw [hp] at h <;> cases h <;>
        exact recorded_slurp hp
  · intro ⟨t, a, n⟩ t' r h
    cases a
    · cases h
    · simp only [invariantBulkProducer, bind_eq, InvariantSt.checkInactive, assert, if_true, bind_ok] at h
      rcases hp : (recordedProducer P).exposeItems t with ⟨s, e | x | f⟩ | _ | _ <;> rw [hp] at h <;> cases h <;>
        exact recorded_exposeItems hp
  · intro ⟨t, a, n⟩ k t' r h
    cases a
    · cases h
    · simp only [invariantBulkProducer, bind_eq, InvariantSt.checkInactive, assert, if_true, bind_ok] at h
      split at h
      · cases h
      · rename_i hk
        rw [sub, if_pos (Nat.le_of_not_lt hk)] at h
        rcases hp : (recordedProducer P).considerProduced t k with ⟨s, r⟩ | _ | _ <;> simp only [bind_ok, hp] at h <;> cases h
        exact recorded_considerProduced hp

/-- A concrete case: all methods, on `[1, 2, 3]`. -/
example : ∃ t, (invariantBulkProducer (recordedProducer (FromSlice.producer Nat))).Performs (.new ⟨.new [1, 2, 3], []⟩)
    [.produce, .slurp, .exposeItems, .considerProduced 1, .bulkProduce [7, 7, 7], .bulkProduce [7]] t ∧
    t.inner.calls = [.produce, .slurp, .exposeItems, .considerProduced 1, .exposeItems, .considerProduced 1, .exposeItems] :=
  ⟨_, .of_all rfl, rfl⟩

/-- **C79, `Invariant` producers in release builds.** -/
theorem invariant_noop_producer_calls (P : BulkProducer σ I F E) (s : σ) {ops : List (ProducerOp I)}
    {t : Recorded σ (ProducerOp I)} (h : (invariantNoopBulkProducer (recordedProducer P)).Performs ⟨s, []⟩ ops t) :
    PassedOnAll ProducerOp.PassedOn ops t.calls :=
  ProducerForwards.performs (log := fun t => t.calls)
    ⟨recorded_produce, recorded_slurp, recorded_exposeItems, recorded_considerProduced, rfl⟩ h rfl

/-- A concrete case: all methods, on `[1, 2, 3]`. -/
example : ∃ t, (invariantNoopBulkProducer (recordedProducer (FromSlice.producer Nat))).Performs ⟨.new [1, 2, 3], []⟩
    [.produce, .slurp, .exposeItems, .considerProduced 1, .bulkProduce [7, 7, 7], .bulkProduce [7]] t ∧
    t.calls = [.produce, .slurp, .exposeItems, .considerProduced 1, .exposeItems, .considerProduced 1, .exposeItems] :=
  ⟨_, .of_all rfl, rfl⟩

/-- **C79, `Limit` producers.** Nothing is asked of the wrapped producer once the limit is reached, but `slurp` and
`consider_produced` are still passed on. -/
theorem limit_producer_calls (P : BulkProducer σ I F E) {t t' : LimitSt (Recorded σ (ProducerOp I))} {shown : List I}
    {op : ProducerOp I} {r} (h : (limitBulkProducer (recordedProducer P)).call t shown op = ok (t', r)) :
    if t.remaining = 0 ∧ op.asks then t'.inner = t.inner
    else ∃ calls, op.PassedOn calls ∧ t'.inner.calls = t.inner.calls ++ calls := by
  have hc : ∀ {t k t' r}, (limitBulkProducer (recordedProducer P)).considerProduced t k = ok (t', r) →
      t'.inner.calls = t.inner.calls ++ [.considerProduced k] := by
    intro t k t' r h
    simp only [limitBulkProducer, bind_eq, sub] at h
    split at h
    · rcases hp : (recordedProducer P).considerProduced t.inner k with ⟨s, r⟩ | _ | _ <;> simp only [bind_ok, hp] at h <;> cases h
      exact recorded_considerProduced hp
    · cases h
  have he : ∀ {t n t' r}, (limitBulkProducer (recordedProducer P)).exposeItems ⟨t, n + 1⟩ = ok (t', r) →
      t'.inner.calls = t.calls ++ [.exposeItems] := by
    intro t n t' r h
    simp only [limitBulkProducer, bind_eq, Nat.add_one_ne_zero, if_false] at h
    rcases hp : (recordedProducer P).exposeItems t with ⟨s, e | x | f⟩ | _ | _ <;> rw [hp] at h <;>
      try (cases h <;> exact recorded_exposeItems hp)
    simp only [bind_ok, slice, Nat.zero_le, Nat.min_le_right, and_self, if_true] at h
    cases h
    exact recorded_exposeItems hp
  replace h := BulkProducer.call_method h
  obtain ⟨t, n⟩ := t
  cases op with
  | produce =>
    obtain ⟨r, h⟩ := h
    cases n with
    | zero => cases h; simp [ProducerOp.asks]
    | succ n =>
      rw [if_neg (by simp)]
      refine ⟨_, .produce, ?_⟩
      simp only [limitBulkProducer, limitBufferedProducer, limitProducer, bind_eq] at h
      rcases hp : (recordedProducer P).produce t with ⟨s, e | x | f⟩ | _ | _ <;> rw [hp] at h <;> cases h <;>
        exact recorded_produce hp
  | slurp =>
    obtain ⟨r, h⟩ := h
    rw [if_neg (by simp [ProducerOp.asks])]
    refine ⟨_, .slurp, ?_⟩
    simp only [limitBulkProducer, limitBufferedProducer, bind_eq] at h
    rcases hp : (recordedProducer P).slurp t with ⟨s, r⟩ | _ | _ <;> rw [hp] at h <;> cases h
    exact recorded_slurp hp
  | exposeItems =>
    obtain ⟨r, h⟩ := h
    cases n with
    | zero => cases h; simp [ProducerOp.asks]
    | succ n =>
      rw [if_neg (by simp)]
      exact ⟨_, .exposeItems, he h⟩
  | considerProduced k =>
    obtain ⟨r, h⟩ := h
    rw [if_neg (by simp [ProducerOp.asks])]
    exact ⟨_, .considerProduced, hc h⟩
  | bulkProduce buf =>
    obtain ⟨r, h⟩ := h
    cases n with
    | zero => cases h; simp [ProducerOp.asks]
    | succ n =>
      rw [if_neg (by simp)]
      exact bulkProduceDefault_calls (exposeItems := (limitBulkProducer (recordedProducer P)).exposeItems)
        (considerProduced := (limitBulkProducer (recordedProducer P)).considerProduced) (log := fun t => t.inner.calls) he hc h

/-- Concrete cases: below and at the limit. -/
example :
    (limitBulkProducer (recordedProducer (FromSlice.producer Nat))).call ⟨⟨.new [1, 2, 3], []⟩, 2⟩ [] (.bulkProduce [7, 7, 7]) =
      ok (⟨⟨⟨[1, 2, 3], 2⟩, [.exposeItems, .considerProduced 2]⟩, 0⟩, ⟨[1, 2], [], none⟩) ∧
    (limitBulkProducer (recordedProducer (FromSlice.producer Nat))).call ⟨⟨.new [1, 2, 3], []⟩, 0⟩ [] .produce =
      ok (⟨⟨.new [1, 2, 3], []⟩, 0⟩, ⟨[], [], some (.ok none)⟩) ∧
    (limitBulkProducer (recordedProducer (FromSlice.producer Nat))).call ⟨⟨.new [1, 2, 3], []⟩, 0⟩ [] .slurp =
      ok (⟨⟨.new [1, 2, 3], [.slurp]⟩, 0⟩, ⟨[], [], none⟩) :=
  ⟨rfl, rfl, rfl⟩

/-! ## Adaptors of consumers -/

/-- A consumer for the concrete cases below: it consumes everything, and exposes two slots at a time. -/
def lenient : BulkConsumer Unit Nat Unit Empty where
  consume s _ := ok (s, .ok ())
  close s _ := ok (s, .ok ())
  flush s := ok (s, .ok ())
  exposeSlots s := ok (s, .ok [0, 0])
  writeSlots s _ := s
  consumeSlots s _ := ok (s, .ok ())

/-- **C79, `MapItem` consumers.** -/
theorem map_item_consumer_calls (f : φ → B → φ × I) (C : BulkConsumer σ I F E)
    (t t' : MapItemSt (Recorded σ (ConsumerOp I F)) φ) :
    (∀ x r, (mapItemBufferedConsumer f (recordedConsumer C).toBufferedConsumer).consume t x = ok (t', r) →
      t'.inner.calls = t.inner.calls ++ [.consume (f t.captured x).2]) ∧
    (∀ r, (mapItemBufferedConsumer f (recordedConsumer C).toBufferedConsumer).flush t = ok (t', r) →
      t'.inner.calls = t.inner.calls ++ [.flush]) ∧
    (∀ g r, (mapItemBufferedConsumer f (recordedConsumer C).toBufferedConsumer).close t g = ok (t', r) →
      t'.inner.calls = t.inner.calls ++ [.close g]) := by
  refine ⟨?_, ?_, ?_⟩
  · intro x r h
    simp only [mapItemBufferedConsumer, mapItemConsumer, bind_eq] at h
    rcases hp : (recordedConsumer C).consume t.inner (f t.captured x).2 with ⟨s, r⟩ | _ | _ <;> rw [hp] at h <;> cases h
    exact recorded_consume hp
  · intro r h
    simp only [mapItemBufferedConsumer, bind_eq] at h
    rcases hp : (recordedConsumer C).flush t.inner with ⟨s, r⟩ | _ | _ <;> rw [hp] at h <;> cases h
    exact recorded_flush hp
  · intro g r h
    simp only [mapItemBufferedConsumer, mapItemConsumer, bind_eq] at h
    rcases hp : (recordedConsumer C).close t.inner g with ⟨s, r⟩ | _ | _ <;> rw [hp] at h <;> cases h
    exact recorded_close hp

/-- A concrete case. -/
example :
    (mapItemBufferedConsumer (fun (c : Nat) (x : Nat) => (c + 1, c + x)) (recordedConsumer lenient).toBufferedConsumer).consume
      ⟨⟨(), []⟩, 5⟩ 1 = ok (⟨⟨(), [.consume 6]⟩, 6⟩, .ok ()) ∧
    (mapItemBufferedConsumer (fun (c : Nat) (x : Nat) => (c + 1, c + x)) (recordedConsumer lenient).toBufferedConsumer).flush
      ⟨⟨(), []⟩, 5⟩ = ok (⟨⟨(), [.flush]⟩, 5⟩, .ok ()) ∧
    (mapItemBufferedConsumer (fun (c : Nat) (x : Nat) => (c + 1, c + x)) (recordedConsumer lenient).toBufferedConsumer).close
      ⟨⟨(), []⟩, 5⟩ () = ok (⟨⟨(), [.close ()]⟩, 5⟩, .ok ()) :=
  ⟨rfl, rfl, rfl⟩

/-- **C79, `MapFinal` consumers.** The final value is mapped. -/
theorem map_final_consumer_calls (C : BulkConsumer σ I F E) (s : σ) (fn : B → F) {ops : List (ConsumerOp I B)}
    {t : MapFinalSt (Recorded σ (ConsumerOp I F)) B F}
    (h : (mapFinalBulkConsumer (recordedConsumer C)).Performs ⟨⟨s, []⟩, some fn⟩ ops t) :
    PassedOnAll (ConsumerOp.PassedOn fn) ops t.inner.calls := by
  refine ConsumerForwards.performs (log := fun t => t.inner.calls) (J := fun t => t.fn = some fn ∨ t.fn = none)
    ⟨?_, ?_, ?_, ?_, ?_, ?_, rfl⟩ h (.inl rfl) rfl
  · intro t x t' r hJ h
    simp only [mapFinalBulkConsumer, mapFinalBufferedConsumer, mapFinalConsumer, bind_eq] at h
    rcases hp : (recordedConsumer C).consume t.inner x with ⟨s, r⟩ | _ | _ <;> rw [hp] at h <;> cases h
    exact ⟨hJ, recorded_consume hp⟩
  · intro t f t' r hJ h
    simp only [mapFinalBulkConsumer, mapFinalBufferedConsumer, mapFinalConsumer, bind_eq] at h
    rcases hJ with hJ | hJ <;> simp only [hJ, unwrap, bind_ok] at h
    · rcases hp : (recordedConsumer C).close t.inner (fn f) with ⟨s, r⟩ | _ | _ <;> rw [hp] at h <;> cases h
      exact ⟨.inr rfl, recorded_close hp⟩
    · cases h
  · intro t t' r hJ h
    simp only [mapFinalBulkConsumer, mapFinalBufferedConsumer, bind_eq] at h
    rcases hp : (recordedConsumer C).flush t.inner with ⟨s, r⟩ | _ | _ <;> rw [hp] at h <;> cases h
    exact ⟨hJ, recorded_flush hp⟩
  · intro t t' r hJ h
    simp only [mapFinalBulkConsumer, bind_eq] at h
    rcases hp : (recordedConsumer C).exposeSlots t.inner with ⟨s, r⟩ | _ | _ <;> rw [hp] at h <;> cases h
    exact ⟨hJ, recorded_exposeSlots hp⟩
  · intro t ws hJ
    exact ⟨hJ, rfl⟩
  · intro t k t' r hJ h
    simp only [mapFinalBulkConsumer, bind_eq] at h
    rcases hp : (recordedConsumer C).consumeSlots t.inner k with ⟨s, r⟩ | _ | _ <;> rw [hp] at h <;> cases h
    exact ⟨hJ, recorded_consumeSlots hp⟩

/-- A concrete case: all methods. -/
example : ∃ t, (mapFinalBulkConsumer (recordedConsumer lenient)).Performs ⟨⟨(), []⟩, some fun (_ : Nat) => ()⟩
    [.consume 4, .flush, .exposeSlots, .write [5], .consumeSlots 1, .bulkConsume [6, 7], .close 9] t ∧
    t.inner.calls =
      [.consume 4, .flush, .exposeSlots, .write [5], .consumeSlots 1, .exposeSlots, .write [6, 7], .consumeSlots 2, .close ()] :=
  ⟨_, .of_all rfl, rfl⟩

/-- **C79, `MapError` consumers.** -/
theorem map_error_consumer_calls (C : BulkConsumer σ I F E) (s : σ) (fn : Option (E → B)) {ops : List (ConsumerOp I F)}
    {t : MapErrorSt (Recorded σ (ConsumerOp I F)) E B}
    (h : (mapErrorBulkConsumer (recordedConsumer C)).Performs ⟨⟨s, []⟩, fn⟩ ops t) :
    PassedOnAll (ConsumerOp.PassedOn id) ops t.inner.calls := by
  refine ConsumerForwards.performs (log := fun t => t.inner.calls) (J := fun _ => True)
    ⟨?_, ?_, ?_, ?_, ?_, ?_, rfl⟩ h trivial rfl
  · intro t x t' r _ h
    simp only [mapErrorBulkConsumer, mapErrorBufferedConsumer, mapErrorConsumer, bind_eq, mapErrTake] at h
    rcases hp : (recordedConsumer C).consume t.inner x with ⟨s, r⟩ | _ | _ <;> rw [hp] at h <;> rcases hf : t.fn with _ | fn <;>
      rw [hf] at h <;> cases h
    exact ⟨trivial, recorded_consume hp⟩
  · intro t f t' r _ h
    simp only [mapErrorBulkConsumer, mapErrorBufferedConsumer, mapErrorConsumer, bind_eq, mapErrTake] at h
    rcases hp : (recordedConsumer C).close t.inner f with ⟨s, r⟩ | _ | _ <;> rw [hp] at h <;> rcases hf : t.fn with _ | fn <;>
      rw [hf] at h <;> cases h
    exact ⟨trivial, recorded_close hp⟩
  · intro t t' r _ h
    simp only [mapErrorBulkConsumer, mapErrorBufferedConsumer, bind_eq, mapErrTake] at h
    rcases hp : (recordedConsumer C).flush t.inner with ⟨s, r⟩ | _ | _ <;> rw [hp] at h <;> rcases hf : t.fn with _ | fn <;>
      rw [hf] at h <;> cases h
    exact ⟨trivial, recorded_flush hp⟩
  · intro t t' r _ h
    simp only [mapErrorBulkConsumer, bind_eq, mapErrTake] at h
    rcases hp : (recordedConsumer C).exposeSlots t.inner with ⟨s, r⟩ | _ | _ <;> rw [hp] at h <;>
      rcases hf : t.fn with _ | fn <;> rw [hf] at h <;> cases h
    exact ⟨trivial, recorded_exposeSlots hp⟩
  · intro t ws _
    exact ⟨trivial, rfl⟩
  · intro t k t' r _ h
    simp only [mapErrorBulkConsumer, bind_eq, mapErrTake] at h
    rcases hp : (recordedConsumer C).consumeSlots t.inner k with ⟨s, r⟩ | _ | _ <;> rw [hp] at h <;>
      rcases hf : t.fn with _ | fn <;> rw [hf] at h <;> cases h
    exact ⟨trivial, recorded_consumeSlots hp⟩

/-- A concrete case: a single call. -/
example : ∃ t, (mapErrorBulkConsumer (recordedConsumer lenient)).Performs ⟨⟨(), []⟩, some fun _ => 9⟩
    [.flush] t ∧
    t.inner.calls = [.flush] :=
  ⟨_, .of_all rfl, rfl⟩

/-- **C79, `Invariant` consumers.** -/
theorem invariant_consumer_calls (C : BulkConsumer σ I F E) (s : σ) {ops : List (ConsumerOp I F)}
    {t : InvariantSt (Recorded σ (ConsumerOp I F))}
    (h : (invariantBulkConsumer (recordedConsumer C)).Performs (.new ⟨s, []⟩) ops t) :
    PassedOnAll (ConsumerOp.PassedOn id) ops t.inner.calls := by
  refine ConsumerForwards.performs (log := fun t => t.inner.calls) (J := fun _ => True)
    ⟨?_, ?_, ?_, ?_, ?_, ?_, rfl⟩ h trivial rfl
  · intro ⟨t, a, n⟩ x t' r _ h
    cases a
    · cases h
    · simp only [invariantBulkConsumer, invariantBufferedConsumer, invariantConsumer, bind_eq, InvariantSt.checkInactive, assert,
        if_true, bind_ok] at h
      rcases hp : (recordedConsumer C).consume t x with ⟨s, e | ⟨⟩⟩ | _ | _ <;> rw [hp] at h <;> cases h <;>
        exact ⟨trivial, recorded_consume hp⟩
  · intro ⟨t, a, n⟩ f t' r _ h
    cases a
    · cases h
    · simp only [invariantBulkConsumer, invariantBufferedConsumer, invariantConsumer, bind_eq, InvariantSt.checkInactive, assert,
        if_true, bind_ok] at h
      rcases hp : (recordedConsumer C).close t f with ⟨s, r⟩ | _ | _ <;> rw [hp] at h <;> cases h
      exact ⟨trivial, recorded_close hp⟩
  · intro ⟨t, a, n⟩ t' r _ h
    cases a
    · cases h
    · simp only [invariantBulkConsumer, invariantBufferedConsumer, bind_eq, InvariantSt.checkInactive, assert, if_true,
        bind_ok] at h
      rcases hp : (recordedConsumer C).flush t with ⟨s, e | ⟨⟩⟩ | _ | _ <;> rw [hp] at h <;> cases h <;>
        exact ⟨trivial, recorded_flush hp⟩
  · intro ⟨t, a, n⟩ t' r _ h
    cases a
    · cases h
    · simp only [invariantBulkConsumer, bind_eq, InvariantSt.checkInactive, assert, if_true, bind_ok] at h
      rcases hp : (recordedConsumer C).exposeSlots t with ⟨s, e | x⟩ | _ | _ <;> rw [hp] at h <;> cases h <;>
        exact ⟨trivial, recorded_exposeSlots hp⟩
  · intro t ws _
    exact ⟨trivial, rfl⟩
  · intro ⟨t, a, n⟩ k t' r _ h
    cases a
    · cases h
    · simp only [invariantBulkConsumer, bind_eq, InvariantSt.checkInactive, assert, if_true, bind_ok] at h
      split at h
      · cases h
      · rename_i hk
        rw [sub, if_pos (Nat.le_of_not_lt hk)] at h
        rcases hp : (recordedConsumer C).consumeSlots t k with ⟨s, r⟩ | _ | _ <;> simp only [bind_ok, hp] at h <;> cases h
        exact ⟨trivial, recorded_consumeSlots hp⟩

/-- A concrete case: all methods. -/
example : ∃ t, (invariantBulkConsumer (recordedConsumer lenient)).Performs (.new ⟨(), []⟩)
    [.consume 4, .flush, .exposeSlots, .write [5], .consumeSlots 1, .bulkConsume [6, 7], .close ()] t ∧
    t.inner.calls =
      [.consume 4, .flush, .exposeSlots, .write [5], .consumeSlots 1, .exposeSlots, .write [6, 7], .consumeSlots 2, .close ()] :=
  ⟨_, .of_all rfl, rfl⟩

/-- **C79, `Invariant` consumers in release builds.** -/
theorem invariant_noop_consumer_calls (C : BulkConsumer σ I F E) (s : σ) {ops : List (ConsumerOp I F)}
    {t : Recorded σ (ConsumerOp I F)} (h : (invariantNoopBulkConsumer (recordedConsumer C)).Performs ⟨s, []⟩ ops t) :
    PassedOnAll (ConsumerOp.PassedOn id) ops t.calls :=
  ConsumerForwards.performs (A := invariantNoopBulkConsumer (recordedConsumer C)) (log := fun t => t.calls) (J := fun _ => True)
    ⟨fun _ h => ⟨trivial, recorded_consume h⟩, fun _ h => ⟨trivial, recorded_close h⟩, fun _ h => ⟨trivial, recorded_flush h⟩,
      fun _ h => ⟨trivial, recorded_exposeSlots h⟩, fun _ => ⟨trivial, rfl⟩, fun _ h => ⟨trivial, recorded_consumeSlots h⟩, rfl⟩
    h trivial rfl

/-- A concrete case: all methods. -/
example : ∃ t, (invariantNoopBulkConsumer (recordedConsumer lenient)).Performs ⟨(), []⟩
    [.consume 4, .flush, .exposeSlots, .write [5], .consumeSlots 1, .bulkConsume [6, 7], .close ()] t ∧
    t.calls = [.consume 4, .flush, .exposeSlots, .write [5], .consumeSlots 1, .exposeSlots, .write [6, 7], .consumeSlots 2, .close ()] :=
  ⟨_, .of_all rfl, rfl⟩

/-- **C79, `Limit` consumers.** Nothing is offered to the wrapped consumer once the limit is reached, but `flush`, `close` and
`consume_slots` are still passed on. -/
theorem limit_consumer_calls (C : BulkConsumer σ I F E) {t t' : LimitSt (Recorded σ (ConsumerOp I F))} {slots : List I}
    {op : ConsumerOp I F} {r} (h : (limitBulkConsumer (recordedConsumer C)).call t slots op = ok (t', r)) :
    if t.remaining = 0 ∧ op.offers then t'.inner = t.inner
    else ∃ calls, op.PassedOn id calls ∧ t'.inner.calls = t.inner.calls ++ calls := by
  have hc : ∀ {t k t' r}, (limitBulkConsumer (recordedConsumer C)).consumeSlots t k = ok (t', r) →
      t'.inner.calls = t.inner.calls ++ [.consumeSlots k] := by
    intro t k t' r h
    simp only [limitBulkConsumer, bind_eq, sub] at h
    split at h
    · rcases hp : (recordedConsumer C).consumeSlots t.inner k with ⟨s, r⟩ | _ | _ <;> simp only [bind_ok, hp] at h <;> cases h
      exact recorded_consumeSlots hp
    · cases h
  have he : ∀ {t n t' r}, (limitBulkConsumer (recordedConsumer C)).exposeSlots ⟨t, n + 1⟩ = ok (t', r) →
      t'.inner.calls = t.calls ++ [.exposeSlots] := by
    intro t n t' r h
    simp only [limitBulkConsumer, bind_eq, Nat.add_one_ne_zero, if_false] at h
    rcases hp : (recordedConsumer C).exposeSlots t with ⟨s, e | x⟩ | _ | _ <;> rw [hp] at h <;>
      try (cases h <;> exact recorded_exposeSlots hp)
    simp only [bind_ok, slice, Nat.zero_le, Nat.min_le_right, and_self, if_true] at h
    cases h
    exact recorded_exposeSlots hp
  replace h := BulkConsumer.call_method h
  obtain ⟨t, n⟩ := t
  cases op with
  | consume x =>
    obtain ⟨r, h⟩ := h
    cases n with
    | zero => cases h; simp [ConsumerOp.offers]
    | succ n =>
      rw [if_neg (by simp)]
      refine ⟨_, .consume, ?_⟩
      simp only [limitBulkConsumer, limitBufferedConsumer, limitConsumer, bind_eq] at h
      rcases hp : (recordedConsumer C).consume t x with ⟨s, r⟩ | _ | _ <;> rw [hp] at h <;> cases h
      exact recorded_consume hp
  | flush =>
    obtain ⟨r, h⟩ := h
    rw [if_neg (by simp [ConsumerOp.offers])]
    refine ⟨_, .flush, ?_⟩
    simp only [limitBulkConsumer, limitBufferedConsumer, bind_eq] at h
    rcases hp : (recordedConsumer C).flush t with ⟨s, r⟩ | _ | _ <;> rw [hp] at h <;> cases h
    exact recorded_flush hp
  | close f =>
    obtain ⟨r, h⟩ := h
    rw [if_neg (by simp [ConsumerOp.offers])]
    refine ⟨_, .close, ?_⟩
    simp only [limitBulkConsumer, limitBufferedConsumer, limitConsumer, bind_eq] at h
    rcases hp : (recordedConsumer C).close t f with ⟨s, r⟩ | _ | _ <;> rw [hp] at h <;> cases h
    exact recorded_close hp
  | exposeSlots =>
    obtain ⟨r, h⟩ := h
    cases n with
    | zero => cases h; simp [ConsumerOp.offers]
    | succ n =>
      rw [if_neg (by simp)]
      exact ⟨_, .exposeSlots, he h⟩
  | write ws =>
    rw [if_neg (by simp [ConsumerOp.offers])]
    refine ⟨_, .write, ?_⟩
    have h : _ = t' := h
    rw [← h]
    rfl
  | consumeSlots k =>
    obtain ⟨r, h⟩ := h
    rw [if_neg (by simp [ConsumerOp.offers])]
    exact ⟨_, .consumeSlots, hc h⟩
  | bulkConsume buf =>
    obtain ⟨r, h⟩ := h
    cases n with
    | zero => cases h; simp [ConsumerOp.offers]
    | succ n =>
      rw [if_neg (by simp)]
      replace h : bulkConsumeDefault (limitBulkConsumer (recordedConsumer C)).exposeSlots
        (limitBulkConsumer (recordedConsumer C)).writeSlots (limitBulkConsumer (recordedConsumer C)).consumeSlots
        ⟨t, n + 1⟩ buf = ok (t', r) := h
      exact (bulkConsumeDefault_calls (t := ⟨t, n + 1⟩) (exposeSlots := (limitBulkConsumer (recordedConsumer C)).exposeSlots)
        (writeSlots := (limitBulkConsumer (recordedConsumer C)).writeSlots)
        (consumeSlots := (limitBulkConsumer (recordedConsumer C)).consumeSlots)
        (log := fun t => t.inner.calls) (J := fun _ => True) trivial
        (fun _ h => ⟨trivial, he h⟩) (fun _ => ⟨trivial, rfl⟩) (fun _ h => ⟨trivial, hc h⟩) h).2

/-- Concrete cases: below and at the limit. -/
example :
    (limitBulkConsumer (recordedConsumer lenient)).call ⟨⟨(), []⟩, 1⟩ [] (.consume 3) =
      ok (⟨⟨(), [.consume 3]⟩, 0⟩, ⟨[3], [], none⟩) ∧
    (limitBulkConsumer (recordedConsumer lenient)).call ⟨⟨(), []⟩, 0⟩ [] (.consume 3) =
      ok (⟨⟨(), []⟩, 0⟩, ⟨[], [], some (.failed none [3])⟩) ∧
    (limitBulkConsumer (recordedConsumer lenient)).call ⟨⟨(), []⟩, 0⟩ [] .flush =
      ok (⟨⟨(), [.flush]⟩, 0⟩, ⟨[], [], none⟩) :=
  ⟨rfl, rfl, rfl⟩

/-! ## Piping -/

private theorem replicate_succ' {α : Type} (n : Nat) (a : α) : List.replicate n a ++ [a] = List.replicate (n + 1) a := by
  rw [List.replicate_succ']

/-- **C79, `pipe`.** -/
theorem pipe_calls (P : BulkProducer σ I F E₁) (C : BulkConsumer τ I F E₂) (s : σ) (t : τ)
    {s' : Recorded σ (ProducerOp I)} {t' : Recorded τ (ConsumerOp I F)} {r}
    (h : pipe (recordedProducer P).toProducer (recordedConsumer C).toConsumer ⟨s, []⟩ ⟨t, []⟩ = ok ((s', t'), r)) :
    PipeCalls r s'.calls t'.calls := by
  refine loop_keeps (fun (q : Recorded σ (ProducerOp I) × Recorded τ (ConsumerOp I F)) => ∃ xs : List I,
      q.1.calls = .replicate xs.length .produce ∧ q.2.calls = xs.map .consume)
    (fun q => PipeCalls q.2 q.1.1.calls q.1.2.calls) ?_ ?_ (s := (⟨s, []⟩, ⟨t, []⟩)) ⟨[], rfl, rfl⟩ h
  · rintro ⟨s, t⟩ ⟨s', t'⟩ ⟨xs, h1, h2⟩ h
    simp only [pipeBody, bind_eq] at h
    rcases hp : (recordedProducer P).produce s with ⟨s₁, e | x | f⟩ | _ | _ <;> rw [hp] at h <;> try simp only [bind_ok] at h
    · cases h
    · rcases hc : (recordedConsumer C).consume t x with ⟨t₁, e | ⟨⟩⟩ | _ | _ <;> rw [hc] at h <;> cases h
      exact ⟨xs ++ [x], by rw [recorded_produce hp, h1]; simp [replicate_succ'],
        by rw [recorded_consume hc, h2]; simp⟩
    · rcases hc : (recordedConsumer C).close t f with ⟨t₁, e | ⟨⟩⟩ | _ | _ <;> rw [hc] at h <;> cases h
    · cases h
    · cases h
  · rintro ⟨s, t⟩ ⟨⟨s', t'⟩, r⟩ ⟨xs, h1, h2⟩ h
    simp only [pipeBody, bind_eq] at h
    rcases hp : (recordedProducer P).produce s with ⟨s₁, e | x | f⟩ | _ | _ <;> rw [hp] at h <;> try simp only [bind_ok] at h
    · cases h
      rw [recorded_produce hp, h1, h2, replicate_succ']
      exact .produceFailed
    · rcases hc : (recordedConsumer C).consume t x with ⟨t₁, e | ⟨⟩⟩ | _ | _ <;> rw [hc] at h <;> cases h
      rw [recorded_produce hp, recorded_consume hc, h1, h2, replicate_succ']
      exact .consumeFailed
    · rcases hc : (recordedConsumer C).close t f with ⟨t₁, e | ⟨⟩⟩ | _ | _ <;> rw [hc] at h <;> cases h <;>
        rw [recorded_produce hp, recorded_close hc, h1, h2, replicate_succ']
      · exact .closeFailed
      · exact .closed
    · cases h
    · cases h

/-- A concrete case: two items. -/
example : pipe (recordedProducer (FromSlice.producer Nat)).toProducer (recordedConsumer lenient).toConsumer
    ⟨.new [1, 2], []⟩ ⟨(), []⟩ =
    ok ((⟨⟨[1, 2], 2⟩, [.produce, .produce, .produce]⟩, ⟨(), [.consume 1, .consume 2, .close ()]⟩), .ok ()) := by
  unfold pipe
  rw [loop_eq_of_fuel (n := 3) (by intro h; cases h)]
  rfl

/-- **C79, `pipe_at_most`.** -/
theorem pipe_at_most_calls (P : BulkProducer σ I F E₁) (C : BulkConsumer τ I F E₂) (s : σ) (t : τ) (count : Nat)
    {s' : Recorded σ (ProducerOp I)} {t' : Recorded τ (ConsumerOp I F)} {r}
    (h : pipeAtMost (recordedProducer P).toProducer (recordedConsumer C).toConsumer ⟨s, []⟩ ⟨t, []⟩ count = ok ((s', t'), r)) :
    PipeAtMostCalls count r s'.calls t'.calls := by
  refine loop_keeps (fun (q : Recorded σ (ProducerOp I) × Recorded τ (ConsumerOp I F) × Nat) => ∃ xs : List I,
      q.1.calls = .replicate xs.length .produce ∧ q.2.1.calls = xs.map .consume ∧ q.2.2 = xs.length ∧ xs.length ≤ count)
    (fun q => PipeAtMostCalls count q.2 q.1.1.calls q.1.2.calls) ?_ ?_ (s := (⟨s, []⟩, ⟨t, []⟩, 0)) ⟨[], rfl, rfl, rfl, Nat.zero_le _⟩ h
  · rintro ⟨s, t, n⟩ ⟨s', t', n'⟩ ⟨xs, h1, h2, h3, h4⟩ h
    simp only at h1 h2 h3
    subst h3
    simp only [pipeAtMostBody, bind_eq] at h
    split at h
    · rename_i hlt
      rcases hp : (recordedProducer P).produce s with ⟨s₁, e | x | f⟩ | _ | _ <;> rw [hp] at h <;> try simp only [bind_ok] at h
      · cases h
      · rcases hc : (recordedConsumer C).consume t x with ⟨t₁, e | ⟨⟩⟩ | _ | _ <;> rw [hc] at h <;> cases h
        exact ⟨xs ++ [x], by rw [recorded_produce hp, h1]; simp [replicate_succ'],
          by rw [recorded_consume hc, h2]; simp, by simp, by simp; omega⟩
      · rcases hc : (recordedConsumer C).close t f with ⟨t₁, e | ⟨⟩⟩ | _ | _ <;> rw [hc] at h <;> cases h
      · cases h
      · cases h
    · cases h
  · rintro ⟨s, t, n⟩ ⟨⟨s', t'⟩, r⟩ ⟨xs, h1, h2, h3, h4⟩ h
    simp only at h1 h2 h3
    subst h3
    simp only [pipeAtMostBody, bind_eq] at h
    split at h
    · rename_i hlt
      rcases hp : (recordedProducer P).produce s with ⟨s₁, e | x | f⟩ | _ | _ <;> rw [hp] at h <;> try simp only [bind_ok] at h
      · cases h
        rw [recorded_produce hp, h1, h2, replicate_succ']
        exact .produceFailed hlt
      · rcases hc : (recordedConsumer C).consume t x with ⟨t₁, e | ⟨⟩⟩ | _ | _ <;> rw [hc] at h <;> cases h
        rw [recorded_produce hp, recorded_consume hc, h1, h2, replicate_succ']
        exact .consumeFailed hlt
      · rcases hc : (recordedConsumer C).close t f with ⟨t₁, e | ⟨⟩⟩ | _ | _ <;> rw [hc] at h <;> cases h <;>
          rw [recorded_produce hp, recorded_close hc, h1, h2, replicate_succ']
        · exact .closeFailed hlt
        · exact .closed hlt
      · cases h
      · cases h
    · rename_i hlt
      cases h
      have h5 : xs.length = count := by omega
      rw [h1, h2, h5]
      exact .full h5

/-- A concrete case: one item out of two. -/
example : pipeAtMost (recordedProducer (FromSlice.producer Nat)).toProducer (recordedConsumer lenient).toConsumer
    ⟨.new [1, 2], []⟩ ⟨(), []⟩ 1 =
    ok ((⟨⟨[1, 2], 1⟩, [.produce]⟩, ⟨(), [.consume 1]⟩), .ok 1) := by
  unfold pipeAtMost
  rw [loop_eq_of_fuel (n := 2) (by intro h; cases h)]
  rfl

private theorem producerRounds_snoc (rounds : List (List I × Nat)) (r) :
    producerRounds (rounds ++ [r]) = producerRounds rounds ++ [.exposeItems] ++ [.considerProduced r.2] := by
  simp [producerRounds]

private theorem consumerRounds_snoc (rounds : List (List I × Nat)) (r) :
    (consumerRounds (rounds ++ [r]) : List (ConsumerOp I F)) = consumerRounds rounds ++ [.bulkConsume r.1] := by
  simp [consumerRounds]

/-- **C79, `bulk_pipe`.** -/
theorem bulk_pipe_calls (P : BulkProducer σ I F E₁) (C : BulkConsumer τ I F E₂) (s : σ) (t : τ)
    {s' : Recorded σ (ProducerOp I)} {t' : Recorded τ (ConsumerOp I F)} {r}
    (h : bulkPipe (recordedProducer P) (recordedConsumer C) ⟨s, []⟩ ⟨t, []⟩ = ok ((s', t'), r)) :
    BulkPipeCalls r s'.calls t'.calls := by
  refine loop_keeps (fun (q : Recorded σ (ProducerOp I) × Recorded τ (ConsumerOp I F)) => ∃ rounds,
      q.1.calls = producerRounds rounds ∧ q.2.calls = consumerRounds rounds)
    (fun q => BulkPipeCalls q.2 q.1.1.calls q.1.2.calls) ?_ ?_ (s := (⟨s, []⟩, ⟨t, []⟩)) ⟨[], rfl, rfl⟩ h
  · rintro ⟨s, t⟩ ⟨s', t'⟩ ⟨rounds, h1, h2⟩ h
    simp only [bulkPipeBody, bind_eq] at h
    rcases hp : (recordedProducer P).exposeItems s with ⟨s₁, e | xs | f⟩ | _ | _ <;> rw [hp] at h <;> try simp only [bind_ok] at h
    · cases h
    · rcases hc : (recordedConsumer C).bulkConsume t xs with ⟨t₁, e | k⟩ | _ | _ <;> rw [hc] at h <;>
        try simp only [bind_ok] at h
      · cases h
      · rcases hk : (recordedProducer P).considerProduced s₁ k with ⟨s₂, e | ⟨⟩⟩ | _ | _ <;> rw [hk] at h <;> cases h
        exact ⟨rounds ++ [(xs, k)],
          by rw [producerRounds_snoc, ← h1, ← recorded_exposeItems hp]; exact recorded_considerProduced hk,
          by rw [consumerRounds_snoc, ← h2]; exact recorded_bulkConsume hc⟩
      · cases h
      · cases h
    · rcases hc : (recordedConsumer C).close t f with ⟨t₁, e | ⟨⟩⟩ | _ | _ <;> rw [hc] at h <;> cases h
    · cases h
    · cases h
  · rintro ⟨s, t⟩ ⟨⟨s', t'⟩, r⟩ ⟨rounds, h1, h2⟩ h
    simp only [bulkPipeBody, bind_eq] at h
    rcases hp : (recordedProducer P).exposeItems s with ⟨s₁, e | xs | f⟩ | _ | _ <;> rw [hp] at h <;> try simp only [bind_ok] at h
    · cases h
      rw [recorded_exposeItems hp, h1, h2]
      exact .exposeFailed
    · rcases hc : (recordedConsumer C).bulkConsume t xs with ⟨t₁, e | k⟩ | _ | _ <;> rw [hc] at h <;>
        try simp only [bind_ok] at h
      · cases h
        rw [recorded_exposeItems hp, recorded_bulkConsume hc, h1, h2]
        exact .consumeFailed
      · rcases hk : (recordedProducer P).considerProduced s₁ k with ⟨s₂, e | ⟨⟩⟩ | _ | _ <;> rw [hk] at h <;> cases h
        have h3 := producerRounds_snoc rounds (xs, k)
        have h4 := consumerRounds_snoc (F := F) rounds (xs, k)
        rw [← h1, ← recorded_exposeItems hp, ← recorded_considerProduced hk] at h3
        rw [← h2, ← recorded_bulkConsume hc] at h4
        rw [← h3, ← h4]
        exact .considerFailed
      · cases h
      · cases h
    · rcases hc : (recordedConsumer C).close t f with ⟨t₁, e | ⟨⟩⟩ | _ | _ <;> rw [hc] at h <;> cases h <;>
        rw [recorded_exposeItems hp, recorded_close hc, h1, h2]
      · exact .closeFailed
      · exact .closed
    · cases h
    · cases h

/-- A concrete case: two items. -/
example : bulkPipe (recordedProducer (FromSlice.producer Nat)) (recordedConsumer lenient)
    ⟨.new [1, 2], []⟩ ⟨(), []⟩ =
    ok ((⟨⟨[1, 2], 2⟩, [.exposeItems, .considerProduced 2, .exposeItems]⟩, ⟨(), [.bulkConsume [1, 2], .close ()]⟩),
      .ok ()) := by
  unfold bulkPipe
  rw [loop_eq_of_fuel (n := 2) (by intro h; cases h)]
  rfl

/-- **C79, `bulk_pipe_at_most`.** -/
theorem bulk_pipe_at_most_calls (P : BulkProducer σ I F E₁) (C : BulkConsumer τ I F E₂) (s : σ) (t : τ) (count : Nat)
    {s' : Recorded σ (ProducerOp I)} {t' : Recorded τ (ConsumerOp I F)} {r}
    (h : bulkPipeAtMost (recordedProducer P) (recordedConsumer C) ⟨s, []⟩ ⟨t, []⟩ count = ok ((s', t'), r)) :
    BulkPipeAtMostCalls count r s'.calls t'.calls := by
  refine loop_keeps (fun (q : Recorded σ (ProducerOp I) × Recorded τ (ConsumerOp I F) × Nat) => ∃ rounds,
      q.1.calls = producerRounds rounds ∧ q.2.1.calls = consumerRounds rounds ∧ q.2.2 = consumedIn rounds ∧
      RoundsWithin count rounds)
    (fun q => BulkPipeAtMostCalls count q.2 q.1.1.calls q.1.2.calls) ?_ ?_ (s := (⟨s, []⟩, ⟨t, []⟩, 0))
    ⟨[], rfl, rfl, rfl, .nil⟩ h
  · rintro ⟨s, t, n⟩ ⟨s', t', n'⟩ ⟨rounds, h1, h2, h3, h4⟩ h
    simp only at h1 h2 h3
    subst h3
    simp only [bulkPipeAtMostBody, bind_eq] at h
    split at h
    · rename_i hlt
      rcases hp : (recordedProducer P).exposeItems s with ⟨s₁, e | xs | f⟩ | _ | _ <;> rw [hp] at h <;>
        try simp only [bind_ok] at h
      · cases h
      · rcases hc : (recordedConsumer C).bulkConsume t (xs.take (min (count - consumedIn rounds) xs.length)) with
          ⟨t₁, e | k⟩ | _ | _ <;> rw [hc] at h <;> try simp only [bind_ok] at h
        · cases h
        · rcases hk : (recordedProducer P).considerProduced s₁ k with ⟨s₂, e | ⟨⟩⟩ | _ | _ <;> rw [hk] at h <;> cases h
          exact ⟨rounds ++ [(_, k)],
            by rw [producerRounds_snoc, ← h1, ← recorded_exposeItems hp]; exact recorded_considerProduced hk,
            by rw [consumerRounds_snoc, ← h2]; exact recorded_bulkConsume hc, by simp [consumedIn],
            .snoc h4 hlt (by rw [List.length_take]; omega)⟩
        · cases h
        · cases h
      · rcases hc : (recordedConsumer C).close t f with ⟨t₁, e | ⟨⟩⟩ | _ | _ <;> rw [hc] at h <;> cases h
      · cases h
      · cases h
    · cases h
  · rintro ⟨s, t, n⟩ ⟨⟨s', t'⟩, r⟩ ⟨rounds, h1, h2, h3, h4⟩ h
    simp only at h1 h2 h3
    subst h3
    simp only [bulkPipeAtMostBody, bind_eq] at h
    split at h
    · rename_i hlt
      rcases hp : (recordedProducer P).exposeItems s with ⟨s₁, e | xs | f⟩ | _ | _ <;> rw [hp] at h <;>
        try simp only [bind_ok] at h
      · cases h
        rw [recorded_exposeItems hp, h1, h2]
        exact .exposeFailed h4 hlt
      · rcases hc : (recordedConsumer C).bulkConsume t (xs.take (min (count - consumedIn rounds) xs.length)) with
          ⟨t₁, e | k⟩ | _ | _ <;> rw [hc] at h <;> try simp only [bind_ok] at h
        · cases h
          rw [recorded_exposeItems hp, recorded_bulkConsume hc, h1, h2]
          exact .consumeFailed h4 hlt (by rw [List.length_take]; omega)
        · rcases hk : (recordedProducer P).considerProduced s₁ k with ⟨s₂, e | ⟨⟩⟩ | _ | _ <;> rw [hk] at h <;> cases h
          have h3 := producerRounds_snoc rounds (xs.take (min (count - consumedIn rounds) xs.length), k)
          have h5 := consumerRounds_snoc (F := F) rounds (xs.take (min (count - consumedIn rounds) xs.length), k)
          rw [← h1, ← recorded_exposeItems hp, ← recorded_considerProduced hk] at h3
          rw [← h2, ← recorded_bulkConsume hc] at h5
          rw [← h3, ← h5]
          exact .considerFailed (.snoc h4 hlt (by rw [List.length_take]; omega))
        · cases h
        · cases h
      · rcases hc : (recordedConsumer C).close t f with ⟨t₁, e | ⟨⟩⟩ | _ | _ <;> rw [hc] at h <;> cases h <;>
          rw [recorded_exposeItems hp, recorded_close hc, h1, h2]
        · exact .closeFailed h4 hlt
        · exact .closed h4 hlt
      · cases h
      · cases h
    · rename_i hlt
      cases h
      rw [h1, h2]
      exact .full h4 (Nat.le_of_not_lt hlt)

/-- A concrete case: one item out of two. -/
example : bulkPipeAtMost (recordedProducer (FromSlice.producer Nat)) (recordedConsumer lenient)
    ⟨.new [1, 2], []⟩ ⟨(), []⟩ 1 =
    ok ((⟨⟨[1, 2], 1⟩, [.exposeItems, .considerProduced 1]⟩, ⟨(), [.bulkConsume [1]]⟩), .ok 1) := by
  unfold bulkPipeAtMost
  rw [loop_eq_of_fuel (n := 2) (by intro h; cases h)]
  rfl

/-! ## Slices -/

/-- **C79, `consume_full_slice`.** -/
theorem consume_full_slice_calls (C : BulkConsumer τ I F E) (t : τ) (buf : List I) {t' : Recorded τ (ConsumerOp I F)} {r}
    (h : consumeFullSlice (recordedConsumer C).toConsumer ⟨t, []⟩ buf = ok (t', r)) : ConsumeSliceCalls buf r t'.calls := by
  have key : ∀ (rest done : List I) (t : Recorded τ (ConsumerOp I F)), t.calls = done.map .consume →
      consumeFullSliceFrom (recordedConsumer C).toConsumer t done.length rest = ok (t', r) →
      ConsumeSliceCalls (done ++ rest) r t'.calls := by
    intro rest
    induction rest with
    | nil => intro done t h1 h; cases h; rw [h1, List.append_nil]; exact .all
    | cons x rest ih =>
      intro done t h1 h
      simp only [consumeFullSliceFrom, bind_eq] at h
      rcases hc : (recordedConsumer C).consume t x with ⟨t₁, e | ⟨⟩⟩ | _ | _ <;> rw [hc] at h <;> try cases h
      · have h2 : t'.calls = ((done ++ x :: rest).take (done.length + 1)).map .consume := by
          rw [recorded_consume hc, h1, List.take_append, List.take_of_length_le (by omega)]; simp
        rw [h2]
        exact .failed (by simp)
      · simp only [bind_ok] at h
        have h2 := ih (done ++ [x]) t₁ (by rw [recorded_consume hc, h1]; simp) (by simpa using h)
        simpa using h2
  simpa using key buf [] ⟨t, []⟩ rfl h

/-- Concrete cases: a success, and a failure after one item. -/
example :
    consumeFullSlice (recordedConsumer lenient).toConsumer ⟨(), []⟩ [1, 2] =
      ok (⟨(), [.consume 1, .consume 2]⟩, .ok ()) ∧
    consumeFullSlice (recordedConsumer (limitBulkConsumer lenient)).toConsumer ⟨⟨(), 1⟩, []⟩ [1, 2, 3] =
      ok (⟨⟨(), 0⟩, [.consume 1, .consume 2]⟩, .error ⟨1, none⟩) :=
  ⟨rfl, rfl⟩

private theorem offersOf_snoc (buf : List I) (i : Nat) (counts : List Nat) (k : Nat) :
    (offersOf buf i (counts ++ [k]) : List (ConsumerOp I F)) = offersOf buf i counts ++ [.bulkConsume (buf.drop (i + counts.sum))] := by
  induction counts generalizing i with
  | nil => simp [offersOf]
  | cons c counts ih => simp [offersOf, ih, Nat.add_assoc]

/-- **C79, `bulk_consume_full_slice`.** Never is an empty slice passed on. -/
theorem bulk_consume_full_slice_calls (C : BulkConsumer τ I F E) (t : τ) (buf : List I) {t' : Recorded τ (ConsumerOp I F)} {r}
    (h : bulkConsumeFullSlice (recordedConsumer C) ⟨t, []⟩ buf = ok (t', r)) :
    BulkConsumeSliceCalls buf r t'.calls ∧ ∀ c ∈ t'.calls, ∃ xs, xs ≠ [] ∧ c = .bulkConsume xs := by
  refine loop_keeps (fun (q : Recorded τ (ConsumerOp I F) × Nat) => ∃ counts : List Nat, q.2 = counts.sum ∧
      q.1.calls = offersOf buf 0 counts ∧ ∀ c ∈ q.1.calls, ∃ xs, xs ≠ [] ∧ c = .bulkConsume xs)
    (fun q => BulkConsumeSliceCalls buf q.2 q.1.calls ∧
      ∀ c ∈ q.1.calls, ∃ xs, xs ≠ [] ∧ c = .bulkConsume xs) ?_ ?_ (s := (⟨t, []⟩, 0)) ⟨[], rfl, rfl, by simp⟩ h
  · rintro ⟨t, n⟩ ⟨t', n'⟩ ⟨counts, h1, h2, h3⟩ h
    simp only at h1 h2 h3
    subst h1
    simp only [bulkConsumeFullSliceBody, bind_eq] at h
    split at h
    · rename_i hlt
      rcases hc : (recordedConsumer C).bulkConsume t (buf.drop counts.sum) with ⟨t₁, e | k⟩ | _ | _ <;> rw [hc] at h <;> cases h
      refine ⟨counts ++ [k], by simp, by rw [recorded_bulkConsume hc, offersOf_snoc, h2]; simp, ?_⟩
      intro c hm
      rw [recorded_bulkConsume hc, List.mem_append, List.mem_singleton] at hm
      rcases hm with hm | hm
      · exact h3 c hm
      · exact ⟨_, by intro h0; have := congrArg List.length h0; simp at this; omega, hm⟩
    · cases h
  · rintro ⟨t, n⟩ ⟨t', r⟩ ⟨counts, h1, h2, h3⟩ h
    simp only at h1 h2 h3
    subst h1
    simp only [bulkConsumeFullSliceBody, bind_eq] at h
    split at h
    · rename_i hlt
      rcases hc : (recordedConsumer C).bulkConsume t (buf.drop counts.sum) with ⟨t₁, e | k⟩ | _ | _ <;> rw [hc] at h <;> cases h
      refine ⟨by rw [recorded_bulkConsume hc, h2]; exact .failed hlt, ?_⟩
      intro c hm
      rw [recorded_bulkConsume hc, List.mem_append, List.mem_singleton] at hm
      rcases hm with hm | hm
      · exact h3 c hm
      · exact ⟨_, by intro h0; have := congrArg List.length h0; simp at this; omega, hm⟩
    · rename_i hlt
      cases h
      exact ⟨by rw [h2]; exact .all (Nat.le_of_not_lt hlt), h3⟩

/-- A concrete case: a failure after one item. -/
example : bulkConsumeFullSlice (recordedConsumer (limitBulkConsumer lenient)) ⟨⟨(), 1⟩, []⟩ [1, 2, 3] =
    ok (⟨⟨(), 0⟩, [.bulkConsume [1, 2, 3], .bulkConsume [2, 3]]⟩, .error ⟨1, none⟩) := by
  unfold bulkConsumeFullSlice
  rw [loop_eq_of_fuel (n := 2) (by intro h; cases h)]
  rfl

/-- **C79, `produce_item`.** -/
theorem produce_item_calls (P : BulkProducer σ I F E) {s s' : Recorded σ (ProducerOp I)} {r}
    (h : produceItem (recordedProducer P).toProducer s = ok (s', r)) : s'.calls = s.calls ++ [.produce] := by
  simp only [produceItem, bind_eq] at h
  rcases hp : (recordedProducer P).produce s with ⟨s₁, e | x | f⟩ | _ | _ <;> rw [hp] at h <;> cases h <;> exact recorded_produce hp

/-- A concrete case. -/
example : produceItem (recordedProducer (FromSlice.producer Nat)).toProducer ⟨.new [1, 2], []⟩ =
    ok (⟨⟨[1, 2], 1⟩, [.produce]⟩, .ok 1) := rfl

/-- **C79, `overwrite_full_slice`.** -/
theorem overwrite_full_slice_calls (P : BulkProducer σ I F E) (s : σ) (buf : List I) {s' : Recorded σ (ProducerOp I)} {r buf'}
    (h : overwriteFullSlice (recordedProducer P).toProducer ⟨s, []⟩ buf = ok (s', r, buf')) :
    OverwriteSliceCalls buf.length r s'.calls := by
  have key : ∀ (todo done : List I) (s : Recorded σ (ProducerOp I)), s.calls = .replicate done.length .produce →
      overwriteFullSliceFrom (recordedProducer P).toProducer s done todo = ok (s', r, buf') →
      OverwriteSliceCalls (done.length + todo.length) r s'.calls := by
    intro todo
    induction todo with
    | nil => intro done s h1 h; cases h; rw [h1]; exact .all
    | cons x todo ih =>
      intro done s h1 h
      simp only [overwriteFullSliceFrom, bind_eq] at h
      rcases hp : (recordedProducer P).produce s with ⟨s₁, e | y | f⟩ | _ | _ <;> rw [hp] at h <;> try cases h
      · rw [recorded_produce hp, h1, replicate_succ']; exact .failed (by simp)
      · simp only [bind_ok] at h
        have h2 := ih (done ++ [y]) s₁ (by rw [recorded_produce hp, h1]; simp [replicate_succ']) h
        simpa [Nat.add_assoc, Nat.add_comm 1] using h2
      · rw [recorded_produce hp, h1, replicate_succ']; exact .failed (by simp)
  simpa using key buf [] ⟨s, []⟩ rfl h

/-- A concrete case: the producer ends after two items. -/
example : overwriteFullSlice (recordedProducer (FromSlice.producer Nat)).toProducer ⟨.new [1, 2], []⟩ [7, 7, 7, 7] =
    ok (⟨⟨[1, 2], 2⟩, [.produce, .produce, .produce]⟩, .error ⟨2, .inl ()⟩, [1, 2, 7, 7]) := rfl

private theorem sizesOf_snoc (n : Nat) (counts : List Nat) (k : Nat) :
    sizesOf n (counts ++ [k]) = sizesOf n counts ++ [n - counts.sum] := by
  induction counts generalizing n with
  | nil => simp [sizesOf]
  | cons c counts ih => simp [sizesOf, ih, Nat.sub_sub]

/-- **C79, `bulk_overwrite_full_slice`**, with a producer that (like any Rust method) leaves the length of the buffer as it is.
Never is an empty buffer passed on. -/
theorem bulk_overwrite_full_slice_calls (P : BulkProducer σ I F E)
    (hlen : ∀ s b s' r b', P.bulkProduce s b = ok (s', r, b') → b'.length = b.length) (s : σ) (buf : List I)
    {s' : Recorded σ (ProducerOp I)} {r buf'}
    (h : bulkOverwriteFullSlice (recordedProducer P) ⟨s, []⟩ buf = ok (s', r, buf')) :
    ∃ bufs : List (List I), s'.calls = bufs.map .bulkProduce ∧ (∀ b ∈ bufs, b ≠ []) ∧
      BulkOverwriteSliceCalls buf.length r (bufs.map List.length) := by
  have hlen' : ∀ {s b s' r b'}, (recordedProducer P).bulkProduce s b = ok (s', r, b') → b'.length = b.length := by
    intro s b s' r b' h
    obtain ⟨_, h, _⟩ := Outcome.onState_eq_ok h
    exact hlen _ _ _ _ _ h
  refine loop_keeps (fun (q : Recorded σ (ProducerOp I) × List I × Nat) => q.2.1.length = buf.length ∧
      ∃ bufs : List (List I), q.1.calls = bufs.map .bulkProduce ∧ (∀ b ∈ bufs, b ≠ []) ∧ ∃ counts : List Nat,
        q.2.2 = counts.sum ∧ bufs.map List.length = sizesOf buf.length counts)
    (fun q => ∃ bufs : List (List I), q.1.calls = bufs.map .bulkProduce ∧ (∀ b ∈ bufs, b ≠ []) ∧
      BulkOverwriteSliceCalls buf.length q.2.1 (bufs.map List.length))
    ?_ ?_ (s := (⟨s, []⟩, buf, 0)) ⟨rfl, [], rfl, by simp, [], rfl, rfl⟩ h
  · rintro ⟨s, b, n⟩ ⟨s', b', n'⟩ ⟨h0, bufs, h1, h2, counts, h3, h4⟩ h
    simp only at h0 h1 h3 h4
    subst h3
    simp only [bulkOverwriteFullSliceBody, bind_eq] at h
    split at h
    · rename_i hlt
      rcases hp : (recordedProducer P).bulkProduce s (b.drop counts.sum) with ⟨s₁, e | k | f, tail⟩ | _ | _ <;> rw [hp] at h <;>
        cases h
      have hl := hlen' hp
      refine ⟨by simp [hl]; omega, bufs ++ [b.drop counts.sum], by rw [recorded_bulkProduce hp, h1]; simp, ?_,
        counts ++ [k], by simp, by rw [sizesOf_snoc, List.map_append, h4]; simp [h0]⟩
      intro c hm
      rw [List.mem_append, List.mem_singleton] at hm
      rcases hm with hm | rfl
      · exact h2 c hm
      · intro h0; have := congrArg List.length h0; simp at this; omega
    · cases h
  · rintro ⟨s, b, n⟩ ⟨s', r, b'⟩ ⟨h0, bufs, h1, h2, counts, h3, h4⟩ h
    simp only at h0 h1 h3 h4
    subst h3
    simp only [bulkOverwriteFullSliceBody, bind_eq] at h
    split at h
    · rename_i hlt
      have hne : ∀ c ∈ bufs ++ [b.drop counts.sum], c ≠ [] := by
        intro c hm
        rw [List.mem_append, List.mem_singleton] at hm
        rcases hm with hm | rfl
        · exact h2 c hm
        · intro h0; have := congrArg List.length h0; simp at this; omega
      rcases hp : (recordedProducer P).bulkProduce s (b.drop counts.sum) with ⟨s₁, e | k | f, tail⟩ | _ | _ <;> rw [hp] at h <;>
        cases h <;>
      exact ⟨bufs ++ [b.drop counts.sum], by rw [recorded_bulkProduce hp, h1]; simp, hne, by
        have h5 : (bufs ++ [b.drop counts.sum]).map List.length = sizesOf buf.length counts ++ [buf.length - counts.sum] := by
          rw [List.map_append, h4]; simp [h0]
        rw [h5]
        exact .failed (by omega)⟩
    · rename_i hlt
      cases h
      exact ⟨bufs, h1, h2, by simp only [h4]; exact .all (by omega)⟩

/-- A concrete case: the producer ends after two items. -/
example : (∀ s b s' r b', (FromSlice.producer Nat).bulkProduce s b = ok (s', r, b') → b'.length = b.length) ∧
    bulkOverwriteFullSlice (recordedProducer (FromSlice.producer Nat)) ⟨.new [1, 2], []⟩ [7, 7, 7] =
    ok (⟨⟨[1, 2], 2⟩, [.bulkProduce [7, 7, 7], .bulkProduce [7]]⟩, .error ⟨2, .inl ()⟩, [1, 2, 7]) := by
  refine ⟨fun s b s' r b' h => ?_, ?_⟩
  · exact bulkProduceDefault_length h
  · unfold bulkOverwriteFullSlice
    rw [loop_eq_of_fuel (n := 2) (by intro h; cases h)]
    rfl

/-! ## Encoders and decoders -/

section

variable {T R RC Rel : Type}

/-- **C79, encoders**: `close` and `flush` are passed on, and `consume` does exactly what `encode` does. -/
theorem encoder_calls (t : Encodable T) (C : BulkConsumer σ UInt8 F E) (s s' : Recorded σ (ConsumerOp UInt8 F)) :
    (∀ x r, (encoder t (recordedConsumer C)).consume s x = ok (s', r) → t.encode (recordedConsumer C) s x = ok (s', r)) ∧
    (∀ f r, (encoder t (recordedConsumer C)).close s f = ok (s', r) → s'.calls = s.calls ++ [.close f]) ∧
    (∀ r, (encoder t (recordedConsumer C)).flush s = ok (s', r) → s'.calls = s.calls ++ [.flush]) :=
  ⟨fun _ _ h => h, fun _ _ h => recorded_close h, fun _ h => recorded_flush h⟩

/-- A codec for the examples: a single byte. -/
def oneByte : Encodable UInt8 := ⟨fun C s x => C.consume s x⟩

def oneByteDecoded : DecodableCanonic UInt8 Empty Empty :=
  ⟨⟨fun P s => do
    match ← P.produce s with
    | (s, .ok (.inl x)) => return (s, .ok x)
    | (s, .ok (.inr f)) => return (s, .error (.unexpectedEndOfInput f))
    | (s, .error e) => return (s, .error (.producer e))⟩, id, fun P s => do
    match ← P.produce s with
    | (s, .ok (.inl x)) => return (s, .ok x)
    | (s, .ok (.inr f)) => return (s, .error (.unexpectedEndOfInput f))
    | (s, .error e) => return (s, .error (.producer e))⟩

/-- Concrete cases. -/
example :
    (encoder oneByte (recordedConsumer (limitBulkConsumer (IntoVec.consumer UInt8)))).consume ⟨⟨.new, 0⟩, []⟩ 7 =
      ok (⟨⟨.new, 0⟩, [.consume 7]⟩, .error none) ∧
    (encoder oneByte (recordedConsumer (IntoVec.consumer UInt8))).close ⟨.new, []⟩ () = ok (⟨.new, [.close ()]⟩, .ok ()) ∧
    (encoder oneByte (recordedConsumer (IntoVec.consumer UInt8))).flush ⟨.new, []⟩ = ok (⟨.new, [.flush]⟩, .ok ()) :=
  ⟨rfl, rfl, rfl⟩

/-- **C79, relative encoders**: likewise; the value relative to which is encoded stays the same. -/
theorem relative_encoder_calls (t : RelativeEncodable T Rel) (borrow : B → Rel) (C : BulkConsumer σ UInt8 F E)
    (s s' : RelativeSt (Recorded σ (ConsumerOp UInt8 F)) B) :
    (∀ x r, (relativeEncoder t borrow (recordedConsumer C)).consume s x = ok (s', r) →
      t.relativeEncode (borrow s.relativeTo) (recordedConsumer C) s.inner x = ok (s'.inner, r) ∧ s'.relativeTo = s.relativeTo) ∧
    (∀ f r, (relativeEncoder t borrow (recordedConsumer C)).close s f = ok (s', r) →
      s'.inner.calls = s.inner.calls ++ [.close f] ∧ s'.relativeTo = s.relativeTo) ∧
    (∀ r, (relativeEncoder t borrow (recordedConsumer C)).flush s = ok (s', r) →
      s'.inner.calls = s.inner.calls ++ [.flush] ∧ s'.relativeTo = s.relativeTo) := by
  refine ⟨fun x r h => ?_, fun f r h => ?_, fun r h => ?_⟩ <;> simp only [relativeEncoder, bind_eq] at h
  · rcases hp : t.relativeEncode (borrow s.relativeTo) (recordedConsumer C) s.inner x with ⟨s₁, r⟩ | _ | _ <;> rw [hp] at h <;> cases h
    exact ⟨rfl, rfl⟩
  · rcases hp : (recordedConsumer C).close s.inner f with ⟨s₁, r⟩ | _ | _ <;> rw [hp] at h <;> cases h
    exact ⟨recorded_close hp, rfl⟩
  · rcases hp : (recordedConsumer C).flush s.inner with ⟨s₁, r⟩ | _ | _ <;> rw [hp] at h <;> cases h
    exact ⟨recorded_flush hp, rfl⟩

/-- Bytes encoded as the difference to another one. -/
def offsetByte : RelativeEncodable UInt8 UInt8 := ⟨fun r _ _ _ C s x => C.consume s (x - r)⟩

/-- Concrete cases. -/
example :
    (relativeEncoder offsetByte id (recordedConsumer (limitBulkConsumer (IntoVec.consumer UInt8)))).consume
      ⟨⟨⟨.new, 0⟩, []⟩, (3 : UInt8)⟩ 7 = ok (⟨⟨⟨.new, 0⟩, [.consume 4]⟩, 3⟩, .error none) ∧
    (relativeEncoder offsetByte id (recordedConsumer (IntoVec.consumer UInt8))).close ⟨⟨.new, []⟩, (3 : UInt8)⟩ () =
      ok (⟨⟨.new, [.close ()]⟩, 3⟩, .ok ()) ∧
    (relativeEncoder offsetByte id (recordedConsumer (IntoVec.consumer UInt8))).flush ⟨⟨.new, []⟩, (3 : UInt8)⟩ =
      ok (⟨⟨.new, [.flush]⟩, 3⟩, .ok ()) :=
  ⟨rfl, rfl, rfl⟩

private theorem decoderSlurp_calls {P : BulkProducer σ UInt8 F E} {s s' : Recorded σ (ProducerOp UInt8)}
    {r : Except (DecodeError F E R) Unit} (h : decoderSlurp (recordedProducer P) s = ok (s', r)) :
    s'.calls = s.calls ++ [.slurp] := by
  simp only [decoderSlurp, bind_eq] at h
  rcases hp : (recordedProducer P).slurp s with ⟨s₁, e | ⟨⟩⟩ | _ | _ <;> rw [hp] at h <;> cases h <;> exact recorded_slurp hp

private theorem decoderProduce_calls {decode : DecodeFn T R} {P : BulkProducer σ UInt8 F E} {s s' : Recorded σ (ProducerOp UInt8)} {r}
    (h : decoderProduce decode (recordedProducer P) s = ok (s', r)) : DecoderCalls decode P s s' r := by
  simp only [decoderProduce, bind_eq] at h
  rcases hp : (recordedProducer P).exposeItems s with ⟨s₁, e | x | f⟩ | _ | _ <;> rw [hp] at h <;> try cases h
  · exact .failed (recorded_exposeItems hp)
  · simp only [bind_ok] at h
    rcases hd : decode (recordedProducer P) s₁ with ⟨s₂, e | y⟩ | _ | _ <;> rw [hd] at h <;> cases h
    · exact .notDecoded hp (recorded_exposeItems hp) hd
    · exact .value hp (recorded_exposeItems hp) hd
  · exact .final (recorded_exposeItems hp)

/-- **C79, decoders**: `slurp` is passed on, and `produce` calls `expose_items` once, and then does what `decode` does, if there is
something to decode. -/
theorem decoder_calls (t : Decodable T R) (P : BulkProducer σ UInt8 F E) (s s' : Recorded σ (ProducerOp UInt8)) :
    (∀ r, (decoder t (recordedProducer P)).slurp s = ok (s', r) → s'.calls = s.calls ++ [.slurp]) ∧
    (∀ r, (decoder t (recordedProducer P)).produce s = ok (s', r) → DecoderCalls t.decode P s s' r) :=
  ⟨fun _ h => decoderSlurp_calls h, fun _ h => decoderProduce_calls h⟩

/-- Concrete cases. -/
example :
    (decoder oneByteDecoded.toDecodable (recordedProducer (FromSlice.producer UInt8))).slurp ⟨.new [], []⟩ =
      ok (⟨.new [], [.slurp]⟩, .ok ()) ∧
    (decoder oneByteDecoded.toDecodable (recordedProducer (FromSlice.producer UInt8))).produce ⟨.new [], []⟩ =
      ok (⟨.new [], [.exposeItems]⟩, .ok (.inr ())) ∧
    (decoder oneByteDecoded.toDecodable (recordedProducer (FromSlice.producer UInt8))).produce ⟨.new [7], []⟩ =
      ok (⟨⟨[7], 1⟩, [.exposeItems, .produce]⟩, .ok (.inl 7)) :=
  ⟨rfl, rfl, rfl⟩

/-- **C79, canonic decoders.** -/
theorem canonic_decoder_calls (t : DecodableCanonic T R RC) (P : BulkProducer σ UInt8 F E) (s s' : Recorded σ (ProducerOp UInt8)) :
    (∀ r, (canonicDecoder t (recordedProducer P)).slurp s = ok (s', r) → s'.calls = s.calls ++ [.slurp]) ∧
    (∀ r, (canonicDecoder t (recordedProducer P)).produce s = ok (s', r) → DecoderCalls t.decodeCanonic P s s' r) :=
  ⟨fun _ h => decoderSlurp_calls h, fun _ h => decoderProduce_calls h⟩

/-- Concrete cases. -/
example :
    (canonicDecoder oneByteDecoded (recordedProducer (FromSlice.producer UInt8))).slurp ⟨.new [], []⟩ =
      ok (⟨.new [], [.slurp]⟩, .ok ()) ∧
    (canonicDecoder oneByteDecoded (recordedProducer (FromSlice.producer UInt8))).produce ⟨.new [7], []⟩ =
      ok (⟨⟨[7], 1⟩, [.exposeItems, .produce]⟩, .ok (.inl 7)) :=
  ⟨rfl, rfl⟩

/-- **C79, relative decoders**; the value relative to which is decoded stays the same. -/
theorem relative_decoder_calls (t : RelativeDecodable T Rel R) (borrow : B → Rel) (P : BulkProducer σ UInt8 F E)
    (s s' : RelativeSt (Recorded σ (ProducerOp UInt8)) B) :
    (∀ r, (relativeDecoder t borrow (recordedProducer P)).slurp s = ok (s', r) →
      s'.inner.calls = s.inner.calls ++ [.slurp] ∧ s'.relativeTo = s.relativeTo) ∧
    (∀ r, (relativeDecoder t borrow (recordedProducer P)).produce s = ok (s', r) →
      DecoderCalls (t.relativeDecode (borrow s.relativeTo)) P s.inner s'.inner r ∧ s'.relativeTo = s.relativeTo) := by
  refine ⟨fun r h => ?_, fun r h => ?_⟩ <;> simp only [relativeDecoder, bind_eq] at h
  · rcases hp : (decoderSlurp (recordedProducer P) s.inner : Outcome (_ × Except (DecodeError F E R) Unit)) with ⟨s₁, r⟩ | _ | _ <;>
      rw [hp] at h <;> cases h
    exact ⟨decoderSlurp_calls hp, rfl⟩
  · rcases hp : decoderProduce (t.relativeDecode (borrow s.relativeTo)) (recordedProducer P) s.inner with ⟨s₁, r⟩ | _ | _ <;>
      rw [hp] at h <;> cases h
    exact ⟨decoderProduce_calls hp, rfl⟩

def offsetByteDecoded : RelativeDecodableCanonic UInt8 UInt8 Empty Empty :=
  ⟨⟨fun r _ _ _ P s => do
    match ← P.produce s with
    | (s, .ok (.inl x)) => return (s, .ok (x + r))
    | (s, .ok (.inr f)) => return (s, .error (.unexpectedEndOfInput f))
    | (s, .error e) => return (s, .error (.producer e))⟩, id, fun r _ _ _ P s => do
    match ← P.produce s with
    | (s, .ok (.inl x)) => return (s, .ok (x + r))
    | (s, .ok (.inr f)) => return (s, .error (.unexpectedEndOfInput f))
    | (s, .error e) => return (s, .error (.producer e))⟩

/-- Concrete cases. -/
example :
    (relativeDecoder offsetByteDecoded.toRelativeDecodable id (recordedProducer (FromSlice.producer UInt8))).slurp
      ⟨⟨.new [], []⟩, (3 : UInt8)⟩ = ok (⟨⟨.new [], [.slurp]⟩, 3⟩, .ok ()) ∧
    (relativeDecoder offsetByteDecoded.toRelativeDecodable id (recordedProducer (FromSlice.producer UInt8))).produce
      ⟨⟨.new [4], []⟩, (3 : UInt8)⟩ = ok (⟨⟨⟨[4], 1⟩, [.exposeItems, .produce]⟩, 3⟩, .ok (.inl 7)) :=
  ⟨rfl, rfl⟩

/-- **C79, relative canonic decoders.** -/
theorem relative_canonic_decoder_calls (t : RelativeDecodableCanonic T Rel R RC) (borrow : B → Rel) (P : BulkProducer σ UInt8 F E)
    (s s' : RelativeSt (Recorded σ (ProducerOp UInt8)) B) :
    (∀ r, (relativeCanonicDecoder t borrow (recordedProducer P)).slurp s = ok (s', r) →
      s'.inner.calls = s.inner.calls ++ [.slurp] ∧ s'.relativeTo = s.relativeTo) ∧
    (∀ r, (relativeCanonicDecoder t borrow (recordedProducer P)).produce s = ok (s', r) →
      DecoderCalls (t.relativeDecodeCanonic (borrow s.relativeTo)) P s.inner s'.inner r ∧ s'.relativeTo = s.relativeTo) := by
  refine ⟨fun r h => ?_, fun r h => ?_⟩ <;> simp only [relativeCanonicDecoder, bind_eq] at h
  · rcases hp : (decoderSlurp (recordedProducer P) s.inner : Outcome (_ × Except (DecodeError F E RC) Unit)) with ⟨s₁, r⟩ | _ | _ <;>
      rw [hp] at h <;> cases h
    exact ⟨decoderSlurp_calls hp, rfl⟩
  · rcases hp : decoderProduce (t.relativeDecodeCanonic (borrow s.relativeTo)) (recordedProducer P) s.inner with ⟨s₁, r⟩ | _ | _ <;>
      rw [hp] at h <;> cases h
    exact ⟨decoderProduce_calls hp, rfl⟩

/-- Concrete cases. -/
example :
    (relativeCanonicDecoder offsetByteDecoded id (recordedProducer (FromSlice.producer UInt8))).slurp
      ⟨⟨.new [], []⟩, (3 : UInt8)⟩ = ok (⟨⟨.new [], [.slurp]⟩, 3⟩, .ok ()) ∧
    (relativeCanonicDecoder offsetByteDecoded id (recordedProducer (FromSlice.producer UInt8))).produce
      ⟨⟨.new [4], []⟩, (3 : UInt8)⟩ = ok (⟨⟨⟨[4], 1⟩, [.exposeItems, .produce]⟩, 3⟩, .ok (.inl 7)) :=
  ⟨rfl, rfl⟩

/-- **C79, endian codecs**: encoding offers the bytes by `bulk_consume` only, decoding asks for them by `bulk_produce` only, for
exactly as many as are missing. -/
theorem endian_calls {N : Nat} (i : FixedInt T N) (o : ByteOrder) :
    (∀ (C : BulkConsumer τ UInt8 F E) (t : τ) (x : T) {t' : Recorded τ (ConsumerOp UInt8 F)} {r},
      i.encode o (recordedConsumer C) ⟨t, []⟩ x = ok (t', r) →
      ∃ res, r = res.mapError ConsumeAtLeastError.reason ∧ BulkConsumeSliceCalls (i.toBytes o x) res t'.calls ∧
        ∀ c ∈ t'.calls, ∃ xs, xs ≠ [] ∧ c = .bulkConsume xs) ∧
    (∀ (P : BulkProducer σ UInt8 F E), (∀ s b s' r b', P.bulkProduce s b = ok (s', r, b') → b'.length = b.length) →
      ∀ (s : σ) {s' : Recorded σ (ProducerOp UInt8)} {r}, i.decode o (recordedProducer P) ⟨s, []⟩ = ok (s', r) →
      ∃ (res : Except (ProduceAtLeastError F E) Unit) (bufs : List (List UInt8)), s'.calls = bufs.map .bulkProduce ∧
        (∀ b ∈ bufs, b ≠ []) ∧ BulkOverwriteSliceCalls N res (bufs.map List.length) ∧
        ((∃ x, r = .ok x) ↔ res = .ok ())) := by
  refine ⟨fun C t x t' r h => ?_, fun P hlen s s' r h => ?_⟩
  · simp only [FixedInt.encode, bind_eq] at h
    rcases hp : bulkConsumeFullSlice (recordedConsumer C) ⟨t, []⟩ (i.toBytes o x) with ⟨t₁, e | ⟨⟩⟩ | _ | _ <;> rw [hp] at h <;> cases h
    · exact ⟨_, rfl, bulk_consume_full_slice_calls C t _ hp⟩
    · exact ⟨.ok (), rfl, bulk_consume_full_slice_calls C t _ hp⟩
  · simp only [FixedInt.decode, bind_eq] at h
    rcases hp : bulkOverwriteFullSlice (recordedProducer P) ⟨s, []⟩ (List.replicate N 0) with ⟨s₁, e | ⟨⟩, b⟩ | _ | _ <;> rw [hp] at h <;>
      cases h <;> obtain ⟨bufs, h1, h2, h3⟩ := bulk_overwrite_full_slice_calls P hlen s _ hp <;> rw [List.length_replicate] at h3
    · exact ⟨_, bufs, h1, h2, h3, by simp⟩
    · exact ⟨_, bufs, h1, h2, h3, by simp⟩

/-- Concrete cases: the consumer takes one byte and then no more; the producer has both bytes. -/
example :
    u16.encode .big (recordedConsumer (limitBulkConsumer (IntoVec.consumer UInt8))) ⟨⟨.fromVec [9], 0⟩, []⟩ 0x0102 =
      ok (⟨⟨.fromVec [9], 0⟩, [.bulkConsume [1, 2]]⟩, .error none) ∧
    u16.decode .big (recordedProducer (FromSlice.producer UInt8)) ⟨.new [1, 2, 3], []⟩ =
      ok (⟨⟨[1, 2, 3], 2⟩, [.bulkProduce [0, 0]]⟩, .ok 0x0102) := by
  constructor
  · simp only [FixedInt.encode, bulkConsumeFullSlice]
    rw [loop_eq_of_fuel (n := 1) (by intro h; cases h)]
    rfl
  · simp only [FixedInt.decode, bulkOverwriteFullSlice]
    rw [loop_eq_of_fuel (n := 2) (by intro h; cases h)]
    rfl

end

end Verif
