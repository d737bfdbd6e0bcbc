import Verif.Spec
import Verif.AbandonSpec
import Verif.Model.AsyncTestDoubles
import Verif.Model.AsyncAdaptors
import Verif.Lemmas.Async

/-!
# Dropping a pipe and starting it again

The documentation forbids using a producer or consumer after one of its calls was dropped (lib.rs:33). Some producers and consumers
tolerate it nevertheless. `ProducerDrops` and `ConsumerDrops` say which states a call that is dropped may leave.
-/

namespace Verif.Async

open Outcome

variable {σ τ I F E E₁ E₂ : Type}

/-- `exposeItems s k s'`: if the call of `expose_items` in the state `s` is dropped when its future is in the state `k`, then the
producer is left in the state `s'`. -/
structure ProducerDrops (P : BulkProducer σ I F E) where
  exposeItems : (s : σ) → (P.exposeItems s).κ → σ → Prop
  considerProduced : (s : σ) → (n : Nat) → (P.considerProduced s n).κ → σ → Prop

/-- The same for consumers. -/
structure ConsumerDrops (C : BulkConsumer τ I F E) where
  bulkConsume : (t : τ) → (ys : List I) → (C.bulkConsume t ys).κ → τ → Prop

/-- A producer that, after a dropped call of `expose_items`, has still the same to emit: an invariant `R` is preserved. -/
structure ProducerDrops.Tolerated {P : BulkProducer σ I F E} (d : ProducerDrops P) (R : σ → Script I F E → Nat → Prop) : Prop where
  exposeItems : ∀ {s c n k s'}, R s c n → (P.exposeItems s).Pending k → d.exposeItems s k s' → ∃ m, R s' c m

/-- A producer that has still the same to emit after a dropped call of `consider_produced`. -/
structure ProducerDrops.Unconsidered {P : BulkProducer σ I F E} (d : ProducerDrops P) (R : σ → Script I F E → Nat → Prop) : Prop where
  considerProduced : ∀ {s c n a k s'}, R s c n → (P.considerProduced s a).Pending k → d.considerProduced s a k s' → ∃ m, R s' c m

/-- A consumer that, after a dropped call, has consumed what it had before. -/
structure ConsumerDrops.Tolerated {C : BulkConsumer τ I F E} (d : ConsumerDrops C) (S : τ → List I → List I → Prop) : Prop where
  bulkConsume : ∀ {t l sl ys k t'}, S t l sl → ys ≠ [] → (C.bulkConsume t ys).Pending k → d.bulkConsume t ys k t' → ∃ sl', S t' l sl'

/-- `bulk_pipe` is dropped while `expose_items` or `bulk_consume` is pending, and leaves the producer and the consumer in given
states. -/
inductive BulkPipeDropped {P : BulkProducer σ I F E₁} {C : BulkConsumer τ I F E₂} (dp : ProducerDrops P) (dc : ConsumerDrops C)
    (s : σ) (t : τ) : (bulkPipe P C s t).κ → σ → τ → Prop where
  | exposing {s₁ t₁ k s'} : dp.exposeItems s₁ k s' → BulkPipeDropped dp dc s t ⟨(s₁, t₁), .inl k⟩ s' t₁
  | consuming {s₁ t₁ s₂ ys k t'} : dc.bulkConsume t₁ ys k t' →
      BulkPipeDropped dp dc s t ⟨(s₁, t₁), .inr ⟨(s₂, .ok (.inl ys)), .inl k⟩⟩ s₂ t'

/-- `bulk_pipe` is dropped while `consider_produced` is pending. -/
inductive BulkPipeConsidering {P : BulkProducer σ I F E₁} {C : BulkConsumer τ I F E₂} (dp : ProducerDrops P)
    (s : σ) (t : τ) : (bulkPipe P C s t).κ → σ → τ → Prop where
  | considering {s₁ t₁ s₂ ys t₂ n k s'} : dp.considerProduced s₂ n k s' →
      BulkPipeConsidering dp s t ⟨(s₁, t₁), .inr ⟨(s₂, .ok (.inl ys)), .inr ⟨(t₂, .ok n), .inl k⟩⟩⟩ s' t₂

/-- `bulk_pipe` is started and dropped any number of times, every time while `expose_items` or `bulk_consume` is pending. -/
inductive BulkPipeRetried {P : BulkProducer σ I F E₁} {C : BulkConsumer τ I F E₂} (dp : ProducerDrops P) (dc : ConsumerDrops C) :
    σ → τ → σ → τ → Prop where
  | refl {s t} : BulkPipeRetried dp dc s t s t
  | drop {s t k s₁ t₁ s' t'} : (bulkPipe P C s t).Pending k → BulkPipeDropped dp dc s t k s₁ t₁ →
      BulkPipeRetried dp dc s₁ t₁ s' t' → BulkPipeRetried dp dc s t s' t'

/-! ## The test doubles

Every method first awaits `maybe_yield`, and is not pending afterwards. If it is dropped, only the yielder has changed. -/

/-- `maybe_yield` is dropped; the future modifies the yielder itself (test_yielder.rs:50-71). -/
inductive YieldDropped : (y : Option TestYielder) → (maybeYield y).κ → Option TestYielder → Prop where
  | mk {y k} : YieldDropped (some y) (Sum.inl k) (some k)

inductive TestProducer.ExposeDropped (test : Bool) (s : TestProducer I F E) : (exposeItems test s).κ → TestProducer I F E → Prop where
  | mk {k y} : YieldDropped s.yielder k y → ExposeDropped test s (Sum.inl k) { s with yielder := y }

inductive TestProducer.ConsiderDropped (test : Bool) (s : TestProducer I F E) (n : Nat) :
    (considerProduced test s n).κ → TestProducer I F E → Prop where
  | mk {k y} : YieldDropped s.yielder k y → ConsiderDropped test s n (Sum.inl k) { s with yielder := y }

/-- producer/test_producer.rs:370-423 -/
def TestProducer.drops (test : Bool) (I F E : Type) : ProducerDrops (TestProducer.producer test I F E) where
  exposeItems := ExposeDropped test
  considerProduced := ConsiderDropped test

/-- `bulk_consume` is dropped in `expose_slots`, or after that, and after items have been written to the slots, in
`consume_slots`. -/
inductive TestConsumer.BulkConsumeDropped [Inhabited I] (test : Bool) (t : TestConsumer I F E) (ys : List I) :
    ((TestConsumer.consumer test I F E).bulkConsume t ys).κ → TestConsumer I F E → Prop where
  | exposing {k y} : YieldDropped t.yielder k y → BulkConsumeDropped test t ys (Sum.inl (Sum.inl (Sum.inl k))) { t with yielder := y }
  | consuming {t₁ slots k y} : YieldDropped t₁.yielder k y →
      BulkConsumeDropped test t ys (Sum.inr ⟨(t₁, .ok slots), Sum.inl (Sum.inl (Sum.inl k))⟩)
        { (TestConsumer.consumer test I F E).writeSlots t₁ (ys.take (min slots.length ys.length)) with yielder := y }

/-- lib.rs:237-252, consumer/test_consumer.rs:399-439 -/
def TestConsumer.drops (test : Bool) (I F E : Type) [Inhabited I] : ConsumerDrops (TestConsumer.consumer test I F E) where
  bulkConsume := BulkConsumeDropped test

/-! ## Adaptors

What a dropped call of an adaptor leaves, given what the dropped call of the wrapped producer or consumer leaves. -/

/-- `produce s k s'`: if the call of `produce` in the state `s` is dropped when its future is in the state `k`, then the producer is
left in the state `s'`. -/
structure ItemDrops (P : Producer σ I F E) where
  produce : (s : σ) → (P.produce s).κ → σ → Prop

/-- A producer that, after a dropped call of `produce`, has still the same to emit. -/
structure ItemDrops.Tolerated {P : Producer σ I F E} (d : ItemDrops P) (R : σ → Script I F E → Prop) : Prop where
  produce : ∀ {s c k s'}, R s c → (P.produce s).Pending k → d.produce s k s' → R s' c

/-- The same for the methods from which `bulk_consume` is made (lib.rs:237-252). -/
structure SlotDrops (C : BulkConsumer τ I F E) where
  exposeSlots : (t : τ) → (C.exposeSlots t).κ → τ → Prop
  consumeSlots : (t : τ) → (n : Nat) → (C.consumeSlots t n).κ → τ → Prop

/-- A consumer that, after a dropped call, has consumed what it had before. -/
structure SlotDrops.Tolerated {C : BulkConsumer τ I F E} (d : SlotDrops C) (S : τ → List I → List I → Prop) : Prop where
  exposeSlots : ∀ {t l sl k t'}, S t l sl → (C.exposeSlots t).Pending k → d.exposeSlots t k t' → ∃ sl', S t' l sl'
  consumeSlots : ∀ {t l sl n k t'}, S t l sl → (C.consumeSlots t n).Pending k → d.consumeSlots t n k t' → ∃ sl', S t' l sl'

/-- producer/limit.rs:54-65: `self.remaining` has been decremented before the `await`. -/
inductive LimitProduceDropped {P : Producer σ I F E} (d : ItemDrops P) :
    (s : LimitSt σ) → ((limitProducer P).produce s).κ → LimitSt σ → Prop where
  | mk {s n k s'} : d.produce s k s' → LimitProduceDropped d ⟨s, n + 1⟩ (Sum.inl k) ⟨s', n⟩

/-- producer/limit.rs:48-66 -/
def limitItemDrops {P : Producer σ I F E} (d : ItemDrops P) : ItemDrops (limitProducer P) where
  produce := LimitProduceDropped d

/-- producer/limit.rs:75-89 -/
inductive LimitExposeDropped {P : BulkProducer σ I F E} (d : ProducerDrops P) :
    (s : LimitSt σ) → ((limitBulkProducer P).exposeItems s).κ → LimitSt σ → Prop where
  | mk {s n k s'} : d.exposeItems s k s' → LimitExposeDropped d ⟨s, n + 1⟩ (Sum.inl k) ⟨s', n + 1⟩

/-- producer/limit.rs:91-94: `self.remaining` has been reduced (to `r`) before the `await`. -/
inductive LimitConsiderDropped {P : BulkProducer σ I F E} (d : ProducerDrops P) (s : LimitSt σ) (n : Nat) :
    ((limitBulkProducer P).considerProduced s n).κ → LimitSt σ → Prop where
  | mk {r k s'} : d.considerProduced s.inner n k s' → LimitConsiderDropped d s n (Sum.inr ⟨r, Sum.inl k⟩) ⟨s', r⟩

/-- producer/limit.rs:74-95 -/
def limitDrops {P : BulkProducer σ I F E} (d : ProducerDrops P) : ProducerDrops (limitBulkProducer P) where
  exposeItems := LimitExposeDropped d
  considerProduced := LimitConsiderDropped d

/-- producer/map_final.rs:59-73 -/
inductive MapFinalExposeDropped {B : Type} {P : BulkProducer σ I F E} (d : ProducerDrops P) (s : MapFinalSt σ F B) :
    ((mapFinalBulkProducer P).exposeItems s).κ → MapFinalSt σ F B → Prop where
  | mk {k s'} : d.exposeItems s.inner k s' → MapFinalExposeDropped d s (Sum.inl k) ⟨s', s.fn⟩

/-- producer/map_final.rs:75-77 -/
inductive MapFinalConsiderDropped {B : Type} {P : BulkProducer σ I F E} (d : ProducerDrops P) (s : MapFinalSt σ F B) (n : Nat) :
    ((mapFinalBulkProducer P).considerProduced s n).κ → MapFinalSt σ F B → Prop where
  | mk {k s'} : d.considerProduced s.inner n k s' → MapFinalConsiderDropped d s n (Sum.inl k) ⟨s', s.fn⟩

/-- producer/map_final.rs:58-78 -/
def mapFinalDrops {B : Type} {P : BulkProducer σ I F E} (d : ProducerDrops P) : ProducerDrops (mapFinalBulkProducer (B := B) P) where
  exposeItems := MapFinalExposeDropped d
  considerProduced := MapFinalConsiderDropped d

/-- producer/map_item.rs:32-43: the function is called after the `await`. -/
inductive MapItemProduceDropped {φ B : Type} (f : φ → I → φ × B) {P : Producer σ I F E} (d : ItemDrops P) (s : MapItemSt σ φ) :
    ((mapItemProducer f P).produce s).κ → MapItemSt σ φ → Prop where
  | mk {k s'} : d.produce s.inner k s' → MapItemProduceDropped f d s (Sum.inl k) ⟨s', s.captured⟩

def mapItemDrops {φ B : Type} (f : φ → I → φ × B) {P : Producer σ I F E} (d : ItemDrops P) : ItemDrops (mapItemProducer f P) where
  produce := MapItemProduceDropped f d

/-- consumer/limit.rs:66-82 in lib.rs:237-252: `expose_slots` is dropped, or `consume_slots` is; then `self.remaining` has been
reduced (to `r`) before the `await`. -/
inductive LimitBulkConsumeDropped {C : BulkConsumer τ I F E} (d : SlotDrops C) (ys : List I) :
    (t : LimitSt τ) → ((limitBulkConsumer C).bulkConsume t ys).κ → LimitSt τ → Prop where
  | exposing {t n k t'} : d.exposeSlots t k t' → LimitBulkConsumeDropped d ys ⟨t, n + 1⟩ (Sum.inl (Sum.inl k)) ⟨t', n + 1⟩
  | consuming {t t₁ slots r k t'} :
      d.consumeSlots (C.writeSlots t₁.inner (ys.take (min slots.length ys.length))) (min slots.length ys.length) k t' →
      LimitBulkConsumeDropped d ys t (Sum.inr ⟨(t₁, .ok slots), Sum.inl (Sum.inr ⟨r, Sum.inl k⟩)⟩) ⟨t', r⟩

/-- consumer/limit.rs:65-83 -/
def limitConsumerDrops {C : BulkConsumer τ I F E} (d : SlotDrops C) : ConsumerDrops (limitBulkConsumer C) where
  bulkConsume t ys := LimitBulkConsumeDropped d ys t

/-- The same for `consume`. -/
structure ConsumeDrops (C : Consumer τ I F E) where
  consume : (t : τ) → (x : I) → (C.consume t x).κ → τ → Prop

/-- A consumer that, after a dropped call of `consume`, has consumed what it had before. -/
structure ConsumeDrops.Tolerated {C : Consumer τ I F E} (d : ConsumeDrops C) (S : τ → List I → Prop) : Prop where
  consume : ∀ {t l x k t'}, S t l → (C.consume t x).Pending k → d.consume t x k t' → S t' l

/-- consumer/limit.rs:44-52: `self.remaining` has been decremented before the `await`. -/
inductive LimitConsumeDropped {C : Consumer τ I F E} (d : ConsumeDrops C) (x : I) :
    (t : LimitSt τ) → ((limitConsumer C).consume t x).κ → LimitSt τ → Prop where
  | mk {t n k t'} : d.consume t x k t' → LimitConsumeDropped d x ⟨t, n + 1⟩ (Sum.inl k) ⟨t', n⟩

def limitConsumeDrops {C : Consumer τ I F E} (d : ConsumeDrops C) : ConsumeDrops (limitConsumer C) where
  consume t x := LimitConsumeDropped d x t

/-- consumer/map_item.rs:46-48: the function has been called before the `await`. -/
inductive MapItemConsumeDropped {φ B : Type} (f : φ → B → φ × I) {C : Consumer τ I F E} (d : ConsumeDrops C) (t : MapItemSt τ φ) (x : B) :
    ((mapItemConsumer f C).consume t x).κ → MapItemSt τ φ → Prop where
  | mk {k t'} : d.consume t.inner (f t.captured x).2 k t' → MapItemConsumeDropped f d t x (Sum.inl k) ⟨t', (f t.captured x).1⟩

def mapItemConsumeDrops {φ B : Type} (f : φ → B → φ × I) {C : Consumer τ I F E} (d : ConsumeDrops C) :
    ConsumeDrops (mapItemConsumer f C) where
  consume := MapItemConsumeDropped f d

/-! The test doubles -/

inductive TestConsumer.ConsumeDropped [Inhabited I] (test : Bool) (t : TestConsumer I F E) (x : I) :
    ((TestConsumer.consumer test I F E).consume t x).κ → TestConsumer I F E → Prop where
  | mk {k y} : YieldDropped t.yielder k y → ConsumeDropped test t x (Sum.inl (Sum.inl k)) { t with yielder := y }

/-- consumer/test_consumer.rs:366-373 -/
def TestConsumer.consumeDrops (test : Bool) (I F E : Type) [Inhabited I] : ConsumeDrops (TestConsumer.consumer test I F E).toConsumer where
  consume := ConsumeDropped test

inductive TestProducer.ProduceDropped (test : Bool) (s : TestProducer I F E) : (produce test s).κ → TestProducer I F E → Prop where
  | mk {k y} : YieldDropped s.yielder k y → ProduceDropped test s (Sum.inl k) { s with yielder := y }

/-- producer/test_producer.rs:339-351 -/
def TestProducer.itemDrops (test : Bool) (I F E : Type) : ItemDrops (TestProducer.producer test I F E).toProducer where
  produce := ProduceDropped test

inductive TestConsumer.ExposeDropped [Inhabited I] (test : Bool) (t : TestConsumer I F E) :
    ((TestConsumer.consumer test I F E).exposeSlots t).κ → TestConsumer I F E → Prop where
  | mk {k y} : YieldDropped t.yielder k y → ExposeDropped test t (Sum.inl (Sum.inl k)) { t with yielder := y }

inductive TestConsumer.ConsumeSlotsDropped [Inhabited I] (test : Bool) (t : TestConsumer I F E) (n : Nat) :
    ((TestConsumer.consumer test I F E).consumeSlots t n).κ → TestConsumer I F E → Prop where
  | mk {k y} : YieldDropped t.yielder k y → ConsumeSlotsDropped test t n (Sum.inl (Sum.inl k)) { t with yielder := y }

/-- consumer/test_consumer.rs:399-439 -/
def TestConsumer.slotDrops (test : Bool) (I F E : Type) [Inhabited I] : SlotDrops (TestConsumer.consumer test I F E) where
  exposeSlots := ExposeDropped test
  consumeSlots := ConsumeSlotsDropped test

/-! ## Slices and bounded pipes -/

/-- What a dropped call of `bulk_produce` leaves of the producer. The buffer is left to the caller. -/
structure BulkProduceDrops (P : BulkProducer σ I F E) where
  bulkProduce : (s : σ) → (buf : List I) → (P.bulkProduce s buf).κ → σ → Prop

/-- A producer that has still the same to emit after a dropped call of `bulk_produce`. -/
structure BulkProduceDrops.Tolerated {P : BulkProducer σ I F E} (d : BulkProduceDrops P) (R : σ → Script I F E → Nat → Prop) : Prop where
  bulkProduce : ∀ {s c n buf k s'}, R s c n → buf ≠ [] → (P.bulkProduce s buf).Pending k → d.bulkProduce s buf k s' → ∃ m, R s' c m

/-- `bulk_consume_full_slice` (lib.rs:269-293) is dropped while `bulk_consume` is pending, `n` items having been consumed. -/
inductive SliceConsumeDropped {C : BulkConsumer τ I F E} (dc : ConsumerDrops C) (t : τ) (buf : List I) :
    (bulkConsumeFullSlice C t buf).κ → Nat → τ → Prop where
  | consuming {t₁ n k kc t'} : HEq k (Sum.inl kc : (bulkConsumeStep C buf t₁ n).κ) → dc.bulkConsume t₁ (buf.drop n) kc t' →
      SliceConsumeDropped dc t buf ⟨(t₁, n), k⟩ n t'

/-- `bulk_overwrite_full_slice` (lib.rs:506-536) is dropped while `bulk_produce` is pending, `n` items having been produced. -/
inductive SliceProduceDropped {P : BulkProducer σ I F E} (dp : BulkProduceDrops P) (s : σ) (buf : List I) :
    (bulkOverwriteFullSlice P s buf).κ → Nat → σ → Prop where
  | producing {s₁ b n k kp s'} : HEq k (Sum.inl kp : (bulkOverwriteStep P s₁ b n).κ) → dp.bulkProduce s₁ (b.drop n) kp s' →
      SliceProduceDropped dp s buf ⟨(s₁, b, n), k⟩ n s'

/-- `bulk_pipe_at_most` (lib.rs:665-705) is dropped while `expose_items` or `bulk_consume` is pending, `n` items having been moved. -/
inductive BulkPipeAtMostDropped {P : BulkProducer σ I F E₁} {C : BulkConsumer τ I F E₂} (dp : ProducerDrops P) (dc : ConsumerDrops C)
    (s : σ) (t : τ) (count : Nat) : (bulkPipeAtMost P C s t count).κ → Nat → σ → τ → Prop where
  | exposing {s₁ t₁ n k kp s'} : HEq k (Sum.inl kp : (bulkPipeAtMostStep P C count s₁ t₁ n).κ) → dp.exposeItems s₁ kp s' →
      BulkPipeAtMostDropped dp dc s t count ⟨(s₁, t₁, n), k⟩ n s' t₁
  | consuming {s₁ t₁ n k s₂ ys kc t'} :
      HEq k (Sum.inr ⟨(s₂, .ok (.inl ys)), .inl kc⟩ : (bulkPipeAtMostStep P C count s₁ t₁ n).κ) →
      dc.bulkConsume t₁ (ys.take (min (count - n) ys.length)) kc t' →
      BulkPipeAtMostDropped dp dc s t count ⟨(s₁, t₁, n), k⟩ n s₂ t'

/-- The default `bulk_produce` (lib.rs:469-489) of a `TestProducer` is dropped. -/
inductive TestProducer.BulkProduceDropped (test : Bool) (s : TestProducer I F E) (buf : List I) :
    ((TestProducer.producer test I F E).bulkProduce s buf).κ → TestProducer I F E → Prop where
  | exposing {k s'} : ExposeDropped test s k s' → BulkProduceDropped test s buf (Sum.inl k) s'
  | considering {s₁ slots k s'} : ConsiderDropped test s₁ (min slots.length buf.length) k s' →
      BulkProduceDropped test s buf (Sum.inr ⟨(s₁, .ok (.inl slots)), Sum.inl k⟩) s'

def TestProducer.bulkDrops (test : Bool) (I F E : Type) : BulkProduceDrops (TestProducer.producer test I F E) where
  bulkProduce := BulkProduceDropped test

end Verif.Async
