import Verif.History
import Verif.IoDirectSpec
import Verif.Model.Codec

/-!
# Which methods are called

Producers and consumers that keep a record of the calls that they get. Nothing is assumed about them otherwise.
-/

namespace Verif

open Outcome

/-- A state together with the calls made so far. -/
structure Recorded (σ A : Type) where
  inner : σ
  calls : List A
  deriving DecidableEq

/-- After the call `a`, which has led to state `t`. -/
def Recorded.note {σ A : Type} (s : Recorded σ A) (a : A) (t : σ) : Recorded σ A := ⟨t, s.calls ++ [a]⟩

section

variable {σ τ I F E E' G : Type}

def recordedProducer (P : BulkProducer σ I F E) : BulkProducer (Recorded σ (ProducerOp I)) I F E where
  produce s := (P.produce s.inner).onState (s.note .produce)
  slurp s := (P.slurp s.inner).onState (s.note .slurp)
  exposeItems s := (P.exposeItems s.inner).onState (s.note .exposeItems)
  considerProduced s k := (P.considerProduced s.inner k).onState (s.note (.considerProduced k))
  bulkProduce s buf := (P.bulkProduce s.inner buf).onState (s.note (.bulkProduce buf))

def recordedConsumer (C : BulkConsumer σ I F E) : BulkConsumer (Recorded σ (ConsumerOp I F)) I F E where
  consume s x := (C.consume s.inner x).onState (s.note (.consume x))
  close s f := (C.close s.inner f).onState (s.note (.close f))
  flush s := (C.flush s.inner).onState (s.note .flush)
  exposeSlots s := (C.exposeSlots s.inner).onState (s.note .exposeSlots)
  writeSlots s ws := s.note (.write ws) (C.writeSlots s.inner ws)
  consumeSlots s k := (C.consumeSlots s.inner k).onState (s.note (.consumeSlots k))
  bulkConsume s buf := (C.bulkConsume s.inner buf).onState (s.note (.bulkConsume buf))

/-- What becomes of a call of an adaptor's method: a call of the same method of the wrapped producer. Only `bulk_produce` (which
adaptors do not override) becomes `expose_items`, followed by `consider_produced` unless there is nothing to produce. -/
inductive ProducerOp.PassedOn : ProducerOp I → List (ProducerOp I) → Prop where
  | produce : PassedOn .produce [.produce]
  | slurp : PassedOn .slurp [.slurp]
  | exposeItems : PassedOn .exposeItems [.exposeItems]
  | considerProduced {k} : PassedOn (.considerProduced k) [.considerProduced k]
  | bulkEnded {buf} : PassedOn (.bulkProduce buf) [.exposeItems]
  | bulk {buf k} : k ≤ buf.length → PassedOn (.bulkProduce buf) [.exposeItems, .considerProduced k]

/-- The same for consumers; the final value may be mapped. `bulk_consume` becomes `expose_slots`, and unless that fails, writing and
`consume_slots`. -/
inductive ConsumerOp.PassedOn (fn : G → F) : ConsumerOp I G → List (ConsumerOp I F) → Prop where
  | consume {x} : PassedOn fn (.consume x) [.consume x]
  | flush : PassedOn fn .flush [.flush]
  | exposeSlots : PassedOn fn .exposeSlots [.exposeSlots]
  | write {ws} : PassedOn fn (.write ws) [.write ws]
  | consumeSlots {k} : PassedOn fn (.consumeSlots k) [.consumeSlots k]
  | bulkRefused {buf} : PassedOn fn (.bulkConsume buf) [.exposeSlots]
  | bulk {buf k} : k ≤ buf.length → PassedOn fn (.bulkConsume buf) [.exposeSlots, .write (buf.take k), .consumeSlots k]
  | close {f} : PassedOn fn (.close f) [.close (fn f)]

/-- All calls in turn. -/
inductive PassedOnAll {A B : Type} (R : A → List B → Prop) : List A → List B → Prop where
  | nil : PassedOnAll R [] []
  | snoc {ops op calls new} : PassedOnAll R ops calls → R op new → PassedOnAll R (ops ++ [op]) (calls ++ new)

/-- The calls `ops`, whatever they answer, lead to state `s`. -/
inductive BulkProducer.Performs (P : BulkProducer σ I F E) (s₀ : σ) : List (ProducerOp I) → σ → Prop where
  | start : Performs P s₀ [] s₀
  | call {ops op s s' r} : Performs P s₀ ops s → P.call s [] op = ok (s', r) → Performs P s₀ (ops ++ [op]) s'

inductive BulkConsumer.Performs (C : BulkConsumer σ I F E) (s₀ : σ) : List (ConsumerOp I F) → σ → Prop where
  | start : Performs C s₀ [] s₀
  | call {ops op s s' r} : Performs C s₀ ops s → C.call s [] op = ok (s', r) → Performs C s₀ (ops ++ [op]) s'

/-- The calls that ask for an item. -/
def ProducerOp.asks : ProducerOp I → Bool
  | .produce | .exposeItems | .bulkProduce _ => true
  | _ => false

/-- The calls that offer an item, or ask for room for one. -/
def ConsumerOp.offers : ConsumerOp I F → Bool
  | .consume _ | .exposeSlots | .bulkConsume _ => true
  | _ => false

/-! ## Piping -/

/-- The calls that `pipe` makes of the producer and of the consumer, by result. It has fed `xs` to the consumer. -/
inductive PipeCalls {E₁ E₂ : Type} : Except (PipeError E₁ E₂) Unit → List (ProducerOp I) → List (ConsumerOp I F) → Prop where
  | closed {xs : List I} {f} : PipeCalls (.ok ()) (.replicate (xs.length + 1) .produce) (xs.map .consume ++ [.close f])
  | closeFailed {xs : List I} {f e} :
      PipeCalls (.error (.consumer e)) (.replicate (xs.length + 1) .produce) (xs.map .consume ++ [.close f])
  | consumeFailed {xs : List I} {x e} :
      PipeCalls (.error (.consumer e)) (.replicate (xs.length + 1) .produce) (xs.map .consume ++ [.consume x])
  | produceFailed {xs : List I} {e} : PipeCalls (.error (.producer e)) (.replicate (xs.length + 1) .produce) (xs.map .consume)

/-- The same for `pipe_at_most` with the given limit. -/
inductive PipeAtMostCalls {E₁ E₂ : Type} (count : Nat) :
    Except (PipeError E₁ E₂) Nat → List (ProducerOp I) → List (ConsumerOp I F) → Prop where
  | full {xs : List I} : xs.length = count → PipeAtMostCalls count (.ok count) (.replicate count .produce) (xs.map .consume)
  | closed {xs : List I} {f} : xs.length < count →
      PipeAtMostCalls count (.ok xs.length) (.replicate (xs.length + 1) .produce) (xs.map .consume ++ [.close f])
  | closeFailed {xs : List I} {f e} : xs.length < count →
      PipeAtMostCalls count (.error (.consumer e)) (.replicate (xs.length + 1) .produce) (xs.map .consume ++ [.close f])
  | consumeFailed {xs : List I} {x e} : xs.length < count →
      PipeAtMostCalls count (.error (.consumer e)) (.replicate (xs.length + 1) .produce) (xs.map .consume ++ [.consume x])
  | produceFailed {xs : List I} {e} : xs.length < count →
      PipeAtMostCalls count (.error (.producer e)) (.replicate (xs.length + 1) .produce) (xs.map .consume)

/-- The calls of a bulk producer for some rounds of bulk piping: the items that were exposed, how many of them were consumed. -/
def producerRounds (rounds : List (List I × Nat)) : List (ProducerOp I) :=
  rounds.flatMap fun r => [.exposeItems, .considerProduced r.2]

/-- The calls of the bulk consumer for the same rounds. -/
def consumerRounds (rounds : List (List I × Nat)) : List (ConsumerOp I F) := rounds.map fun r => .bulkConsume r.1

/-- The calls that `bulk_pipe` makes, by result. -/
inductive BulkPipeCalls {E₁ E₂ : Type} : Except (PipeError E₁ E₂) Unit → List (ProducerOp I) → List (ConsumerOp I F) → Prop where
  | closed {rounds f} : BulkPipeCalls (.ok ()) (producerRounds rounds ++ [.exposeItems]) (consumerRounds rounds ++ [.close f])
  | closeFailed {rounds f e} :
      BulkPipeCalls (.error (.consumer e)) (producerRounds rounds ++ [.exposeItems]) (consumerRounds rounds ++ [.close f])
  | consumeFailed {rounds} {xs : List I} {e} :
      BulkPipeCalls (.error (.consumer e)) (producerRounds rounds ++ [.exposeItems]) (consumerRounds rounds ++ [.bulkConsume xs])
  | exposeFailed {rounds e} :
      BulkPipeCalls (.error (.producer e)) (producerRounds rounds ++ [.exposeItems]) (consumerRounds rounds)
  | considerFailed {rounds r e} :
      BulkPipeCalls (.error (.producer e)) (producerRounds (rounds ++ [r])) (consumerRounds (rounds ++ [r]))

/-- How many items were consumed in some rounds. -/
def consumedIn (rounds : List (List I × Nat)) : Nat := (rounds.map Prod.snd).sum

/-- No round starts when `count` items were consumed, and none offers more than are missing. -/
inductive RoundsWithin (count : Nat) : List (List I × Nat) → Prop where
  | nil : RoundsWithin count []
  | snoc {rounds} {xs : List I} {k} : RoundsWithin count rounds → consumedIn rounds < count → xs.length ≤ count - consumedIn rounds →
      RoundsWithin count (rounds ++ [(xs, k)])

/-- The calls that `bulk_pipe_at_most` makes, by result. -/
inductive BulkPipeAtMostCalls {E₁ E₂ : Type} (count : Nat) :
    Except (PipeError E₁ E₂) Nat → List (ProducerOp I) → List (ConsumerOp I F) → Prop where
  | full {rounds} : RoundsWithin count rounds → count ≤ consumedIn rounds →
      BulkPipeAtMostCalls count (.ok (consumedIn rounds)) (producerRounds rounds) (consumerRounds rounds)
  | closed {rounds f} : RoundsWithin count rounds → consumedIn rounds < count →
      BulkPipeAtMostCalls count (.ok (consumedIn rounds)) (producerRounds rounds ++ [.exposeItems])
        (consumerRounds rounds ++ [.close f])
  | closeFailed {rounds f e} : RoundsWithin count rounds → consumedIn rounds < count →
      BulkPipeAtMostCalls count (.error (.consumer e)) (producerRounds rounds ++ [.exposeItems])
        (consumerRounds rounds ++ [.close f])
  | consumeFailed {rounds} {xs : List I} {e} : RoundsWithin count rounds → consumedIn rounds < count →
      xs.length ≤ count - consumedIn rounds →
      BulkPipeAtMostCalls count (.error (.consumer e)) (producerRounds rounds ++ [.exposeItems])
        (consumerRounds rounds ++ [.bulkConsume xs])
  | exposeFailed {rounds e} : RoundsWithin count rounds → consumedIn rounds < count →
      BulkPipeAtMostCalls count (.error (.producer e)) (producerRounds rounds ++ [.exposeItems]) (consumerRounds rounds)
  | considerFailed {rounds r e} : RoundsWithin count (rounds ++ [r]) →
      BulkPipeAtMostCalls count (.error (.producer e)) (producerRounds (rounds ++ [r])) (consumerRounds (rounds ++ [r]))

/-! ## Slices -/

/-- The rest of `buf` is offered over and over, from position `i` on, and the numbers in `counts` are the answers. -/
def offersOf (buf : List I) : Nat → List Nat → List (ConsumerOp I F)
  | _, [] => []
  | i, k :: counts => .bulkConsume (buf.drop i) :: offersOf buf (i + k) counts

/-- The sizes of the buffers to fill, when `n` slots are left and the numbers in `counts` are the answers. -/
def sizesOf : Nat → List Nat → List Nat
  | _, [] => []
  | n, k :: counts => n :: sizesOf (n - k) counts

/-- The calls that `consume_full_slice` makes, by result. -/
inductive ConsumeSliceCalls (buf : List I) : Except (ConsumeAtLeastError E) Unit → List (ConsumerOp I F) → Prop where
  | all : ConsumeSliceCalls buf (.ok ()) (buf.map .consume)
  | failed {i e} : i < buf.length → ConsumeSliceCalls buf (.error ⟨i, e⟩) ((buf.take (i + 1)).map .consume)

/-- The calls that `bulk_consume_full_slice` makes, by result. -/
inductive BulkConsumeSliceCalls (buf : List I) : Except (ConsumeAtLeastError E) Unit → List (ConsumerOp I F) → Prop where
  | all {counts} : buf.length ≤ counts.sum → BulkConsumeSliceCalls buf (.ok ()) (offersOf buf 0 counts)
  | failed {counts e} : counts.sum < buf.length →
      BulkConsumeSliceCalls buf (.error ⟨counts.sum, e⟩) (offersOf buf 0 counts ++ [.bulkConsume (buf.drop counts.sum)])

/-- The calls that `overwrite_full_slice` makes for a slice of length `n`, by result. -/
inductive OverwriteSliceCalls (n : Nat) : Except (ProduceAtLeastError F E) Unit → List (ProducerOp I) → Prop where
  | all : OverwriteSliceCalls n (.ok ()) (.replicate n .produce)
  | failed {i e} : i < n → OverwriteSliceCalls n (.error ⟨i, e⟩) (.replicate (i + 1) .produce)

/-- The lengths of the slices that `bulk_overwrite_full_slice` passes on for a slice of length `n`, by result. -/
inductive BulkOverwriteSliceCalls (n : Nat) : Except (ProduceAtLeastError F E) Unit → List Nat → Prop where
  | all {counts} : n ≤ counts.sum → BulkOverwriteSliceCalls n (.ok ()) (sizesOf n counts)
  | failed {counts e} : counts.sum < n → BulkOverwriteSliceCalls n (.error ⟨counts.sum, e⟩) (sizesOf n counts ++ [n - counts.sum])

/-! ## Decoders -/

/-- What `produce` of a decoder does with the producer of bytes, by result: it calls `expose_items`, and if that yields items, leaves
the rest to `decode`. -/
inductive DecoderCalls {T R : Type} (decode : DecodeFn T R) (P : BulkProducer σ UInt8 F E) (s s' : Recorded σ (ProducerOp UInt8)) :
    Except (DecodeError F E R) (T ⊕ F) → Prop where
  | final {f} : s'.calls = s.calls ++ [.exposeItems] → DecoderCalls decode P s s' (.ok (.inr f))
  | failed {e} : s'.calls = s.calls ++ [.exposeItems] → DecoderCalls decode P s s' (.error (.producer e))
  | value {s₁ xs x} : (recordedProducer P).exposeItems s = ok (s₁, .ok (.inl xs)) → s₁.calls = s.calls ++ [.exposeItems] →
      decode (recordedProducer P) s₁ = ok (s', .ok x) → DecoderCalls decode P s s' (.ok (.inl x))
  | notDecoded {s₁ xs e} : (recordedProducer P).exposeItems s = ok (s₁, .ok (.inl xs)) → s₁.calls = s.calls ++ [.exposeItems] →
      decode (recordedProducer P) s₁ = ok (s', .error e) → DecoderCalls decode P s s' (.error e)

end

end Verif
