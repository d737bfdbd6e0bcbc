import Verif.Spec

/-!
# Histories of method calls

Arbitrary finite sequences of calls of the trait methods that respect the invariants documented in
`/repo/ufotofu/src/lib.rs`, for arbitrary producers and consumers.
-/

namespace Verif

open Outcome

/-! ## Producers -/

/-- A call of a method of a bulk producer. -/
inductive ProducerOp (I : Type) where
  | produce
  | slurp
  | exposeItems
  | considerProduced (k : Nat)
  | bulkProduce (buf : List I)
  deriving DecidableEq

/-- What a client gets from a call: the items handed out by it, the items now exposed, and the final value or error that
ended the sequence (if any). -/
structure Handout (I F E : Type) where
  items : List I
  shown : List I
  ended : Option (Except E F)

section

variable {σ I F E : Type}

/-- Call a method of a bulk producer that currently exposes the items `shown`. All methods except `consider_produced`
invalidate the exposed items. -/
def BulkProducer.call (P : BulkProducer σ I F E) (s : σ) (shown : List I) :
    ProducerOp I → Outcome (σ × Handout I F E)
  | .produce => (P.produce s).bind fun
    | (s, .ok (.inl x)) => ok (s, ⟨[x], [], none⟩)
    | (s, .ok (.inr f)) => ok (s, ⟨[], [], some (.ok f)⟩)
    | (s, .error e) => ok (s, ⟨[], [], some (.error e)⟩)
  | .slurp => (P.slurp s).bind fun
    | (s, .ok ()) => ok (s, ⟨[], [], none⟩)
    | (s, .error e) => ok (s, ⟨[], [], some (.error e)⟩)
  | .exposeItems => (P.exposeItems s).bind fun
    | (s, .ok (.inl xs)) => ok (s, ⟨[], xs, none⟩)
    | (s, .ok (.inr f)) => ok (s, ⟨[], [], some (.ok f)⟩)
    | (s, .error e) => ok (s, ⟨[], [], some (.error e)⟩)
  | .considerProduced k => (P.considerProduced s k).bind fun
    | (s, .ok ()) => ok (s, ⟨shown.take k, shown.drop k, none⟩)
    | (s, .error e) => ok (s, ⟨[], [], some (.error e)⟩)
  | .bulkProduce buf => (P.bulkProduce s buf).bind fun
    | (s, .ok (.inl k), buf) => ok (s, ⟨buf.take k, [], none⟩)
    | (s, .ok (.inr f), _) => ok (s, ⟨[], [], some (.ok f)⟩)
    | (s, .error e, _) => ok (s, ⟨[], [], some (.error e)⟩)

/-- The documented invariants: consider only exposed items produced (and only while some are exposed). Buffers passed to
`bulk_produce` are required to be non-empty. -/
def ProducerOp.Allowed (shown : List I) : ProducerOp I → Prop
  | .considerProduced k => shown ≠ [] ∧ k ≤ shown.length
  | .bulkProduce buf => buf ≠ []
  | _ => True

/-- `ProducerRuns P s₀ handed s shown ended`: some history of allowed calls, starting from state `s₀`, has led to state
`s`; the items handed out by the calls are `handed`, the items `shown` are currently exposed; `ended` is the final value or
error if the sequence has ended. Nothing is called after the end. -/
inductive ProducerRuns (P : BulkProducer σ I F E) (s₀ : σ) :
    List I → σ → List I → Option (Except E F) → Prop where
  | start : ProducerRuns P s₀ [] s₀ [] none
  | call {handed s shown op s' r} : ProducerRuns P s₀ handed s shown none → op.Allowed shown →
      P.call s shown op = ok (s', r) → ProducerRuns P s₀ (handed ++ r.items) s' r.shown r.ended

end

/-! ## Consumers -/

/-- A call of a method of a bulk consumer (`write ws`: the client writes `ws` to the first exposed slots). -/
inductive ConsumerOp (I F : Type) where
  | consume (x : I)
  | flush
  | exposeSlots
  | write (ws : List I)
  | consumeSlots (k : Nat)
  | bulkConsume (buf : List I)
  | close (f : F)
  deriving DecidableEq

/-- How a history of calls of a consumer ends: it was closed successfully, or a method failed to which the client offered
the items `offered` to consume. -/
inductive ConsumerEnd (I F E : Type) where
  | closed (f : F)
  | failed (e : E) (offered : List I)
  | closeFailed (e : E) (f : F)
  | flushFailed (e : E)

/-- What a client knows after a call: the items consumed by it, the contents of the currently exposed slots, and whether it
was the last call. -/
structure Receipt (I F E : Type) where
  items : List I
  slots : List I
  ended : Option (ConsumerEnd I F E)

section

variable {σ I F E : Type}

/-- Call a method of a bulk consumer whose exposed slots contain `slots`. All methods except writing and `consume_slots`
invalidate the exposed slots. -/
def BulkConsumer.call (C : BulkConsumer σ I F E) (s : σ) (slots : List I) :
    ConsumerOp I F → Outcome (σ × Receipt I F E)
  | .consume x => (C.consume s x).bind fun
    | (s, .ok ()) => ok (s, ⟨[x], [], none⟩)
    | (s, .error e) => ok (s, ⟨[], [], some (.failed e [x])⟩)
  | .flush => (C.flush s).bind fun
    | (s, .ok ()) => ok (s, ⟨[], [], none⟩)
    | (s, .error e) => ok (s, ⟨[], [], some (.flushFailed e)⟩)
  | .exposeSlots => (C.exposeSlots s).bind fun
    | (s, .ok slots) => ok (s, ⟨[], slots, none⟩)
    | (s, .error e) => ok (s, ⟨[], [], some (.failed e [])⟩)
  | .write ws => ok (C.writeSlots s ws, ⟨[], ws ++ slots.drop ws.length, none⟩)
  | .consumeSlots k => (C.consumeSlots s k).bind fun
    | (s, .ok ()) => ok (s, ⟨slots.take k, slots.drop k, none⟩)
    | (s, .error e) => ok (s, ⟨[], [], some (.failed e (slots.take k))⟩)
  | .bulkConsume buf => (C.bulkConsume s buf).bind fun
    | (s, .ok k) => ok (s, ⟨buf.take k, [], none⟩)
    | (s, .error e) => ok (s, ⟨[], [], some (.failed e buf)⟩)
  | .close f => (C.close s f).bind fun
    | (s, .ok ()) => ok (s, ⟨[], [], some (.closed f)⟩)
    | (s, .error e) => ok (s, ⟨[], [], some (.closeFailed e f)⟩)

/-- The documented invariants: write to exposed slots only, consume exposed slots only (and only while some are exposed).
Buffers passed to `bulk_consume` are required to be non-empty. -/
def ConsumerOp.Allowed (slots : List I) : ConsumerOp I F → Prop
  | .write ws => ws.length ≤ slots.length
  | .consumeSlots k => slots ≠ [] ∧ k ≤ slots.length
  | .bulkConsume buf => buf ≠ []
  | _ => True

/-- `ConsumerRuns C s₀ taken s slots ended`: some history of allowed calls, starting from state `s₀`, has led to state `s`;
the items consumed by successful calls are `taken`, the exposed slots contain `slots`; `ended` says how the history ended
(if it has). Nothing is called after the end. -/
inductive ConsumerRuns (C : BulkConsumer σ I F E) (s₀ : σ) :
    List I → σ → List I → Option (ConsumerEnd I F E) → Prop where
  | start : ConsumerRuns C s₀ [] s₀ [] none
  | call {taken s slots op s' r} : ConsumerRuns C s₀ taken s slots none → op.Allowed slots →
      C.call s slots op = ok (s', r) → ConsumerRuns C s₀ (taken ++ r.items) s' r.slots r.ended

end

/-! ## Producers and consumers without bulk methods -/

section

variable {σ I F E : Type}

/-- A buffered producer as a bulk producer whose further methods panic: its histories are those of `produce` and `slurp`. -/
def BufferedProducer.asBulk (P : BufferedProducer σ I F E) : BulkProducer σ I F E where
  toBufferedProducer := P
  exposeItems _ := .panic
  considerProduced _ _ := .panic

/-- A buffered consumer as a bulk consumer whose further methods panic: its histories are those of `consume`, `flush` and
`close` (and of writing nothing to no slots). -/
def BufferedConsumer.asBulk (C : BufferedConsumer σ I F E) : BulkConsumer σ I F E where
  toBufferedConsumer := C
  exposeSlots _ := .panic
  writeSlots s _ := s
  consumeSlots _ _ := .panic

end

/-! ## Producers and consumers whose methods end -/

section

variable {σ I F E : Type}

/-- All methods of the producer return or panic, and if items are exposed then at least one. -/
structure BulkProducer.Returns (P : BulkProducer σ I F E) : Prop where
  produce : ∀ s, P.produce s ≠ diverge
  slurp : ∀ s, P.slurp s ≠ diverge
  expose : ∀ s, P.exposeItems s ≠ diverge
  expose_ne : ∀ s s', P.exposeItems s ≠ ok (s', .ok (.inl []))
  consider : ∀ s k, P.considerProduced s k ≠ diverge

/-- All methods of the consumer return or panic, and if slots are exposed then at least one. -/
structure BulkConsumer.Returns (C : BulkConsumer σ I F E) : Prop where
  consume : ∀ s x, C.consume s x ≠ diverge
  close : ∀ s f, C.close s f ≠ diverge
  flush : ∀ s, C.flush s ≠ diverge
  expose : ∀ s, C.exposeSlots s ≠ diverge
  expose_ne : ∀ s s', C.exposeSlots s ≠ ok (s', .ok [])
  consumeSlots : ∀ s k, C.consumeSlots s k ≠ diverge

end

end Verif
