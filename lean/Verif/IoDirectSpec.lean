import Verif.IoSpec
import Verif.QueueSpec
import Verif.History

/-!
# Specification of readers and writers without queues

`/repo/ufotofu/src/producer/reader.rs:113` and `/repo/ufotofu/src/consumer/writer.rs:9`: the queue is used by `expose_items`
(resp. `expose_slots`) only; all other methods, and everything implemented by them, transfer bytes directly between the caller and
the reader or writer.
-/

namespace Verif

open Outcome

/-- The same result with another state. -/
def Outcome.onState {σ τ A : Type} (g : σ → τ) (o : Outcome (σ × A)) : Outcome (τ × A) := o.bind fun (s, a) => ok (g s, a)

/-- The queue says that it is empty. -/
structure Queue.SaysEmpty {κ I : Type} (Q : Queue κ I) (q : κ) : Prop where
  isEmpty : Q.isEmpty q = true
  dequeue : Q.dequeue q = ok (q, none)
  exposeItems : Q.exposeItems q = ok (q, none)

/-- A reader without any queue: `produce` reads until it has got one byte (into a buffer that contains 17 at first), `slurp` does
nothing, `bulk_produce` reads once, into the buffer of the caller. There is nothing to expose. -/
noncomputable def bareReader {ρ : Type} (Rd : AsyncRead ρ) : BulkProducer ρ UInt8 Unit IoError where
  produce r := (readExact Rd r [17]).bind fun
    | (r, .ok (), buf) => (index buf 0).bind fun byte => ok (r, .ok (.inl byte))
    | (r, .error e, _) => ok (r, if e.kind = .unexpectedEof then .ok (.inr ()) else .error e)
  slurp r := ok (r, .ok ())
  exposeItems _ := .panic
  considerProduced _ _ := .panic
  bulkProduce r buf := (Rd.read r buf).bind fun
    | (r, .ok 0, buf) => ok (r, .ok (.inr ()), buf)
    | (r, .ok (n + 1), buf) => ok (r, .ok (.inl (n + 1)), buf)
    | (r, .error e, buf) => ok (r, .error e, buf)

/-- A writer without any queue: `consume` writes one byte, `bulk_consume` writes once, from the buffer of the caller. There are no
slots to expose. -/
noncomputable def bareWriter {ω : Type} (W : AsyncWrite ω) : BulkConsumer ω UInt8 Unit IoError where
  consume w x := writeAll W w [x]
  close w _ := W.close w
  flush w := W.flush w
  exposeSlots _ := .panic
  writeSlots w _ := w
  consumeSlots _ _ := .panic
  bulkConsume w buf := (W.write w buf).bind fun
    | (w, .ok 0) => ok (w, .error ⟨.writeZero, some "wrapped writer wrote zero bytes"⟩)
    | (w, .ok (n + 1)) => ok (w, .ok (n + 1))
    | (w, .error e) => ok (w, .error e)

/-- The calls that do not concern the exposed items. -/
def ProducerOp.Direct {I : Type} : ProducerOp I → Prop
  | .produce | .slurp | .bulkProduce _ => True
  | .exposeItems | .considerProduced _ => False

/-- The calls that do not concern exposed slots. -/
def ConsumerOp.Direct {I F : Type} : ConsumerOp I F → Prop
  | .consume _ | .flush | .bulkConsume _ | .close _ => True
  | .exposeSlots | .write _ | .consumeSlots _ => False

/-- The answers to a sequence of calls, which may also continue after the end of the sequence. -/
def BulkProducer.callAll {σ I F E : Type} (P : BulkProducer σ I F E) (s : σ) (shown : List I) :
    List (ProducerOp I) → Outcome (σ × List (Handout I F E))
  | [] => ok (s, [])
  | op :: ops => (P.call s shown op).bind fun (s, a) => (P.callAll s a.shown ops).bind fun (s, as) => ok (s, a :: as)

/-- The answers to a sequence of calls, which may also continue after the consumer has failed or has been closed. -/
def BulkConsumer.callAll {σ I F E : Type} (C : BulkConsumer σ I F E) (s : σ) (slots : List I) :
    List (ConsumerOp I F) → Outcome (σ × List (Receipt I F E))
  | [] => ok (s, [])
  | op :: ops => (C.call s slots op).bind fun (s, a) => (C.callAll s a.slots ops).bind fun (s, as) => ok (s, a :: as)

end Verif
