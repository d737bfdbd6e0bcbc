import Verif.Model.Io
import Verif.Model.AsyncTraits

/-!
# Adaptors for asynchronous readers and writers, poll by poll

Model of `/repo/ufotofu/src/producer/reader.rs` and `/repo/ufotofu/src/consumer/writer.rs`, as `Verif/Model/Io.lean`, for readers
and writers that may be pending. (`AsyncBufRead::consume` and the methods of the queues are not asynchronous.)
-/

namespace Verif.Async

open Outcome

/-- `AsyncRead`: `read` gets a buffer and returns the number of bytes read (or an error) and the new contents of the
buffer. -/
structure AsyncRead (ρ : Type) where
  read : ρ → List UInt8 → Fut (ρ × Except IoError Nat × List UInt8)

/-- `AsyncBufRead`. The slice returned by `fill_buf` is modelled by its contents. -/
structure AsyncBufRead (ρ : Type) extends AsyncRead ρ where
  fillBuf : ρ → Fut (ρ × Except IoError (List UInt8))
  consume : ρ → Nat → Outcome ρ

/-- `AsyncWrite` -/
structure AsyncWrite (ω : Type) where
  write : ω → List UInt8 → Fut (ω × Except IoError Nat)
  flush : ω → Fut (ω × Except IoError Unit)
  close : ω → Fut (ω × Except IoError Unit)

/-- Body of the loop of `read_exact` of futures-lite; state = (reader, filled part of the buffer, rest of the buffer).
`split_at_mut(n)` panics if the reader claims to have read more bytes than fit. -/
def readExactBody {ρ : Type} (Rd : AsyncRead ρ) :
    ρ × List UInt8 × List UInt8 → Fut (Step (ρ × List UInt8 × List UInt8) (ρ × Except IoError Unit × List UInt8))
  | (r, filled, rest) => do
    if rest = [] then
      return .done (r, .ok (), filled)
    else
      match ← Rd.read r rest with
      | (r, .error e, rest) => return .done (r, .error e, filled ++ rest)
      | (r, .ok n, rest) =>
        assert (n ≤ rest.length)
        if n = 0 then
          return .done (r, .error ⟨.unexpectedEof, none⟩, filled ++ rest)
        else
          return .continue (r, filled ++ rest.take n, rest.drop n)

/-- `AsyncReadExt::read_exact` of futures-lite; also returns the new contents of the buffer. -/
noncomputable def readExact {ρ : Type} (Rd : AsyncRead ρ) (r : ρ) (buf : List UInt8) :
    Fut (ρ × Except IoError Unit × List UInt8) :=
  Fut.loop (readExactBody Rd) (r, [], buf)

/-- Body of the loop of `write_all` of futures-lite; state = (writer, rest of the buffer). -/
def writeAllBody {ω : Type} (W : AsyncWrite ω) :
    ω × List UInt8 → Fut (Step (ω × List UInt8) (ω × Except IoError Unit))
  | (w, buf) => do
    if buf = [] then
      return .done (w, .ok ())
    else
      match ← W.write w buf with
      | (w, .error e) => return .done (w, .error e)
      | (w, .ok n) =>
        assert (n ≤ buf.length)
        if n = 0 then
          return .done (w, .error ⟨.writeZero, none⟩)
        else
          return .continue (w, buf.drop n)

/-- `AsyncWriteExt::write_all` of futures-lite. -/
noncomputable def writeAll {ω : Type} (W : AsyncWrite ω) (w : ω) (buf : List UInt8) :
    Fut (ω × Except IoError Unit) :=
  Fut.loop (writeAllBody W) (w, buf)

/-! ## `BufReaderToBulkProducer` -/

/-- The common part of the two `produce` methods, producer/reader.rs:49-58 and 149-158: read one byte, starting with a buffer
that contains `init`. -/
noncomputable def readByte {ρ : Type} (Rd : AsyncRead ρ) (r : ρ) (init : UInt8) :
    Fut (ρ × Except IoError (UInt8 ⊕ Unit)) := do
  match ← readExact Rd r [init] with
  | (r, .error err, _) =>
    if err.kind = .unexpectedEof then
      return (r, .ok (.inr ()))
    else
      return (r, .error err)
  | (r, .ok (), buf) => return (r, .ok (.inl (← index buf 0)))

/-- `/repo/ufotofu/src/producer/reader.rs:38-111` `impl {Producer, BufferedProducer, BulkProducer} for
BufReaderToBulkProducer<R>` (a newtype, so the state is that of the reader). -/
noncomputable def bufReaderProducer {ρ : Type} (Rd : AsyncBufRead ρ) : BulkProducer ρ UInt8 Unit IoError where
  /- reader.rs:47-59 -/
  produce r := readByte Rd.toAsyncRead r 0
  /- reader.rs:67-70 -/
  slurp r := do
    match ← Rd.fillBuf r with
    | (r, .error e) => return (r, .error e)
    | (r, .ok _) => return (r, .ok ())
  /- reader.rs:78-91 -/
  exposeItems r := do
    match ← Rd.fillBuf r with
    | (r, .error e) => return (r, .error e)
    | (r, .ok buf) =>
      if buf = [] then
        return (r, .ok (.inr ()))
      else
        match ← Rd.fillBuf r with
        | (r, .error e) => return (r, .error e)
        | (r, .ok buf) => return (r, .ok (.inl buf))
  /- reader.rs:93-96 -/
  considerProduced r amount := do
    let r ← Rd.consume r amount
    return (r, .ok ())
  /- reader.rs:99-110 -/
  bulkProduce r buf := do
    let (r, res, buf) ← Rd.read r buf
    return (r, readAnswer res, buf)

/-! ## `ReaderToBulkProducer` -/

/-- `/repo/ufotofu/src/producer/reader.rs:134-228` `impl {Producer, BufferedProducer, BulkProducer} for
ReaderToBulkProducer<R, Q>` -/
noncomputable def readerProducer {ρ κ : Type} (Rd : AsyncRead ρ) (Q : Queue κ UInt8) :
    BulkProducer (QueueReader ρ κ) UInt8 Unit IoError where
  /- reader.rs:144-162 -/
  produce s := do
    match ← Q.dequeue s.queue with
    | (queue, none) =>
      let (reader, res) ← readByte Rd s.reader 17
      return ({ reader := reader, queue := queue }, res)
    | (queue, some byte) => return ({ s with queue := queue }, .ok (.inl byte))
  /- reader.rs:171-173 -/
  slurp s := return (s, .ok ())
  /- reader.rs:182-203; the reader writes directly to the slots of the queue -/
  exposeItems s := do
    if Q.isEmpty s.queue then
      let (queue, slots) ← Q.exposeSlots s.queue
      let slots ← unwrap slots
      let (reader, res, slots) ← Rd.read s.reader slots
      let queue := Q.writeSlots queue slots
      match res with
      | .error e => return ({ reader := reader, queue := queue }, .error e)
      | .ok numReadBytes =>
        if numReadBytes = 0 then
          return ({ reader := reader, queue := queue }, .ok (.inr ()))
        else
          let queue ← Q.considerEnqueued queue numReadBytes
          let (queue, items) ← Q.exposeItems queue
          return ({ reader := reader, queue := queue }, .ok (.inl (← unwrap items)))
    else
      let (queue, items) ← Q.exposeItems s.queue
      return ({ s with queue := queue }, .ok (.inl (← unwrap items)))
  /- reader.rs:205-208 -/
  considerProduced s amount := do
    let queue ← Q.considerDequeued s.queue amount
    return ({ s with queue := queue }, .ok ())
  /- reader.rs:211-227 -/
  bulkProduce s buf := do
    if Q.isEmpty s.queue then
      let (reader, res, buf) ← Rd.read s.reader buf
      return ({ s with reader := reader }, readAnswer res, buf)
    else
      let (queue, amount, buf) ← Q.bulkDequeue s.queue buf
      return ({ s with queue := queue }, .ok (.inl amount), buf)

/-! ## `WriterToBulkConsumer` -/

namespace QueueWriter

variable {ω κ : Type}

/-- Body of the loop of `flush_internal_buffer`, consumer/writer.rs:34-44. -/
noncomputable def flushBody (W : AsyncWrite ω) (Q : Queue κ UInt8) (s : QueueWriter ω κ) :
    Fut (Step (QueueWriter ω κ) (QueueWriter ω κ × Except IoError Unit)) := do
  match ← Q.exposeItems s.queue with
  | (queue, none) => return .done ({ s with queue := queue }, .ok ())
  | (queue, some items) =>
    match ← writeAll W s.writer items with
    | (writer, .error e) => return .done ({ writer := writer, queue := queue }, .error e)
    | (writer, .ok ()) =>
      let queue ← Q.considerDequeued queue items.length
      return .continue { writer := writer, queue := queue }

/-- consumer/writer.rs:33-45 `flush_internal_buffer` -/
noncomputable def flushInternalBuffer (W : AsyncWrite ω) (Q : Queue κ UInt8) (s : QueueWriter ω κ) :
    Fut (QueueWriter ω κ × Except IoError Unit) :=
  Fut.loop (flushBody W Q) s

end QueueWriter

/-- `/repo/ufotofu/src/consumer/writer.rs:48-112` `impl {Consumer, BufferedConsumer, BulkConsumer} for
WriterToBulkConsumer<W, Q>` -/
noncomputable def writerConsumer {ω κ : Type} (W : AsyncWrite ω) (Q : Queue κ UInt8) :
    BulkConsumer (QueueWriter ω κ) UInt8 Unit IoError where
  /- writer.rs:57-61 -/
  consume s item := do
    match ← QueueWriter.flushInternalBuffer W Q s with
    | (s, .error e) => return (s, .error e)
    | (s, .ok ()) =>
      let (writer, res) ← writeAll W s.writer [item]
      return ({ s with writer := writer }, res)
  /- writer.rs:64-67 -/
  close s _ := do
    match ← QueueWriter.flushInternalBuffer W Q s with
    | (s, .error e) => return (s, .error e)
    | (s, .ok ()) =>
      let (writer, res) ← W.close s.writer
      return ({ s with writer := writer }, res)
  /- writer.rs:75-78 -/
  flush s := do
    match ← QueueWriter.flushInternalBuffer W Q s with
    | (s, .error e) => return (s, .error e)
    | (s, .ok ()) =>
      let (writer, res) ← W.flush s.writer
      return ({ s with writer := writer }, res)
  /- writer.rs:86-92 -/
  exposeSlots s := do
    match ← QueueWriter.flushInternalBuffer W Q s with
    | (s, .error e) => return (s, .error e)
    | (s, .ok ()) =>
      let (queue, slots) ← Q.exposeSlots s.queue
      return ({ s with queue := queue }, .ok (← unwrap slots))
  writeSlots s ws := { s with queue := Q.writeSlots s.queue ws }
  /- writer.rs:94-97 -/
  consumeSlots s amount := do
    let queue ← Q.considerEnqueued s.queue amount
    return ({ s with queue := queue }, .ok ())
  /- writer.rs:99-111 -/
  bulkConsume s buf := do
    match ← QueueWriter.flushInternalBuffer W Q s with
    | (s, .error e) => return (s, .error e)
    | (s, .ok ()) =>
      let (writer, res) ← W.write s.writer buf
      let s := { s with writer := writer }
      match res with
      | .error e => return (s, .error e)
      | .ok writtenAmount =>
        if writtenAmount = 0 then
          return (s, .error wroteZero)
        else
          return (s, .ok writtenAmount)

end Verif.Async
