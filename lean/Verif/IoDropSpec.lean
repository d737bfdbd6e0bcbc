import Verif.ResumeSpec
import Verif.IoSpec
import Verif.QueueSpec
import Verif.Model.AsyncIo

/-!
# Dropped calls of the adaptors for readers and writers

What a dropped call of `BufReaderToBulkProducer`, `ReaderToBulkProducer` and `WriterToBulkConsumer` leaves, given what a dropped call of
the reader or writer leaves. (`poll_read` and `poll_write` transfer nothing when they are pending, so that dropping the futures of
`read` and `write` is harmless for most readers and writers. The adaptors are another matter.)
-/

namespace Verif.Async

open Outcome

variable {ρ ω κ : Type}

/-- `read r buf k r' buf'`: if the call of `read` with the buffer `buf` is dropped when its future is in the state `k`, then the reader
is left in the state `r'`, and the buffer contains `buf'`. -/
structure ReaderDrops (Rd : AsyncRead ρ) where
  read : (r : ρ) → (buf : List UInt8) → (Rd.read r buf).κ → ρ → List UInt8 → Prop

/-- A reader that, after a dropped call of `read`, has still the same to deliver. The buffer may have been overwritten. -/
structure ReaderDrops.Tolerated {Rd : AsyncRead ρ} (d : ReaderDrops Rd) (R : ρ → Script UInt8 Unit IoError → Prop) : Prop where
  read : ∀ {r c buf k r' buf'}, R r c → buf ≠ [] → (Rd.read r buf).Pending k → d.read r buf k r' buf' → R r' c ∧ buf'.length = buf.length

/-- The same for buffered readers. -/
structure BufReaderDrops (Rd : AsyncBufRead ρ) extends ReaderDrops Rd.toAsyncRead where
  fillBuf : (r : ρ) → (Rd.fillBuf r).κ → ρ → Prop

structure BufReaderDrops.Tolerated {Rd : AsyncBufRead ρ} (d : BufReaderDrops Rd) (R : ρ → Script UInt8 Unit IoError → Nat → Prop) :
    Prop where
  read : d.toReaderDrops.Tolerated fun r c => ∃ n, R r c n
  fillBuf : ∀ {r c n k r'}, R r c n → (Rd.fillBuf r).Pending k → d.fillBuf r k r' → ∃ m, R r' c m

/-- The same for writers. -/
structure WriterDrops (W : AsyncWrite ω) where
  write : (w : ω) → (buf : List UInt8) → (W.write w buf).κ → ω → Prop

/-- A writer to which, after a dropped call of `write`, the same has been written as before. -/
structure WriterDrops.Tolerated {W : AsyncWrite ω} (d : WriterDrops W) (R : ω → List UInt8 → Prop) : Prop where
  write : ∀ {w l buf k w'}, R w l → buf ≠ [] → (W.write w buf).Pending k → d.write w buf k w' → R w' l

/-- What dropped calls of `flush` and `close` of a writer leave. -/
structure WriterEndDrops (W : AsyncWrite ω) where
  flush : (w : ω) → (W.flush w).κ → ω → Prop
  close : (w : ω) → (W.close w).κ → ω → Prop

/-- A writer to which, after a dropped call of `flush` or `close`, the same has been written as before, and which is not closed. -/
structure WriterEndDrops.Tolerated {W : AsyncWrite ω} (e : WriterEndDrops W) (R : ω → List UInt8 → Prop) : Prop where
  flush : ∀ {w l k w'}, R w l → (W.flush w).Pending k → e.flush w k w' → R w' l
  close : ∀ {w l k w'}, R w l → (W.close w).Pending k → e.close w k w' → R w' l

/-- Every successful `write` takes the whole buffer. -/
def AsyncWrite.TakesAll (W : AsyncWrite ω) : Prop := ∀ w buf w' n, (W.write w buf).run = ok (w', .ok n) → n = buf.length

/-! ## Readers -/

/-- An iteration of the loop of `read_exact`, if there is still something to read (`readExactBody`). -/
def readExactStep (Rd : AsyncRead ρ) (r : ρ) (filled rest : List UInt8) :
    Fut (Step (ρ × List UInt8 × List UInt8) (ρ × Except IoError Unit × List UInt8)) := do
  match ← Rd.read r rest with
  | (r, .error e, rest) => return .done (r, .error e, filled ++ rest)
  | (r, .ok n, rest) =>
    assert (n ≤ rest.length)
    if n = 0 then
      return .done (r, .error ⟨.unexpectedEof, none⟩, filled ++ rest)
    else
      return .continue (r, filled ++ rest.take n, rest.drop n)

/-- producer/reader.rs:49-58, 149-158: the buffer of one byte is dropped as well. -/
inductive ReadByteDropped {Rd : AsyncRead ρ} (d : ReaderDrops Rd) (r : ρ) (init : UInt8) : (readByte Rd r init).κ → ρ → Prop where
  | mk {r₁ filled rest k kr r' buf'} : HEq k (Sum.inl kr : (readExactStep Rd r₁ filled rest).κ) → d.read r₁ rest kr r' buf' →
      ReadByteDropped d r init (Sum.inl ⟨(r₁, filled, rest), k⟩) r'

/-- `expose_items` of `BufReaderToBulkProducer` if there is something in the buffer, producer/reader.rs:89. -/
def bufReaderExposeStep (Rd : AsyncBufRead ρ) (r : ρ) : Fut (ρ × Except IoError (List UInt8 ⊕ Unit)) := do
  match ← Rd.fillBuf r with
  | (r, .error e) => return (r, .error e)
  | (r, .ok buf) => return (r, .ok (.inl buf))

/-- producer/reader.rs:78-91: `fill_buf` is called twice. -/
inductive BufReaderExposeDropped {Rd : AsyncBufRead ρ} (d : BufReaderDrops Rd) (r : ρ) :
    ((bufReaderProducer Rd).exposeItems r).κ → ρ → Prop where
  | first {k r'} : d.fillBuf r k r' → BufReaderExposeDropped d r (Sum.inl k) r'
  | second {r₁ buf k kf r'} : HEq k (Sum.inl kf : (bufReaderExposeStep Rd r₁).κ) → d.fillBuf r₁ kf r' →
      BufReaderExposeDropped d r (Sum.inr ⟨(r₁, .ok buf), k⟩) r'

/-- producer/reader.rs:99-110 -/
inductive BufReaderBulkProduceDropped {Rd : AsyncBufRead ρ} (d : BufReaderDrops Rd) (r : ρ) (buf : List UInt8) :
    ((bufReaderProducer Rd).bulkProduce r buf).κ → ρ → Prop where
  | mk {k r' buf'} : d.read r buf k r' buf' → BufReaderBulkProduceDropped d r buf (Sum.inl k) r'

/-- producer/reader.rs:78-96; `consider_produced` awaits nothing. -/
def bufReaderDrops {Rd : AsyncBufRead ρ} (d : BufReaderDrops Rd) : ProducerDrops (bufReaderProducer Rd) where
  exposeItems := BufReaderExposeDropped d
  considerProduced _ _ _ _ := False

def bufReaderItemDrops {Rd : AsyncBufRead ρ} (d : BufReaderDrops Rd) : ItemDrops (bufReaderProducer Rd).toProducer where
  produce r := ReadByteDropped d.toReaderDrops r 0

def bufReaderBulkDrops {Rd : AsyncBufRead ρ} (d : BufReaderDrops Rd) : BulkProduceDrops (bufReaderProducer Rd) where
  bulkProduce := BufReaderBulkProduceDropped d

/-- `produce` of `ReaderToBulkProducer`, producer/reader.rs:144-162: pending only if the queue is empty. -/
inductive ReaderProduceDropped {Rd : AsyncRead ρ} {Q : Queue κ UInt8} (d : ReaderDrops Rd) (s : QueueReader ρ κ) :
    ((readerProducer Rd Q).produce s).κ → QueueReader ρ κ → Prop where
  | mk {q k r'} : ReadByteDropped d s.reader 17 k r' → ReaderProduceDropped d s (Sum.inr ⟨(q, none), Sum.inl k⟩) ⟨r', q⟩

/-- `expose_items` of `ReaderToBulkProducer` if the queue is empty, producer/reader.rs:190-199. -/
def readerExposeStep (Rd : AsyncRead ρ) (Q : Queue κ UInt8) (s : QueueReader ρ κ) :
    Fut (QueueReader ρ κ × Except IoError (List UInt8 ⊕ Unit)) := do
  let (queue, slots) ← Q.exposeSlots s.queue
  let slots ← unwrap slots
  let (reader, res, slots) ← Rd.read s.reader slots
  let queue := Q.writeSlots queue slots
  match res with
  | .error e => return ({ reader := reader, queue := queue }, .error e)
  | .ok numReadBytes =>
    if numReadBytes = 0 then
      return ({ reader := reader, queue := queue }, .ok (.inr ()))
    else
      let queue ← Q.considerEnqueued queue numReadBytes
      let (queue, items) ← Q.exposeItems queue
      return ({ reader := reader, queue := queue }, .ok (.inl (← unwrap items)))

/-- producer/reader.rs:182-203: the slots of the queue may have been overwritten. -/
inductive ReaderExposeDropped {Rd : AsyncRead ρ} {Q : Queue κ UInt8} (d : ReaderDrops Rd) (s : QueueReader ρ κ) :
    ((readerProducer Rd Q).exposeItems s).κ → QueueReader ρ κ → Prop where
  | mk {k q osl sl kr r' sl'} : HEq k (Sum.inr ⟨(q, osl), Sum.inr ⟨sl, Sum.inl kr⟩⟩ : (readerExposeStep Rd Q s).κ) →
      d.read s.reader sl kr r' sl' → ReaderExposeDropped d s k ⟨r', Q.writeSlots q sl'⟩

/-- `bulk_produce` of `ReaderToBulkProducer` if the queue is empty, producer/reader.rs:217-223. -/
def readerBulkStep (Rd : AsyncRead ρ) (s : QueueReader ρ κ) (buf : List UInt8) :
    Fut (QueueReader ρ κ × Except IoError (Nat ⊕ Unit) × List UInt8) := do
  let (reader, res, buf) ← Rd.read s.reader buf
  return ({ s with reader := reader }, readAnswer res, buf)

/-- producer/reader.rs:211-227 -/
inductive ReaderBulkProduceDropped {Rd : AsyncRead ρ} {Q : Queue κ UInt8} (d : ReaderDrops Rd) (s : QueueReader ρ κ) (buf : List UInt8) :
    ((readerProducer Rd Q).bulkProduce s buf).κ → QueueReader ρ κ → Prop where
  | mk {k kr r' buf'} : HEq k (Sum.inl kr : (readerBulkStep Rd s buf).κ) → d.read s.reader buf kr r' buf' →
      ReaderBulkProduceDropped d s buf k ⟨r', s.queue⟩

/-- producer/reader.rs:182-208; `consider_produced` awaits nothing. -/
def readerDrops {Rd : AsyncRead ρ} (Q : Queue κ UInt8) (d : ReaderDrops Rd) : ProducerDrops (readerProducer Rd Q) where
  exposeItems := ReaderExposeDropped d
  considerProduced _ _ _ _ := False

def readerItemDrops {Rd : AsyncRead ρ} (Q : Queue κ UInt8) (d : ReaderDrops Rd) : ItemDrops (readerProducer Rd Q).toProducer where
  produce := ReaderProduceDropped d

def readerBulkDrops {Rd : AsyncRead ρ} (Q : Queue κ UInt8) (d : ReaderDrops Rd) : BulkProduceDrops (readerProducer Rd Q) where
  bulkProduce := ReaderBulkProduceDropped d

/-! ## Writers -/

/-- An iteration of the loop of `write_all`, if there is still something to write (`writeAllBody`). -/
def writeAllStep (W : AsyncWrite ω) (w : ω) (buf : List UInt8) : Fut (Step (ω × List UInt8) (ω × Except IoError Unit)) := do
  match ← W.write w buf with
  | (w, .error e) => return .done (w, .error e)
  | (w, .ok n) =>
    assert (n ≤ buf.length)
    if n = 0 then
      return .done (w, .error ⟨.writeZero, none⟩)
    else
      return .continue (w, buf.drop n)

/-- `write_all` is dropped while `write` is pending. How much has been written is dropped as well. -/
inductive WriteAllDropped {W : AsyncWrite ω} (d : WriterDrops W) (w : ω) (buf : List UInt8) : (writeAll W w buf).κ → ω → Prop where
  | mk {w₁ rest k kw w'} : HEq k (Sum.inl kw : (writeAllStep W w₁ rest).κ) → d.write w₁ rest kw w' →
      WriteAllDropped d w buf ⟨(w₁, rest), k⟩ w'

/-- `flush_internal_buffer`, consumer/writer.rs:33-45, is dropped while `write_all` is pending: `consider_dequeued` is not called. -/
inductive FlushDropped {W : AsyncWrite ω} {Q : Queue κ UInt8} (d : WriterDrops W) (s : QueueWriter ω κ) :
    (QueueWriter.flushInternalBuffer W Q s).κ → QueueWriter ω κ → Prop where
  | mk {s₁ q items k w'} : WriteAllDropped d s₁.writer items k w' →
      FlushDropped d s ⟨s₁, Sum.inr ⟨(q, some items), Sum.inl k⟩⟩ ⟨w', q⟩

/-- consumer/writer.rs:57-61 -/
inductive WriterConsumeDropped {W : AsyncWrite ω} {Q : Queue κ UInt8} (d : WriterDrops W) (s : QueueWriter ω κ) (x : UInt8) :
    ((writerConsumer W Q).consume s x).κ → QueueWriter ω κ → Prop where
  | flushing {k s'} : FlushDropped d s k s' → WriterConsumeDropped d s x (Sum.inl k) s'
  | writing {s₁ k w'} : WriteAllDropped d s₁.writer [x] k w' →
      WriterConsumeDropped d s x (Sum.inr ⟨(s₁, .ok ()), Sum.inl k⟩) ⟨w', s₁.queue⟩

/-- consumer/writer.rs:99-111 -/
inductive WriterBulkConsumeDropped {W : AsyncWrite ω} {Q : Queue κ UInt8} (d : WriterDrops W) (s : QueueWriter ω κ) (buf : List UInt8) :
    ((writerConsumer W Q).bulkConsume s buf).κ → QueueWriter ω κ → Prop where
  | flushing {k s'} : FlushDropped d s k s' → WriterBulkConsumeDropped d s buf (Sum.inl k) s'
  | writing {s₁ k w'} : d.write s₁.writer buf k w' →
      WriterBulkConsumeDropped d s buf (Sum.inr ⟨(s₁, .ok ()), Sum.inl k⟩) ⟨w', s₁.queue⟩

/-- consumer/writer.rs:86-92 -/
inductive WriterExposeDropped {W : AsyncWrite ω} {Q : Queue κ UInt8} (d : WriterDrops W) (s : QueueWriter ω κ) :
    ((writerConsumer W Q).exposeSlots s).κ → QueueWriter ω κ → Prop where
  | flushing {k s'} : FlushDropped d s k s' → WriterExposeDropped d s (Sum.inl k) s'

/-- consumer/writer.rs:75-78 -/
inductive WriterFlushDropped {W : AsyncWrite ω} {Q : Queue κ UInt8} (d : WriterDrops W) (e : WriterEndDrops W) (s : QueueWriter ω κ) :
    ((writerConsumer W Q).flush s).κ → QueueWriter ω κ → Prop where
  | flushing {k s'} : FlushDropped d s k s' → WriterFlushDropped d e s (Sum.inl k) s'
  | ending {s₁ k w'} : e.flush s₁.writer k w' → WriterFlushDropped d e s (Sum.inr ⟨(s₁, .ok ()), Sum.inl k⟩) ⟨w', s₁.queue⟩

/-- consumer/writer.rs:64-67 -/
inductive WriterCloseDropped {W : AsyncWrite ω} {Q : Queue κ UInt8} (d : WriterDrops W) (e : WriterEndDrops W) (s : QueueWriter ω κ) :
    ((writerConsumer W Q).close s ()).κ → QueueWriter ω κ → Prop where
  | flushing {k s'} : FlushDropped d s k s' → WriterCloseDropped d e s (Sum.inl k) s'
  | ending {s₁ k w'} : e.close s₁.writer k w' → WriterCloseDropped d e s (Sum.inr ⟨(s₁, .ok ()), Sum.inl k⟩) ⟨w', s₁.queue⟩

def writerDrops {W : AsyncWrite ω} (Q : Queue κ UInt8) (d : WriterDrops W) : ConsumerDrops (writerConsumer W Q) where
  bulkConsume := WriterBulkConsumeDropped d

/-- consumer/writer.rs:86-97; `consume_slots` awaits nothing. -/
def writerSlotDrops {W : AsyncWrite ω} (Q : Queue κ UInt8) (d : WriterDrops W) : SlotDrops (writerConsumer W Q) where
  exposeSlots := WriterExposeDropped d
  consumeSlots _ _ _ _ := False

def writerConsumeDrops {W : AsyncWrite ω} (Q : Queue κ UInt8) (d : WriterDrops W) : ConsumeDrops (writerConsumer W Q).toConsumer where
  consume := WriterConsumeDropped d

/-- The bytes `out` had been written to the writer, and `l` were in the queue. The first part `xs` of `l` has been written and
dequeued, the second part `ys` has been written and is still in the queue, the rest `zs` has not been written. -/
def WriterLeft (R : ω → List UInt8 → Prop) (RQ : κ → List UInt8 → List UInt8 → Nat → Prop) (out slots : List UInt8)
    (xs ys zs : List UInt8) (s : QueueWriter ω κ) : Prop :=
  R s.writer (out ++ xs ++ ys) ∧ ∃ n, RQ s.queue (ys ++ zs) slots n

end Verif.Async
