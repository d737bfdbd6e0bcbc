import Verif.Lemmas.Async
import Verif.Model.AsyncIo

/-!
# Suspension does not matter: readers and writers (C61)
-/

namespace Verif.Async

open Outcome

variable {ρ ω κ : Type}

/-- Every future of the reader is polled to completion. -/
noncomputable def AsyncRead.seq (Rd : AsyncRead ρ) : Verif.AsyncRead ρ where
  read r buf := (Rd.read r buf).run

noncomputable def AsyncBufRead.seq (Rd : AsyncBufRead ρ) : Verif.AsyncBufRead ρ where
  toAsyncRead := Rd.toAsyncRead.seq
  fillBuf r := (Rd.fillBuf r).run
  consume := Rd.consume

/-- Every future of the writer is polled to completion. -/
noncomputable def AsyncWrite.seq (W : AsyncWrite ω) : Verif.AsyncWrite ω where
  write w buf := (W.write w buf).run
  flush w := (W.flush w).run
  close w := (W.close w).run

theorem readExact_run (Rd : AsyncRead ρ) (r : ρ) (buf : List UInt8) :
    (readExact Rd r buf).run = Verif.readExact Rd.seq r buf := by
  refine Fut.run_loop_congr fun x => ?_
  obtain ⟨r, filled, rest⟩ := x
  dsimp only [readExactBody, Verif.readExactBody]
  run_congr

theorem writeAll_run (W : AsyncWrite ω) (w : ω) (buf : List UInt8) :
    (writeAll W w buf).run = Verif.writeAll W.seq w buf := by
  refine Fut.run_loop_congr fun x => ?_
  obtain ⟨w, buf⟩ := x
  dsimp only [writeAllBody, Verif.writeAllBody]
  run_congr

theorem readByte_run (Rd : AsyncRead ρ) (r : ρ) (init : UInt8) : (readByte Rd r init).run = Verif.readByte Rd.seq r init := by
  refine Fut.run_bind_congr (readExact_run Rd r [init]) fun x => ?_
  rcases x with ⟨r, e | ⟨⟩, buf⟩ <;> dsimp only <;> run_congr

theorem bufReaderProducer_seq (Rd : AsyncBufRead ρ) : (bufReaderProducer Rd).seq = Verif.bufReaderProducer Rd.seq := by
  refine BulkProducer.seq_of (BufferedProducer.seq_of (Producer.seq_of fun s => readByte_run Rd.toAsyncRead s 0) fun s => ?_)
    (fun s => ?_) (fun s n => ?_) (fun s buf => ?_) <;> dsimp only [bufReaderProducer, Verif.bufReaderProducer]
  · run_congr
  · refine Fut.run_bind_congr rfl fun x => ?_
    rcases x with ⟨r, e | buf⟩ <;> dsimp only <;> run_congr
  · run_congr
  · run_congr

theorem readerProducer_seq (Rd : AsyncRead ρ) (Q : Queue κ UInt8) :
    (readerProducer Rd Q).seq = Verif.readerProducer Rd.seq Q := by
  refine BulkProducer.seq_of (BufferedProducer.seq_of (Producer.seq_of fun s => ?_) fun s => ?_)
    (fun s => ?_) (fun s n => ?_) (fun s buf => ?_) <;> dsimp only [readerProducer, Verif.readerProducer]
  · refine Fut.run_bind_congr (Fut.run_liftM _) fun x => ?_
    rcases x with ⟨q, _ | b⟩
    · refine Fut.run_bind_congr (readByte_run Rd s.reader 17) fun x => ?_
      run_congr
    · run_congr
  · run_congr
  · split
    · refine Fut.run_bind_congr (Fut.run_liftM _) fun x => ?_
      refine Fut.run_bind_congr (Fut.run_liftM _) fun slots => ?_
      refine Fut.run_bind_congr rfl fun x => ?_
      rcases x with ⟨r, e | n, slots⟩ <;> dsimp only <;> run_congr
    · run_congr
  · run_congr
  · run_congr

theorem flushInternalBuffer_run (W : AsyncWrite ω) (Q : Queue κ UInt8) (s : QueueWriter ω κ) :
    (QueueWriter.flushInternalBuffer W Q s).run = Verif.QueueWriter.flushInternalBuffer W.seq Q s := by
  refine Fut.run_loop_congr fun s => ?_
  refine Fut.run_bind_congr (Fut.run_liftM _) fun x => ?_
  rcases x with ⟨q, _ | items⟩
  · run_congr
  · refine Fut.run_bind_congr (writeAll_run W s.writer items) fun x => ?_
    run_congr

theorem writerConsumer_seq (W : AsyncWrite ω) (Q : Queue κ UInt8) :
    (writerConsumer W Q).seq = Verif.writerConsumer W.seq Q := by
  refine BulkConsumer.seq_of (BufferedConsumer.seq_of (Consumer.seq_of (fun s item => ?_) fun s fin => ?_) fun s => ?_)
    (fun s => ?_) (fun _ _ => rfl) (fun s n => ?_) (fun s buf => ?_)
  · refine Fut.run_bind_congr (flushInternalBuffer_run W Q s) fun x => ?_
    rcases x with ⟨s, e | ⟨⟩⟩
    · run_congr
    · refine Fut.run_bind_congr (writeAll_run W s.writer [item]) fun x => ?_
      run_congr
  · refine Fut.run_bind_congr (flushInternalBuffer_run W Q s) fun x => ?_
    run_congr
  · refine Fut.run_bind_congr (flushInternalBuffer_run W Q s) fun x => ?_
    run_congr
  · refine Fut.run_bind_congr (flushInternalBuffer_run W Q s) fun x => ?_
    run_congr
  · dsimp only [writerConsumer, Verif.writerConsumer]
    run_congr
  · refine Fut.run_bind_congr (flushInternalBuffer_run W Q s) fun x => ?_
    rcases x with ⟨s, e | ⟨⟩⟩
    · run_congr
    · refine Fut.run_bind_congr rfl fun x => ?_
      rcases x with ⟨w, e | n⟩ <;> dsimp only <;> run_congr

end Verif.Async
