import Verif.Model.AsyncTraits
import Verif.Model.AsyncIo
import Verif.Model.AsyncCodec

/-!
# Futures that wait for others only

Executors poll a future that is pending again only after somebody has called the waker that was passed to the last poll. So a
future must not be pending unless somebody who will call the waker got it. The futures at the bottom (timers, sockets, channels)
keep the waker when they are polled and are pending, and call it when the outside world lets them go on. What is left to say about
a future that is made of others: if all futures that were polled and are pending would be pending again if they were polled again,
because the outside world has not let them go on, then so would be the whole. Otherwise the future could go on without anybody
calling its waker, which is known as a lost wake-up.
-/

namespace Verif

open Outcome

/-- Once the future is pending, polling it again changes nothing: it waits for something that does not happen. -/
structure Fut.Hangs {A : Type} (f : Fut A) : Prop where
  again : ∀ k k', f.poll k = ok (.pending k') → f.poll k' = ok (.pending k')

namespace Async

variable {σ I F E T R : Type}

/-- All methods hang or do not wait for anything. -/
structure Producer.Hangs (P : Producer σ I F E) : Prop where
  produce : ∀ s, (P.produce s).Hangs

structure BufferedProducer.Hangs (P : BufferedProducer σ I F E) : Prop extends P.toProducer.Hangs where
  slurp : ∀ s, (P.slurp s).Hangs

structure BulkProducer.Hangs (P : BulkProducer σ I F E) : Prop extends toBuffered : P.toBufferedProducer.Hangs where
  exposeItems : ∀ s, (P.exposeItems s).Hangs
  considerProduced : ∀ s amount, (P.considerProduced s amount).Hangs
  bulkProduce : ∀ s buf, (P.bulkProduce s buf).Hangs

structure Consumer.Hangs (C : Consumer σ I F E) : Prop where
  consume : ∀ s item, (C.consume s item).Hangs
  close : ∀ s fin, (C.close s fin).Hangs

structure BufferedConsumer.Hangs (C : BufferedConsumer σ I F E) : Prop extends C.toConsumer.Hangs where
  flush : ∀ s, (C.flush s).Hangs

structure BulkConsumer.Hangs (C : BulkConsumer σ I F E) : Prop extends toBuffered : C.toBufferedConsumer.Hangs where
  exposeSlots : ∀ s, (C.exposeSlots s).Hangs
  consumeSlots : ∀ s amount, (C.consumeSlots s amount).Hangs
  bulkConsume : ∀ s buf, (C.bulkConsume s buf).Hangs

structure AsyncRead.Hangs (Rd : AsyncRead σ) : Prop where
  read : ∀ r buf, (Rd.read r buf).Hangs

structure AsyncBufRead.Hangs (Rd : AsyncBufRead σ) : Prop extends Rd.toAsyncRead.Hangs where
  fillBuf : ∀ r, (Rd.fillBuf r).Hangs

structure AsyncWrite.Hangs (W : AsyncWrite σ) : Prop where
  write : ∀ s buf, (W.write s buf).Hangs
  flush : ∀ s, (W.flush s).Hangs
  close : ∀ s, (W.close s).Hangs

/-- Encoding waits only for the consumer of the bytes. -/
def EncodeFn.Hangs (f : EncodeFn T) : Prop :=
  ∀ {σ F E : Type} (C : BulkConsumer σ UInt8 F E), C.Hangs → ∀ s x, (f C s x).Hangs

/-- Decoding waits only for the producer of the bytes. -/
def DecodeFn.Hangs (f : DecodeFn T R) : Prop :=
  ∀ {σ F E : Type} (P : BulkProducer σ UInt8 F E), P.Hangs → ∀ s, (f P s).Hangs

end Async

end Verif
