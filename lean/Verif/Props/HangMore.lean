import Verif.Props.Hang
import Verif.Model.AsyncScramblers
import Verif.Model.AsyncIo
import Verif.Model.AsyncCodec
import Verif.Model.AsyncTestDoubles
import Verif.Lemmas.TestDoubles

/-!
# Pending scramblers, readers, writers and codecs wait for what they wrap (C65)
-/

namespace Verif.Async

open Outcome

variable {σ τ I F E : Type} 

/-! ## Scramblers -/

theorem ProducerScrambler.performOperation_hangs {P : BulkProducer σ I F E} (hP : P.Hangs) (debug : Bool)
    (s : ProducerScrambler σ I F E) :
    (ProducerScrambler.performOperation debug P s).Hangs := by
  have h1 := hP.toBuffered.toHangs.produce
  have h2 := hP.exposeItems
  have h3 := hP.considerProduced
  have h4 := hP.toBuffered.slurp
  unfold ProducerScrambler.performOperation
  hangs

theorem ProducerScrambler.fillQueue_hangs {P : BulkProducer σ I F E} (hP : P.Hangs) (debug : Bool)
    (s : ProducerScrambler σ I F E) :
    (ProducerScrambler.fillQueue debug P s).Hangs := by
  have h1 : ∀ s, (Fut.loop (ProducerScrambler.fillBody debug P) s).Hangs := by
    refine Fut.Hangs.loop (body := ProducerScrambler.fillBody debug P)
      fun s => ?_
    have h := ProducerScrambler.performOperation_hangs hP debug
    unfold ProducerScrambler.fillBody
    hangs
  unfold ProducerScrambler.fillQueue
  hangs

theorem producerScrambler_hangs {P : BulkProducer σ I F E} (hP : P.Hangs) (debug : Bool) :
    (producerScrambler debug P).Hangs := by
  have hf := ProducerScrambler.fillQueue_hangs hP debug
  have hs := hP.toBuffered.slurp
  have hi : ∀ s : ProducerScrambler σ I F E,
      (ProducerScrambler.slurpInner P s).Hangs := by
    intro s
    unfold ProducerScrambler.slurpInner
    hangs
  have he : ∀ s, ((producerScrambler debug P).exposeItems s).Hangs := by
    intro s
    dsimp only [producerScrambler, ProducerScrambler.exposeItems]
    hangs
  have hc : ∀ s amount, ((producerScrambler debug P).considerProduced s amount).Hangs := by
    intro s amount
    dsimp only [producerScrambler, ProducerScrambler.considerProduced]
    hangs
  refine ⟨⟨⟨fun s => ?_⟩, fun s => ?_⟩, he, hc,
    bulkProduceDefault_hangs he hc⟩
  · dsimp only [producerScrambler, ProducerScrambler.produce]
    hangs
  · dsimp only [producerScrambler, ProducerScrambler.slurp]
    hangs

theorem ConsumerScrambler.performOperation_hangs {C : BulkConsumer σ I F E} (hC : C.Hangs) (debug : Bool)
    (s : ConsumerScrambler σ I) :
    (ConsumerScrambler.performOperation debug C s).Hangs := by
  have h1 := hC.toBuffered.toHangs.consume
  have h2 := hC.exposeSlots
  have h3 := hC.consumeSlots
  have h4 := hC.toBuffered.flush
  unfold ConsumerScrambler.performOperation
  hangs

theorem ConsumerScrambler.drain_hangs {C : BulkConsumer σ I F E} (hC : C.Hangs) (debug : Bool) (s : ConsumerScrambler σ I) :
    (ConsumerScrambler.drain debug C s).Hangs := by
  refine Fut.Hangs.loop (body := ConsumerScrambler.drainBody debug C)
    (fun s => ?_) s
  have h := ConsumerScrambler.performOperation_hangs hC debug
  unfold ConsumerScrambler.drainBody
  hangs

theorem consumerScrambler_hangs {C : BulkConsumer σ I F E} (hC : C.Hangs) (debug : Bool) :
    (consumerScrambler debug C).Hangs := by
  have hd := ConsumerScrambler.drain_hangs hC debug
  have h1 := hC.toBuffered.toHangs.close
  have h2 := hC.toBuffered.flush
  have he : ∀ s, ((consumerScrambler debug C).exposeSlots s).Hangs := by
    intro s
    dsimp only [consumerScrambler, ConsumerScrambler.exposeSlots]
    hangs
  have hc : ∀ s amount, ((consumerScrambler debug C).consumeSlots s amount).Hangs := by
    intro s amount
    dsimp only [consumerScrambler, ConsumerScrambler.consumeSlots]
    hangs
  refine ⟨⟨⟨fun s item => ?_, fun s fin => ?_⟩, fun s => ?_⟩, he, hc,
    bulkConsumeDefault_hangs (writeSlots := (consumerScrambler debug C).writeSlots) he hc⟩
  · dsimp only [consumerScrambler, ConsumerScrambler.consume]
    hangs
  · dsimp only [consumerScrambler, ConsumerScrambler.close]
    hangs
  · dsimp only [consumerScrambler, ConsumerScrambler.flush]
    hangs

example : (producerScrambler true (Case.stalled id)).Hangs ∧ (consumerScrambler false (Case.stalledConsumer (I := Nat))).Hangs :=
  ⟨producerScrambler_hangs (Case.stalled_hangs id) true, consumerScrambler_hangs Case.stalledConsumer_hangs false⟩

/-! ## Readers and writers -/

theorem readByte_hangs {Rd : AsyncRead σ} (h : Rd.Hangs) (r : σ) (init : UInt8) :
    (readByte Rd r init).Hangs := by
  have hr : ∀ r buf, (readExact Rd r buf).Hangs := by
    intro r buf
    refine Fut.Hangs.loop (body := readExactBody Rd) (fun x => ?_) (r, [], buf)
    have h := h.read
    unfold readExactBody
    hangs
  unfold readByte
  hangs

theorem writeAll_hangs {W : AsyncWrite σ} (h : W.Hangs) (s : σ) (buf : List UInt8) :
    (writeAll W s buf).Hangs := by
  refine Fut.Hangs.loop (body := writeAllBody W) (fun x => ?_) (s, buf)
  have h := h.write
  unfold writeAllBody
  hangs

theorem bufReaderProducer_hangs {Rd : AsyncBufRead σ} (h : Rd.Hangs) : (bufReaderProducer Rd).Hangs := by
  have h1 := readByte_hangs h.toHangs
  have h2 := h.fillBuf
  have h3 := h.toHangs.read
  refine ⟨⟨⟨fun s => h1 s 0⟩, fun s => ?_⟩, fun s => ?_, fun s amount => ?_, fun s buf => ?_⟩ <;> dsimp only [bufReaderProducer] <;>
    hangs

theorem readerProducer_hangs {Rd : AsyncRead σ} (h : Rd.Hangs) (Q : Queue τ UInt8) :
    (readerProducer Rd Q).Hangs := by
  have h1 := readByte_hangs h
  have h2 := h.read
  refine ⟨⟨⟨fun s => ?_⟩, fun s => ?_⟩, fun s => ?_, fun s amount => ?_, fun s buf => ?_⟩ <;> dsimp only [readerProducer] <;>
    hangs

theorem writerConsumer_hangs {W : AsyncWrite σ} (h : W.Hangs) (Q : Queue τ UInt8) :
    (writerConsumer W Q).Hangs := by
  have h1 := writeAll_hangs h
  have hf : ∀ s, (QueueWriter.flushInternalBuffer W Q s).Hangs := by
    refine Fut.Hangs.loop (body := QueueWriter.flushBody W Q) fun s => ?_
    unfold QueueWriter.flushBody
    hangs
  obtain ⟨h2, h3, h4⟩ := h
  refine ⟨⟨⟨fun s item => ?_, fun s fin => ?_⟩, fun s => ?_⟩, fun s => ?_, fun s amount => ?_, fun s buf => ?_⟩ <;>
    dsimp only [writerConsumer] <;> hangs

/-- A connection: reads fill one byte, three times; then no more bytes arrive. Writing one byte at a time works three times. -/
def Case.slowRead : AsyncBufRead Nat where
  read s buf := if s < 3 then return (s + 1, .ok (min 1 buf.length), buf) else Case.never _
  fillBuf s := if s < 3 then return (s, .ok [7]) else Case.never _
  consume s amount := ok (s + amount)

def Case.slowWrite : AsyncWrite Nat where
  write s buf := if s < 3 then return (s + 1, .ok (min 1 buf.length)) else Case.never _
  flush s := return (s, .ok ())
  close s := return (s, .ok ())

theorem Case.slowRead_hangs : Case.slowRead.Hangs := by
  have hn := Case.never_hangs
  refine ⟨⟨fun r buf => ?_⟩, fun r => ?_⟩ <;> dsimp only [Case.slowRead] <;> hangs

theorem Case.slowWrite_hangs : Case.slowWrite.Hangs := by
  have hn := Case.never_hangs
  refine ⟨fun r buf => ?_, fun r => ?_, fun r => ?_⟩ <;> dsimp only [Case.slowWrite] <;> hangs

example (Q : Queue τ UInt8) : (bufReaderProducer Case.slowRead).Hangs ∧ (readerProducer Case.slowRead.toAsyncRead Q).Hangs ∧
    (writerConsumer Case.slowWrite Q).Hangs :=
  ⟨bufReaderProducer_hangs Case.slowRead_hangs, readerProducer_hangs Case.slowRead_hangs.toHangs Q,
    writerConsumer_hangs Case.slowWrite_hangs Q⟩

/-! ## Codecs -/

theorem FixedInt.encode_hangs {T : Type} {N : Nat} (i : FixedInt T N) (o : ByteOrder) : EncodeFn.Hangs (FixedInt.encode i o) := by
  intro σ F E C hC s x
  have h := bulkConsumeFullSlice_hangs hC
  unfold FixedInt.encode
  hangs

theorem FixedInt.decode_hangs {T : Type} {N : Nat} (i : FixedInt T N) (o : ByteOrder) : DecodeFn.Hangs (FixedInt.decode i o) := by
  intro σ F E P hP s
  have h := bulkOverwriteFullSlice_hangs hP
  unfold FixedInt.decode
  hangs

variable {T R RC Rel B : Type}

theorem encoder_hangs {t : Encodable T} (ht : EncodeFn.Hangs t.encode) {C : BulkConsumer σ UInt8 F E} (hC : C.Hangs) :
    (encoder t C).Hangs :=
  ⟨⟨ht C hC, hC.toBuffered.toHangs.close⟩, hC.toBuffered.flush⟩

theorem decoderProduce_hangs {f : DecodeFn T R} (hf : DecodeFn.Hangs f) {P : BulkProducer σ UInt8 F E} (hP : P.Hangs)
    (s : σ) : (decoderProduce f P s).Hangs := by
  have h1 := hf P hP
  clear hf
  have h2 := hP.exposeItems
  unfold decoderProduce
  hangs

theorem decoderSlurp_hangs {P : BulkProducer σ UInt8 F E} (hP : P.Hangs) (s : σ) :
    (decoderSlurp (R := R) P s).Hangs := by
  have h := hP.toBuffered.slurp
  unfold decoderSlurp
  hangs

theorem decoder_hangs {t : Decodable T R} (ht : DecodeFn.Hangs t.decode) {P : BulkProducer σ UInt8 F E} (hP : P.Hangs) :
    (decoder t P).Hangs :=
  ⟨⟨decoderProduce_hangs ht hP⟩, decoderSlurp_hangs hP⟩

theorem canonicDecoder_hangs {t : DecodableCanonic T R RC} (ht : DecodeFn.Hangs t.decodeCanonic) {P : BulkProducer σ UInt8 F E}
    (hP : P.Hangs) : (canonicDecoder t P).Hangs :=
  ⟨⟨decoderProduce_hangs ht hP⟩, decoderSlurp_hangs hP⟩

theorem relativeEncoder_hangs {t : RelativeEncodable T Rel} (ht : ∀ r, EncodeFn.Hangs (t.relativeEncode r)) (borrow : B → Rel)
    {C : BulkConsumer σ UInt8 F E} (hC : C.Hangs) : (relativeEncoder t borrow C).Hangs := by
  have h1 := fun r => ht r C hC
  clear ht
  have h2 := hC.toBuffered.toHangs.close
  have h3 := hC.toBuffered.flush
  refine ⟨⟨fun s x => ?_, fun s fin => ?_⟩, fun s => ?_⟩ <;> dsimp only [relativeEncoder] <;> hangs

theorem relativeDecoder_hangs {t : RelativeDecodable T Rel R} (ht : ∀ r, DecodeFn.Hangs (t.relativeDecode r)) (borrow : B → Rel)
    {P : BulkProducer σ UInt8 F E} (hP : P.Hangs) : (relativeDecoder t borrow P).Hangs := by
  have h1 := fun r => decoderProduce_hangs (ht r) hP
  have h2 := decoderSlurp_hangs (R := R) hP
  refine ⟨⟨fun s => ?_⟩, fun s => ?_⟩ <;> dsimp only [relativeDecoder] <;> hangs

theorem relativeCanonicDecoder_hangs {t : RelativeDecodableCanonic T Rel R RC}
    (ht : ∀ r, DecodeFn.Hangs (t.relativeDecodeCanonic r)) (borrow : B → Rel) {P : BulkProducer σ UInt8 F E} (hP : P.Hangs) :
    (relativeCanonicDecoder t borrow P).Hangs := by
  have h1 := fun r => decoderProduce_hangs (ht r) hP
  have h2 := decoderSlurp_hangs (R := RC) hP
  refine ⟨⟨fun s => ?_⟩, fun s => ?_⟩ <;> dsimp only [relativeCanonicDecoder] <;> hangs

/-- The first value of two bytes can be encoded; the second one stalls after its first byte. -/
example : (encoder ⟨FixedInt.encode u16 .big⟩ (Case.stalledConsumer (I := UInt8))).Hangs :=
  encoder_hangs (FixedInt.encode_hangs u16 .big) Case.stalledConsumer_hangs

example : (decoder ⟨FixedInt.decode u16 .big⟩ (Case.stalled (I := UInt8) fun _ => 7)).Hangs :=
  decoder_hangs (FixedInt.decode_hangs u16 .big) (Case.stalled_hangs _)

end Verif.Async
