import Verif.Props.AsyncCountMore
import Verif.Props.AsyncShared
import Verif.Props.AsyncMerge
import Verif.Props.HangMerge
import Verif.Props.RelativeCodec

/-!
# Instances of the theorems about polling (C61, C62, C63, C71)

The theorems of `Async*.lean` and `Hang*.lean` come in families with the same hypotheses: `Counts`, `Hangs`, or `Uniform` of what is
wrapped or called. Here they are applied to the test doubles (which are pending as often as their yield patterns say), to producers
and consumers that stop answering, and to the codecs of the fixed-width integers.
-/

namespace Verif.Async

open Outcome

/-! ## Counting -/

/-- A producer that is pending as often as its yield pattern says. -/
noncomputable abbrev Case.pro : BulkProducer (TestProducer Nat Unit String) Nat Unit String := TestProducer.producer true Nat Unit String

noncomputable abbrev Case.con : BulkConsumer (TestConsumer Nat Unit String) Nat Unit String := TestConsumer.consumer true Nat Unit String

theorem Case.pro_counts : Case.pro.Counts fun s => suspensions s.yielder := testProducer_counts true

theorem Case.con_counts : Case.con.Counts fun s => suspensions s.yielder := testConsumer_counts true

example : (limitProducer Case.pro.toProducer).Counts (fun s => suspensions s.inner.yielder) ∧
    (limitBufferedProducer Case.pro.toBufferedProducer).Counts (fun s => suspensions s.inner.yielder) ∧
    (limitBulkProducer Case.pro).Counts (fun s => suspensions s.inner.yielder) :=
  ⟨limitProducer_counts Case.pro_counts.toBuffered.toCounts,
    limitBufferedProducer_counts Case.pro_counts.toBuffered,
    limitBulkProducer_counts Case.pro_counts⟩

example : (mapItemProducer (fun (a x : Nat) => (a + x, a + x)) Case.pro.toProducer).Counts (fun s => suspensions s.inner.yielder) ∧
    (mapItemBufferedProducer (fun (a x : Nat) => (a + x, a + x))
      Case.pro.toBufferedProducer).Counts (fun s => suspensions s.inner.yielder) :=
  ⟨mapItemProducer_counts _ Case.pro_counts.toBuffered.toCounts,
    mapItemBufferedProducer_counts _ Case.pro_counts.toBuffered⟩

example : (mapFinalProducer (B := String) Case.pro.toProducer).Counts (fun s => suspensions s.inner.yielder) ∧
    (mapFinalBufferedProducer (B := String) Case.pro.toBufferedProducer).Counts (fun s => suspensions s.inner.yielder) ∧
    (mapFinalBulkProducer (B := String) Case.pro).Counts (fun s => suspensions s.inner.yielder) :=
  ⟨mapFinalProducer_counts Case.pro_counts.toBuffered.toCounts,
    mapFinalBufferedProducer_counts Case.pro_counts.toBuffered,
    mapFinalBulkProducer_counts Case.pro_counts⟩

example : (mapErrorProducer (B := Nat) Case.pro.toProducer).Counts (fun s => suspensions s.inner.yielder) ∧
    (mapErrorBufferedProducer (B := Nat) Case.pro.toBufferedProducer).Counts (fun s => suspensions s.inner.yielder) ∧
    (mapErrorBulkProducer (B := Nat) Case.pro).Counts (fun s => suspensions s.inner.yielder) :=
  ⟨mapErrorProducer_counts Case.pro_counts.toBuffered.toCounts,
    mapErrorBufferedProducer_counts Case.pro_counts.toBuffered,
    mapErrorBulkProducer_counts Case.pro_counts⟩

example : (invariantProducer Case.pro.toProducer).Counts (fun s => suspensions s.inner.yielder) ∧
    (invariantBufferedProducer Case.pro.toBufferedProducer).Counts (fun s => suspensions s.inner.yielder) ∧
    (invariantBulkProducer Case.pro).Counts (fun s => suspensions s.inner.yielder) :=
  ⟨invariantProducer_counts Case.pro_counts.toBuffered.toCounts,
    invariantBufferedProducer_counts Case.pro_counts.toBuffered,
    invariantBulkProducer_counts Case.pro_counts⟩

example : (invariantNoopBulkProducer Case.pro).Counts (fun s => suspensions s.yielder) :=
  invariantNoopBulkProducer_counts Case.pro_counts

example : (limitConsumer Case.con.toConsumer).Counts (fun s => suspensions s.inner.yielder) ∧
    (limitBufferedConsumer Case.con.toBufferedConsumer).Counts (fun s => suspensions s.inner.yielder) ∧
    (limitBulkConsumer Case.con).Counts (fun s => suspensions s.inner.yielder) :=
  ⟨limitConsumer_counts Case.con_counts.toBuffered.toCounts,
    limitBufferedConsumer_counts Case.con_counts.toBuffered,
    limitBulkConsumer_counts Case.con_counts⟩

example : (mapItemConsumer (fun (a x : Nat) => (a + x, a + x)) Case.con.toConsumer).Counts (fun s => suspensions s.inner.yielder) ∧
    (mapItemBufferedConsumer (fun (a x : Nat) => (a + x, a + x))
      Case.con.toBufferedConsumer).Counts (fun s => suspensions s.inner.yielder) :=
  ⟨mapItemConsumer_counts _ Case.con_counts.toBuffered.toCounts,
    mapItemBufferedConsumer_counts _ Case.con_counts.toBuffered⟩

example : (mapFinalConsumer (B := String) Case.con.toConsumer).Counts (fun s => suspensions s.inner.yielder) ∧
    (mapFinalBufferedConsumer (B := String) Case.con.toBufferedConsumer).Counts (fun s => suspensions s.inner.yielder) ∧
    (mapFinalBulkConsumer (B := String) Case.con).Counts (fun s => suspensions s.inner.yielder) :=
  ⟨mapFinalConsumer_counts Case.con_counts.toBuffered.toCounts,
    mapFinalBufferedConsumer_counts Case.con_counts.toBuffered,
    mapFinalBulkConsumer_counts Case.con_counts⟩

example : (mapErrorConsumer (B := Nat) Case.con.toConsumer).Counts (fun s => suspensions s.inner.yielder) ∧
    (mapErrorBufferedConsumer (B := Nat) Case.con.toBufferedConsumer).Counts (fun s => suspensions s.inner.yielder) ∧
    (mapErrorBulkConsumer (B := Nat) Case.con).Counts (fun s => suspensions s.inner.yielder) :=
  ⟨mapErrorConsumer_counts Case.con_counts.toBuffered.toCounts,
    mapErrorBufferedConsumer_counts Case.con_counts.toBuffered,
    mapErrorBulkConsumer_counts Case.con_counts⟩

example : (invariantConsumer Case.con.toConsumer).Counts (fun s => suspensions s.inner.yielder) ∧
    (invariantBufferedConsumer Case.con.toBufferedConsumer).Counts (fun s => suspensions s.inner.yielder) ∧
    (invariantBulkConsumer Case.con).Counts (fun s => suspensions s.inner.yielder) :=
  ⟨invariantConsumer_counts Case.con_counts.toBuffered.toCounts,
    invariantBufferedConsumer_counts Case.con_counts.toBuffered,
    invariantBulkConsumer_counts Case.con_counts⟩

example : (invariantNoopBulkConsumer Case.con).Counts (fun s => suspensions s.yielder) :=
  invariantNoopBulkConsumer_counts Case.con_counts

/-- The functions of the traits: pending as often as the producer or the consumer is. -/
example (s : TestProducer Nat Unit String) (t : TestConsumer Nat Unit String) (buf : List Nat) :
    ((produceItem Case.pro.toProducer s).Always fun n r => suspensions r.1.yielder = suspensions s.yielder + n) ∧
    ((overwriteFullSlice Case.pro.toProducer s buf).Always fun n r => suspensions r.1.yielder = suspensions s.yielder + n) ∧
    ((bulkOverwriteFullSlice Case.pro s buf).Always fun n r => suspensions r.1.yielder = suspensions s.yielder + n) ∧
    ((consumeFullSlice Case.con.toConsumer t buf).Always fun n r => suspensions r.1.yielder = suspensions t.yielder + n) ∧
    ((bulkConsumeFullSlice Case.con t buf).Always fun n r => suspensions r.1.yielder = suspensions t.yielder + n) :=
  ⟨produceItem_counts Case.pro_counts.toBuffered.toCounts s, overwriteFullSlice_counts Case.pro_counts.toBuffered.toCounts s buf,
    bulkOverwriteFullSlice_counts Case.pro_counts s buf, consumeFullSlice_counts Case.con_counts.toBuffered.toCounts t buf,
    bulkConsumeFullSlice_counts Case.con_counts t buf⟩

/-- The pipes: pending as often as the producer and the consumer together. -/
example (s : TestProducer Nat Unit String) (t : TestConsumer Nat Unit String) (count : Nat) :
    ((pipe Case.pro.toProducer Case.con.toConsumer s t).Always fun n r =>
      suspensions r.1.1.yielder + suspensions r.1.2.yielder = suspensions s.yielder + suspensions t.yielder + n) ∧
    ((bulkPipe Case.pro Case.con s t).Always fun n r =>
      suspensions r.1.1.yielder + suspensions r.1.2.yielder = suspensions s.yielder + suspensions t.yielder + n) ∧
    ((pipeAtMost Case.pro.toProducer Case.con.toConsumer s t count).Always fun n r =>
      suspensions r.1.1.yielder + suspensions r.1.2.yielder = suspensions s.yielder + suspensions t.yielder + n) ∧
    ((bulkPipeAtMost Case.pro Case.con s t count).Always fun n r =>
      suspensions r.1.1.yielder + suspensions r.1.2.yielder = suspensions s.yielder + suspensions t.yielder + n) :=
  ⟨pipe_counts Case.pro_counts.toBuffered.toCounts Case.con_counts.toBuffered.toCounts s t,
    bulkPipe_counts Case.pro_counts Case.con_counts s t,
    pipeAtMost_counts Case.pro_counts.toBuffered.toCounts Case.con_counts.toBuffered.toCounts s t count,
    bulkPipeAtMost_counts Case.pro_counts Case.con_counts s t count⟩

/-- The scramblers. -/
example (debug : Bool) : (producerScrambler debug Case.pro).Counts (fun s => suspensions s.inner.yielder) ∧
    (consumerScrambler debug Case.con).Counts (fun s => suspensions s.inner.yielder) ∧
    (∀ s, (ProducerScrambler.performOperation debug Case.pro s).Always fun n r =>
      suspensions r.1.inner.yielder = suspensions s.inner.yielder + n) ∧
    (∀ s, (ProducerScrambler.fillQueue debug Case.pro s).Always fun n r =>
      suspensions r.1.inner.yielder = suspensions s.inner.yielder + n) ∧
    (∀ s, (ConsumerScrambler.performOperation debug Case.con s).Always fun n r =>
      suspensions r.1.inner.yielder = suspensions s.inner.yielder + n) ∧
    (∀ s, (ConsumerScrambler.drain debug Case.con s).Always fun n r =>
      suspensions r.1.inner.yielder = suspensions s.inner.yielder + n) :=
  ⟨producerScrambler_counts Case.pro_counts debug, consumerScrambler_counts Case.con_counts debug,
    ProducerScrambler.performOperation_counts Case.pro_counts debug, ProducerScrambler.fillQueue_counts Case.pro_counts debug,
    ConsumerScrambler.performOperation_counts Case.con_counts debug, ConsumerScrambler.drain_counts Case.con_counts debug⟩

/-- Pending once, then `a`. -/
def Case.once {A : Type} (a : A) : Fut A where
  κ := Bool
  start := true
  poll k := if k then ok (.pending false) else ok (.ready a)

theorem Case.once_always {A : Type} {a : A} {Q : Nat → A → Prop} (h : Q 1 a) : (Case.once a).Always Q := by
  intro n b hb
  cases hb with
  | ready h => cases h
  | pending h1 h2 =>
    cases h1
    cases h2 with
    | ready h2 => cases h2; exact h
    | pending h2 => cases h2

/-- Every read is pending once, and then fills one byte. The state counts the reads. -/
def Case.lateRead : AsyncBufRead Nat where
  read s buf := Case.once (s + 1, .ok (min 1 buf.length), buf)
  fillBuf s := Case.once (s + 1, .ok [7])
  consume s _ := ok s

/-- Every write, every flush, and every close is pending once. -/
def Case.lateWrite : AsyncWrite Nat where
  write s buf := Case.once (s + 1, .ok (min 1 buf.length))
  flush s := Case.once (s + 1, .ok ())
  close s := Case.once (s + 1, .ok ())

theorem Case.lateRead_counts : Case.lateRead.Counts id :=
  ⟨⟨fun _ _ => Case.once_always rfl⟩, fun _ => Case.once_always rfl, fun _ _ _ h => by cases h; rfl⟩

theorem Case.lateWrite_counts : Case.lateWrite.Counts id :=
  ⟨fun _ _ => Case.once_always rfl, fun _ => Case.once_always rfl, fun _ => Case.once_always rfl⟩

/-- The adaptors between readers, writers, and producers, consumers. -/
example {τ : Type} (Q : Queue τ UInt8) : (bufReaderProducer Case.lateRead).Counts id ∧
    (readerProducer Case.lateRead.toAsyncRead Q).Counts (fun s => s.reader) ∧
    (writerConsumer Case.lateWrite Q).Counts (fun s => s.writer) ∧
    (∀ r init, (readByte Case.lateRead.toAsyncRead r init).Always fun n x => x.1 = r + n) ∧
    (∀ s buf, (writeAll Case.lateWrite s buf).Always fun n x => x.1 = s + n) :=
  ⟨bufReaderProducer_counts Case.lateRead_counts, readerProducer_counts Case.lateRead_counts.toCounts Q,
    writerConsumer_counts Case.lateWrite_counts Q, readByte_counts Case.lateRead_counts.toCounts, writeAll_counts Case.lateWrite_counts⟩

/-! ## Codecs -/

/-- The codec of `u16`, big-endian, in the forms that the adaptors take. -/
noncomputable abbrev Case.enc : Encodable UInt16 := ⟨FixedInt.encode u16 .big⟩

noncomputable abbrev Case.dec : Decodable UInt16 Empty := ⟨FixedInt.decode u16 .big⟩

noncomputable abbrev Case.can : DecodableCanonic UInt16 Empty Empty := ⟨⟨FixedInt.decode u16 .big⟩, id, FixedInt.decode u16 .big⟩

/-- It ignores what it is relative to. -/
noncomputable abbrev Case.renc : RelativeEncodable UInt16 UInt16 := ⟨fun _ => FixedInt.encode u16 .big⟩

noncomputable abbrev Case.rdec : RelativeDecodable UInt16 UInt16 Empty := ⟨fun _ => FixedInt.decode u16 .big⟩

noncomputable abbrev Case.rcan : RelativeDecodableCanonic UInt16 UInt16 Empty Empty :=
  ⟨⟨fun _ => FixedInt.decode u16 .big⟩, id, fun _ => FixedInt.decode u16 .big⟩

example : (encoder Case.enc Case.bytes).Counts (fun s => suspensions s.yielder) ∧
    (decoder Case.dec Case.source).Counts (fun s => suspensions s.yielder) ∧
    (canonicDecoder Case.can Case.source).Counts (fun s => suspensions s.yielder) ∧
    (relativeEncoder Case.renc id Case.bytes).Counts (fun s => suspensions s.inner.yielder) ∧
    (relativeDecoder Case.rdec id Case.source).Counts (fun s => suspensions s.inner.yielder) ∧
    (relativeCanonicDecoder Case.rcan id Case.source).Counts (fun s => suspensions s.inner.yielder) ∧
    (∀ s, (decoderProduce (FixedInt.decode u16 .big) Case.source s).Always fun n r =>
      suspensions r.1.yielder = suspensions s.yielder + n) ∧
    (∀ s, (decoderSlurp (R := Empty) Case.source s).Always fun n r => suspensions r.1.yielder = suspensions s.yielder + n) :=
  ⟨encoder_counts (t := Case.enc) (FixedInt.encode_counts u16 .big) (testConsumer_counts false),
    decoder_counts (t := Case.dec) (FixedInt.decode_counts u16 .big) (testProducer_counts false),
    canonicDecoder_counts (t := Case.can) (FixedInt.decode_counts u16 .big) (testProducer_counts false),
    relativeEncoder_counts (t := Case.renc) (fun _ => FixedInt.encode_counts u16 .big) id (testConsumer_counts false),
    relativeDecoder_counts (t := Case.rdec) (fun _ => FixedInt.decode_counts u16 .big) id (testProducer_counts false),
    relativeCanonicDecoder_counts (t := Case.rcan) (fun _ => FixedInt.decode_counts u16 .big) id (testProducer_counts false),
    decoderProduce_counts (FixedInt.decode_counts u16 .big) (testProducer_counts false),
    decoderSlurp_counts (testProducer_counts false)⟩

example : (encoder Case.enc Case.bytes).seq = Verif.encoder ⟨EncodeFn.seq Case.enc.encode⟩ Case.bytes.seq ∧
    (decoder Case.dec Case.source).seq = Verif.decoder ⟨DecodeFn.seq Case.dec.decode⟩ Case.source.seq ∧
    (canonicDecoder Case.can Case.source).seq =
      Verif.canonicDecoder ⟨⟨DecodeFn.seq Case.can.decode⟩, Case.can.errorFrom, DecodeFn.seq Case.can.decodeCanonic⟩
        Case.source.seq :=
  ⟨encoder_seq Case.enc (FixedInt.encode_uniform u16 .big) _, decoder_seq Case.dec (FixedInt.decode_uniform u16 .big) _,
    canonicDecoder_seq Case.can (FixedInt.decode_uniform u16 .big) _⟩

example : (relativeEncoder Case.renc id Case.bytes).seq =
      Verif.relativeEncoder ⟨fun r => EncodeFn.seq (Case.renc.relativeEncode r)⟩ id Case.bytes.seq ∧
    (relativeDecoder Case.rdec id Case.source).seq =
      Verif.relativeDecoder ⟨fun r => DecodeFn.seq (Case.rdec.relativeDecode r)⟩ id Case.source.seq ∧
    (relativeCanonicDecoder Case.rcan id Case.source).seq = Verif.relativeCanonicDecoder
      ⟨⟨fun r => DecodeFn.seq (Case.rcan.relativeDecode r)⟩, Case.rcan.errorFrom,
        fun r => DecodeFn.seq (Case.rcan.relativeDecodeCanonic r)⟩ id Case.source.seq :=
  ⟨relativeEncoder_seq Case.renc (fun _ => FixedInt.encode_uniform u16 .big) _ _,
    relativeDecoder_seq Case.rdec (fun _ => FixedInt.decode_uniform u16 .big) _ _,
    relativeCanonicDecoder_seq Case.rcan (fun _ => FixedInt.decode_uniform u16 .big) _ _⟩

/-- The shared ones, one call each. -/
example : (sharedEncoder Case.enc Case.bytes () (.consume 7)).seq =
      Verif.sharedEncoder ⟨EncodeFn.seq Case.enc.encode⟩ Case.bytes.seq () (.consume 7) ∧
    (sharedCanonicDecoder Case.can Case.source () .produce).seq =
      Verif.sharedCanonicDecoder ⟨⟨DecodeFn.seq Case.can.decode⟩, Case.can.errorFrom, DecodeFn.seq Case.can.decodeCanonic⟩
        Case.source.seq () .produce ∧
    (sharedRelativeEncoder Case.renc id Case.bytes 3 (.consume 7)).seq =
      Verif.sharedRelativeEncoder ⟨fun r => EncodeFn.seq (Case.renc.relativeEncode r)⟩ id Case.bytes.seq 3 (.consume 7) ∧
    (sharedRelativeCanonicDecoder Case.rcan id Case.source 3 .produce).seq = Verif.sharedRelativeCanonicDecoder
      ⟨⟨fun r => DecodeFn.seq (Case.rcan.relativeDecode r)⟩, Case.rcan.errorFrom,
        fun r => DecodeFn.seq (Case.rcan.relativeDecodeCanonic r)⟩ id Case.source.seq 3 .produce :=
  ⟨sharedEncoder_seq Case.enc (FixedInt.encode_uniform u16 .big) _ _ _,
    sharedCanonicDecoder_seq Case.can (FixedInt.decode_uniform u16 .big) _ _ _,
    sharedRelativeEncoder_seq Case.renc (fun _ => FixedInt.encode_uniform u16 .big) _ _ _ _,
    sharedRelativeCanonicDecoder_seq Case.rcan (fun _ => FixedInt.decode_uniform u16 .big) _ _ _ _⟩

/-! ## Never answering -/

example : (limitProducer (Case.stalled id).toProducer).Hangs ∧
    (limitBufferedProducer (Case.stalled id).toBufferedProducer).Hangs ∧
    (limitBulkProducer (Case.stalled id)).Hangs :=
  ⟨limitProducer_hangs (Case.stalled_hangs id).toBuffered.toHangs,
    limitBufferedProducer_hangs (Case.stalled_hangs id).toBuffered,
    limitBulkProducer_hangs (Case.stalled_hangs id)⟩

example : (mapItemProducer (fun (a x : Nat) => (a + x, a + x)) (Case.stalled id).toProducer).Hangs ∧
    (mapItemBufferedProducer (fun (a x : Nat) => (a + x, a + x)) (Case.stalled id).toBufferedProducer).Hangs :=
  ⟨mapItemProducer_hangs _ (Case.stalled_hangs id).toBuffered.toHangs,
    mapItemBufferedProducer_hangs _ (Case.stalled_hangs id).toBuffered⟩

example : (mapFinalProducer (B := String) (Case.stalled id).toProducer).Hangs ∧
    (mapFinalBufferedProducer (B := String) (Case.stalled id).toBufferedProducer).Hangs ∧
    (mapFinalBulkProducer (B := String) (Case.stalled id)).Hangs :=
  ⟨mapFinalProducer_hangs (Case.stalled_hangs id).toBuffered.toHangs,
    mapFinalBufferedProducer_hangs (Case.stalled_hangs id).toBuffered,
    mapFinalBulkProducer_hangs (Case.stalled_hangs id)⟩

example : (mapErrorProducer (B := Nat) (Case.stalled id).toProducer).Hangs ∧
    (mapErrorBufferedProducer (B := Nat) (Case.stalled id).toBufferedProducer).Hangs ∧
    (mapErrorBulkProducer (B := Nat) (Case.stalled id)).Hangs :=
  ⟨mapErrorProducer_hangs (Case.stalled_hangs id).toBuffered.toHangs,
    mapErrorBufferedProducer_hangs (Case.stalled_hangs id).toBuffered,
    mapErrorBulkProducer_hangs (Case.stalled_hangs id)⟩

example : (invariantProducer (Case.stalled id).toProducer).Hangs ∧
    (invariantBufferedProducer (Case.stalled id).toBufferedProducer).Hangs ∧
    (invariantBulkProducer (Case.stalled id)).Hangs :=
  ⟨invariantProducer_hangs (Case.stalled_hangs id).toBuffered.toHangs,
    invariantBufferedProducer_hangs (Case.stalled_hangs id).toBuffered,
    invariantBulkProducer_hangs (Case.stalled_hangs id)⟩

example : (invariantNoopBulkProducer (Case.stalled id)).Hangs :=
  invariantNoopBulkProducer_hangs (Case.stalled_hangs id)

example : (limitConsumer (Case.stalledConsumer (I := Nat)).toConsumer).Hangs ∧
    (limitBufferedConsumer (Case.stalledConsumer (I := Nat)).toBufferedConsumer).Hangs ∧
    (limitBulkConsumer (Case.stalledConsumer (I := Nat))).Hangs :=
  ⟨limitConsumer_hangs Case.stalledConsumer_hangs.toBuffered.toHangs,
    limitBufferedConsumer_hangs Case.stalledConsumer_hangs.toBuffered,
    limitBulkConsumer_hangs Case.stalledConsumer_hangs⟩

example : (mapItemConsumer (fun (a x : Nat) => (a + x, a + x)) (Case.stalledConsumer (I := Nat)).toConsumer).Hangs ∧
    (mapItemBufferedConsumer (fun (a x : Nat) => (a + x, a + x)) (Case.stalledConsumer (I := Nat)).toBufferedConsumer).Hangs :=
  ⟨mapItemConsumer_hangs _ Case.stalledConsumer_hangs.toBuffered.toHangs,
    mapItemBufferedConsumer_hangs _ Case.stalledConsumer_hangs.toBuffered⟩

example : (mapFinalConsumer (B := String) (Case.stalledConsumer (I := Nat)).toConsumer).Hangs ∧
    (mapFinalBufferedConsumer (B := String) (Case.stalledConsumer (I := Nat)).toBufferedConsumer).Hangs ∧
    (mapFinalBulkConsumer (B := String) (Case.stalledConsumer (I := Nat))).Hangs :=
  ⟨mapFinalConsumer_hangs Case.stalledConsumer_hangs.toBuffered.toHangs,
    mapFinalBufferedConsumer_hangs Case.stalledConsumer_hangs.toBuffered,
    mapFinalBulkConsumer_hangs Case.stalledConsumer_hangs⟩

example : (mapErrorConsumer (B := Nat) (Case.stalledConsumer (I := Nat)).toConsumer).Hangs ∧
    (mapErrorBufferedConsumer (B := Nat) (Case.stalledConsumer (I := Nat)).toBufferedConsumer).Hangs ∧
    (mapErrorBulkConsumer (B := Nat) (Case.stalledConsumer (I := Nat))).Hangs :=
  ⟨mapErrorConsumer_hangs Case.stalledConsumer_hangs.toBuffered.toHangs,
    mapErrorBufferedConsumer_hangs Case.stalledConsumer_hangs.toBuffered,
    mapErrorBulkConsumer_hangs Case.stalledConsumer_hangs⟩

example : (invariantConsumer (Case.stalledConsumer (I := Nat)).toConsumer).Hangs ∧
    (invariantBufferedConsumer (Case.stalledConsumer (I := Nat)).toBufferedConsumer).Hangs ∧
    (invariantBulkConsumer (Case.stalledConsumer (I := Nat))).Hangs :=
  ⟨invariantConsumer_hangs Case.stalledConsumer_hangs.toBuffered.toHangs,
    invariantBufferedConsumer_hangs Case.stalledConsumer_hangs.toBuffered,
    invariantBulkConsumer_hangs Case.stalledConsumer_hangs⟩

example : (invariantNoopBulkConsumer (Case.stalledConsumer (I := Nat))).Hangs :=
  invariantNoopBulkConsumer_hangs Case.stalledConsumer_hangs

example (s count : Nat) (t buf : List Nat) :
    (produceItem (Case.stalled id).toProducer s).Hangs ∧ (overwriteFullSlice (Case.stalled id).toProducer s buf).Hangs ∧
    (bulkOverwriteFullSlice (Case.stalled id) s buf).Hangs ∧ (consumeFullSlice Case.stalledConsumer.toConsumer t buf).Hangs ∧
    (bulkConsumeFullSlice Case.stalledConsumer t buf).Hangs ∧
    (bulkPipe (Case.stalled id) Case.stalledConsumer s t).Hangs ∧
    (pipeAtMost (Case.stalled id).toProducer Case.stalledConsumer.toConsumer s t count).Hangs ∧
    (bulkPipeAtMost (Case.stalled id) Case.stalledConsumer s t count).Hangs :=
  ⟨produceItem_hangs (Case.stalled_hangs id).toBuffered.toHangs s,
    overwriteFullSlice_hangs (Case.stalled_hangs id).toBuffered.toHangs s buf,
    bulkOverwriteFullSlice_hangs (Case.stalled_hangs id) s buf, consumeFullSlice_hangs Case.stalledConsumer_hangs.toBuffered.toHangs t buf,
    bulkConsumeFullSlice_hangs Case.stalledConsumer_hangs t buf, bulkPipe_hangs (Case.stalled_hangs id) Case.stalledConsumer_hangs s t,
    pipeAtMost_hangs (Case.stalled_hangs id).toBuffered.toHangs Case.stalledConsumer_hangs.toBuffered.toHangs s t count,
    bulkPipeAtMost_hangs (Case.stalled_hangs id) Case.stalledConsumer_hangs s t count⟩

example (debug : Bool) (s : ProducerScrambler Nat Nat Unit String) (t : ConsumerScrambler (List Nat) Nat) :
    (ProducerScrambler.performOperation debug (Case.stalled id) s).Hangs ∧
    (ProducerScrambler.fillQueue debug (Case.stalled id) s).Hangs ∧
    (ConsumerScrambler.performOperation debug Case.stalledConsumer t).Hangs ∧
    (ConsumerScrambler.drain debug Case.stalledConsumer t).Hangs :=
  ⟨ProducerScrambler.performOperation_hangs (Case.stalled_hangs id) debug s,
    ProducerScrambler.fillQueue_hangs (Case.stalled_hangs id) debug s,
    ConsumerScrambler.performOperation_hangs Case.stalledConsumer_hangs debug t,
    ConsumerScrambler.drain_hangs Case.stalledConsumer_hangs debug t⟩

example (s : Nat) (buf : List UInt8) : (readByte Case.slowRead.toAsyncRead s 0).Hangs ∧ (writeAll Case.slowWrite s buf).Hangs :=
  ⟨readByte_hangs Case.slowRead_hangs.toHangs s 0, writeAll_hangs Case.slowWrite_hangs s buf⟩

/-- A producer of bytes that stops answering. -/
abbrev Case.stalledBytes : BulkProducer Nat UInt8 Unit String := Case.stalled fun _ => 7

example (s : Nat) : (decoderProduce (FixedInt.decode u16 .big) Case.stalledBytes s).Hangs ∧
    (decoderSlurp (R := Empty) Case.stalledBytes s).Hangs ∧ (canonicDecoder Case.can Case.stalledBytes).Hangs ∧
    (relativeEncoder Case.renc id (Case.stalledConsumer (I := UInt8))).Hangs ∧
    (relativeDecoder Case.rdec id Case.stalledBytes).Hangs ∧
    (relativeCanonicDecoder Case.rcan id Case.stalledBytes).Hangs :=
  ⟨decoderProduce_hangs (FixedInt.decode_hangs u16 .big) (Case.stalled_hangs _) s, decoderSlurp_hangs (Case.stalled_hangs _) s,
    canonicDecoder_hangs (t := Case.can) (FixedInt.decode_hangs u16 .big) (Case.stalled_hangs _),
    relativeEncoder_hangs (t := Case.renc) (fun _ => FixedInt.encode_hangs u16 .big) id Case.stalledConsumer_hangs,
    relativeDecoder_hangs (t := Case.rdec) (fun _ => FixedInt.decode_hangs u16 .big) id (Case.stalled_hangs _),
    relativeCanonicDecoder_hangs (t := Case.rcan) (fun _ => FixedInt.decode_hangs u16 .big) id (Case.stalled_hangs _)⟩

example : SharedHangs (sharedCanonicDecoder Case.can Case.stalledBytes) ∧
    SharedHangs (sharedRelativeEncoder Case.renc id (Case.stalledConsumer (I := UInt8))) ∧
    SharedHangs (sharedRelativeDecoder Case.rdec id Case.stalledBytes) ∧
    SharedHangs (sharedRelativeCanonicDecoder Case.rcan id Case.stalledBytes) :=
  ⟨shared_canonic_decoder_hangs (t := Case.can) (FixedInt.decode_hangs u16 .big) (Case.stalled_hangs _),
    shared_relative_encoder_hangs (t := Case.renc) (fun _ => FixedInt.encode_hangs u16 .big) id Case.stalledConsumer_hangs,
    shared_relative_decoder_hangs (t := Case.rdec) (fun _ => FixedInt.decode_hangs u16 .big) id (Case.stalled_hangs _),
    shared_relative_canonic_decoder_hangs (t := Case.rcan) (fun _ => FixedInt.decode_hangs u16 .big) id (Case.stalled_hangs _)⟩

/-! ## Pipes, merges -/

/-- Two consumers and two producers with the same answers: what `pipe` returns does not depend on the yields. -/
example (s : TestProducer Nat Unit String) (t : TestConsumer Nat Unit String) :
    (pipe Case.pro.toProducer Case.con.toConsumer s t).run =
      (pipe (BulkProducer.ofSeq Case.pro.seq).toProducer (BulkConsumer.ofSeq Case.con.seq).toConsumer s t).run :=
  pipe_oblivious (congrArg (fun P => P.toProducer) (BulkProducer.ofSeq_seq Case.pro.seq).symm)
    (congrArg (fun C => C.toConsumer) (BulkConsumer.ofSeq_seq Case.con.seq).symm) s t

/-- `pipe` from a producer that is pending twice before each answer into a consumer of which every other poll is pending. -/
example : ∃ s' t', (pipe (TestProducer.producer false Nat Unit String).toProducer
      (TestConsumer.consumer false Nat Unit String).toConsumer slowProducer slowConsumer).run = ok ((s', t'), .ok ()) ∧
      TestConsumer.Seen t' [1, 2, 3] (some ()) := by
  have hP : BulkPlays (TestProducer.producer false Nat Unit String).seq slowProducer (Script.ofList [1, 2, 3] (.ok ())) := by
    rw [testProducer_seq]; exact test_producer_plays false [1, 2, 3] (.ok ()) [] _
  have hC : BulkCollects (TestConsumer.consumer false Nat Unit String).seq TestConsumer.Seen (Policy.failAfter 5 "full")
      slowConsumer [] := by
    rw [testConsumer_seq]; exact test_consumer_collects false "full" 5 [] _
  exact pipe_polled (l := []) hP.toPlays hC.toCollects
    (.closed (Case.script_starts _) (Case.accepts (n := 5) (by decide)) (Case.script_end _) rfl)

/-- Whatever answers the merge of the two test producers that yield gives, they are a merge of the answers of the two. -/
example {rs : List (Except String (Nat ⊕ Unit))} {s : Merge Case.testProducer Case.testProducer}
    (h : Answers (Merge.producer Case.testProducer Case.testProducer).seq (.new _ _ slowProducer otherProducer) rs s) :
    ∃ events, MergeTrace (Script.ofList [1, 2, 3] (.ok ())) (Script.ofList [4] (.ok ())) events rs :=
  merge_polled_trace Case.slow_plays Case.other_plays h

/-- The first call returns. -/
example : ∃ s' r, (Merge.producer Case.testProducer Case.testProducer).seq.produce (.new _ _ slowProducer otherProducer) = ok (s', r) :=
  merge_polled_returns Case.slow_plays Case.other_plays .nil (by simp)

end Verif.Async
