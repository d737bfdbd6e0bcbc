import Verif.ResumeSpec
import Verif.Model.AsyncCodec

/-!
# Dropped calls of encoders and decoders of integers

What a dropped call of `consume` of an `Encoder` and of `produce` of a `Decoder` leaves, for the endian-specific encodings of integers,
given what a dropped call of the consumer or producer of bytes leaves.
-/

namespace Verif.Async

variable {σ τ T F E : Type} {N : Nat}

/-- `Encoder::consume` (ufotofu_codec/src/adaptors/encoder.rs:39-41, ufotofu_codec_endian/src/lib.rs:57-69) is dropped while
`bulk_consume` is pending, `n` bytes of the encoding having been consumed. -/
inductive EncoderDropped (i : FixedInt T N) (o : ByteOrder) {C : BulkConsumer τ UInt8 F E} (d : ConsumerDrops C) (t : τ) (x : T) :
    ((encoder ⟨FixedInt.encode i o⟩ C).consume t x).κ → (n : Nat) → τ → Prop where
  | mk {k n t'} : SliceConsumeDropped d t (i.toBytes o x) k n t' → EncoderDropped i o d t x (Sum.inl k) n t'

/-- `Decoder::produce` (ufotofu_codec/src/adaptors/decoder.rs:43-49, ufotofu_codec_endian/src/lib.rs:83-92) is dropped while
`expose_items` or `bulk_produce` is pending, `n` bytes having been read. The bytes are dropped with the future. -/
inductive DecoderDropped (i : FixedInt T N) (o : ByteOrder) {P : BulkProducer σ UInt8 F E} (d : ProducerDrops P) (b : BulkProduceDrops P)
    (s : σ) : ((decoder ⟨FixedInt.decode i o⟩ P).produce s).κ → (n : Nat) → σ → Prop where
  | exposing {k s'} : d.exposeItems s k s' → DecoderDropped i o d b s (Sum.inl k) 0 s'
  | decoding {s₁ xs k n s'} : SliceProduceDropped b s₁ (List.replicate N 0) k n s' →
      DecoderDropped i o d b s (Sum.inr ⟨(s₁, .ok (.inl xs)), Sum.inl (Sum.inl k)⟩) n s'

end Verif.Async
