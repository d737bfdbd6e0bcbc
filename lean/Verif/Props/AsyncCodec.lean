import Verif.Model.AsyncCodec
import Verif.Props.Async

/-!
# Suspension does not matter: codecs (C61)
-/

namespace Verif.Async

open Outcome

variable {σ T R RC Rel B F E : Type}

/-- What an encoding function does if nothing is ever pending. -/
noncomputable def EncodeFn.seq (f : EncodeFn T) : Verif.EncodeFn T := fun C s x => (f (.ofSeq C) s x).run

noncomputable def DecodeFn.seq (f : DecodeFn T R) : Verif.DecodeFn T R := fun P s => (f (.ofSeq P) s).run

/-- An encoding function that does the same thing to consumers with the same answers, no matter when these are pending. -/
def EncodeFn.Uniform (f : EncodeFn T) : Prop :=
  ∀ {σ F E : Type} (C : BulkConsumer σ UInt8 F E) (s : σ) (x : T), (f C s x).run = f.seq C.seq s x

def DecodeFn.Uniform (f : DecodeFn T R) : Prop :=
  ∀ {σ F E : Type} (P : BulkProducer σ UInt8 F E) (s : σ), (f P s).run = f.seq P.seq s

theorem FixedInt.encode_run {N : Nat} (i : FixedInt T N) (o : ByteOrder) (C : BulkConsumer σ UInt8 F E) (s : σ) (x : T) :
    (FixedInt.encode i o C s x).run = i.encode o C.seq s x := by
  refine Fut.run_bind_congr (bulkConsumeFullSlice_run C s _) fun y => ?_
  run_congr

theorem FixedInt.decode_run {N : Nat} (i : FixedInt T N) (o : ByteOrder) (P : BulkProducer σ UInt8 F E) (s : σ) :
    (FixedInt.decode i o P s).run = i.decode o P.seq s := by
  refine Fut.run_bind_congr (bulkOverwriteFullSlice_run P s _) fun y => ?_
  rcases y with ⟨s, e | ⟨⟩, bytes⟩ <;> exact Fut.run_pure _

theorem FixedInt.encode_uniform {N : Nat} (i : FixedInt T N) (o : ByteOrder) : EncodeFn.Uniform (FixedInt.encode i o) := by
  intro σ F E C s x
  show _ = (FixedInt.encode i o (.ofSeq C.seq) s x).run
  rw [FixedInt.encode_run, FixedInt.encode_run, BulkConsumer.ofSeq_seq]

theorem FixedInt.decode_uniform {N : Nat} (i : FixedInt T N) (o : ByteOrder) : DecodeFn.Uniform (FixedInt.decode i o) := by
  intro σ F E P s
  show _ = (FixedInt.decode i o (.ofSeq P.seq) s).run
  rw [FixedInt.decode_run, FixedInt.decode_run, BulkProducer.ofSeq_seq]

theorem decoderProduce_run {f : DecodeFn T R} (hf : DecodeFn.Uniform f) (P : BulkProducer σ UInt8 F E) (s : σ) :
    (decoderProduce f P s).run = Verif.decoderProduce (DecodeFn.seq f) P.seq s := by
  refine Fut.run_bind_congr rfl fun x => ?_
  rcases x with ⟨s, e | items | fin⟩
  · exact Fut.run_pure _
  · refine Fut.run_bind_congr (hf P s) fun x => ?_
    run_congr
  · exact Fut.run_pure _

theorem decoderSlurp_run (P : BulkProducer σ UInt8 F E) (s : σ) :
    (decoderSlurp (R := R) P s).run = Verif.decoderSlurp P.seq s := by
  dsimp only [decoderSlurp, Verif.decoderSlurp]
  run_congr

theorem encoder_seq (t : Encodable T) (ht : EncodeFn.Uniform t.encode) (C : BulkConsumer σ UInt8 F E) :
    (encoder t C).seq = Verif.encoder ⟨EncodeFn.seq t.encode⟩ C.seq :=
  BufferedConsumer.seq_of (Consumer.seq_of (fun s x => ht C s x) fun _ _ => rfl) fun _ => rfl

theorem decoder_seq (t : Decodable T R) (ht : DecodeFn.Uniform t.decode) (P : BulkProducer σ UInt8 F E) :
    (decoder t P).seq = Verif.decoder ⟨DecodeFn.seq t.decode⟩ P.seq :=
  BufferedProducer.seq_of (Producer.seq_of fun s => decoderProduce_run ht P s) fun s => decoderSlurp_run P s

theorem canonicDecoder_seq (t : DecodableCanonic T R RC) (ht : DecodeFn.Uniform t.decodeCanonic) (P : BulkProducer σ UInt8 F E) :
    (canonicDecoder t P).seq =
      Verif.canonicDecoder ⟨⟨DecodeFn.seq t.decode⟩, t.errorFrom, DecodeFn.seq t.decodeCanonic⟩ P.seq :=
  BufferedProducer.seq_of (Producer.seq_of fun s => decoderProduce_run ht P s) fun s => decoderSlurp_run P s

theorem relativeEncoder_seq (t : RelativeEncodable T Rel) (ht : ∀ r, EncodeFn.Uniform (t.relativeEncode r)) (borrow : B → Rel)
    (C : BulkConsumer σ UInt8 F E) :
    (relativeEncoder t borrow C).seq = Verif.relativeEncoder ⟨fun r => EncodeFn.seq (t.relativeEncode r)⟩ borrow C.seq := by
  refine BufferedConsumer.seq_of (Consumer.seq_of (fun s x => ?_) fun s fin => ?_) fun s => ?_
  · refine Fut.run_bind_congr (ht _ C _ x) fun x => ?_
    run_congr
  · dsimp only [relativeEncoder, Verif.relativeEncoder]
    run_congr
  · dsimp only [relativeEncoder, Verif.relativeEncoder]
    run_congr

theorem relativeDecoder_seq (t : RelativeDecodable T Rel R) (ht : ∀ r, DecodeFn.Uniform (t.relativeDecode r)) (borrow : B → Rel)
    (P : BulkProducer σ UInt8 F E) :
    (relativeDecoder t borrow P).seq = Verif.relativeDecoder ⟨fun r => DecodeFn.seq (t.relativeDecode r)⟩ borrow P.seq := by
  refine BufferedProducer.seq_of (Producer.seq_of fun s => ?_) fun s => ?_
  · refine Fut.run_bind_congr (decoderProduce_run (ht _) P _) fun x => ?_
    run_congr
  · refine Fut.run_bind_congr (decoderSlurp_run P _) fun x => ?_
    run_congr

theorem relativeCanonicDecoder_seq (t : RelativeDecodableCanonic T Rel R RC)
    (ht : ∀ r, DecodeFn.Uniform (t.relativeDecodeCanonic r)) (borrow : B → Rel) (P : BulkProducer σ UInt8 F E) :
    (relativeCanonicDecoder t borrow P).seq = Verif.relativeCanonicDecoder
      ⟨⟨fun r => DecodeFn.seq (t.relativeDecode r)⟩, t.errorFrom, fun r => DecodeFn.seq (t.relativeDecodeCanonic r)⟩ borrow P.seq := by
  refine BufferedProducer.seq_of (Producer.seq_of fun s => ?_) fun s => ?_
  · refine Fut.run_bind_congr (decoderProduce_run (ht _) P _) fun x => ?_
    run_congr
  · refine Fut.run_bind_congr (decoderSlurp_run P _) fun x => ?_
    run_congr

end Verif.Async
