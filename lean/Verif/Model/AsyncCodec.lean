import Verif.Model.Endian
import Verif.Model.AsyncTraits

/-!
# Codecs, poll by poll

Model of `/repo/ufotofu_codec/src/adaptors/{encoder,decoder,relative_encoder,relative_decoder}.rs` and of the functions in
`/repo/ufotofu_codec_endian/src/lib.rs`, as `Verif/Model/Codec.lean` and `Verif/Model/Endian.lean`, for codecs, producers, and
consumers whose futures may be pending.
-/

namespace Verif.Async

open Outcome

/-! ## Traits -/

/-- A function that writes an encoding of a value into any consumer of bytes, `/repo/ufotofu_codec/src/encode.rs:25-27`. -/
def EncodeFn (T : Type) := ∀ {σ F E : Type}, BulkConsumer σ UInt8 F E → σ → T → Fut (σ × Except E Unit)

/-- A function that decodes a value from any producer of bytes, `/repo/ufotofu_codec/src/decode.rs:25-30`. -/
def DecodeFn (T R : Type) := ∀ {σ F E : Type}, BulkProducer σ UInt8 F E → σ → Fut (σ × Except (DecodeError F E R) T)

/-- `/repo/ufotofu_codec/src/encode.rs:23-41` trait `Encodable` -/
structure Encodable (T : Type) where
  /-- encode.rs:25-27 -/
  encode : EncodeFn T

/-- `/repo/ufotofu_codec/src/decode.rs:20-38` trait `Decodable` -/
structure Decodable (T R : Type) where
  /-- decode.rs:25-30 -/
  decode : DecodeFn T R

/-- decode.rs:51-71 trait `DecodableCanonic` (`errorFrom` is the bound `ErrorCanonic: From<ErrorReason>`) -/
structure DecodableCanonic (T R RC : Type) extends Decodable T R where
  /-- decode.rs:55 -/
  errorFrom : R → RC
  /-- decode.rs:58-63 -/
  decodeCanonic : DecodeFn T RC

/-- `/repo/ufotofu_codec/src/relative_encode.rs:18-40` trait `RelativeEncodable<RelativeTo>` -/
structure RelativeEncodable (T Rel : Type) where
  /-- relative_encode.rs:20-26 -/
  relativeEncode : Rel → EncodeFn T

/-- `/repo/ufotofu_codec/src/relative_decode.rs:14-31` trait `RelativeDecodable<RelativeTo, ErrorReason>` -/
structure RelativeDecodable (T Rel R : Type) where
  /-- relative_decode.rs:16-22 -/
  relativeDecode : Rel → DecodeFn T R

/-- relative_decode.rs:50-71 trait `RelativeDecodableCanonic<RelativeTo, ErrorReason, ErrorCanonic>` -/
structure RelativeDecodableCanonic (T Rel R RC : Type) extends RelativeDecodable T Rel R where
  errorFrom : R → RC
  /-- relative_decode.rs:56-62 -/
  relativeDecodeCanonic : Rel → DecodeFn T RC

/-! ## Adaptors -/

section Adaptors

variable {σ T R RC Rel B F E : Type}

/-- `/repo/ufotofu_codec/src/adaptors/encoder.rs:8-56` `Encoder<C, T>`. The only runtime field is the wrapped consumer, so the
state is the state of the consumer; `new` and `into_inner` (15-25) are the identity. -/
def encoder (t : Encodable T) (C : BulkConsumer σ UInt8 F E) : BufferedConsumer σ T F E where
  /- encoder.rs:39-41 -/
  consume s item := t.encode C s item
  /- encoder.rs:43-45 -/
  close s fin := C.close s fin
  /- encoder.rs:53-55 -/
  flush s := C.flush s

/-- Common body of the `produce` methods of the decoder adaptors: emit the final value if the inner producer has nothing more
to expose, and decode otherwise. `?` converts the errors of the inner producer with `From<E>`. -/
def decoderProduce (decode : DecodeFn T R) (P : BulkProducer σ UInt8 F E) (s : σ) :
    Fut (σ × Except (DecodeError F E R) (T ⊕ F)) := do
  match ← P.exposeItems s with
  | (s, .error e) => return (s, .error (DecodeError.fromError e))
  | (s, .ok (.inr fin)) => return (s, .ok (.inr fin))
  | (s, .ok (.inl _)) =>
    match ← decode P s with
    | (s, .error e) => return (s, .error e)
    | (s, .ok x) => return (s, .ok (.inl x))

/-- Common body of the `slurp` methods of the decoder adaptors. -/
def decoderSlurp (P : BulkProducer σ UInt8 F E) (s : σ) : Fut (σ × Except (DecodeError F E R) Unit) := do
  match ← P.slurp s with
  | (s, .error e) => return (s, .error (DecodeError.fromError e))
  | (s, .ok ()) => return (s, .ok ())

/-- `/repo/ufotofu_codec/src/adaptors/decoder.rs:12-60` `Decoder<P, T>`; the state is that of the wrapped producer. -/
def decoder (t : Decodable T R) (P : BulkProducer σ UInt8 F E) : BufferedProducer σ T F (DecodeError F E R) where
  /- decoder.rs:43-49 -/
  produce := decoderProduce t.decode P
  /- decoder.rs:57-59 -/
  slurp := decoderSlurp P

/-- decoder.rs:65-113 `CanonicDecoder<P, T>` -/
def canonicDecoder (t : DecodableCanonic T R RC) (P : BulkProducer σ UInt8 F E) :
    BufferedProducer σ T F (DecodeError F E RC) where
  /- decoder.rs:96-102 -/
  produce := decoderProduce t.decodeCanonic P
  /- decoder.rs:110-112 -/
  slurp := decoderSlurp P

/-- `/repo/ufotofu_codec/src/adaptors/relative_encoder.rs:8-66` `RelativeEncoder<C, T, R, RelativeTo>`. -/
def relativeEncoder (t : RelativeEncodable T Rel) (borrow : B → Rel) (C : BulkConsumer σ UInt8 F E) :
    BufferedConsumer (RelativeSt σ B) T F E where
  /- relative_encoder.rs:47-50 -/
  consume s item := do
    let (inner, r) ← t.relativeEncode (borrow s.relativeTo) C s.inner item
    return ({ s with inner := inner }, r)
  /- relative_encoder.rs:52-54 -/
  close s fin := do
    let (inner, r) ← C.close s.inner fin
    return ({ s with inner := inner }, r)
  /- relative_encoder.rs:63-65 -/
  flush s := do
    let (inner, r) ← C.flush s.inner
    return ({ s with inner := inner }, r)

/-- `/repo/ufotofu_codec/src/adaptors/relative_decoder.rs:12-73` `RelativeDecoder`. -/
def relativeDecoder (t : RelativeDecodable T Rel R) (borrow : B → Rel) (P : BulkProducer σ UInt8 F E) :
    BufferedProducer (RelativeSt σ B) T F (DecodeError F E R) where
  /- relative_decoder.rs:52-60 -/
  produce s := do
    let (inner, r) ← decoderProduce (t.relativeDecode (borrow s.relativeTo)) P s.inner
    return ({ s with inner := inner }, r)
  /- relative_decoder.rs:70-72 -/
  slurp s := do
    let (inner, r) ← decoderSlurp P s.inner
    return ({ s with inner := inner }, r)

/-- relative_decoder.rs:78-143 `RelativeCanonicDecoder`. -/
def relativeCanonicDecoder (t : RelativeDecodableCanonic T Rel R RC) (borrow : B → Rel) (P : BulkProducer σ UInt8 F E) :
    BufferedProducer (RelativeSt σ B) T F (DecodeError F E RC) where
  /- relative_decoder.rs:121-129 -/
  produce s := do
    let (inner, r) ← decoderProduce (t.relativeDecodeCanonic (borrow s.relativeTo)) P s.inner
    return ({ s with inner := inner }, r)
  /- relative_decoder.rs:140-142 -/
  slurp s := do
    let (inner, r) ← decoderSlurp P s.inner
    return ({ s with inner := inner }, r)

end Adaptors

/-! ## Endian-specific encodings of integers -/

namespace FixedInt

variable {T : Type} {N : Nat}

/-- `/repo/ufotofu_codec_endian/src/lib.rs:57-69` and 145-157 -/
noncomputable def encode (i : FixedInt T N) (o : ByteOrder) : EncodeFn T := fun consumer s x => do
  let bytes := i.toBytes o x
  match ← bulkConsumeFullSlice consumer s bytes with
  | (s, .error err) => return (s, .error err.reason)
  | (s, .ok ()) => return (s, .ok ())

/-- lib.rs:83-92 and 171-182 -/
noncomputable def decode (i : FixedInt T N) (o : ByteOrder) : DecodeFn T Empty := fun producer s => do
  let bytes := List.replicate N 0
  match ← bulkOverwriteFullSlice producer s bytes with
  | (s, .error err, _) => return (s, .error (.fromProduceAtLeast err))
  | (s, .ok (), bytes) => return (s, .ok (i.fromBytes o bytes))

end FixedInt

end Verif.Async
