import Verif.Model.Consumers

/-!
# `ufotofu_codec`: the codec traits, their default methods and the adaptors

Model of `/repo/ufotofu_codec/src/{decode_error,encode,decode,relative_encode,relative_decode}.rs` and
`/repo/ufotofu_codec/src/adaptors/{encoder,decoder,relative_encoder,relative_decoder}.rs`. (The shared adaptors are in
`Verif/Model/Shared.lean`.)

A codec trait is a structure whose methods work for all consumers (producers) of bytes: `C: BulkConsumer<Item = u8>` becomes
`∀ {σ F E}, BulkConsumer σ UInt8 F E → ...`. The marker traits `EncodableSync` etc. add no behaviour: `pollster::block_on`
runs the asynchronous method to completion, and running to completion is all that the model of an asynchronous method is.
-/

namespace Verif

open Outcome

/-! ## Errors -/

/-- `/repo/ufotofu_codec/src/decode_error.rs:21-26` -/
inductive DecodeError (F E Other : Type) where
  | unexpectedEndOfInput (fin : F)
  | producer (err : E)
  | other (reason : Other)
  deriving DecidableEq, Repr

namespace DecodeError

variable {F E OtherA OtherB : Type}

/-- decode_error.rs:42-51 -/
def mapOther (err : DecodeError F E OtherA) (fun_ : OtherA → OtherB) : DecodeError F E OtherB :=
  match err with
  | .producer err => .producer err
  | .unexpectedEndOfInput fin => .unexpectedEndOfInput fin
  | .other noncanonic_err => .other (fun_ noncanonic_err)

/-- decode_error.rs:30-39; `into` is the `From` implementation that the caller supplies through the trait bound. -/
def mapOtherFrom (into : OtherA → OtherB) (err : DecodeError F E OtherA) : DecodeError F E OtherB :=
  match err with
  | .producer err => .producer err
  | .unexpectedEndOfInput fin => .unexpectedEndOfInput fin
  | .other noncanonic_err => .other (into noncanonic_err)

/-- decode_error.rs:54-58 `From<E>` -/
def fromError (err : E) : DecodeError F E OtherA := .producer err

/-- decode_error.rs:60-67 `From<ProduceAtLeastError<F, E>>` -/
def fromProduceAtLeast (err : ProduceAtLeastError F E) : DecodeError F E OtherA :=
  match err.reason with
  | .inl fin => .unexpectedEndOfInput fin
  | .inr err => .producer err

/-- decode_error.rs:69-87 `Display`, given the `Display` implementations of the three parts. -/
def display (F' : F → String) (E' : E → String) (O' : OtherA → String) : DecodeError F E OtherA → String
  | .producer err => "The underlying producer encountered an error: " ++ E' err
  | .unexpectedEndOfInput fin => "The underlying producer emitted its final value: " ++ F' fin
  | .other reason => "Failed to decode: " ++ O' reason

/-- decode_error.rs:96-102 `Error::source`; `&dyn Error` is a reference to one of the two payloads. -/
def source : DecodeError F E OtherA → Option (E ⊕ OtherA)
  | .producer err => some (.inl err)
  | .unexpectedEndOfInput _ => none
  | .other reason => some (.inr reason)

end DecodeError

/-- decode_error.rs:107-112 -/
inductive Blame where
  | theirFault
  | ourFault
  deriving DecidableEq, Repr

namespace Blame

/-- `usize::try_from` of an unsigned integer, `usize` having `bits` bits. -/
def tryUsize (bits : Nat) (n : Nat) : Option Nat := if n < 2 ^ bits then some n else none

/-- `isize::try_from` of a signed integer, `isize` having `bits` bits. -/
def tryIsize (bits : Nat) (n : Int) : Option Int :=
  if -(2 ^ (bits - 1)) ≤ n ∧ n < 2 ^ (bits - 1) then some n else none

variable {F E : Type}

/-- decode_error.rs:116-118. The result type `usize` is given by its number of bits. -/
def u64ToUsize (bits : Nat) (n : UInt64) : Except (DecodeError F E Blame) Nat :=
  match tryUsize bits n.toNat with
  | some n => .ok n
  | none => .error (.other .ourFault)

/-- decode_error.rs:121-123 -/
def u32ToUsize (bits : Nat) (n : UInt32) : Except (DecodeError F E Blame) Nat :=
  match tryUsize bits n.toNat with
  | some n => .ok n
  | none => .error (.other .ourFault)

/-- decode_error.rs:126-128 -/
def u16ToUsize (n : UInt16) : Except (DecodeError F E Blame) Nat := .ok n.toNat

/-- decode_error.rs:131-133 -/
def i64ToUsize (bits : Nat) (n : Int64) : Except (DecodeError F E Blame) Int :=
  match tryIsize bits n.toInt with
  | some n => .ok n
  | none => .error (.other .ourFault)

/-- decode_error.rs:136-138 -/
def i32ToUsize (bits : Nat) (n : Int32) : Except (DecodeError F E Blame) Int :=
  match tryIsize bits n.toInt with
  | some n => .ok n
  | none => .error (.other .ourFault)

/-- decode_error.rs:141-143 -/
def i16ToUsize (n : Int16) : Except (DecodeError F E Blame) Int := .ok n.toInt

/-- decode_error.rs:146-150; `Infallible` is `Empty`. -/
def fromInfallible (value : Empty) : Blame := nomatch value

/-- decode_error.rs:152-163 -/
def display : Blame → String
  | .theirFault => "Received an incorrect encoding."
  | .ourFault => "Received an encoding we could not process."

end Blame

/-! ## Traits -/

/-- A function that writes an encoding of a value into any consumer of bytes, `/repo/ufotofu_codec/src/encode.rs:25-27`. -/
def EncodeFn (T : Type) := ∀ {σ F E : Type}, BulkConsumer σ UInt8 F E → σ → T → Outcome (σ × Except E Unit)

/-- A function that decodes a value from any producer of bytes, `/repo/ufotofu_codec/src/decode.rs:25-30`. -/
def DecodeFn (T R : Type) := ∀ {σ F E : Type}, BulkProducer σ UInt8 F E → σ → Outcome (σ × Except (DecodeError F E R) T)

/-- `/repo/ufotofu_codec/src/encode.rs:23-41` trait `Encodable` -/
structure Encodable (T : Type) where
  /-- encode.rs:25-27 -/
  encode : EncodeFn T

/-- `IntoVec`, as seen by crates other than ufotofu (`invariant_noop`, /repo/ufotofu/src/consumer.rs:57-60). -/
abbrev publicIntoVec : BulkConsumer (IntoVec UInt8) UInt8 Unit Empty := invariantNoopBulkConsumer (IntoVec.consumer UInt8)

/-- `FromSlice`, as seen by crates other than ufotofu. -/
abbrev publicFromSlice : BulkProducer (FromSlice UInt8) UInt8 Unit Empty := invariantNoopBulkProducer (FromSlice.producer UInt8)

/-- Common body of the `..._into_vec` and `..._into_boxed_slice` methods: encode into an `IntoVec` that starts out empty. The
error branch is `unreachable!()`. (The capacity of the vector is not observable; `into_boxed_slice` keeps the contents.) -/
def intoVecWith (encode : ∀ {σ F E : Type}, BulkConsumer σ UInt8 F E → σ → Outcome (σ × Except E Unit)) :
    Outcome (List UInt8) := do
  match ← encode publicIntoVec IntoVec.new with
  | (c, .ok ()) => return c.intoVec
  | (_, .error _) => .panic

/-- encode.rs:31-40 -/
def Encodable.encodeIntoVec {T : Type} (t : Encodable T) (x : T) : Outcome (List UInt8) :=
  intoVecWith (fun C s => t.encode C s x)

/-- encode.rs:46-62 trait `EncodableKnownSize` -/
structure EncodableKnownSize (T : Type) extends Encodable T where
  /-- encode.rs:48 -/
  lenOfEncoding : T → Nat

/-- encode.rs:52-61. `with_capacity(self.len_of_encoding())` is evaluated for its capacity only. -/
def EncodableKnownSize.encodeIntoBoxedSlice {T : Type} (t : EncodableKnownSize T) (x : T) : Outcome (List UInt8) :=
  intoVecWith (fun C s => t.encode C s x)

/-- `/repo/ufotofu_codec/src/decode.rs:20-38` trait `Decodable` -/
structure Decodable (T R : Type) where
  /-- decode.rs:25-30 -/
  decode : DecodeFn T R

/-- decode.rs:33-37 -/
def Decodable.decodeFromSlice {T R : Type} (t : Decodable T R) (enc : List UInt8) :
    Outcome (Except (DecodeError Unit Empty R) T) := do
  let (_, r) ← t.decode publicFromSlice (FromSlice.new enc)
  return r

/-- decode.rs:51-71 trait `DecodableCanonic` (`errorFrom` is the bound `ErrorCanonic: From<ErrorReason>`) -/
structure DecodableCanonic (T R RC : Type) extends Decodable T R where
  /-- decode.rs:55 -/
  errorFrom : R → RC
  /-- decode.rs:58-63 -/
  decodeCanonic : DecodeFn T RC

/-- decode.rs:66-70 -/
def DecodableCanonic.decodeCanonicFromSlice {T R RC : Type} (t : DecodableCanonic T R RC) (enc : List UInt8) :
    Outcome (Except (DecodeError Unit Empty RC) T) := do
  let (_, r) ← t.decodeCanonic publicFromSlice (FromSlice.new enc)
  return r

/-- `/repo/ufotofu_codec/src/relative_encode.rs:18-40` trait `RelativeEncodable<RelativeTo>` -/
structure RelativeEncodable (T Rel : Type) where
  /-- relative_encode.rs:20-26 -/
  relativeEncode : Rel → EncodeFn T

/-- relative_encode.rs:30-39 -/
def RelativeEncodable.relativeEncodeIntoVec {T Rel : Type} (t : RelativeEncodable T Rel) (x : T) (r : Rel) :
    Outcome (List UInt8) :=
  intoVecWith (fun C s => t.relativeEncode r C s x)

/-- relative_encode.rs:42-56 -/
def Encodable.toRelative {T : Type} (t : Encodable T) : RelativeEncodable T Unit where
  relativeEncode := fun _ => t.encode

/-- relative_encode.rs:59-75 trait `RelativeEncodableKnownSize<RelativeTo>` -/
structure RelativeEncodableKnownSize (T Rel : Type) extends RelativeEncodable T Rel where
  /-- relative_encode.rs:61 -/
  relativeLenOfEncoding : T → Rel → Nat

/-- relative_encode.rs:65-74 -/
def RelativeEncodableKnownSize.relativeEncodeIntoBoxedSlice {T Rel : Type} (t : RelativeEncodableKnownSize T Rel) (x : T)
    (r : Rel) : Outcome (List UInt8) :=
  intoVecWith (fun C s => t.relativeEncode r C s x)

/-- relative_encode.rs:77-84 -/
def EncodableKnownSize.toRelative {T : Type} (t : EncodableKnownSize T) : RelativeEncodableKnownSize T Unit where
  toRelativeEncodable := t.toEncodable.toRelative
  relativeLenOfEncoding := fun x _ => t.lenOfEncoding x

/-- `/repo/ufotofu_codec/src/relative_decode.rs:14-31` trait `RelativeDecodable<RelativeTo, ErrorReason>` -/
structure RelativeDecodable (T Rel R : Type) where
  /-- relative_decode.rs:16-22 -/
  relativeDecode : Rel → DecodeFn T R

/-- relative_decode.rs:25-30 -/
def RelativeDecodable.relativeDecodeFromSlice {T Rel R : Type} (t : RelativeDecodable T Rel R) (enc : List UInt8) (r : Rel) :
    Outcome (Except (DecodeError Unit Empty R) T) := do
  let (_, res) ← t.relativeDecode r publicFromSlice (FromSlice.new enc)
  return res

/-- relative_decode.rs:33-47 -/
def Decodable.toRelative {T R : Type} (t : Decodable T R) : RelativeDecodable T Unit R where
  relativeDecode := fun _ => t.decode

/-- relative_decode.rs:50-71 trait `RelativeDecodableCanonic<RelativeTo, ErrorReason, ErrorCanonic>` -/
structure RelativeDecodableCanonic (T Rel R RC : Type) extends RelativeDecodable T Rel R where
  errorFrom : R → RC
  /-- relative_decode.rs:56-62 -/
  relativeDecodeCanonic : Rel → DecodeFn T RC

/-- relative_decode.rs:65-70 -/
def RelativeDecodableCanonic.relativeDecodeCanonicFromSlice {T Rel R RC : Type} (t : RelativeDecodableCanonic T Rel R RC)
    (enc : List UInt8) (r : Rel) : Outcome (Except (DecodeError Unit Empty RC) T) := do
  let (_, res) ← t.relativeDecodeCanonic r publicFromSlice (FromSlice.new enc)
  return res

/-- relative_decode.rs:73-92 -/
def DecodableCanonic.toRelative {T R RC : Type} (t : DecodableCanonic T R RC) : RelativeDecodableCanonic T Unit R RC where
  toRelativeDecodable := t.toDecodable.toRelative
  errorFrom := t.errorFrom
  relativeDecodeCanonic := fun _ => t.decodeCanonic

/-! ## Adaptors -/

section Adaptors

variable {σ T R RC Rel B F E : Type}

/-- `/repo/ufotofu_codec/src/adaptors/encoder.rs:8-56` `Encoder<C, T>`. The only runtime field is the wrapped consumer, so the
state is the state of the consumer; `new` and `into_inner` (15-25) are the identity. -/
def encoder (t : Encodable T) (C : BulkConsumer σ UInt8 F E) : BufferedConsumer σ T F E where
  /- encoder.rs:39-41 -/
  consume s item := t.encode C s item
  /- encoder.rs:43-45 -/
  close s fin := C.close s fin
  /- encoder.rs:53-55 -/
  flush s := C.flush s

/-- Common body of the `produce` methods of the decoder adaptors: emit the final value if the inner producer has nothing more
to expose, and decode otherwise. `?` converts the errors of the inner producer with `From<E>`. -/
def decoderProduce (decode : DecodeFn T R) (P : BulkProducer σ UInt8 F E) (s : σ) :
    Outcome (σ × Except (DecodeError F E R) (T ⊕ F)) := do
  match ← P.exposeItems s with
  | (s, .error e) => return (s, .error (DecodeError.fromError e))
  | (s, .ok (.inr fin)) => return (s, .ok (.inr fin))
  | (s, .ok (.inl _)) =>
    match ← decode P s with
    | (s, .error e) => return (s, .error e)
    | (s, .ok x) => return (s, .ok (.inl x))

/-- Common body of the `slurp` methods of the decoder adaptors. -/
def decoderSlurp (P : BulkProducer σ UInt8 F E) (s : σ) : Outcome (σ × Except (DecodeError F E R) Unit) := do
  match ← P.slurp s with
  | (s, .error e) => return (s, .error (DecodeError.fromError e))
  | (s, .ok ()) => return (s, .ok ())

/-- `/repo/ufotofu_codec/src/adaptors/decoder.rs:12-60` `Decoder<P, T>`; the state is that of the wrapped producer. -/
def decoder (t : Decodable T R) (P : BulkProducer σ UInt8 F E) : BufferedProducer σ T F (DecodeError F E R) where
  /- decoder.rs:43-49 -/
  produce := decoderProduce t.decode P
  /- decoder.rs:57-59 -/
  slurp := decoderSlurp P

/-- decoder.rs:65-113 `CanonicDecoder<P, T>` -/
def canonicDecoder (t : DecodableCanonic T R RC) (P : BulkProducer σ UInt8 F E) :
    BufferedProducer σ T F (DecodeError F E RC) where
  /- decoder.rs:96-102 -/
  produce := decoderProduce t.decodeCanonic P
  /- decoder.rs:110-112 -/
  slurp := decoderSlurp P

/-- The two runtime fields of the relative adaptors; `B` is the type that can be borrowed as a `RelativeTo`. -/
structure RelativeSt (σ B : Type) where
  inner : σ
  relativeTo : B
  deriving DecidableEq, Repr

/-- relative_encoder.rs:30-32, relative_decoder.rs:34-36 and 102-104 -/
def RelativeSt.setRelativeTo (s : RelativeSt σ B) (relative_to : B) : RelativeSt σ B := { s with relativeTo := relative_to }

/-- `/repo/ufotofu_codec/src/adaptors/relative_encoder.rs:8-66` `RelativeEncoder<C, T, R, RelativeTo>`. -/
def relativeEncoder (t : RelativeEncodable T Rel) (borrow : B → Rel) (C : BulkConsumer σ UInt8 F E) :
    BufferedConsumer (RelativeSt σ B) T F E where
  /- relative_encoder.rs:47-50 -/
  consume s item := do
    let (inner, r) ← t.relativeEncode (borrow s.relativeTo) C s.inner item
    return ({ s with inner := inner }, r)
  /- relative_encoder.rs:52-54 -/
  close s fin := do
    let (inner, r) ← C.close s.inner fin
    return ({ s with inner := inner }, r)
  /- relative_encoder.rs:63-65 -/
  flush s := do
    let (inner, r) ← C.flush s.inner
    return ({ s with inner := inner }, r)

/-- `/repo/ufotofu_codec/src/adaptors/relative_decoder.rs:12-73` `RelativeDecoder`. -/
def relativeDecoder (t : RelativeDecodable T Rel R) (borrow : B → Rel) (P : BulkProducer σ UInt8 F E) :
    BufferedProducer (RelativeSt σ B) T F (DecodeError F E R) where
  /- relative_decoder.rs:52-60 -/
  produce s := do
    let (inner, r) ← decoderProduce (t.relativeDecode (borrow s.relativeTo)) P s.inner
    return ({ s with inner := inner }, r)
  /- relative_decoder.rs:70-72 -/
  slurp s := do
    let (inner, r) ← decoderSlurp P s.inner
    return ({ s with inner := inner }, r)

/-- relative_decoder.rs:78-143 `RelativeCanonicDecoder`. -/
def relativeCanonicDecoder (t : RelativeDecodableCanonic T Rel R RC) (borrow : B → Rel) (P : BulkProducer σ UInt8 F E) :
    BufferedProducer (RelativeSt σ B) T F (DecodeError F E RC) where
  /- relative_decoder.rs:121-129 -/
  produce s := do
    let (inner, r) ← decoderProduce (t.relativeDecodeCanonic (borrow s.relativeTo)) P s.inner
    return ({ s with inner := inner }, r)
  /- relative_decoder.rs:140-142 -/
  slurp s := do
    let (inner, r) ← decoderSlurp P s.inner
    return ({ s with inner := inner }, r)

end Adaptors

end Verif
