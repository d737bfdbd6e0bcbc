import Verif.Model.Codec
import Verif.Model.TestDoubles

/-!
# `ufotofu_codec::proptest`: the assertion functions and the fuzz macros

Model of `/repo/ufotofu_codec/src/proptest/{absolute,relative}.rs` and `/repo/ufotofu_codec/src/proptest.rs`. An assertion
either returns, or panics (which is what makes a fuzz test fail); the texts of the panics are left out.

`absolute.rs` and `relative.rs` have the same code, except that the latter passes `r` along. So the private functions are
modelled once, as functions of an `EncodeFn` and a `DecodeFn`, which is what the methods `encode` and `decode` of a type are, and
also the methods `relative_encode` and `relative_decode` together with some `r`. The public functions and the macros are modelled
separately.

`Eq` of `T` and of the type of the error reasons is an arbitrary `BEq`. The crate uses ufotofu as a dependency, so the latter is
not compiled for testing (the flag `test` of the test doubles is `false`).
-/

namespace Verif

open Outcome

namespace Proptest

/-- `TestConsumer<u8, (), ()>` -/
abbrev Sink := InvariantSt (TestConsumer UInt8 Unit Unit)

/-- The methods of `TestConsumer<u8, (), ()>`. -/
noncomputable abbrev sink : BulkConsumer Sink UInt8 Unit Unit := publicConsumer false (TestConsumer.consumer false UInt8 Unit Unit)

/-- A `TestConsumer` as it is created by its `Arbitrary` implementation,
`/repo/ufotofu/src/consumer/test_consumer.rs:142-153`. -/
def Sink.arbitrary (untilError : Nat) (sizes : List NonZero) (pattern : List Bool) : Sink :=
  .new (TestConsumer.new () untilError sizes (some pattern))

/-- `TestProducer<u8, (), ()>` -/
abbrev Source := InvariantSt (TestProducer UInt8 Unit Unit)

/-- The methods of `TestProducer<u8, (), ()>`. -/
noncomputable abbrev source : BulkProducer Source UInt8 Unit Unit :=
  publicProducer false (TestProducer.producer false UInt8 Unit Unit)

/-- absolute.rs:86-90, 91-95 -/
def Source.build (bytes : List UInt8) (sizes : List NonZero) (pattern : List Bool) : Source :=
  .new (TestProducer.new bytes (.ok ()) sizes (some pattern))

section

variable {T R RC : Type}

/-- absolute.rs:11-44, relative.rs:14-49 `assert_encoding_does_not_care_about_consumer_details`. The results of encoding are
only used for the message. -/
noncomputable def encodingDoesNotCare (encode : EncodeFn T) (t : T) (c1 c2 : Sink) : Outcome Unit := do
  let (c1, _) ← encode sink c1 t
  let (c2, _) ← encode sink c2 t
  let consumed1 ← c1.inner.consumed
  let consumed2 ← c2.inner.consumed
  let commonLen := min consumed1.length consumed2.length
  let part1 ← Outcome.slice consumed1 0 commonLen
  let part2 ← Outcome.slice consumed2 0 commonLen
  if part1 = part2 then return () else .panic

/-- absolute.rs:46-57, relative.rs:51-63 `assert_distinct_values_produce_distinct_encodings` -/
def distinctEncodings [BEq T] (encode : EncodeFn T) (t1 t2 : T) : Outcome Unit := do
  if t1 != t2 then
    let enc1 ← intoVecWith (fun C s => encode C s t1)
    let enc2 ← intoVecWith (fun C s => encode C s t2)
    if enc1 = enc2 then .panic else return ()
  else return ()

/-- absolute.rs:59-72, relative.rs:65-79 `assert_encodings_are_prefix_free` -/
def prefixFree [BEq T] (encode : EncodeFn T) (t1 t2 : T) : Outcome Unit := do
  if t1 != t2 then
    let enc1 ← intoVecWith (fun C s => encode C s t1)
    let enc2 ← intoVecWith (fun C s => encode C s t2)
    if enc1.isPrefixOf enc2 then .panic
    else if enc2.isPrefixOf enc1 then .panic
    else return ()
  else return ()

/-- The derived `PartialEq` of `DecodeError`, `/repo/ufotofu_codec/src/decode_error.rs:21-26`. -/
def sameError [BEq R] : DecodeError Unit Unit R → DecodeError Unit Unit R → Bool
  | .unexpectedEndOfInput (), .unexpectedEndOfInput () => true
  | .producer (), .producer () => true
  | .other r1, .other r2 => r1 == r2
  | _, _ => false

/-- absolute.rs:76-115, relative.rs:83-124 `assert_decoding_does_not_care_about_consumer_details` -/
noncomputable def decodingDoesNotCare [BEq T] [BEq R] (decode : DecodeFn T R) (potentialEncoding : List UInt8)
    (sizes1 sizes2 : List NonZero) (pattern1 pattern2 : List Bool) : Outcome Unit := do
  let p1 := Source.build potentialEncoding sizes1 pattern1
  let p2 := Source.build potentialEncoding sizes2 pattern2
  let (_, res1) ← decode source p1
  let (_, res2) ← decode source p2
  match res1, res2 with
  | .ok t1, .ok t2 => if t1 != t2 then .panic else return ()
  | .error err1, .error err2 => if !(sameError err1 err2) then .panic else return ()
  | _, _ => .panic

/-- absolute.rs:117-137, relative.rs:126-147 `assert_decoding_reads_no_excessive_bytes` -/
def readsNoExcessiveBytes (decode : DecodeFn T R) (enc : List UInt8) : Outcome Unit := do
  match ← decode publicFromSlice (FromSlice.new enc) with
  | (p, .ok _) =>
    let minimalEnc ← p.producedSoFar
    if minimalEnc.length > 1 then
      let part ← Outcome.slice minimalEnc 0 (minimalEnc.length - 1)
      match ← decode publicFromSlice (FromSlice.new part) with
      | (_, .error (.unexpectedEndOfInput ())) => return ()
      | _ => .panic
    else return ()
  | (_, .error _) => return ()

/-- absolute.rs:139-155, relative.rs:149-166 `assert_encoding_then_decoding_yields_the_original` -/
def yieldsTheOriginal [BEq T] (encode : EncodeFn T) (decode : DecodeFn T R) (t : T) : Outcome Unit := do
  let enc ← intoVecWith (fun C s => encode C s t)
  match ← Decodable.decodeFromSlice ⟨decode⟩ enc with
  | .ok t2 => if t != t2 then .panic else return ()
  | .error _ => .panic

/-- absolute.rs:159-186, relative.rs:170-201 `assert_basic_invariants` -/
noncomputable def basicInvariants [BEq T] [BEq R] (encode : EncodeFn T) (decode : DecodeFn T R) (t1 t2 : T) (c1 c2 : Sink)
    (potentialEncoding : List UInt8) (sizes1 sizes2 : List NonZero) (pattern1 pattern2 : List Bool) : Outcome Unit := do
  encodingDoesNotCare encode t1 c1 c2
  distinctEncodings encode t1 t2
  prefixFree encode t1 t2
  decodingDoesNotCare decode potentialEncoding sizes1 sizes2 pattern1 pattern2
  readsNoExcessiveBytes decode potentialEncoding
  yieldsTheOriginal encode decode t1

/-- absolute.rs:188-199, 202-207, relative.rs:203-215, 218-224 `assert_known_size_invariants` -/
def knownSizeInvariants (encode : EncodeFn T) (lenOfEncoding : T → Nat) (t : T) : Outcome Unit := do
  let enc ← intoVecWith (fun C s => encode C s t)
  if enc.length ≠ lenOfEncoding t then .panic else return ()

/-- absolute.rs:209-226, relative.rs:226-252 `assert_distinct_encodings_do_not_canonically_decode_to_equal_values` -/
def canonicDistinct [BEq T] (decodeCanonic : DecodeFn T RC) (potentialEncoding1 potentialEncoding2 : List UInt8) :
    Outcome Unit := do
  let (p1, res1) ← decodeCanonic publicFromSlice (FromSlice.new potentialEncoding1)
  let (p2, res2) ← decodeCanonic publicFromSlice (FromSlice.new potentialEncoding2)
  match res1, res2 with
  | .ok t1, .ok t2 =>
    let produced1 ← p1.producedSoFar
    let produced2 ← p2.producedSoFar
    if produced1 ≠ produced2 && t1 == t2 then .panic else return ()
  | _, _ => return ()

/-- absolute.rs:228-240, relative.rs:254-271 `assert_canonic_decoding_roundtrips` -/
def canonicRoundtrips (encode : EncodeFn T) (decodeCanonic : DecodeFn T RC) (potentialEncoding : List UInt8) :
    Outcome Unit := do
  match ← decodeCanonic publicFromSlice (FromSlice.new potentialEncoding) with
  | (p, .ok t) =>
    let reencoding ← intoVecWith (fun C s => encode C s t)
    let produced ← p.producedSoFar
    if produced ≠ reencoding then .panic else return ()
  | (_, .error _) => return ()

/-- absolute.rs:242-261, relative.rs:273-296 `assert_canonic_decoding_specialises_regular_decoding` -/
def canonicSpecialises [BEq T] (decode : DecodeFn T R) (decodeCanonic : DecodeFn T RC) (potentialEncoding : List UInt8) :
    Outcome Unit := do
  match ← Decodable.decodeFromSlice ⟨decodeCanonic⟩ potentialEncoding with
  | .ok tCanonic =>
    match ← Decodable.decodeFromSlice ⟨decode⟩ potentialEncoding with
    | .ok tGeneral => if tCanonic != tGeneral then .panic else return ()
    | .error _ => .panic
  | .error _ => return ()

/-- absolute.rs:264-276, relative.rs:299-323 `assert_canonic_invariants` -/
def canonicInvariants [BEq T] (encode : EncodeFn T) (decode : DecodeFn T R) (decodeCanonic : DecodeFn T RC)
    (potentialEncoding1 potentialEncoding2 : List UInt8) : Outcome Unit := do
  canonicDistinct decodeCanonic potentialEncoding1 potentialEncoding2
  canonicSpecialises decode decodeCanonic potentialEncoding1
  canonicRoundtrips encode decodeCanonic potentialEncoding1

end

/-- The tuple of arguments of the fuzz targets, `/repo/ufotofu_codec/src/proptest.rs:37-48`. (The targets without canonic
decoding do not have `bytes2`.) The two `TestConsumer`s are given by the arguments of `Sink.arbitrary`. -/
structure Data (T : Type) where
  t1 : T
  t2 : T
  untilError1 : Nat
  slotSizes1 : List NonZero
  slotPattern1 : List Bool
  untilError2 : Nat
  slotSizes2 : List NonZero
  slotPattern2 : List Bool
  bytes1 : List UInt8
  bytes2 : List UInt8
  itemSizes1 : List NonZero
  itemSizes2 : List NonZero
  itemPattern1 : List Bool
  itemPattern2 : List Bool

section

variable {T R RC Rel : Type} [BEq T] [BEq R]

/-- The call of `assert_basic_invariants` or `assert_relative_basic_invariants` in each of the macros, for example
proptest.rs:63-74, 343-355. -/
noncomputable def basicOf (encode : EncodeFn T) (decode : DecodeFn T R) (d : Data T) : Outcome Unit :=
  basicInvariants encode decode d.t1 d.t2 (Sink.arbitrary d.untilError1 d.slotSizes1 d.slotPattern1)
    (Sink.arbitrary d.untilError2 d.slotSizes2 d.slotPattern2) d.bytes1 d.itemSizes1 d.itemSizes2 d.itemPattern1 d.itemPattern2

/-- proptest.rs:25-82 `fuzz_absolute_all` -/
noncomputable def fuzzAbsoluteAll (t : EncodableKnownSize T) (d : DecodableCanonic T R RC) (data : Data T) : Outcome Unit := do
  basicOf t.encode d.decode data
  knownSizeInvariants t.encode t.lenOfEncoding data.t1
  canonicInvariants t.encode d.decode d.decodeCanonic data.bytes1 data.bytes2

/-- proptest.rs:96-151 `fuzz_absolute_canonic` -/
noncomputable def fuzzAbsoluteCanonic (t : Encodable T) (d : DecodableCanonic T R RC) (data : Data T) : Outcome Unit := do
  basicOf t.encode d.decode data
  canonicInvariants t.encode d.decode d.decodeCanonic data.bytes1 data.bytes2

/-- proptest.rs:165-218 `fuzz_absolute_known_size` -/
noncomputable def fuzzAbsoluteKnownSize (t : EncodableKnownSize T) (d : Decodable T R) (data : Data T) : Outcome Unit := do
  basicOf t.encode d.decode data
  knownSizeInvariants t.encode t.lenOfEncoding data.t1

/-- proptest.rs:232-283 `fuzz_absolute_basic` -/
noncomputable def fuzzAbsoluteBasic (t : Encodable T) (d : Decodable T R) (data : Data T) : Outcome Unit :=
  basicOf t.encode d.decode data

/-- proptest.rs:301-369 `fuzz_relative_all` -/
noncomputable def fuzzRelativeAll (t : RelativeEncodableKnownSize T Rel) (d : RelativeDecodableCanonic T Rel R RC)
    (predicate : T → Rel → Bool) (r : Rel) (data : Data T) : Outcome Unit := do
  if predicate data.t1 r && predicate data.t2 r then
    basicOf (t.relativeEncode r) (d.relativeDecode r) data
    knownSizeInvariants (t.relativeEncode r) (fun x => t.relativeLenOfEncoding x r) data.t1
    canonicInvariants (t.relativeEncode r) (d.relativeDecode r) (d.relativeDecodeCanonic r) data.bytes1 data.bytes2
  else return ()

/-- proptest.rs:383-449 `fuzz_relative_canonic` -/
noncomputable def fuzzRelativeCanonic (t : RelativeEncodable T Rel) (d : RelativeDecodableCanonic T Rel R RC)
    (predicate : T → Rel → Bool) (r : Rel) (data : Data T) : Outcome Unit := do
  if predicate data.t1 r && predicate data.t2 r then
    basicOf (t.relativeEncode r) (d.relativeDecode r) data
    canonicInvariants (t.relativeEncode r) (d.relativeDecode r) (d.relativeDecodeCanonic r) data.bytes1 data.bytes2
  else return ()

/-- proptest.rs:463-522 `fuzz_relative_known_size` -/
noncomputable def fuzzRelativeKnownSize (t : RelativeEncodableKnownSize T Rel) (d : RelativeDecodable T Rel R)
    (predicate : T → Rel → Bool) (r : Rel) (data : Data T) : Outcome Unit := do
  if predicate data.t1 r && predicate data.t2 r then
    basicOf (t.relativeEncode r) (d.relativeDecode r) data
    knownSizeInvariants (t.relativeEncode r) (fun x => t.relativeLenOfEncoding x r) data.t1
  else return ()

/-- proptest.rs:536-593 `fuzz_relative_basic` -/
noncomputable def fuzzRelativeBasic (t : RelativeEncodable T Rel) (d : RelativeDecodable T Rel R) (predicate : T → Rel → Bool)
    (r : Rel) (data : Data T) : Outcome Unit := do
  if predicate data.t1 r && predicate data.t2 r then basicOf (t.relativeEncode r) (d.relativeDecode r) data
  else return ()

end

end Proptest

end Verif
