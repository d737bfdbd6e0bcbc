import Verif.Model.Codec

/-!
# `ufotofu_codec_endian`

Model of `/repo/ufotofu_codec_endian/src/lib.rs`. The sixteen wrapper types are instances of two macros; the macros differ in
nothing but the conversion functions of the standard library that they call. An instance is determined by the integer type and
the byte order.
-/

namespace Verif

open Outcome

/-- A fixed-width integer type `T` of `N` bytes, given by the bit pattern of its values (two's complement for signed types). -/
structure FixedInt (T : Type) (N : Nat) where
  toBits : T → BitVec (8 * N)
  ofBits : BitVec (8 * N) → T

/-- `N` bytes of a number, least significant byte first. -/
def leBytes : Nat → Nat → List UInt8
  | 0, _ => []
  | N + 1, n => UInt8.ofNat n :: leBytes N (n / 256)

/-- The number with the given bytes, least significant byte first. -/
def ofLeBytes : List UInt8 → Nat
  | [] => 0
  | b :: bs => b.toNat + 256 * ofLeBytes bs

inductive ByteOrder where
  | big
  | little
  deriving DecidableEq, Repr

namespace FixedInt

variable {T : Type} {N : Nat}

/-- `to_be_bytes` and `to_le_bytes` of the standard library -/
def toBytes (i : FixedInt T N) (o : ByteOrder) (x : T) : List UInt8 :=
  match o with
  | .little => leBytes N (i.toBits x).toNat
  | .big => (leBytes N (i.toBits x).toNat).reverse

/-- `from_be_bytes` and `from_le_bytes` of the standard library. (They take an array of length `N`.) -/
def fromBytes (i : FixedInt T N) (o : ByteOrder) (bytes : List UInt8) : T :=
  match o with
  | .little => i.ofBits (BitVec.ofNat _ (ofLeBytes bytes))
  | .big => i.ofBits (BitVec.ofNat _ (ofLeBytes bytes.reverse))

/-- lib.rs:57-69 and 145-157 -/
noncomputable def encode (i : FixedInt T N) (o : ByteOrder) : EncodeFn T := fun consumer s x => do
  let bytes := i.toBytes o x
  match ← bulkConsumeFullSlice consumer s bytes with
  | (s, .error err) => return (s, .error err.reason)
  | (s, .ok ()) => return (s, .ok ())

/-- lib.rs:83-92 and 171-182 -/
noncomputable def decode (i : FixedInt T N) (o : ByteOrder) : DecodeFn T Empty := fun producer s => do
  let bytes := List.replicate N 0
  match ← bulkOverwriteFullSlice producer s bytes with
  | (s, .error err, _) => return (s, .error (.fromProduceAtLeast err))
  | (s, .ok (), bytes) => return (s, .ok (i.fromBytes o bytes))

/-- lib.rs:56-76 and 144-164; `$int::BITS / 8` is the number of bytes. -/
noncomputable def encodable (i : FixedInt T N) (o : ByteOrder) : EncodableKnownSize T where
  encode := i.encode o
  lenOfEncoding := fun _ => 8 * N / 8

/-- lib.rs:80-106 and 168-196; `ErrorCanonic = ErrorReason`, so the conversion is the reflexive `From`. -/
noncomputable def decodable (i : FixedInt T N) (o : ByteOrder) : DecodableCanonic T Empty Empty where
  decode := i.decode o
  errorFrom := id
  decodeCanonic := fun producer s => i.decode o producer s

end FixedInt

/-! ### The integer types, lib.rs:214-232 -/

def u8 : FixedInt UInt8 1 := ⟨UInt8.toBitVec, UInt8.ofBitVec⟩
def u16 : FixedInt UInt16 2 := ⟨UInt16.toBitVec, UInt16.ofBitVec⟩
def u32 : FixedInt UInt32 4 := ⟨UInt32.toBitVec, UInt32.ofBitVec⟩
def u64 : FixedInt UInt64 8 := ⟨UInt64.toBitVec, UInt64.ofBitVec⟩
def i8 : FixedInt Int8 1 := ⟨Int8.toBitVec, Int8.ofBitVec⟩
def i16 : FixedInt Int16 2 := ⟨Int16.toBitVec, Int16.ofBitVec⟩
def i32 : FixedInt Int32 4 := ⟨Int32.toBitVec, Int32.ofBitVec⟩
def i64 : FixedInt Int64 8 := ⟨Int64.toBitVec, Int64.ofBitVec⟩

/-- What a wrapper type of lib.rs:214-232 comes with. -/
structure EndianCodec (T : Type) where
  encodable : EncodableKnownSize T
  decodable : DecodableCanonic T Empty Empty

/-- The implementations generated by the macros: `endian_wrapper!` (lib.rs:24-110) with the conversion functions chosen by
`wrapper_be!` (202-206) and `wrapper_le!` (208-212). -/
noncomputable def FixedInt.codec {T : Type} {N : Nat} (i : FixedInt T N) (o : ByteOrder) : EndianCodec T :=
  ⟨i.encodable o, i.decodable o⟩

/-- `endian_wrapper_single_byte!` (lib.rs:112-200) always uses `to_be_bytes` and `from_be_bytes`. -/
noncomputable def FixedInt.codecSingleByte {T : Type} {N : Nat} (i : FixedInt T N) : EndianCodec T :=
  ⟨i.encodable .big, i.decodable .big⟩

noncomputable def U8BE := u8.codecSingleByte
noncomputable def U16BE := u16.codec .big
noncomputable def U32BE := u32.codec .big
noncomputable def U64BE := u64.codec .big
noncomputable def I8BE := i8.codecSingleByte
noncomputable def I16BE := i16.codec .big
noncomputable def I32BE := i32.codec .big
noncomputable def I64BE := i64.codec .big
noncomputable def U8LE := u8.codecSingleByte
noncomputable def U16LE := u16.codec .little
noncomputable def U32LE := u32.codec .little
noncomputable def U64LE := u64.codec .little
noncomputable def I8LE := i8.codecSingleByte
noncomputable def I16LE := i16.codec .little
noncomputable def I32LE := i32.codec .little
noncomputable def I64LE := i64.codec .little

end Verif
