import Verif.Model.Codec

/-!
# `ufotofu_codec::test_vector_generation`

Model of `/repo/ufotofu_codec/src/test_vector_generation.rs`: functions that turn the corpora of fuzz tests into files with test
vectors.

Simplifications: reading and writing files does not fail. The corpus directory is the list of the contents of its files, in the
order in which `read_dir` lists them. Of the output directory only the files that the functions may write are modelled. What
`Arbitrary` makes of the contents of a corpus file (`arb`, `none` for an error), and the text that `{:#?}` yields (`dbg…`, as
bytes), are arbitrary functions. If a function panics then what it has written before is not modelled.
-/

namespace Verif

open Outcome

namespace TestVectors

/-- The contents of the files `out_dir/<folder>/<number>` that exist. -/
def Disk := String → Nat → Option (List UInt8)

/-- test_vector_generation.rs:504-513 `write_file_create_parent_dirs(out_dir.join(folder).join(count.to_string()), contents)` -/
def Disk.write (disk : Disk) (folder : String) (count : Nat) (contents : List UInt8) : Disk :=
  fun folder' count' => if folder' = folder ∧ count' = count then some contents else disk folder' count'

section

variable {T R RC Rel : Type}

/-- test_vector_generation.rs:57-94 `single_test_vector_absolute` -/
def singleAbsolute (t : Encodable T) (d : Decodable T R) (arb : List UInt8 → Option (List UInt8)) (dbg : T → List UInt8)
    (dbgErr : DecodeError Unit Empty R → List UInt8) (unstructured : List UInt8) (disk : Disk) (count : Nat) : Outcome Disk := do
  let bytes ← unwrap (arb unstructured)
  match ← d.decodeFromSlice bytes with
  | .ok decoded =>
    let disk := disk.write "yay" count bytes
    let disk := disk.write "dbg" count (dbg decoded)
    return disk.write "reencoded" count (← t.encodeIntoVec decoded)
  | .error reason =>
    let disk := disk.write "nay" count bytes
    return disk.write "nay_reason" count (dbgErr reason)

/-- test_vector_generation.rs:139-171 `single_test_vector_canonic_absolute` -/
def singleCanonicAbsolute (d : DecodableCanonic T R RC) (arb : List UInt8 → Option (List UInt8)) (dbg : T → List UInt8)
    (dbgErr : DecodeError Unit Empty RC → List UInt8) (unstructured : List UInt8) (disk : Disk) (count : Nat) :
    Outcome Disk := do
  let bytes ← unwrap (arb unstructured)
  match ← d.decodeCanonicFromSlice bytes with
  | .ok decoded =>
    let disk := disk.write "yay" count bytes
    return disk.write "dbg" count (dbg decoded)
  | .error reason =>
    let disk := disk.write "nay" count bytes
    return disk.write "nay_reason" count (dbgErr reason)

/-- test_vector_generation.rs:221-279 `single_test_vector_relative`. `dbgPair` formats an `EncodedPair` (497-502). -/
def singleRelative (t : Encodable T) (d : RelativeDecodable T Rel R) (rel : Encodable Rel)
    (arb : List UInt8 → Option (List UInt8 × Rel)) (dbgPair : T → Rel → List UInt8) (dbgRel : Rel → List UInt8)
    (dbgErr : DecodeError Unit Empty R → List UInt8) (unstructured : List UInt8) (disk : Disk) (count : Nat) :
    Outcome Disk := do
  let (bytes, r) ← unwrap (arb unstructured)
  match ← d.relativeDecodeFromSlice bytes r with
  | .ok decoded =>
    let disk := disk.write "yay" count bytes
    let disk := disk.write "yay_relative_to" count (← rel.encodeIntoVec r)
    let disk := disk.write "dbg" count (dbgPair decoded r)
    return disk.write "reencoded" count (← t.encodeIntoVec decoded)
  | .error reason =>
    let disk := disk.write "nay" count bytes
    let disk := disk.write "nay_relative_to" count (← rel.encodeIntoVec r)
    let disk := disk.write "nay_dbg" count (dbgRel r)
    return disk.write "nay_reason" count (dbgErr reason)

/-- test_vector_generation.rs:313-372 `single_test_vector_relative_custom_serialisation` -/
def singleRelativeCustom (t : Encodable T) (d : RelativeDecodable T Rel R) (encodeR : Rel → List UInt8)
    (arb : List UInt8 → Option (List UInt8 × Rel)) (dbgPair : T → Rel → List UInt8) (dbgRel : Rel → List UInt8)
    (dbgErr : DecodeError Unit Empty R → List UInt8) (unstructured : List UInt8) (disk : Disk) (count : Nat) :
    Outcome Disk := do
  let (bytes, r) ← unwrap (arb unstructured)
  match ← d.relativeDecodeFromSlice bytes r with
  | .ok decoded =>
    let disk := disk.write "yay" count bytes
    let disk := disk.write "yay_relative_to" count (encodeR r)
    let disk := disk.write "dbg" count (dbgPair decoded r)
    return disk.write "reencoded" count (← t.encodeIntoVec decoded)
  | .error reason =>
    let disk := disk.write "nay" count bytes
    let disk := disk.write "nay_relative_to" count (encodeR r)
    let disk := disk.write "nay_dbg" count (dbgRel r)
    return disk.write "nay_reason" count (dbgErr reason)

/-- test_vector_generation.rs:437-495 `single_test_vector_canonic_relative` -/
def singleCanonicRelative (t : Encodable T) (d : RelativeDecodableCanonic T Rel R RC) (rel : Encodable Rel)
    (arb : List UInt8 → Option (List UInt8 × Rel)) (dbgPair : T → Rel → List UInt8) (dbgRel : Rel → List UInt8)
    (dbgErr : DecodeError Unit Empty RC → List UInt8) (unstructured : List UInt8) (disk : Disk) (count : Nat) :
    Outcome Disk := do
  let (bytes, r) ← unwrap (arb unstructured)
  match ← d.relativeDecodeCanonicFromSlice bytes r with
  | .ok decoded =>
    let disk := disk.write "yay" count bytes
    let disk := disk.write "yay_relative_to" count (← rel.encodeIntoVec r)
    let disk := disk.write "dbg" count (dbgPair decoded r)
    return disk.write "reencoded" count (← t.encodeIntoVec decoded)
  | .error reason =>
    let disk := disk.write "nay" count bytes
    let disk := disk.write "nay_relative_to" count (← rel.encodeIntoVec r)
    let disk := disk.write "nay_dbg" count (dbgRel r)
    return disk.write "nay_reason" count (dbgErr reason)

/-- The loop `let mut i = 0; for corpus_file in … { single(…, i); i += 1; }` from index `i` on. -/
def eachFile (single : List UInt8 → Disk → Nat → Outcome Disk) (i : Nat) (disk : Disk) : List (List UInt8) → Outcome Disk
  | [] => ok disk
  | file :: files => do
    let disk ← single file disk i
    eachFile single (i + 1) disk files

/-- test_vector_generation.rs:40-54 `generate_test_vectors_absolute` -/
def generateAbsolute (t : Encodable T) (d : Decodable T R) (arb : List UInt8 → Option (List UInt8)) (dbg : T → List UInt8)
    (dbgErr : DecodeError Unit Empty R → List UInt8) (disk : Disk) (corpus : List (List UInt8)) : Outcome Disk :=
  eachFile (singleAbsolute t d arb dbg dbgErr) 0 disk corpus

/-- test_vector_generation.rs:122-136 `generate_test_vectors_canonic_absolute` -/
def generateCanonicAbsolute (d : DecodableCanonic T R RC) (arb : List UInt8 → Option (List UInt8)) (dbg : T → List UInt8)
    (dbgErr : DecodeError Unit Empty RC → List UInt8) (disk : Disk) (corpus : List (List UInt8)) : Outcome Disk :=
  eachFile (singleCanonicAbsolute d arb dbg dbgErr) 0 disk corpus

/-- test_vector_generation.rs:203-218 `generate_test_vectors_relative` -/
def generateRelative (t : Encodable T) (d : RelativeDecodable T Rel R) (rel : Encodable Rel)
    (arb : List UInt8 → Option (List UInt8 × Rel)) (dbgPair : T → Rel → List UInt8) (dbgRel : Rel → List UInt8)
    (dbgErr : DecodeError Unit Empty R → List UInt8) (disk : Disk) (corpus : List (List UInt8)) : Outcome Disk :=
  eachFile (singleRelative t d rel arb dbgPair dbgRel dbgErr) 0 disk corpus

/-- test_vector_generation.rs:282-310 `generate_test_vectors_relative_custom_serialisation` -/
def generateRelativeCustom (t : Encodable T) (d : RelativeDecodable T Rel R) (encodeR : Rel → List UInt8)
    (arb : List UInt8 → Option (List UInt8 × Rel)) (dbgPair : T → Rel → List UInt8) (dbgRel : Rel → List UInt8)
    (dbgErr : DecodeError Unit Empty R → List UInt8) (disk : Disk) (corpus : List (List UInt8)) : Outcome Disk :=
  eachFile (singleRelativeCustom t d encodeR arb dbgPair dbgRel dbgErr) 0 disk corpus

/-- test_vector_generation.rs:407-434 `generate_test_vectors_canonic_relative` -/
def generateCanonicRelative (t : Encodable T) (d : RelativeDecodableCanonic T Rel R RC) (rel : Encodable Rel)
    (arb : List UInt8 → Option (List UInt8 × Rel)) (dbgPair : T → Rel → List UInt8) (dbgRel : Rel → List UInt8)
    (dbgErr : DecodeError Unit Empty RC → List UInt8) (disk : Disk) (corpus : List (List UInt8)) : Outcome Disk :=
  eachFile (singleCanonicRelative t d rel arb dbgPair dbgRel dbgErr) 0 disk corpus

/-! The fuzz targets that build the corpora. -/

/-- test_vector_generation.rs:25-37 `fuzz_absolute_corpus!` -/
def fuzzAbsoluteCorpus (d : Decodable T R) (data : List UInt8) : Outcome Unit := do
  let _ ← d.decodeFromSlice data
  return

/-- test_vector_generation.rs:107-119 `fuzz_absolute_canonic_corpus!` -/
def fuzzAbsoluteCanonicCorpus (d : DecodableCanonic T R RC) (data : List UInt8) : Outcome Unit := do
  let _ ← d.decodeCanonicFromSlice data
  return

/-- test_vector_generation.rs:184-200 `fuzz_relative_corpus!` -/
def fuzzRelativeCorpus (d : RelativeDecodable T Rel R) (data : List UInt8 × Rel) : Outcome Unit := do
  let (bytes, r) := data
  let _ ← d.relativeDecodeFromSlice bytes r
  return

/-- test_vector_generation.rs:385-404 `fuzz_relative_canonic_corpus!` -/
def fuzzRelativeCanonicCorpus (d : RelativeDecodableCanonic T Rel R RC) (data : List UInt8 × Rel) : Outcome Unit := do
  let (bytes, r) := data
  let _ ← d.relativeDecodeCanonicFromSlice bytes r
  return

end

end TestVectors

end Verif
