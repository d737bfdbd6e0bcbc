import Verif.CodecSpec
import Verif.Model.TestVectors

/-!
# Specification vocabulary for test vectors
-/

namespace Verif

open Outcome

variable {T R : Type}

/-- What a decoder of the language `g` must answer if the bytes it can read are `bs`. -/
inductive Grammar.Meaning (g : Grammar T R) (bs : List UInt8) : Except (DecodeError Unit Empty R) T → Prop where
  | value {p : List UInt8} {x : T} : p <+: bs → g.Encoding p x → g.Meaning bs (.ok x)
  | invalid {p : List UInt8} {r : R} : p <+: bs → g.Invalid p r → g.Meaning bs (.error (.other r))
  | truncated : g.Incomplete bs → g.Meaning bs (.error (.unexpectedEndOfInput ()))

namespace TestVectors

/-- The files with one number: the contents of those that exist, by folder. -/
def Files := String → Option (List UInt8)

/-- The files with number `i`. -/
def Disk.files (disk : Disk) (i : Nat) : Files := fun folder => disk folder i

/-- Like `old`, except for the files in the list (in the order of writing). -/
def Files.with (old : Files) : List (String × List UInt8) → Files
  | [] => old
  | (folder, contents) :: rest =>
    Files.with (fun folder' => if folder' = folder then some contents else old folder') rest

/-- An empty output directory. -/
def Disk.empty : Disk := fun _ _ => none

/-- Each file of the corpus gives rise to the files that `vector` says, in addition to what there was, with the number of the
corpus file; all other files remain as they were. -/
def Numbered (vector : List UInt8 → List (String × List UInt8) → Prop) (corpus : List (List UInt8)) (before after : Disk) : Prop :=
  (∀ i (h : i < corpus.length), ∃ written, vector corpus[i] written ∧ after.files i = (before.files i).with written) ∧
  ∀ i, corpus.length ≤ i → after.files i = before.files i

variable {Rel : Type}

/-- The files of one test vector for absolute codecs, given the contents of a corpus file. `more`: the files that are written in
addition for a decoded value. -/
def AbsoluteVector (g : Grammar T R) (arb : List UInt8 → Option (List UInt8)) (dbg : T → List UInt8)
    (dbgErr : DecodeError Unit Empty R → List UInt8) (more : T → List (String × List UInt8)) (file : List UInt8)
    (written : List (String × List UInt8)) : Prop :=
  ∃ bytes, arb file = some bytes ∧
    ((∃ x, g.Meaning bytes (.ok x) ∧ written = [("yay", bytes), ("dbg", dbg x)] ++ more x) ∨
      ∃ e, g.Meaning bytes (.error e) ∧ written = [("nay", bytes), ("nay_reason", dbgErr e)])

/-- The files of one test vector for relative codecs. -/
def RelativeVector (g : Rel → Grammar T R) (arb : List UInt8 → Option (List UInt8 × Rel)) (encRel : Rel → List UInt8)
    (dbgPair : T → Rel → List UInt8) (dbgRel : Rel → List UInt8) (dbgErr : DecodeError Unit Empty R → List UInt8)
    (enc : T → List UInt8) (file : List UInt8) (written : List (String × List UInt8)) : Prop :=
  ∃ bytes r, arb file = some (bytes, r) ∧
    ((∃ x, (g r).Meaning bytes (.ok x) ∧ written =
        [("yay", bytes), ("yay_relative_to", encRel r), ("dbg", dbgPair x r), ("reencoded", enc x)]) ∨
      ∃ e, (g r).Meaning bytes (.error e) ∧ written =
        [("nay", bytes), ("nay_relative_to", encRel r), ("nay_dbg", dbgRel r), ("nay_reason", dbgErr e)])

end TestVectors

end Verif
