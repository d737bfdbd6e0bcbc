import Verif.Lemmas.TestVectors
import Verif.Props.Proptest

/-!
# C59: the generators of test vectors
-/

namespace Verif

open Outcome

namespace TestVectors

variable {T R RC Rel : Type}

/-! ## Example

Truth values are one byte each; of the canonic encodings, only 0 and 1. The corpus files are taken as they are; texts are single
bytes. For the relative generators: bytes encoded as the difference to the first byte of the corpus file, which must not be empty. -/

namespace Case

def arb (file : List UInt8) : Option (List UInt8) := some file

def dbg (x : Bool) : List UInt8 := [if x then 84 else 70]

def dbgErr {R : Type} : DecodeError Unit Empty R → List UInt8
  | .unexpectedEndOfInput () => [69]
  | .producer e => nomatch e
  | .other _ => [79]

def arbPair : List UInt8 → Option (List UInt8 × UInt8)
  | [] => none
  | r :: bytes => some (bytes, r)

/-- Bytes encoded as themselves. -/
noncomputable def byteEncodable : Encodable UInt8 := ⟨byteEncode id⟩

theorem byteEncodable_encodes : EncodesLaw byteEncodable.encode (fun x => [x]) := byte_encodes _

noncomputable def differenceCanonic : RelativeDecodableCanonic UInt8 UInt8 Empty Empty :=
  ⟨differenceDecodable, id, differenceDecodable.relativeDecode⟩

end Case

/-! ## What is written -/

/-- **C59.** `generate_test_vectors_absolute` gives one test vector per corpus file and changes no other files. -/
theorem generate_absolute {t : Encodable T} {d : Decodable T R} {enc : T → List UInt8} {g : Grammar T R}
    (he : EncodesLaw t.encode enc) (hd : DecodesLaw d.decode g) (arb : List UInt8 → Option (List UInt8)) (dbg : T → List UInt8)
    (dbgErr : DecodeError Unit Empty R → List UInt8) (disk : Disk) (corpus : List (List UInt8))
    (ha : ∀ u, u ∈ corpus → arb u ≠ none) :
    ∃ disk', generateAbsolute t d arb dbg dbgErr disk corpus = ok disk' ∧
      Numbered (AbsoluteVector g arb dbg dbgErr fun x => [("reencoded", enc x)]) corpus disk disk' := by
  refine eachFile_numbered (fun u hu disk i => ?_) disk
  obtain ⟨bytes, hb⟩ := Option.ne_none_iff_exists'.mp (ha u hu)
  exact single_absolute he hd arb dbg dbgErr hb disk i

example : ∃ disk, generateAbsolute Verif.Case.flagEncodable.toEncodable Verif.Case.flagDecodable.toDecodable Case.arb Case.dbg
      Case.dbgErr .empty [[5, 7], []] = ok disk ∧
    Numbered (AbsoluteVector (byteGrammar Verif.Case.flagValue) Case.arb Case.dbg Case.dbgErr fun x =>
      [("reencoded", [Verif.Case.flagCode x])]) [[5, 7], []] .empty disk :=
  generate_absolute Verif.Case.flag_encodes Verif.Case.flag_decodes _ _ _ _ _ (by simp [Case.arb])

/-- **C59.** `generate_test_vectors_canonic_absolute` -/
theorem generate_canonic_absolute {d : DecodableCanonic T R RC} {g : Grammar T RC} (hd : DecodesLaw d.decodeCanonic g)
    (arb : List UInt8 → Option (List UInt8)) (dbg : T → List UInt8)
    (dbgErr : DecodeError Unit Empty RC → List UInt8) (disk : Disk) (corpus : List (List UInt8))
    (ha : ∀ u, u ∈ corpus → arb u ≠ none) :
    ∃ disk', generateCanonicAbsolute d arb dbg dbgErr disk corpus = ok disk' ∧
      Numbered (AbsoluteVector g arb dbg dbgErr fun _ => []) corpus disk disk' := by
  refine eachFile_numbered (fun u hu disk i => ?_) disk
  obtain ⟨bytes, hb⟩ := Option.ne_none_iff_exists'.mp (ha u hu)
  exact single_canonic_absolute hd arb dbg dbgErr hb disk i

example : ∃ disk, generateCanonicAbsolute Verif.Case.flagDecodable Case.arb Case.dbg Case.dbgErr .empty [[1, 7], [7]] = ok disk ∧
    Numbered (AbsoluteVector (byteGrammar Verif.Case.flagCanonic) Case.arb Case.dbg Case.dbgErr fun _ => []) [[1, 7], [7]] .empty
      disk :=
  generate_canonic_absolute Verif.Case.flag_decodes_canonic _ _ _ _ _ (by simp [Case.arb])

/-- **C59.** `generate_test_vectors_relative` -/
theorem generate_relative {t : Encodable T} {d : RelativeDecodable T Rel R} {rel : Encodable Rel} {enc : T → List UInt8}
    {g : Rel → Grammar T R} {encRel : Rel → List UInt8} (he : EncodesLaw t.encode enc)
    (hd : ∀ r, DecodesLaw (d.relativeDecode r) (g r)) (hrel : EncodesLaw rel.encode encRel)
    (arb : List UInt8 → Option (List UInt8 × Rel)) (dbgPair : T → Rel → List UInt8) (dbgRel : Rel → List UInt8)
    (dbgErr : DecodeError Unit Empty R → List UInt8) (disk : Disk) (corpus : List (List UInt8))
    (ha : ∀ u, u ∈ corpus → arb u ≠ none) :
    ∃ disk', generateRelative t d rel arb dbgPair dbgRel dbgErr disk corpus = ok disk' ∧
      Numbered (RelativeVector g arb encRel dbgPair dbgRel dbgErr enc) corpus disk disk' := by
  refine eachFile_numbered (fun u hu disk i => ?_) disk
  obtain ⟨b, hb⟩ := Option.ne_none_iff_exists'.mp (ha u hu)
  exact single_relative he hd hrel arb dbgPair dbgRel dbgErr hb disk i

example : ∃ disk, generateRelative Case.byteEncodable differenceDecodable Case.byteEncodable Case.arbPair (fun x r => [x, r]) (fun r => [r])
      Case.dbgErr .empty [[10, 249], [10]] = ok disk ∧
    Numbered (RelativeVector differenceGrammar Case.arbPair (fun r => [r]) (fun x r => [x, r]) (fun r => [r]) Case.dbgErr
      (fun x => [x])) [[10, 249], [10]] .empty disk :=
  generate_relative Case.byteEncodable_encodes difference_decodes Case.byteEncodable_encodes _ _ _ _ _ _ (by simp [Case.arbPair])

/-- **C59.** `generate_test_vectors_relative_custom_serialisation` -/
theorem generate_relative_custom {t : Encodable T} {d : RelativeDecodable T Rel R} {enc : T → List UInt8}
    {g : Rel → Grammar T R} (encRel : Rel → List UInt8) (he : EncodesLaw t.encode enc)
    (hd : ∀ r, DecodesLaw (d.relativeDecode r) (g r))
    (arb : List UInt8 → Option (List UInt8 × Rel)) (dbgPair : T → Rel → List UInt8) (dbgRel : Rel → List UInt8)
    (dbgErr : DecodeError Unit Empty R → List UInt8) (disk : Disk) (corpus : List (List UInt8))
    (ha : ∀ u, u ∈ corpus → arb u ≠ none) :
    ∃ disk', generateRelativeCustom t d encRel arb dbgPair dbgRel dbgErr disk corpus = ok disk' ∧
      Numbered (RelativeVector g arb encRel dbgPair dbgRel dbgErr enc) corpus disk disk' := by
  refine eachFile_numbered (fun u hu disk i => ?_) disk
  obtain ⟨b, hb⟩ := Option.ne_none_iff_exists'.mp (ha u hu)
  exact single_relative_custom he hd arb dbgPair dbgRel dbgErr hb disk i

example : ∃ disk, generateRelativeCustom Case.byteEncodable differenceDecodable (fun r => [r]) Case.arbPair (fun x r => [x, r])
      (fun r => [r]) Case.dbgErr .empty [[10, 249], [10]] = ok disk ∧
    Numbered (RelativeVector differenceGrammar Case.arbPair (fun r => [r]) (fun x r => [x, r]) (fun r => [r]) Case.dbgErr
      (fun x => [x])) [[10, 249], [10]] .empty disk :=
  generate_relative_custom _ Case.byteEncodable_encodes difference_decodes _ _ _ _ _ _ (by simp [Case.arbPair])

/-- **C59.** `generate_test_vectors_canonic_relative` -/
theorem generate_canonic_relative {t : Encodable T} {d : RelativeDecodableCanonic T Rel R RC} {rel : Encodable Rel}
    {enc : T → List UInt8} {g : Rel → Grammar T RC} {encRel : Rel → List UInt8} (he : EncodesLaw t.encode enc)
    (hd : ∀ r, DecodesLaw (d.relativeDecodeCanonic r) (g r)) (hrel : EncodesLaw rel.encode encRel)
    (arb : List UInt8 → Option (List UInt8 × Rel)) (dbgPair : T → Rel → List UInt8) (dbgRel : Rel → List UInt8)
    (dbgErr : DecodeError Unit Empty RC → List UInt8) (disk : Disk) (corpus : List (List UInt8))
    (ha : ∀ u, u ∈ corpus → arb u ≠ none) :
    ∃ disk', generateCanonicRelative t d rel arb dbgPair dbgRel dbgErr disk corpus = ok disk' ∧
      Numbered (RelativeVector g arb encRel dbgPair dbgRel dbgErr enc) corpus disk disk' := by
  refine eachFile_numbered (fun u hu disk i => ?_) disk
  obtain ⟨b, hb⟩ := Option.ne_none_iff_exists'.mp (ha u hu)
  exact single_canonic_relative he hd hrel arb dbgPair dbgRel dbgErr hb disk i

example : ∃ disk, generateCanonicRelative Case.byteEncodable Case.differenceCanonic Case.byteEncodable Case.arbPair (fun x r => [x, r])
      (fun r => [r]) Case.dbgErr .empty [[10, 249], [10]] = ok disk ∧
    Numbered (RelativeVector differenceGrammar Case.arbPair (fun r => [r]) (fun x r => [x, r]) (fun r => [r]) Case.dbgErr
      (fun x => [x])) [[10, 249], [10]] .empty disk :=
  generate_canonic_relative Case.byteEncodable_encodes difference_decodes Case.byteEncodable_encodes _ _ _ _ _ _ (by simp [Case.arbPair])

/-! ## What a reader of the files finds -/

/-- What a reader finds after a run with an empty output directory. -/
structure AbsoluteFiles (decode : List UInt8 → Outcome (Except (DecodeError Unit Empty R) T)) (arb : List UInt8 → Option (List UInt8))
    (dbg : T → List UInt8) (dbgErr : DecodeError Unit Empty R → List UInt8) (corpus : List (List UInt8)) (disk : Disk) : Prop where
  /-- The input of each corpus file is in exactly one of the two folders. -/
  input : ∀ i (h : i < corpus.length), ∃ bytes, arb corpus[i] = some bytes ∧
    ((disk "yay" i = some bytes ∧ disk "nay" i = none) ∨ (disk "nay" i = some bytes ∧ disk "yay" i = none))
  /-- There is nothing else. -/
  nothing : ∀ i, corpus.length ≤ i → ∀ folder, disk folder i = none
  /-- What is in `yay` can be decoded, and `dbg` describes the value. -/
  yay : ∀ i bytes, disk "yay" i = some bytes → ∃ x, decode bytes = ok (.ok x) ∧ disk "dbg" i = some (dbg x) ∧
    disk "nay_reason" i = none
  /-- What is in `nay` cannot be decoded, and `nay_reason` says why. -/
  nay : ∀ i bytes, disk "nay" i = some bytes → ∃ e, decode bytes = ok (.error e) ∧ disk "nay_reason" i = some (dbgErr e) ∧
    disk "dbg" i = none

private theorem numbered_cases {vector : List UInt8 → List (String × List UInt8) → Prop} {corpus : List (List UInt8)} {disk : Disk}
    (h : Numbered vector corpus .empty disk) (i : Nat) :
    (∃ hi : i < corpus.length, ∃ written, vector corpus[i] written ∧ ∀ f, disk f i = Files.with (fun _ => none) written f) ∨
      (corpus.length ≤ i ∧ ∀ f, disk f i = none) := by
  rcases Nat.lt_or_ge i corpus.length with hi | hi
  · obtain ⟨w, hv, hw⟩ := h.1 i hi
    exact .inl ⟨hi, w, hv, fun f => congrFun hw f⟩
  · exact .inr ⟨hi, fun f => congrFun (h.2 i hi) f⟩

private theorem absolute_files {decode : List UInt8 → Outcome (Except (DecodeError Unit Empty R) T)} {g : Grammar T R}
    (hdec : FromSliceSpec decode g) {arb : List UInt8 → Option (List UInt8)} {dbg : T → List UInt8}
    {dbgErr : DecodeError Unit Empty R → List UInt8} {more : T → List (String × List UInt8)} {corpus : List (List UInt8)} {disk : Disk}
    (hmore : (∃ enc : T → List UInt8, more = fun x => [("reencoded", enc x)]) ∨ more = fun _ => [])
    (h : Numbered (AbsoluteVector g arb dbg dbgErr more) corpus .empty disk) :
    AbsoluteFiles decode arb dbg dbgErr corpus disk := by
  constructor
  · intro i hi
    obtain ⟨_, w, ⟨bytes, hb, hw⟩, hf⟩ | ⟨h', _⟩ := numbered_cases h i
    · refine ⟨bytes, hb, ?_⟩
      obtain ⟨x, _, rfl⟩ | ⟨e, _, rfl⟩ := hw
      · obtain ⟨enc, rfl⟩ | rfl := hmore <;> simp [hf, Files.with]
      · simp [hf, Files.with]
    · omega
  · intro i hi f
    obtain ⟨h', _⟩ | ⟨_, hf⟩ := numbered_cases h i
    · omega
    · exact hf f
  · intro i bs hbs
    obtain ⟨_, w, ⟨bytes, hb, hw⟩, hf⟩ | ⟨_, hf⟩ := numbered_cases h i
    · obtain ⟨x, hm, rfl⟩ | ⟨e, _, rfl⟩ := hw
      · have : bytes = bs := by
          obtain ⟨enc, rfl⟩ | rfl := hmore <;> simpa [hf, Files.with] using hbs
        subst this
        exact ⟨x, fromSlice_meaning hdec hm, by obtain ⟨enc, rfl⟩ | rfl := hmore <;> simp [hf, Files.with]⟩
      · simp [hf, Files.with] at hbs
    · simp [hf] at hbs
  · intro i bs hbs
    obtain ⟨_, w, ⟨bytes, hb, hw⟩, hf⟩ | ⟨_, hf⟩ := numbered_cases h i
    · obtain ⟨x, _, rfl⟩ | ⟨e, hm, rfl⟩ := hw
      · obtain ⟨enc, rfl⟩ | rfl := hmore <;> simp [hf, Files.with] at hbs
      · have : bytes = bs := by simpa [hf, Files.with] using hbs
        subst this
        exact ⟨e, fromSlice_meaning hdec hm, by simp [hf, Files.with]⟩
    · simp [hf] at hbs

/-- **C59.** After `generate_test_vectors_absolute` with an empty output directory; moreover, what is in `reencoded` decodes to the
same value. -/
theorem absolute_vectors {t : Encodable T} {d : Decodable T R} {enc : T → List UInt8} {g : Grammar T R}
    (he : EncodesLaw t.encode enc) (hd : DecodesLaw d.decode g) (hinv : ∀ x, g.Encoding (enc x) x)
    (arb : List UInt8 → Option (List UInt8)) (dbg : T → List UInt8)
    (dbgErr : DecodeError Unit Empty R → List UInt8) (corpus : List (List UInt8)) (ha : ∀ u, u ∈ corpus → arb u ≠ none) :
    ∃ disk, generateAbsolute t d arb dbg dbgErr .empty corpus = ok disk ∧
      AbsoluteFiles d.decodeFromSlice arb dbg dbgErr corpus disk ∧
      ∀ i bytes x, disk "yay" i = some bytes → d.decodeFromSlice bytes = ok (.ok x) →
        ∃ code, disk "reencoded" i = some code ∧ t.encodeIntoVec x = ok code ∧ d.decodeFromSlice code = ok (.ok x) := by
  obtain ⟨disk, h1, h2⟩ := generate_absolute he hd arb dbg dbgErr .empty corpus ha
  refine ⟨disk, h1, absolute_files (decode_from_slice_spec hd) (.inl ⟨enc, rfl⟩) h2, ?_⟩
  intro i bs x hbs hx
  obtain ⟨_, w, ⟨bytes, hb, hw⟩, hf⟩ | ⟨_, hf⟩ := numbered_cases h2 i
  · obtain ⟨y, hm, rfl⟩ | ⟨e, _, rfl⟩ := hw
    · have : bytes = bs := by simpa [hf, Files.with] using hbs
      subst this
      have hy := fromSlice_meaning (decode_from_slice_spec hd) hm
      rw [hy] at hx
      injection hx with hx
      injection hx with hx
      subst hx
      exact ⟨enc y, by simp [hf, Files.with], encode_into_vec_eq he y, by
        simpa using (decode_from_slice_spec hd).value _ y [] (hinv y)⟩
    · simp [hf, Files.with] at hbs
  · simp [hf] at hbs

example : ∃ disk, generateAbsolute Verif.Case.flagEncodable.toEncodable Verif.Case.flagDecodable.toDecodable Case.arb Case.dbg
      Case.dbgErr .empty [[5, 7], []] = ok disk ∧
    AbsoluteFiles Verif.Case.flagDecodable.decodeFromSlice Case.arb Case.dbg Case.dbgErr [[5, 7], []] disk := by
  obtain ⟨disk, h1, h2, _⟩ := absolute_vectors Verif.Case.flag_encodes Verif.Case.flag_decodes Verif.Case.flag_encoding Case.arb
    Case.dbg Case.dbgErr [[5, 7], []] (by simp [Case.arb])
  exact ⟨disk, h1, h2⟩

/-- **C59.** After `generate_test_vectors_canonic_absolute` with an empty output directory; moreover, what is in `yay` starts with
the encoding of the value. -/
theorem canonic_absolute_vectors [BEq T] {t : Encodable T} {d : DecodableCanonic T R RC} {enc : T → List UInt8} {g : Grammar T R}
    {gc : Grammar T RC} (he : EncodesLaw t.encode enc) (hc : CanonicContract d.decodeCanonic enc g gc)
    (arb : List UInt8 → Option (List UInt8)) (dbg : T → List UInt8)
    (dbgErr : DecodeError Unit Empty RC → List UInt8) (corpus : List (List UInt8)) (ha : ∀ u, u ∈ corpus → arb u ≠ none) :
    ∃ disk, generateCanonicAbsolute d arb dbg dbgErr .empty corpus = ok disk ∧
      AbsoluteFiles d.decodeCanonicFromSlice arb dbg dbgErr corpus disk ∧
      ∀ i bytes x, disk "yay" i = some bytes → d.decodeCanonicFromSlice bytes = ok (.ok x) →
        ∃ code, t.encodeIntoVec x = ok code ∧ code <+: bytes := by
  obtain ⟨disk, h1, h2⟩ := generate_canonic_absolute hc.decodes arb dbg dbgErr .empty corpus ha
  refine ⟨disk, h1, absolute_files (decode_canonic_from_slice_spec hc.decodes) (.inr rfl) h2, ?_⟩
  intro i bs x hbs hx
  obtain ⟨_, w, ⟨bytes, hb, hw⟩, hf⟩ | ⟨_, hf⟩ := numbered_cases h2 i
  · obtain ⟨y, hm, rfl⟩ | ⟨e, _, rfl⟩ := hw
    · have : bytes = bs := by simpa [hf, Files.with] using hbs
      subst this
      have hy := fromSlice_meaning (decode_canonic_from_slice_spec hc.decodes) hm
      rw [hy] at hx
      injection hx with hx
      injection hx with hx
      subst hx
      cases hm with
      | value hp hv => exact ⟨enc y, encode_into_vec_eq he y, by rw [hc.reencodes _ _ hv]; exact hp⟩
    · simp [hf, Files.with] at hbs
  · simp [hf] at hbs

example : ∃ disk, generateCanonicAbsolute Verif.Case.flagDecodable Case.arb Case.dbg Case.dbgErr .empty [[1, 7], [7]] = ok disk ∧
    AbsoluteFiles Verif.Case.flagDecodable.decodeCanonicFromSlice Case.arb Case.dbg Case.dbgErr [[1, 7], [7]] disk := by
  obtain ⟨disk, h1, h2, _⟩ := canonic_absolute_vectors Verif.Case.flag_encodes Verif.Case.flag_canonic Case.arb
    Case.dbg Case.dbgErr [[1, 7], [7]] (by simp [Case.arb])
  exact ⟨disk, h1, h2⟩

/-- What a reader finds after a run of a relative generator with an empty output directory. -/
structure RelativeFiles (decode : Rel → List UInt8 → Outcome (Except (DecodeError Unit Empty R) T))
    (arb : List UInt8 → Option (List UInt8 × Rel)) (encRel : Rel → List UInt8) (dbgPair : T → Rel → List UInt8)
    (dbgRel : Rel → List UInt8) (dbgErr : DecodeError Unit Empty R → List UInt8) (enc : T → List UInt8)
    (corpus : List (List UInt8)) (disk : Disk) : Prop where
  input : ∀ i (h : i < corpus.length), ∃ bytes r, arb corpus[i] = some (bytes, r) ∧
    ((disk "yay" i = some bytes ∧ disk "yay_relative_to" i = some (encRel r) ∧ disk "nay" i = none ∧
        disk "nay_relative_to" i = none) ∨
      (disk "nay" i = some bytes ∧ disk "nay_relative_to" i = some (encRel r) ∧ disk "yay" i = none ∧
        disk "yay_relative_to" i = none))
  nothing : ∀ i, corpus.length ≤ i → ∀ folder, disk folder i = none
  yay : ∀ i bytes, disk "yay" i = some bytes → ∃ r x, decode r bytes = ok (.ok x) ∧ disk "yay_relative_to" i = some (encRel r) ∧
    disk "dbg" i = some (dbgPair x r) ∧ disk "reencoded" i = some (enc x)
  nay : ∀ i bytes, disk "nay" i = some bytes → ∃ r e, decode r bytes = ok (.error e) ∧
    disk "nay_relative_to" i = some (encRel r) ∧ disk "nay_dbg" i = some (dbgRel r) ∧ disk "nay_reason" i = some (dbgErr e)

private theorem relative_files {decode : Rel → List UInt8 → Outcome (Except (DecodeError Unit Empty R) T)} {g : Rel → Grammar T R}
    (hdec : ∀ r, FromSliceSpec (decode r) (g r)) {arb : List UInt8 → Option (List UInt8 × Rel)} {encRel : Rel → List UInt8}
    {dbgPair : T → Rel → List UInt8} {dbgRel : Rel → List UInt8} {dbgErr : DecodeError Unit Empty R → List UInt8}
    {enc : T → List UInt8} {corpus : List (List UInt8)} {disk : Disk}
    (h : Numbered (RelativeVector g arb encRel dbgPair dbgRel dbgErr enc) corpus .empty disk) :
    RelativeFiles decode arb encRel dbgPair dbgRel dbgErr enc corpus disk := by
  constructor
  · intro i hi
    obtain ⟨_, w, ⟨bytes, r, hb, hw⟩, hf⟩ | ⟨h', _⟩ := numbered_cases h i
    · refine ⟨bytes, r, hb, ?_⟩
      obtain ⟨x, _, rfl⟩ | ⟨e, _, rfl⟩ := hw <;> simp [hf, Files.with]
    · omega
  · intro i hi f
    obtain ⟨h', _⟩ | ⟨_, hf⟩ := numbered_cases h i
    · omega
    · exact hf f
  · intro i bs hbs
    obtain ⟨_, w, ⟨bytes, r, hb, hw⟩, hf⟩ | ⟨_, hf⟩ := numbered_cases h i
    · obtain ⟨x, hm, rfl⟩ | ⟨e, _, rfl⟩ := hw
      · have : bytes = bs := by simpa [hf, Files.with] using hbs
        subst this
        exact ⟨r, x, fromSlice_meaning (hdec r) hm, by simp [hf, Files.with]⟩
      · simp [hf, Files.with] at hbs
    · simp [hf] at hbs
  · intro i bs hbs
    obtain ⟨_, w, ⟨bytes, r, hb, hw⟩, hf⟩ | ⟨_, hf⟩ := numbered_cases h i
    · obtain ⟨x, _, rfl⟩ | ⟨e, hm, rfl⟩ := hw
      · simp [hf, Files.with] at hbs
      · have : bytes = bs := by simpa [hf, Files.with] using hbs
        subst this
        exact ⟨r, e, fromSlice_meaning (hdec r) hm, by simp [hf, Files.with]⟩
    · simp [hf] at hbs

/-- **C59.** After `generate_test_vectors_relative` with an empty output directory. -/
theorem relative_vectors {t : Encodable T} {d : RelativeDecodable T Rel R} {rel : Encodable Rel} {enc : T → List UInt8}
    {g : Rel → Grammar T R} {encRel : Rel → List UInt8} (he : EncodesLaw t.encode enc)
    (hd : ∀ r, DecodesLaw (d.relativeDecode r) (g r)) (hrel : EncodesLaw rel.encode encRel)
    (arb : List UInt8 → Option (List UInt8 × Rel)) (dbgPair : T → Rel → List UInt8) (dbgRel : Rel → List UInt8)
    (dbgErr : DecodeError Unit Empty R → List UInt8) (corpus : List (List UInt8)) (ha : ∀ u, u ∈ corpus → arb u ≠ none) :
    ∃ disk, generateRelative t d rel arb dbgPair dbgRel dbgErr .empty corpus = ok disk ∧
      RelativeFiles (fun r bs => d.relativeDecodeFromSlice bs r) arb encRel dbgPair dbgRel dbgErr enc corpus disk := by
  obtain ⟨disk, h1, h2⟩ := generate_relative he hd hrel arb dbgPair dbgRel dbgErr .empty corpus ha
  exact ⟨disk, h1, relative_files (relative_decode_from_slice_spec hd) h2⟩

example : ∃ disk, generateRelative Case.byteEncodable differenceDecodable Case.byteEncodable Case.arbPair (fun x r => [x, r])
      (fun r => [r]) Case.dbgErr .empty [[10, 249], [10]] = ok disk ∧
    RelativeFiles (fun r bs => differenceDecodable.relativeDecodeFromSlice bs r) Case.arbPair (fun r => [r]) (fun x r => [x, r])
      (fun r => [r]) Case.dbgErr (fun x => [x]) [[10, 249], [10]] disk :=
  relative_vectors Case.byteEncodable_encodes difference_decodes Case.byteEncodable_encodes _ _ _ _ _ (by simp [Case.arbPair])

/-- **C59.** After `generate_test_vectors_relative_custom_serialisation` with an empty output directory. -/
theorem relative_custom_vectors {t : Encodable T} {d : RelativeDecodable T Rel R} {enc : T → List UInt8}
    {g : Rel → Grammar T R} (encRel : Rel → List UInt8) (he : EncodesLaw t.encode enc)
    (hd : ∀ r, DecodesLaw (d.relativeDecode r) (g r))
    (arb : List UInt8 → Option (List UInt8 × Rel)) (dbgPair : T → Rel → List UInt8) (dbgRel : Rel → List UInt8)
    (dbgErr : DecodeError Unit Empty R → List UInt8) (corpus : List (List UInt8)) (ha : ∀ u, u ∈ corpus → arb u ≠ none) :
    ∃ disk, generateRelativeCustom t d encRel arb dbgPair dbgRel dbgErr .empty corpus = ok disk ∧
      RelativeFiles (fun r bs => d.relativeDecodeFromSlice bs r) arb encRel dbgPair dbgRel dbgErr enc corpus disk := by
  obtain ⟨disk, h1, h2⟩ := generate_relative_custom encRel he hd arb dbgPair dbgRel dbgErr .empty corpus ha
  exact ⟨disk, h1, relative_files (relative_decode_from_slice_spec hd) h2⟩

example : ∃ disk, generateRelativeCustom Case.byteEncodable differenceDecodable (fun r => [r, r]) Case.arbPair
      (fun x r => [x, r]) (fun r => [r]) Case.dbgErr .empty [[10, 249], [10]] = ok disk ∧
    RelativeFiles (fun r bs => differenceDecodable.relativeDecodeFromSlice bs r) Case.arbPair (fun r => [r, r])
      (fun x r => [x, r]) (fun r => [r]) Case.dbgErr (fun x => [x]) [[10, 249], [10]] disk :=
  relative_custom_vectors _ Case.byteEncodable_encodes difference_decodes _ _ _ _ _ (by simp [Case.arbPair])

/-- **C59.** After `generate_test_vectors_canonic_relative` with an empty output directory. -/
theorem canonic_relative_vectors {t : Encodable T} {d : RelativeDecodableCanonic T Rel R RC} {rel : Encodable Rel}
    {enc : T → List UInt8} {g : Rel → Grammar T RC} {encRel : Rel → List UInt8} (he : EncodesLaw t.encode enc)
    (hd : ∀ r, DecodesLaw (d.relativeDecodeCanonic r) (g r)) (hrel : EncodesLaw rel.encode encRel)
    (arb : List UInt8 → Option (List UInt8 × Rel)) (dbgPair : T → Rel → List UInt8) (dbgRel : Rel → List UInt8)
    (dbgErr : DecodeError Unit Empty RC → List UInt8) (corpus : List (List UInt8)) (ha : ∀ u, u ∈ corpus → arb u ≠ none) :
    ∃ disk, generateCanonicRelative t d rel arb dbgPair dbgRel dbgErr .empty corpus = ok disk ∧
      RelativeFiles (fun r bs => d.relativeDecodeCanonicFromSlice bs r) arb encRel dbgPair dbgRel dbgErr enc corpus disk := by
  obtain ⟨disk, h1, h2⟩ := generate_canonic_relative he hd hrel arb dbgPair dbgRel dbgErr .empty corpus ha
  exact ⟨disk, h1, relative_files (relative_decode_canonic_from_slice_spec hd) h2⟩

example : ∃ disk, generateCanonicRelative Case.byteEncodable Case.differenceCanonic Case.byteEncodable Case.arbPair
      (fun x r => [x, r]) (fun r => [r]) Case.dbgErr .empty [[10, 249], [10]] = ok disk ∧
    RelativeFiles (fun r bs => Case.differenceCanonic.relativeDecodeCanonicFromSlice bs r) Case.arbPair (fun r => [r])
      (fun x r => [x, r]) (fun r => [r]) Case.dbgErr (fun x => [x]) [[10, 249], [10]] disk :=
  canonic_relative_vectors Case.byteEncodable_encodes difference_decodes Case.byteEncodable_encodes _ _ _ _ _
    (by simp [Case.arbPair])

/-! ## Corpus files that `Arbitrary` rejects -/

/-- A corpus file that `Arbitrary` makes nothing of stops the generator. -/
theorem generate_absolute_panics {t : Encodable T} {d : Decodable T R} {enc : T → List UInt8} {g : Grammar T R}
    (he : EncodesLaw t.encode enc) (hd : DecodesLaw d.decode g) (arb : List UInt8 → Option (List UInt8)) (dbg : T → List UInt8)
    (dbgErr : DecodeError Unit Empty R → List UInt8) (disk : Disk) (corpus : List (List UInt8))
    (ha : ∃ u, u ∈ corpus ∧ arb u = none) : generateAbsolute t d arb dbg dbgErr disk corpus = .panic := by
  refine eachFile_panic (good := fun u => arb u ≠ none) ?_ ?_ corpus (ha.imp fun u h => ⟨h.1, by simp [h.2]⟩) 0 disk
  · intro u disk i hu
    obtain ⟨bytes, hb⟩ := Option.ne_none_iff_exists'.mp hu
    obtain ⟨disk', _, h, _⟩ := single_absolute he hd arb dbg dbgErr hb disk i
    exact ⟨disk', h⟩
  · intro u disk i hu
    simp at hu
    simp [singleAbsolute, hu, unwrap]

example : generateAbsolute Case.byteEncodable ⟨differenceDecodable.relativeDecode 0⟩ (fun u => if u = [] then none else some u)
    (fun x => [x]) Case.dbgErr .empty [[1], []] = .panic :=
  generate_absolute_panics Case.byteEncodable_encodes (difference_decodes 0) _ _ _ _ _ ⟨[], by simp, by simp⟩

/-! ## The fuzz targets that build the corpora -/

/-- The fuzz targets find nothing to complain about, whatever the data. -/
theorem corpus_targets_silent {d : DecodableCanonic T R RC} {g : Grammar T R} {gc : Grammar T RC} (hd : DecodesLaw d.decode g)
    (hc : DecodesLaw d.decodeCanonic gc) (data : List UInt8) :
    fuzzAbsoluteCorpus d.toDecodable data = ok () ∧ fuzzAbsoluteCanonicCorpus d data = ok () := by
  obtain ⟨res, hm⟩ := g.meaning_exists data
  obtain ⟨res', hm'⟩ := gc.meaning_exists data
  simp [fuzzAbsoluteCorpus, fuzzAbsoluteCanonicCorpus, fromSlice_meaning (decode_from_slice_spec hd) hm,
    fromSlice_meaning (decode_canonic_from_slice_spec hc) hm']

example : fuzzAbsoluteCorpus Verif.Case.flagDecodable.toDecodable [7, 8] = ok () ∧
    fuzzAbsoluteCanonicCorpus Verif.Case.flagDecodable [7, 8] = ok () :=
  corpus_targets_silent Verif.Case.flag_decodes Verif.Case.flag_decodes_canonic _

theorem relative_corpus_targets_silent {d : RelativeDecodableCanonic T Rel R RC} {g : Rel → Grammar T R} {gc : Rel → Grammar T RC}
    (hd : ∀ r, DecodesLaw (d.relativeDecode r) (g r)) (hc : ∀ r, DecodesLaw (d.relativeDecodeCanonic r) (gc r))
    (data : List UInt8 × Rel) :
    fuzzRelativeCorpus d.toRelativeDecodable data = ok () ∧ fuzzRelativeCanonicCorpus d data = ok () := by
  obtain ⟨bytes, r⟩ := data
  obtain ⟨res, hm⟩ := (g r).meaning_exists bytes
  obtain ⟨res', hm'⟩ := (gc r).meaning_exists bytes
  have h1 := fromSlice_meaning (relative_decode_from_slice_spec hd r) hm
  have h2 := fromSlice_meaning (relative_decode_canonic_from_slice_spec hc r) hm'
  simp [fuzzRelativeCorpus, fuzzRelativeCanonicCorpus, h1, h2]

example : fuzzRelativeCorpus Case.differenceCanonic.toRelativeDecodable ([7, 8], 3) = ok () ∧
    fuzzRelativeCanonicCorpus Case.differenceCanonic ([7, 8], 3) = ok () :=
  relative_corpus_targets_silent (d := Case.differenceCanonic) difference_decodes difference_decodes _

/-! ## What does not hold -/

/-- Without an empty output directory, the files of earlier runs stay. Here, an input is in `yay` and another one in `nay` under the
same number. -/
theorem stale_vectors : ∃ disk disk', generateCanonicAbsolute Verif.Case.flagDecodable Case.arb Case.dbg Case.dbgErr .empty [[1]] =
      ok disk ∧ generateCanonicAbsolute Verif.Case.flagDecodable Case.arb Case.dbg Case.dbgErr disk [[7]] = ok disk' ∧
    disk' "yay" 0 = some [1] ∧ disk' "dbg" 0 = some [84] ∧ disk' "nay" 0 = some [7] ∧ disk' "nay_reason" 0 = some [79] := by
  have hs := decode_canonic_from_slice_spec Verif.Case.flag_decodes_canonic
  have h1 : Verif.Case.flagDecodable.decodeCanonicFromSlice [1] = ok (.ok true) :=
    hs.value [1] true [] (Verif.Case.flag_encoding_canonic true)
  have h2 : Verif.Case.flagDecodable.decodeCanonicFromSlice [7] = ok (.error (.other 7)) :=
    hs.invalid [7] 7 [] Verif.Case.flag_invalid
  refine ⟨_, _, by simp [generateCanonicAbsolute, eachFile, singleCanonicAbsolute, Case.arb, unwrap, h1]; rfl,
    by simp [generateCanonicAbsolute, eachFile, singleCanonicAbsolute, Case.arb, unwrap, h2]; rfl, ?_⟩
  simp [Disk.write, Case.dbg, Case.dbgErr]

/-- What is in `yay` may have more bytes than the encoding, even for canonic codecs. -/
theorem vectors_with_trailing_bytes : ∃ disk, generateCanonicAbsolute Verif.Case.flagDecodable Case.arb Case.dbg Case.dbgErr .empty
      [[1, 7]] = ok disk ∧ disk "yay" 0 = some [1, 7] ∧ disk "dbg" 0 = some (Case.dbg true) ∧
    Verif.Case.flagEncodable.encodeIntoVec true = ok [1] := by
  have hs := decode_canonic_from_slice_spec Verif.Case.flag_decodes_canonic
  have h1 : Verif.Case.flagDecodable.decodeCanonicFromSlice [1, 7] = ok (.ok true) :=
    hs.value [1] true [7] (Verif.Case.flag_encoding_canonic true)
  refine ⟨_, by simp [generateCanonicAbsolute, eachFile, singleCanonicAbsolute, Case.arb, unwrap, h1]; rfl, ?_, ?_,
    encode_into_vec_eq Verif.Case.flag_encodes true⟩
  · simp [Disk.write]
  · simp [Disk.write]

/-- What the relative generators write to `reencoded` is the absolute encoding. Decoded relative to what is in `yay_relative_to`, it
may be another value: here the value 3 relative to 10, whose relative encoding is 249; decoding `reencoded` gives 13. -/
theorem relative_reencoded_absolute : ∃ disk, generateCanonicRelative Case.byteEncodable Case.differenceCanonic Case.byteEncodable
      Case.arbPair (fun x r => [x, r]) (fun r => [r]) Case.dbgErr .empty [[10, 249]] = ok disk ∧
    disk "yay" 0 = some [249] ∧ disk "yay_relative_to" 0 = some [10] ∧ disk "dbg" 0 = some [3, 10] ∧
    disk "reencoded" 0 = some [3] ∧ differenceEncodable.relativeEncodeIntoVec 3 10 = ok [249] ∧
    Case.differenceCanonic.relativeDecodeCanonicFromSlice [3] 10 = ok (.ok 13) := by
  have hs := relative_decode_canonic_from_slice_spec (t := Case.differenceCanonic) difference_decodes 10
  have h1 : Case.differenceCanonic.relativeDecodeCanonicFromSlice [249] 10 = ok (.ok 3) :=
    hs.value [249] 3 [] (difference_encoding 10 3)
  have h2 : Case.differenceCanonic.relativeDecodeCanonicFromSlice [3] 10 = ok (.ok 13) :=
    hs.value [3] 13 [] (difference_encoding 10 13)
  refine ⟨_, by simp [generateCanonicRelative, eachFile, singleCanonicRelative, Case.arbPair, unwrap, h1,
    encode_into_vec_eq Case.byteEncodable_encodes]; rfl, ?_, ?_, ?_, ?_, relative_encode_into_vec_eq difference_encodes 3 10, h2⟩
  all_goals simp [Disk.write]

end TestVectors

end Verif
