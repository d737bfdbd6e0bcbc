import Verif.TestVectorsSpec
import Verif.Lemmas.Proptest
import Verif.Props.Codec

/-!
# Lemmas about test vectors
-/

namespace Verif

open Outcome

namespace TestVectors

theorem files_write_same (disk : Disk) (folder : String) (i : Nat) (c : List UInt8) :
    (disk.write folder i c).files i = (disk.files i).with [(folder, c)] := by
  funext f; simp [Disk.files, Disk.write, Files.with]

theorem files_write_other (disk : Disk) (folder : String) {i j : Nat} (c : List UInt8) (h : j ≠ i) :
    (disk.write folder i c).files j = disk.files j := by
  funext f; simp [Disk.files, Disk.write, h]

theorem with_with : ∀ (old : Files) (l l' : List (String × List UInt8)), (old.with l).with l' = old.with (l ++ l')
  | _, [], _ => rfl
  | old, (f, c) :: l, l' => with_with (fun f' => if f' = f then some c else old f') l l'

/-- The loop over the corpus. -/
theorem eachFile_spec {single : List UInt8 → Disk → Nat → Outcome Disk}
    {vector : List UInt8 → List (String × List UInt8) → Prop} :
    ∀ (corpus : List (List UInt8)) (_ : ∀ u, u ∈ corpus → ∀ disk i, ∃ disk' written, single u disk i = ok disk' ∧
        vector u written ∧ disk'.files i = (disk.files i).with written ∧ ∀ j, j ≠ i → disk'.files j = disk.files j)
      (i : Nat) (disk : Disk), ∃ disk', eachFile single i disk corpus = ok disk' ∧
      (∀ k (h : k < corpus.length), ∃ written, vector corpus[k] written ∧
        disk'.files (i + k) = (disk.files (i + k)).with written) ∧
      ∀ j, j < i ∨ i + corpus.length ≤ j → disk'.files j = disk.files j
  | [], _, i, disk => ⟨disk, rfl, by simp, fun _ _ => rfl⟩
  | u :: corpus, h, i, disk => by
    obtain ⟨disk1, w, h1, h2, h3, h4⟩ := h u (by simp) disk i
    obtain ⟨disk2, h5, h6, h7⟩ := eachFile_spec corpus (fun u hu => h u (by simp [hu])) (i + 1) disk1
    refine ⟨disk2, by simp [eachFile, h1, h5], ?_, ?_⟩
    · intro k hk
      rcases k with _ | k
      · exact ⟨w, h2, by rw [Nat.add_zero, h7 i (.inl (by omega)), h3]⟩
      · obtain ⟨w', h8, h9⟩ := h6 k (by simpa using hk)
        refine ⟨w', h8, ?_⟩
        rw [show i + (k + 1) = i + 1 + k by omega, h9, h4 _ (by omega)]
    · intro j hj
      rw [h7 j (by simp at hj ⊢; omega), h4 j (by simp at hj; omega)]

theorem eachFile_numbered {single : List UInt8 → Disk → Nat → Outcome Disk}
    {vector : List UInt8 → List (String × List UInt8) → Prop} {corpus : List (List UInt8)}
    (h : ∀ u, u ∈ corpus → ∀ disk i, ∃ disk' written, single u disk i = ok disk' ∧
        vector u written ∧ disk'.files i = (disk.files i).with written ∧ ∀ j, j ≠ i → disk'.files j = disk.files j)
    (disk : Disk) : ∃ disk', eachFile single 0 disk corpus = ok disk' ∧ Numbered vector corpus disk disk' := by
  obtain ⟨disk', h1, h2, h3⟩ := eachFile_spec corpus h 0 disk
  exact ⟨disk', h1, by simpa using h2, fun i hi => h3 i (.inr (by omega))⟩

/-- A single bad file makes the whole loop panic. -/
theorem eachFile_panic {single : List UInt8 → Disk → Nat → Outcome Disk} {good : List UInt8 → Prop}
    (hgood : ∀ u disk i, good u → ∃ disk', single u disk i = ok disk') (hbad : ∀ u disk i, ¬ good u → single u disk i = .panic) :
    ∀ (corpus : List (List UInt8)) (_ : ∃ u, u ∈ corpus ∧ ¬ good u) (i : Nat) (disk : Disk),
      eachFile single i disk corpus = .panic
  | [], ⟨u, hu, _⟩, _, _ => by simp at hu
  | v :: corpus, ⟨u, hu, hb⟩, i, disk => by
    by_cases hv : good v
    · obtain ⟨disk1, h1⟩ := hgood v disk i hv
      have hm : u ∈ corpus := by
        rcases List.mem_cons.mp hu with rfl | hm
        · exact absurd hv hb
        · exact hm
      simp [eachFile, h1, eachFile_panic hgood hbad corpus ⟨u, hm, hb⟩ (i + 1) disk1]
    · simp [eachFile, hbad v disk i hv]

end TestVectors

section

variable {T R : Type}

/-- Every byte string has a meaning. -/
theorem Grammar.meaning_exists (g : Grammar T R) (bs : List UInt8) : ∃ res, g.Meaning bs res := by
  obtain ⟨k, _, ⟨x, h⟩ | ⟨r, h⟩⟩ | h := g.classify bs
  · exact ⟨_, .value (List.take_prefix k bs) h⟩
  · exact ⟨_, .invalid (List.take_prefix k bs) h⟩
  · exact ⟨_, .truncated h⟩

end

namespace TestVectors

variable {T R RC Rel : Type}

/-- What decoding from a slice returns, for all slices. -/
theorem fromSlice_meaning {decode : List UInt8 → Outcome (Except (DecodeError Unit Empty R) T)} {g : Grammar T R}
    (h : FromSliceSpec decode g) {bs : List UInt8} {res : Except (DecodeError Unit Empty R) T} (hm : g.Meaning bs res) :
    decode bs = ok res := by
  cases hm with
  | value hp he => obtain ⟨rest, rfl⟩ := hp; exact h.value _ _ rest he
  | invalid hp he => obtain ⟨rest, rfl⟩ := hp; exact h.invalid _ _ rest he
  | truncated hi => exact h.truncated _ hi

theorem single_absolute {t : Encodable T} {d : Decodable T R} {enc : T → List UInt8} {g : Grammar T R}
    (he : EncodesLaw t.encode enc) (hd : DecodesLaw d.decode g) (arb : List UInt8 → Option (List UInt8)) (dbg : T → List UInt8)
    (dbgErr : DecodeError Unit Empty R → List UInt8) {u bytes : List UInt8} (hu : arb u = some bytes) (disk : Disk) (i : Nat) :
    ∃ disk' written, singleAbsolute t d arb dbg dbgErr u disk i = ok disk' ∧
      AbsoluteVector g arb dbg dbgErr (fun x => [("reencoded", enc x)]) u written ∧
      disk'.files i = (disk.files i).with written ∧ ∀ j, j ≠ i → disk'.files j = disk.files j := by
  obtain ⟨res, hm⟩ := g.meaning_exists bytes
  have h := fromSlice_meaning (decode_from_slice_spec hd) hm
  cases res with
  | ok x =>
    refine ⟨_, _, by simp [singleAbsolute, hu, unwrap, h, encode_into_vec_eq he]; rfl, ⟨bytes, hu, .inl ⟨x, hm, rfl⟩⟩, ?_, ?_⟩
    · simp [files_write_same, with_with]
    · intro j hj; simp [files_write_other, hj]
  | error e =>
    refine ⟨_, _, by simp [singleAbsolute, hu, unwrap, h]; rfl, ⟨bytes, hu, .inr ⟨e, hm, rfl⟩⟩, ?_, ?_⟩
    · simp [files_write_same, with_with]
    · intro j hj; simp [files_write_other, hj]

theorem single_canonic_absolute {d : DecodableCanonic T R RC} {g : Grammar T RC} (hd : DecodesLaw d.decodeCanonic g)
    (arb : List UInt8 → Option (List UInt8)) (dbg : T → List UInt8)
    (dbgErr : DecodeError Unit Empty RC → List UInt8) {u bytes : List UInt8} (hu : arb u = some bytes) (disk : Disk) (i : Nat) :
    ∃ disk' written, singleCanonicAbsolute d arb dbg dbgErr u disk i = ok disk' ∧
      AbsoluteVector g arb dbg dbgErr (fun _ => []) u written ∧
      disk'.files i = (disk.files i).with written ∧ ∀ j, j ≠ i → disk'.files j = disk.files j := by
  obtain ⟨res, hm⟩ := g.meaning_exists bytes
  have h := fromSlice_meaning (decode_canonic_from_slice_spec hd) hm
  cases res with
  | ok x =>
    refine ⟨_, _, by simp [singleCanonicAbsolute, hu, unwrap, h]; rfl, ⟨bytes, hu, .inl ⟨x, hm, rfl⟩⟩, ?_, ?_⟩
    · simp [files_write_same, with_with]
    · intro j hj; simp [files_write_other, hj]
  | error e =>
    refine ⟨_, _, by simp [singleCanonicAbsolute, hu, unwrap, h]; rfl, ⟨bytes, hu, .inr ⟨e, hm, rfl⟩⟩, ?_, ?_⟩
    · simp [files_write_same, with_with]
    · intro j hj; simp [files_write_other, hj]

theorem single_relative {t : Encodable T} {d : RelativeDecodable T Rel R} {rel : Encodable Rel} {enc : T → List UInt8}
    {g : Rel → Grammar T R} {encRel : Rel → List UInt8} (he : EncodesLaw t.encode enc)
    (hd : ∀ r, DecodesLaw (d.relativeDecode r) (g r)) (hrel : EncodesLaw rel.encode encRel)
    (arb : List UInt8 → Option (List UInt8 × Rel)) (dbgPair : T → Rel → List UInt8) (dbgRel : Rel → List UInt8)
    (dbgErr : DecodeError Unit Empty R → List UInt8) {u : List UInt8} {b : List UInt8 × Rel} (hu : arb u = some b) (disk : Disk)
    (i : Nat) :
    ∃ disk' written, singleRelative t d rel arb dbgPair dbgRel dbgErr u disk i = ok disk' ∧
      RelativeVector g arb encRel dbgPair dbgRel dbgErr enc u written ∧
      disk'.files i = (disk.files i).with written ∧ ∀ j, j ≠ i → disk'.files j = disk.files j := by
  obtain ⟨bytes, r⟩ := b
  obtain ⟨res, hm⟩ := (g r).meaning_exists bytes
  have h := fromSlice_meaning (relative_decode_from_slice_spec hd r) hm
  cases res with
  | ok x =>
    refine ⟨_, _, by simp [singleRelative, hu, unwrap, h, encode_into_vec_eq he, encode_into_vec_eq hrel]; rfl,
      ⟨bytes, r, hu, .inl ⟨x, hm, rfl⟩⟩, ?_, ?_⟩
    · simp [files_write_same, with_with]
    · intro j hj; simp [files_write_other, hj]
  | error e =>
    refine ⟨_, _, by simp [singleRelative, hu, unwrap, h, encode_into_vec_eq hrel]; rfl,
      ⟨bytes, r, hu, .inr ⟨e, hm, rfl⟩⟩, ?_, ?_⟩
    · simp [files_write_same, with_with]
    · intro j hj; simp [files_write_other, hj]

theorem single_relative_custom {t : Encodable T} {d : RelativeDecodable T Rel R} {enc : T → List UInt8}
    {g : Rel → Grammar T R} {encRel : Rel → List UInt8} (he : EncodesLaw t.encode enc)
    (hd : ∀ r, DecodesLaw (d.relativeDecode r) (g r))
    (arb : List UInt8 → Option (List UInt8 × Rel)) (dbgPair : T → Rel → List UInt8) (dbgRel : Rel → List UInt8)
    (dbgErr : DecodeError Unit Empty R → List UInt8) {u : List UInt8} {b : List UInt8 × Rel} (hu : arb u = some b) (disk : Disk)
    (i : Nat) :
    ∃ disk' written, singleRelativeCustom t d encRel arb dbgPair dbgRel dbgErr u disk i = ok disk' ∧
      RelativeVector g arb encRel dbgPair dbgRel dbgErr enc u written ∧
      disk'.files i = (disk.files i).with written ∧ ∀ j, j ≠ i → disk'.files j = disk.files j := by
  obtain ⟨bytes, r⟩ := b
  obtain ⟨res, hm⟩ := (g r).meaning_exists bytes
  have h := fromSlice_meaning (relative_decode_from_slice_spec hd r) hm
  cases res with
  | ok x =>
    refine ⟨_, _, by simp [singleRelativeCustom, hu, unwrap, h, encode_into_vec_eq he]; rfl,
      ⟨bytes, r, hu, .inl ⟨x, hm, rfl⟩⟩, ?_, ?_⟩
    · simp [files_write_same, with_with]
    · intro j hj; simp [files_write_other, hj]
  | error e =>
    refine ⟨_, _, by simp [singleRelativeCustom, hu, unwrap, h]; rfl,
      ⟨bytes, r, hu, .inr ⟨e, hm, rfl⟩⟩, ?_, ?_⟩
    · simp [files_write_same, with_with]
    · intro j hj; simp [files_write_other, hj]

theorem single_canonic_relative {t : Encodable T} {d : RelativeDecodableCanonic T Rel R RC} {rel : Encodable Rel}
    {enc : T → List UInt8} {g : Rel → Grammar T RC} {encRel : Rel → List UInt8} (he : EncodesLaw t.encode enc)
    (hd : ∀ r, DecodesLaw (d.relativeDecodeCanonic r) (g r)) (hrel : EncodesLaw rel.encode encRel)
    (arb : List UInt8 → Option (List UInt8 × Rel)) (dbgPair : T → Rel → List UInt8) (dbgRel : Rel → List UInt8)
    (dbgErr : DecodeError Unit Empty RC → List UInt8) {u : List UInt8} {b : List UInt8 × Rel} (hu : arb u = some b) (disk : Disk)
    (i : Nat) :
    ∃ disk' written, singleCanonicRelative t d rel arb dbgPair dbgRel dbgErr u disk i = ok disk' ∧
      RelativeVector g arb encRel dbgPair dbgRel dbgErr enc u written ∧
      disk'.files i = (disk.files i).with written ∧ ∀ j, j ≠ i → disk'.files j = disk.files j := by
  obtain ⟨bytes, r⟩ := b
  obtain ⟨res, hm⟩ := (g r).meaning_exists bytes
  have h := fromSlice_meaning (relative_decode_canonic_from_slice_spec hd r) hm
  cases res with
  | ok x =>
    refine ⟨_, _, by simp [singleCanonicRelative, hu, unwrap, h, encode_into_vec_eq he, encode_into_vec_eq hrel]; rfl,
      ⟨bytes, r, hu, .inl ⟨x, hm, rfl⟩⟩, ?_, ?_⟩
    · simp [files_write_same, with_with]
    · intro j hj; simp [files_write_other, hj]
  | error e =>
    refine ⟨_, _, by simp [singleCanonicRelative, hu, unwrap, h, encode_into_vec_eq hrel]; rfl,
      ⟨bytes, r, hu, .inr ⟨e, hm, rfl⟩⟩, ?_, ?_⟩
    · simp [files_write_same, with_with]
    · intro j hj; simp [files_write_other, hj]

end TestVectors

end Verif
