import Verif.Lemmas.Codec
import Verif.Props.Slices
import Verif.Props.TestDoubles

/-!
# C37, C38, C39: the endian codecs

The claims are stated for a codec and an explicit description of the bytes (`bigEndian`, `littleEndian`), and then proved for
each of the sixteen types.
-/

namespace Verif

open Outcome

/-- The `N` bytes of the number `n`, most significant first: byte `i` has weight `256 ^ (N - 1 - i)`. -/
def bigEndian (N n : Nat) : List UInt8 := (List.range N).map fun i => UInt8.ofNat (n / 256 ^ (N - 1 - i))

/-- The `N` bytes of the number `n`, least significant first: byte `i` has weight `256 ^ i`. -/
def littleEndian (N n : Nat) : List UInt8 := (List.range N).map fun i => UInt8.ofNat (n / 256 ^ i)

/-- Two's complement of an integer in `N` bytes. -/
def twosComplement (N : Nat) (z : Int) : Nat := (z % 2 ^ (8 * N)).toNat

theorem leBytes_eq (N n : Nat) : leBytes N n = littleEndian N n := by
  apply List.ext_getElem?
  intro i
  by_cases h : i < N
  · rw [leBytes_getElem? N n i h]; simp [littleEndian, h]
  · rw [List.getElem?_eq_none (by simp; omega), List.getElem?_eq_none (by simp [littleEndian]; omega)]

theorem leBytes_reverse_eq (N n : Nat) : (leBytes N n).reverse = bigEndian N n := by
  apply List.ext_getElem?
  intro i
  by_cases h : i < N
  · rw [List.getElem?_reverse (by simpa using h), leBytes_length, leBytes_getElem? _ _ _ (by omega)]
    simp [bigEndian, h]
  · rw [List.getElem?_eq_none (by simp; omega), List.getElem?_eq_none (by simp [bigEndian]; omega)]

section

variable {T : Type}

/-- **C37** for one codec, `bytes` being the intended encodings. -/
structure EndianCodec.RoundTrips (k : EndianCodec T) (bytes : T → List UInt8) : Prop where
  /-- The length of the encoding is as announced. -/
  len : ∀ x, (bytes x).length = k.encodable.lenOfEncoding x
  /-- Encoding into a consumer that takes the bytes succeeds, and the consumer has received exactly them. -/
  encode : ∀ {σ F E : Type} {C : BulkConsumer σ UInt8 F E} {D : σ → List UInt8 → Option F → Prop} {q : Policy UInt8 F E} {s : σ}
    {l : List UInt8} (x : T), BulkCollects C D q s l → q.Accepts l (bytes x) →
    ∃ s', k.encodable.encode C s x = ok (s', .ok ()) ∧ BulkCollects C D q s' (l ++ bytes x) ∧ D s' (l ++ bytes x) none
  /-- Whatever follows the encoding of `x`, decoding yields `x`, and the producer goes on with whatever follows. -/
  decode : ∀ {σ F E : Type} {P : BulkProducer σ UInt8 F E} {s : σ} {c : Script UInt8 F E} (x : T),
    BulkPlays P s c → c.StartsWith (bytes x) →
    ∃ s', k.decodable.decode P s = ok (s', .ok x) ∧ BulkPlays P s' (c.drop (k.encodable.lenOfEncoding x))

/-- **C38** for one codec with encodings of `N` bytes. -/
structure EndianCodec.Canonic (k : EndianCodec T) (N : Nat) (bytes : T → List UInt8) : Prop where
  injective : ∀ x y, bytes x = bytes y → x = y
  /-- The canonic decoder is the same as the decoder. -/
  agree : ∀ {σ F E : Type} (P : BulkProducer σ UInt8 F E) (s : σ), k.decodable.decodeCanonic P s = k.decodable.decode P s
  /-- Any `N` bytes can be decoded, and encoding the decoded value yields these bytes. -/
  total : ∀ {σ F E : Type} {P : BulkProducer σ UInt8 F E} {s : σ} {c : Script UInt8 F E} (bs : List UInt8),
    BulkPlays P s c → bs.length = N → c.StartsWith bs →
    ∃ x s', k.decodable.decode P s = ok (s', .ok x) ∧ bytes x = bs ∧ BulkPlays P s' (c.drop N)
  truncated : ∀ {σ F E : Type} {P : BulkProducer σ UInt8 F E} {s : σ} {c : Script UInt8 F E} (bs : List UInt8) (f : F),
    BulkPlays P s c → bs.length < N → c.StartsWith bs → c bs.length = .ok (.inr f) →
    ∃ s', k.decodable.decode P s = ok (s', .error (.unexpectedEndOfInput f))
  failed : ∀ {σ F E : Type} {P : BulkProducer σ UInt8 F E} {s : σ} {c : Script UInt8 F E} (bs : List UInt8) (e : E),
    BulkPlays P s c → bs.length < N → c.StartsWith bs → c bs.length = .error e →
    ∃ s', k.decodable.decode P s = ok (s', .error (.producer e))

/-- **C39** for one codec: a consumer that answers the byte at index `n` with the error `e` has received exactly the `n` bytes
before that, and `e` is returned; and a consumer that may fail late has received some prefix of the encoding. -/
structure EndianCodec.WritesPrefix (k : EndianCodec T) (bytes : T → List UInt8) : Prop where
  refused : ∀ {σ F E : Type} {C : BulkConsumer σ UInt8 F E} {D : σ → List UInt8 → Option F → Prop} {q : Policy UInt8 F E} {s : σ}
    {l : List UInt8} (x : T) (n : Nat) (e : E), BulkCollects C D q s l → q.FailsAt l (bytes x) n e →
    ∃ s', k.encodable.encode C s x = ok (s', .error e) ∧ D s' (l ++ (bytes x).take n) none
  accepted : ∀ {σ F E : Type} {C : BulkConsumer σ UInt8 F E} {D : σ → List UInt8 → Option F → Prop} {q : Policy UInt8 F E} {s : σ}
    {l : List UInt8} (x : T), BulkCollects C D q s l → q.Accepts l (bytes x) →
    ∃ s', k.encodable.encode C s x = ok (s', .ok ()) ∧ D s' (l ++ bytes x) none
  deferred : ∀ {σ F E : Type} {C : BulkConsumer σ UInt8 F E} {D : σ → List UInt8 → Option F → Prop} {X : Faults UInt8 F E} {s : σ}
    {l : List UInt8} (x : T), X.Regular → BulkDefers C D X s l → ∃ s',
    (k.encodable.encode C s x = ok (s', .ok ()) ∧ BulkDefers C D X s' (l ++ bytes x)) ∨
    (∃ e d, k.encodable.encode C s x = ok (s', .error e) ∧ d <+: l ++ bytes x ∧ D s' d none)

theorem BulkCollects.observe {σ I F E : Type} {C : BulkConsumer σ I F E} {D : σ → List I → Option F → Prop}
    {q : Policy I F E} {s : σ} {l : List I} (h : BulkCollects C D q s l) : D s l none := by
  exact h.toCollects.observe

variable {N : Nat}

theorem FixedInt.roundTrips {i : FixedInt T N} (hi : i.Faithful) (o : ByteOrder) : (i.codec o).RoundTrips (i.toBytes o) where
  len x := by simp [codec, encodable]
  encode x h ha := by
    obtain ⟨s', h1, h2⟩ := (i.encodesLaw o).accepted x h ha
    exact ⟨s', h1, h2, h2.observe⟩
  decode x h hs := by
    obtain ⟨s', h1, h2⟩ := (i.decodesLaw o).value h hs ((encoding_iff i o _ x).mpr ⟨by simp, fromBytes_toBytes hi o x⟩)
    refine ⟨s', h1, ?_⟩
    simpa [codec, encodable] using h2

theorem FixedInt.canonic {i : FixedInt T N} (hi : i.Faithful) (o : ByteOrder) : (i.codec o).Canonic N (i.toBytes o) where
  injective x y h := by rw [← fromBytes_toBytes hi o x, h, fromBytes_toBytes hi o y]
  agree P s := rfl
  total bs h hl hs := by
    obtain ⟨s', h1, h2⟩ := (i.decodesLaw o).value h hs ((encoding_iff i o _ _).mpr ⟨hl, rfl⟩)
    exact ⟨_, s', h1, toBytes_fromBytes hi o bs hl, by simpa [hl] using h2⟩
  truncated bs f h hl hs hf := (i.decodesLaw o).truncated h hs ((incomplete_iff i o _).mpr hl) hf
  failed bs e h hl hs he := (i.decodesLaw o).failed h hs ((incomplete_iff i o _).mpr hl) he

theorem FixedInt.writesPrefix (i : FixedInt T N) (o : ByteOrder) : (i.codec o).WritesPrefix (i.toBytes o) where
  refused x n e h hf := (i.encodesLaw o).refused x h hf
  accepted x h ha := by
    obtain ⟨s', h1, h2⟩ := (i.encodesLaw o).accepted x h ha
    exact ⟨s', h1, h2.observe⟩
  deferred x hX h := by
    obtain ⟨s', h | ⟨e, d, h1, h2, h3⟩⟩ := (i.encodesLaw o).deferred x hX h
    · exact ⟨s', .inl h⟩
    · exact ⟨s', .inr ⟨e, d, h1, hX.during_prefix _ _ _ h2, h3⟩⟩

end

/-! ### The meaning of the bytes -/

theorem FixedInt.toBytes_big {T : Type} {N : Nat} (i : FixedInt T N) (x : T) :
    i.toBytes .big x = bigEndian N (i.toBits x).toNat := leBytes_reverse_eq _ _

theorem FixedInt.toBytes_little {T : Type} {N : Nat} (i : FixedInt T N) (x : T) :
    i.toBytes .little x = littleEndian N (i.toBits x).toNat := leBytes_eq _ _

theorem bigEndian_one (n : Nat) : bigEndian 1 n = littleEndian 1 n := by simp [bigEndian, littleEndian]

theorem toNat_twosComplement {w N : Nat} (h : w = 8 * N) (b : BitVec w) : b.toNat = twosComplement N b.toInt := by
  subst h
  rw [twosComplement, BitVec.toInt_eq_toNat_bmod, Int.emod_eq_emod_iff_emod_sub_eq_zero.mpr ?_]
  · rw [Int.emod_eq_of_lt (a := (b.toNat : Int)) (by omega) (by exact_mod_cast b.isLt)]; rfl
  · have := Int.bmod_emod (x := (b.toNat : Int)) (m := 2 ^ (8 * N))
    rw [← Int.emod_eq_emod_iff_emod_sub_eq_zero]
    exact_mod_cast this

section

variable {T : Type}

/-- All three properties together. -/
def EndianCodec.Correct (k : EndianCodec T) (N : Nat) (bytes : T → List UInt8) : Prop :=
  k.RoundTrips bytes ∧ k.Canonic N bytes ∧ k.WritesPrefix bytes

theorem FixedInt.correct {N : Nat} {i : FixedInt T N} (hi : i.Faithful) (o : ByteOrder) {bytes : T → List UInt8}
    (h : ∀ x, i.toBytes o x = bytes x) : (i.codec o).Correct N bytes := by
  obtain rfl : i.toBytes o = bytes := funext h
  exact ⟨roundTrips hi o, canonic hi o, writesPrefix i o⟩

end

/-- **C37, C38, C39** for the big-endian types. -/
theorem big_endian_correct :
    U8BE.Correct 1 (fun x => bigEndian 1 x.toNat) ∧ U16BE.Correct 2 (fun x => bigEndian 2 x.toNat) ∧
    U32BE.Correct 4 (fun x => bigEndian 4 x.toNat) ∧ U64BE.Correct 8 (fun x => bigEndian 8 x.toNat) ∧
    I8BE.Correct 1 (fun x => bigEndian 1 (twosComplement 1 x.toInt)) ∧
    I16BE.Correct 2 (fun x => bigEndian 2 (twosComplement 2 x.toInt)) ∧
    I32BE.Correct 4 (fun x => bigEndian 4 (twosComplement 4 x.toInt)) ∧
    I64BE.Correct 8 (fun x => bigEndian 8 (twosComplement 8 x.toInt)) := by
  refine ⟨FixedInt.correct u8_faithful .big fun x => ?_, FixedInt.correct u16_faithful .big fun x => ?_,
    FixedInt.correct u32_faithful .big fun x => ?_, FixedInt.correct u64_faithful .big fun x => ?_,
    FixedInt.correct i8_faithful .big fun x => ?_, FixedInt.correct i16_faithful .big fun x => ?_,
    FixedInt.correct i32_faithful .big fun x => ?_, FixedInt.correct i64_faithful .big fun x => ?_⟩
  · exact u8.toBytes_big x
  · exact u16.toBytes_big x
  · exact u32.toBytes_big x
  · exact u64.toBytes_big x
  · rw [i8.toBytes_big x, toNat_twosComplement (N := 1) rfl]; rfl
  · rw [i16.toBytes_big x, toNat_twosComplement (N := 2) rfl]; rfl
  · rw [i32.toBytes_big x, toNat_twosComplement (N := 4) rfl]; rfl
  · rw [i64.toBytes_big x, toNat_twosComplement (N := 8) rfl]; rfl

/-- **C37, C38, C39** for the little-endian types. -/
theorem little_endian_correct :
    U8LE.Correct 1 (fun x => littleEndian 1 x.toNat) ∧ U16LE.Correct 2 (fun x => littleEndian 2 x.toNat) ∧
    U32LE.Correct 4 (fun x => littleEndian 4 x.toNat) ∧ U64LE.Correct 8 (fun x => littleEndian 8 x.toNat) ∧
    I8LE.Correct 1 (fun x => littleEndian 1 (twosComplement 1 x.toInt)) ∧
    I16LE.Correct 2 (fun x => littleEndian 2 (twosComplement 2 x.toInt)) ∧
    I32LE.Correct 4 (fun x => littleEndian 4 (twosComplement 4 x.toInt)) ∧
    I64LE.Correct 8 (fun x => littleEndian 8 (twosComplement 8 x.toInt)) := by
  refine ⟨FixedInt.correct u8_faithful .big fun x => ?_, FixedInt.correct u16_faithful .little fun x => ?_,
    FixedInt.correct u32_faithful .little fun x => ?_, FixedInt.correct u64_faithful .little fun x => ?_,
    FixedInt.correct i8_faithful .big fun x => ?_, FixedInt.correct i16_faithful .little fun x => ?_,
    FixedInt.correct i32_faithful .little fun x => ?_, FixedInt.correct i64_faithful .little fun x => ?_⟩
  · rw [u8.toBytes_big x, bigEndian_one]; rfl
  · exact u16.toBytes_little x
  · exact u32.toBytes_little x
  · exact u64.toBytes_little x
  · rw [i8.toBytes_big x, bigEndian_one, toNat_twosComplement (N := 1) rfl]; rfl
  · rw [i16.toBytes_little x, toNat_twosComplement (N := 2) rfl]; rfl
  · rw [i32.toBytes_little x, toNat_twosComplement (N := 4) rfl]; rfl
  · rw [i64.toBytes_little x, toNat_twosComplement (N := 8) rfl]; rfl

/-! The examples of the documentation (lib.rs:215, 217, 227), and a negative number. -/

example : bigEndian 2 0x12cd = [0x12, 0xcd] ∧ bigEndian 8 0x12cd = [0, 0, 0, 0, 0, 0, 0x12, 0xcd] ∧
    littleEndian 8 0x12cd = [0xcd, 0x12, 0, 0, 0, 0, 0, 0] ∧ littleEndian 2 (twosComplement 2 (-2)) = [0xfe, 0xff] := by
  decide

/-- A producer that yields and exposes at most two bytes at a time, and that emits `-2` as an `i16` in big-endian order,
followed by another byte. -/
example : ∃ s', I16BE.decodable.decode (publicProducer true (TestProducer.producer true UInt8 Unit String))
    (.new (TestProducer.new [0xff, 0xfe, 7] (.ok ()) [⟨1, by decide⟩, ⟨2, by decide⟩] (some [true, false]))) =
      ok (s', .ok (-2)) ∧
    BulkPlays (publicProducer true (TestProducer.producer true UInt8 Unit String)) s' (Script.ofList [7] (.ok ())) := by
  obtain ⟨s', h1, h2⟩ := big_endian_correct.2.2.2.2.2.1.1.decode (-2) (test_producer_public_plays true [0xff, 0xfe, 7] (.ok ())
    [⟨1, by decide⟩, ⟨2, by decide⟩] (some [true, false])) (fun i x h => by
      have e : bigEndian 2 (twosComplement 2 (Int16.toInt (-2))) = [0xff, 0xfe] := by decide
      rw [e] at h
      match i, h with
      | 0, h => simp at h; subst h; rfl
      | 1, h => simp at h; subst h; rfl)
  exact ⟨s', h1, by rw [Script.ofList_drop _ _ _ (by decide)] at h2; exact h2⟩

/-- The same with the last byte missing. -/
example : ∃ s', I16BE.decodable.decode (publicProducer true (TestProducer.producer true UInt8 Nat String))
    (.new (TestProducer.new [0xff] (.ok 5) [⟨1, by decide⟩] none)) = ok (s', .error (.unexpectedEndOfInput 5)) :=
  big_endian_correct.2.2.2.2.2.1.2.1.truncated [0xff] 5 (test_producer_public_plays true [0xff] (.ok 5) [⟨1, by decide⟩] none)
    (by decide) (Script.ofList_startsWith _ _) (by simp [Script.ofList, Except.map])

/-- A consumer that fails after three bytes. -/
example : ∃ s', U32LE.encodable.encode (publicConsumer true (TestConsumer.consumer true UInt8 Unit String))
    (.new (TestConsumer.new "full" 3 [⟨2, by decide⟩] none)) 0x12cd = ok (s', .error "full") ∧
    TestConsumer.Seen s'.inner [0xcd, 0x12, 0] none := by
  have hf : (Policy.failAfter 3 "full" : Policy UInt8 Unit String).FailsAt [] (littleEndian 4 0x12cd) 3 "full" := by
    have e : littleEndian 4 0x12cd = [0xcd, 0x12, 0, 0] := by decide
    rw [e]
    refine ⟨?_, 0, rfl, by decide⟩
    intro i x h
    match i, h with
    | 0, h => rfl
    | 1, h => rfl
    | 2, h => rfl
  exact little_endian_correct.2.2.1.2.2.refused 0x12cd 3 "full"
    (test_consumer_public_collects true "full" 3 [⟨2, by decide⟩] none) hf

end Verif
