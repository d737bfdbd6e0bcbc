import Verif.Lemmas.Proptest
import Verif.Props.RelativeCodec

/-!
# C52: the assertion functions of `ufotofu_codec::proptest` never raise false alarms
-/

namespace Verif

open Outcome Proptest

/-! ### The truth values of `CodecCases` obey the contracts -/

theorem byte_uniform {T R : Type} (value : UInt8 → Except R T) : DecodeFn.Uniform (byteDecode value) := by
  intro σ F E P K hK s s' res hs h
  simp only [byteDecode, bind_eq, pure_eq, bind_eq_ok] at h
  obtain ⟨⟨s1, r1⟩, h1, h⟩ := h
  have := u8.uniform .big P K hK s s1 r1 hs h1
  rcases r1 with e | x <;> cases h <;> assumption

theorem difference_uniform (r : UInt8) : DecodeFn.Uniform (differenceDecodable.relativeDecode r) := byte_uniform _

theorem Case.flag_contract : BasicContract (fun _ => True) Case.flagEncodable.encode Case.flagDecodable.decode
    (fun x => [Case.flagCode x]) (byteGrammar Case.flagValue) where
  encodes := Case.flag_encodes
  decodes := Case.flag_decodes
  uniform := byte_uniform _
  inverse x _ := ⟨x, Case.flag_encoding x, by simp⟩

theorem Case.flagCanonic_ok {b : UInt8} {x : Bool} (h : Case.flagCanonic b = .ok x) : b = Case.flagCode x := by
  simp only [Case.flagCanonic] at h
  split at h
  · cases h; assumption
  · split at h
    · cases h; assumption
    · cases h

theorem Case.flag_canonic : CanonicContract Case.flagDecodable.decodeCanonic (fun x => [Case.flagCode x])
    (byteGrammar Case.flagValue) (byteGrammar Case.flagCanonic) where
  decodes := Case.flag_decodes_canonic
  uniform := byte_uniform _
  injective bs₁ bs₂ x₁ x₂ h₁ h₂ h := by
    obtain ⟨b₁, rfl, e₁⟩ := byteGrammar_encoding_iff.mp h₁
    obtain ⟨b₂, rfl, e₂⟩ := byteGrammar_encoding_iff.mp h₂
    rw [Case.flagCanonic_ok e₁, Case.flagCanonic_ok e₂, eq_of_beq h]
  specialises bs x h := by
    obtain ⟨b, rfl, e⟩ := byteGrammar_encoding_iff.mp h
    exact ⟨x, Case.flagCanonic_ok e ▸ Case.flag_encoding x, by simp⟩
  reencodes bs x h := by
    obtain ⟨b, rfl, e⟩ := byteGrammar_encoding_iff.mp h
    rw [Case.flagCanonic_ok e]

section

variable {T R RC Rel : Type} [BEq T] [EquivBEq T] [BEq R] [ReflBEq R]

omit [BEq T] [EquivBEq T] in
/-- **C52.** -/
theorem encoding_does_not_care_silent {encode : EncodeFn T} {enc : T → List UInt8} (he : EncodesLaw encode enc) (t : T)
    (n₁ n₂ : Nat) (sizes₁ sizes₂ : List NonZero) (pat₁ pat₂ : List Bool) :
    encodingDoesNotCare encode t (Sink.arbitrary n₁ sizes₁ pat₁) (Sink.arbitrary n₂ sizes₂ pat₂) = ok () := by
  obtain ⟨s₁, r₁, h₁, h₁'⟩ := encode_sink he t n₁ sizes₁ pat₁
  obtain ⟨s₂, r₂, h₂, h₂'⟩ := encode_sink he t n₂ sizes₂ pat₂
  simp only [encodingDoesNotCare, bind_eq, h₁, h₂, bind_ok, h₁', h₂']
  rw [slice_of_le (Nat.zero_le _) (Nat.min_le_left _ _), slice_of_le (Nat.zero_le _) (Nat.min_le_right _ _)]
  simp only [bind_ok, List.drop_zero, List.take_take, pure_eq]
  rw [if_pos]
  congr 1
  simp
  omega

example : encodingDoesNotCare (u16.encode .big) 0x0102 (Sink.arbitrary 1 [⟨1, by decide⟩] [true]) (Sink.arbitrary 9 [] []) = ok () :=
  encoding_does_not_care_silent (u16.encodesLaw .big) _ _ _ _ _ _ _

omit [BEq R] [ReflBEq R] in
/-- Encodings of unequal values are not prefixes of each other. -/
theorem BasicContract.prefix_free {dom : T → Prop} {encode : EncodeFn T} {decode : DecodeFn T R} {enc : T → List UInt8}
    {g : Grammar T R} (h : BasicContract dom encode decode enc g) {t₁ t₂ : T} (d₁ : dom t₁) (d₂ : dom t₂)
    (hp : enc t₁ <+: enc t₂) : t₁ == t₂ := by
  obtain ⟨y₁, ⟨r₁, e₁⟩, q₁⟩ := h.inverse t₁ d₁
  obtain ⟨y₂, ⟨r₂, e₂⟩, q₂⟩ := h.inverse t₂ d₂
  have := Grammar.unique hp (List.prefix_rfl) r₁ r₂ e₁ e₂ (by simp) (by simp)
  rw [this, e₂] at e₁
  cases e₁
  exact PartialEquivBEq.trans q₁ (PartialEquivBEq.symm q₂)

omit [BEq R] [ReflBEq R] in
/-- **C52.** -/
theorem distinct_encodings_silent {dom : T → Prop} {encode : EncodeFn T} {decode : DecodeFn T R} {enc : T → List UInt8}
    {g : Grammar T R} (h : BasicContract dom encode decode enc g) {t₁ t₂ : T} (d₁ : dom t₁) (d₂ : dom t₂) :
    distinctEncodings encode t₁ t₂ = ok () := by
  simp only [distinctEncodings, intoVecWith_spec h.encodes, bind_eq, bind_ok, pure_eq]
  split
  · rename_i hne
    rw [if_neg]
    intro he
    have := h.prefix_free d₁ d₂ (he ▸ List.prefix_rfl)
    simp [bne, this] at hne
  · rfl

example : distinctEncodings Case.flagEncodable.encode true false = ok () :=
  distinct_encodings_silent Case.flag_contract trivial trivial

omit [BEq R] [ReflBEq R] in
/-- **C52.** -/
theorem prefix_free_silent {dom : T → Prop} {encode : EncodeFn T} {decode : DecodeFn T R} {enc : T → List UInt8}
    {g : Grammar T R} (h : BasicContract dom encode decode enc g) {t₁ t₂ : T} (d₁ : dom t₁) (d₂ : dom t₂) :
    prefixFree encode t₁ t₂ = ok () := by
  simp only [prefixFree, intoVecWith_spec h.encodes, bind_eq, bind_ok, pure_eq]
  split
  · rename_i hne
    have hne : (t₁ == t₂) = false := by simpa [bne] using hne
    rw [if_neg, if_neg]
    · intro hp
      have := h.prefix_free d₂ d₁ (List.isPrefixOf_iff_prefix.mp hp)
      rw [BEq.comm, hne] at this
      cases this
    · intro hp
      have := h.prefix_free d₁ d₂ (List.isPrefixOf_iff_prefix.mp hp)
      rw [hne] at this
      cases this
  · rfl

example : prefixFree Case.flagEncodable.encode true false = ok () :=
  prefix_free_silent Case.flag_contract trivial trivial

/-- **C52.** -/
theorem decoding_does_not_care_silent {decode : DecodeFn T R} {g : Grammar T R} (hd : DecodesLaw decode g) (bytes : List UInt8)
    (sizes₁ sizes₂ : List NonZero) (pat₁ pat₂ : List Bool) :
    decodingDoesNotCare decode bytes sizes₁ sizes₂ pat₁ pat₂ = ok () := by
  obtain ⟨r, hr⟩ := hd.result Unit Unit bytes ()
  obtain ⟨s₁, h₁⟩ := hr source (Source.build bytes sizes₁ pat₁) (test_producer_public_plays false bytes (.ok ()) sizes₁ (some pat₁))
  obtain ⟨s₂, h₂⟩ := hr source (Source.build bytes sizes₂ pat₂) (test_producer_public_plays false bytes (.ok ()) sizes₂ (some pat₂))
  simp only [decodingDoesNotCare, bind_eq, h₁, h₂, bind_ok]
  cases r with
  | ok t => simp [bne]
  | error e => cases e <;> simp [sameError]

example : decodingDoesNotCare (u16.decode .big) [1, 2, 3] [⟨1, by decide⟩] [⟨2, by decide⟩] [true] [] = ok () :=
  decoding_does_not_care_silent (u16.decodesLaw .big) _ _ _ _ _

omit [BEq T] [EquivBEq T] [BEq R] [ReflBEq R] in
/-- **C52.** -/
theorem reads_no_excessive_bytes_silent {decode : DecodeFn T R} {g : Grammar T R} (hd : DecodesLaw decode g)
    (hu : decode.Uniform) (bytes : List UInt8) : readsNoExcessiveBytes decode bytes = ok () := by
  obtain ⟨r, hr⟩ := hd.result Unit Empty bytes ()
  obtain ⟨p, h⟩ := hr _ _ (from_slice_noop_plays bytes)
  simp only [readsNoExcessiveBytes, bind_eq, h, bind_ok]
  cases r with
  | error e => rfl
  | ok t =>
    obtain ⟨bs, h1, ⟨h2, h3⟩, h4⟩ := hd.producedSoFar hu h
    simp only [h4, bind_ok]
    split
    · rename_i hl
      rw [slice_of_le (Nat.zero_le _) (by omega)]
      simp only [bind_ok, List.drop_zero]
      have hi : g.Incomplete (bs.take (bs.length - 1)) := by
        refine ⟨fun k hk => ?_, h2 _ (by omega)⟩
        simp at hk
        rw [List.take_take, Nat.min_eq_left (by omega)]
        exact h2 k (by omega)
      obtain ⟨s', h5⟩ := hd.truncated (from_slice_noop_plays (bs.take (bs.length - 1))) (Script.ofList_startsWith _ _) hi
        (Script.ofList_end _ _)
      simp [h5]
    · rfl

example : readsNoExcessiveBytes (u16.decode .big) [1, 2, 3] = ok () :=
  reads_no_excessive_bytes_silent (u16.decodesLaw .big) (u16.uniform .big) _

omit [EquivBEq T] [BEq R] [ReflBEq R] in
/-- **C52.** -/
theorem yields_the_original_silent {dom : T → Prop} {encode : EncodeFn T} {decode : DecodeFn T R} {enc : T → List UInt8}
    {g : Grammar T R} (h : BasicContract dom encode decode enc g) {t : T} (d : dom t) :
    yieldsTheOriginal encode decode t = ok () := by
  obtain ⟨y, h1, h2⟩ := h.inverse t d
  have h3 := (fromSlice_spec h.decodes).value _ y [] h1
  rw [List.append_nil] at h3
  simp only [yieldsTheOriginal, intoVecWith_spec h.encodes, bind_eq, bind_ok, h3]
  simp [bne, h2]

example : yieldsTheOriginal Case.flagEncodable.encode Case.flagDecodable.decode true = ok () :=
  yields_the_original_silent Case.flag_contract trivial

omit [EquivBEq T] [BEq R] [ReflBEq R] in
/-- **C52.** -/
theorem canonic_silent {encode : EncodeFn T} {decode : DecodeFn T R} {decodeCanonic : DecodeFn T RC} {enc : T → List UInt8}
    {g : Grammar T R} {gc : Grammar T RC} (he : EncodesLaw encode enc) (hd : DecodesLaw decode g)
    (h : CanonicContract decodeCanonic enc g gc) (bytes₁ bytes₂ : List UInt8) :
    canonicInvariants encode decode decodeCanonic bytes₁ bytes₂ = ok () := by
  obtain ⟨r₁, hr₁⟩ := h.decodes.result Unit Empty bytes₁ ()
  obtain ⟨p₁, h₁⟩ := hr₁ _ _ (from_slice_noop_plays bytes₁)
  obtain ⟨r₂, hr₂⟩ := h.decodes.result Unit Empty bytes₂ ()
  obtain ⟨p₂, h₂⟩ := hr₂ _ _ (from_slice_noop_plays bytes₂)
  have hdist : canonicDistinct decodeCanonic bytes₁ bytes₂ = ok () := by
    simp only [canonicDistinct, bind_eq, h₁, h₂, bind_ok]
    cases r₁ with
    | error => rfl
    | ok t₁ =>
      cases r₂ with
      | error => rfl
      | ok t₂ =>
        obtain ⟨b₁, _, e₁, q₁⟩ := h.decodes.producedSoFar h.uniform h₁
        obtain ⟨b₂, _, e₂, q₂⟩ := h.decodes.producedSoFar h.uniform h₂
        simp only [q₁, q₂, bind_ok]
        by_cases hb : b₁ = b₂
        · simp [hb]
        · have : (t₁ == t₂) = false := by
            cases ht : t₁ == t₂ with
            | false => rfl
            | true => exact absurd (h.injective _ _ _ _ e₁ e₂ ht) hb
          simp [this]
  have hspec : canonicSpecialises decode decodeCanonic bytes₁ = ok () := by
    simp only [canonicSpecialises, Decodable.decodeFromSlice, bind_eq, h₁, bind_ok, pure_eq]
    cases r₁ with
    | error => rfl
    | ok t₁ =>
      obtain ⟨b₁, ⟨rest, hb⟩, e₁, q₁⟩ := h.decodes.producedSoFar h.uniform h₁
      obtain ⟨y, h3, h4⟩ := h.specialises _ _ e₁
      have h5 := (fromSlice_spec hd).value _ y rest h3
      simp only [Decodable.decodeFromSlice, bind_eq, pure_eq] at h5
      rw [hb] at h5
      simp only [h5, bind_ok]
      simp [bne, h4]
  have hround : canonicRoundtrips encode decodeCanonic bytes₁ = ok () := by
    simp only [canonicRoundtrips, bind_eq, h₁, bind_ok]
    cases r₁ with
    | error => rfl
    | ok t₁ =>
      obtain ⟨b₁, _, e₁, q₁⟩ := h.decodes.producedSoFar h.uniform h₁
      simp [intoVecWith_spec he, q₁, h.reencodes _ _ e₁]
  simp [canonicInvariants, hdist, hspec, hround]

/-- With two canonic encodings, and with an encoding that is not canonic. -/
example : canonicInvariants Case.flagEncodable.encode Case.flagDecodable.decode Case.flagDecodable.decodeCanonic [1, 9] [1] = ok () ∧
    canonicInvariants Case.flagEncodable.encode Case.flagDecodable.decode Case.flagDecodable.decodeCanonic [1] [9] = ok () :=
  ⟨canonic_silent Case.flag_encodes Case.flag_decodes Case.flag_canonic _ _,
    canonic_silent Case.flag_encodes Case.flag_decodes Case.flag_canonic _ _⟩

/-- **C52.** The basic assertions, for values that satisfy `dom`. -/
theorem basic_silent {dom : T → Prop} {encode : EncodeFn T} {decode : DecodeFn T R} {enc : T → List UInt8} {g : Grammar T R}
    (h : BasicContract dom encode decode enc g) (data : Data T) (d₁ : dom data.t1) (d₂ : dom data.t2) :
    basicOf encode decode data = ok () := by
  simp [basicOf, basicInvariants, encoding_does_not_care_silent h.encodes, distinct_encodings_silent h d₁ d₂,
    prefix_free_silent h d₁ d₂, decoding_does_not_care_silent h.decodes, reads_no_excessive_bytes_silent h.decodes h.uniform,
    yields_the_original_silent h d₁]

example : ∀ data, basicOf Case.flagEncodable.encode Case.flagDecodable.decode data = ok () :=
  fun data => basic_silent Case.flag_contract data trivial trivial

omit [BEq T] [EquivBEq T] in
theorem known_size_silent {encode : EncodeFn T} {enc : T → List UInt8} (he : EncodesLaw encode enc) {len : T → Nat} {t : T}
    (hl : len t = (enc t).length) : knownSizeInvariants encode len t = ok () := by
  simp [knownSizeInvariants, intoVecWith_spec he, hl]

example : knownSizeInvariants Case.flagEncodable.encode (fun _ => 1) true = ok () :=
  known_size_silent Case.flag_encodes rfl

/-! ## The fuzz macros -/

/-- **C52.** If a type obeys the contracts of the absolute codec traits, then no input makes one of the fuzz targets panic. -/
theorem fuzz_absolute_silent {t : EncodableKnownSize T} {d : DecodableCanonic T R RC} {enc : T → List UInt8} {g : Grammar T R}
    {gc : Grammar T RC} (h : BasicContract (fun _ => True) t.encode d.decode enc g) (data : Data T) :
    fuzzAbsoluteBasic t.toEncodable d.toDecodable data = ok () ∧
    ((∀ x, t.lenOfEncoding x = (enc x).length) → fuzzAbsoluteKnownSize t d.toDecodable data = ok ()) ∧
    (CanonicContract d.decodeCanonic enc g gc → fuzzAbsoluteCanonic t.toEncodable d data = ok () ∧
      ((∀ x, t.lenOfEncoding x = (enc x).length) → fuzzAbsoluteAll t d data = ok ())) := by
  have hb := basic_silent h data trivial trivial
  refine ⟨hb, fun hl => ?_, fun hc => ⟨?_, fun hl => ?_⟩⟩
  · simp [fuzzAbsoluteKnownSize, hb, known_size_silent h.encodes (hl _)]
  · simp [fuzzAbsoluteCanonic, hb, canonic_silent h.encodes h.decodes hc]
  · simp [fuzzAbsoluteAll, hb, known_size_silent h.encodes (hl _), canonic_silent h.encodes h.decodes hc]

example : ∀ data, fuzzAbsoluteAll Case.flagEncodable Case.flagDecodable data = ok () :=
  fun data => ((fuzz_absolute_silent Case.flag_contract data).2.2 Case.flag_canonic).2 (fun _ => rfl)

/-- **C52.** The same for the relative codec traits. The basic contract is only required for the values that satisfy the
predicate given to the macro. -/
theorem fuzz_relative_silent {t : RelativeEncodableKnownSize T Rel} {d : RelativeDecodableCanonic T Rel R RC}
    {enc : Rel → T → List UInt8} {g : Rel → Grammar T R} {gc : Rel → Grammar T RC} {predicate : T → Rel → Bool}
    (h : ∀ r, BasicContract (fun x => predicate x r) (t.relativeEncode r) (d.relativeDecode r) (enc r) (g r)) (r : Rel)
    (data : Data T) :
    fuzzRelativeBasic t.toRelativeEncodable d.toRelativeDecodable predicate r data = ok () ∧
    ((∀ x, predicate x r → t.relativeLenOfEncoding x r = (enc r x).length) →
      fuzzRelativeKnownSize t d.toRelativeDecodable predicate r data = ok ()) ∧
    (CanonicContract (d.relativeDecodeCanonic r) (enc r) (g r) (gc r) →
      fuzzRelativeCanonic t.toRelativeEncodable d predicate r data = ok () ∧
      ((∀ x, predicate x r → t.relativeLenOfEncoding x r = (enc r x).length) → fuzzRelativeAll t d predicate r data = ok ())) := by
  unfold fuzzRelativeBasic fuzzRelativeKnownSize fuzzRelativeCanonic fuzzRelativeAll
  by_cases hp : (predicate data.t1 r && predicate data.t2 r) = true
  · have hp' : predicate data.t1 r = true ∧ predicate data.t2 r = true := by simpa using hp
    have hb := basic_silent (h r) data hp'.1 hp'.2
    simp only [hp, if_true]
    refine ⟨hb, fun hl => ?_, fun hc => ⟨?_, fun hl => ?_⟩⟩
    · simp [hb, known_size_silent (len := fun x => t.relativeLenOfEncoding x r) (h r).encodes (hl _ hp'.1)]
    · simp [hb, canonic_silent (h r).encodes (h r).decodes hc]
    · simp [hb, known_size_silent (len := fun x => t.relativeLenOfEncoding x r) (h r).encodes (hl _ hp'.1),
        canonic_silent (h r).encodes (h r).decodes hc]
  · simp [hp]

/-- A relative codec with a predicate that not all values satisfy. -/
example (r : UInt8) (data : Data UInt8) :
    fuzzRelativeBasic differenceEncodable differenceDecodable (fun x r => x ≠ r) r data = ok () :=
  (fuzz_relative_silent (t := ⟨differenceEncodable, fun _ _ => 1⟩)
    (d := ⟨differenceDecodable, id, fun r => differenceDecodable.relativeDecode r⟩) (enc := fun r x => [x - r])
    (g := differenceGrammar) (gc := differenceGrammar) (fun r => ⟨difference_encodes r, difference_decodes r,
      difference_uniform r, fun x _ => ⟨x, difference_encoding r x, by simp⟩⟩) r data).1

end

/-! ### Instances -/

/-- The codec passes all tests of `fuzz_absolute_all`, whatever the input. -/
def EndianCodec.Silent {T : Type} [BEq T] (k : EndianCodec T) : Prop :=
  ∀ data, fuzzAbsoluteAll k.encodable k.decodable data = ok ()

theorem FixedInt.basicContract {T : Type} {N : Nat} [BEq T] [ReflBEq T] {i : FixedInt T N} (hi : i.Faithful) (o : ByteOrder) :
    BasicContract (fun _ => True) (i.encode o) (i.decode o) (i.toBytes o) (i.grammar o) where
  encodes := i.encodesLaw o
  decodes := i.decodesLaw o
  uniform := i.uniform o
  inverse x _ := ⟨x, (encoding_iff i o _ x).mpr ⟨by simp, fromBytes_toBytes hi o x⟩, ReflBEq.rfl⟩

theorem FixedInt.canonicContract {T : Type} {N : Nat} [BEq T] [LawfulBEq T] {i : FixedInt T N} (hi : i.Faithful)
    (o : ByteOrder) : CanonicContract (i.decode o) (i.toBytes o) (i.grammar o) (i.grammar o) where
  decodes := i.decodesLaw o
  uniform := i.uniform o
  injective bs₁ bs₂ x₁ x₂ h₁ h₂ h := by
    obtain ⟨l₁, e₁⟩ := (encoding_iff i o _ _).mp h₁
    obtain ⟨l₂, e₂⟩ := (encoding_iff i o _ _).mp h₂
    rw [← toBytes_fromBytes hi o _ l₁, ← toBytes_fromBytes hi o _ l₂, e₁, e₂, eq_of_beq h]
  specialises bs x h := ⟨x, h, ReflBEq.rfl⟩
  reencodes bs x h := by
    obtain ⟨l, e⟩ := (encoding_iff i o _ _).mp h
    rw [← e, toBytes_fromBytes hi o _ l]

theorem FixedInt.silent {T : Type} {N : Nat} [BEq T] [LawfulBEq T] {i : FixedInt T N} (hi : i.Faithful) (o : ByteOrder) :
    (i.codec o).Silent := fun data =>
  ((fuzz_absolute_silent (t := i.encodable o) (d := i.decodable o) (FixedInt.basicContract hi o) data).2.2
    (FixedInt.canonicContract hi o)).2 (fun _ => by simp [FixedInt.encodable])

/-- **C52** for the sixteen endian codecs: no input makes `fuzz_absolute_all` panic. -/
theorem endian_silent :
    (U8BE.Silent ∧ U16BE.Silent ∧ U32BE.Silent ∧ U64BE.Silent ∧ I8BE.Silent ∧ I16BE.Silent ∧ I32BE.Silent ∧ I64BE.Silent) ∧
    (U8LE.Silent ∧ U16LE.Silent ∧ U32LE.Silent ∧ U64LE.Silent ∧ I8LE.Silent ∧ I16LE.Silent ∧ I32LE.Silent ∧ I64LE.Silent) :=
  ⟨⟨FixedInt.silent u8_faithful .big, FixedInt.silent u16_faithful .big, FixedInt.silent u32_faithful .big,
      FixedInt.silent u64_faithful .big, FixedInt.silent i8_faithful .big, FixedInt.silent i16_faithful .big,
      FixedInt.silent i32_faithful .big, FixedInt.silent i64_faithful .big⟩,
    FixedInt.silent u8_faithful .big, FixedInt.silent u16_faithful .little, FixedInt.silent u32_faithful .little,
      FixedInt.silent u64_faithful .little, FixedInt.silent i8_faithful .big, FixedInt.silent i16_faithful .little,
      FixedInt.silent i32_faithful .little, FixedInt.silent i64_faithful .little⟩

end Verif
