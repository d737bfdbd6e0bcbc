import Verif.Lemmas.CodecAdaptors
import Verif.Props.Endian
import Verif.CodecCases

/-!
# C40, C41, C45, C46: encoders, decoders, slices and errors

`EncodesLaw t.encode enc` says that `t` encodes every value `x` as `enc x`; `DecodesLaw d.decode g` says that `d` decodes the
language `g`; `∀ x, g.Encoding (enc x) x` says that the two belong together.
-/

namespace Verif

open Outcome

section

variable {σ T R RC F E : Type}

/-! ## The adaptors are lawful -/

/-- An `Encoder` around a lawful consumer is a lawful consumer. -/
theorem encoder_collects {t : Encodable T} {enc : T → List UInt8} (he : EncodesLaw t.encode enc) {C : BulkConsumer σ UInt8 F E}
    {D : σ → List UInt8 → Option F → Prop} {q : Policy UInt8 F E} {s : σ} {l : List UInt8} (h : BulkCollects C D q s l) :
    BufCollects (encoder t C) (Encoded D enc l) (q.encoding enc l) s [] :=
  ⟨_, encoder_law he C D q l, by simpa [encodeAll] using h⟩

/-- The consumer has room for three bytes, so the second number does not fit. -/
example : BufCollects (encoder U16BE.encodable.toEncodable Case.sink) (Encoded TestConsumer.Seen (u16.toBytes .big) [])
    ((Policy.failAfter 3 "full").encoding (u16.toBytes .big) []) (Case.upTo 3) [] :=
  encoder_collects (u16.encodesLaw .big) (Case.upTo_collects 3)

/-- An `Encoder` around a consumer that may delay its effects is one itself. -/
theorem encoder_defers {t : Encodable T} {enc : T → List UInt8} (he : EncodesLaw t.encode enc) {C : BulkConsumer σ UInt8 F E}
    {D : σ → List UInt8 → Option F → Prop} {X : Faults UInt8 F E} (hX : X.Regular) {s : σ} (h : BulkDefers C D X s []) :
    BufDefers (encoder t C) (Encoded D enc []) (X.encoding enc) s [] :=
  ⟨_, encoder_defers_law he C D hX, by simpa [encodeAll] using h⟩

example : BufDefers (encoder U16BE.encodable.toEncodable Case.sink) (Encoded TestConsumer.Seen (u16.toBytes .big) [])
    ((Policy.failAfter 3 "full").faults.encoding (u16.toBytes .big)) (Case.upTo 3) [] :=
  encoder_defers (u16.encodesLaw .big) (Policy.regular_faults _) (Case.upTo_collects 3).toBulkDefers

/-- One value, and then a byte that is not an encoding. -/
theorem Case.flag_decodes_all (last : Except String Nat) : Decodes (byteGrammar Case.flagCanonic) (Script.ofList [1, 7] last)
    (Script.ofList [true] (.error (.other 7))) (fun n => (encodeAll (fun x => [Case.flagCode x]) ([true].take n)).length) :=
  decodes_encodeAll Case.flag_encoding_canonic (Script.ofList_startsWith [1, 7] last).left
    (.invalid (Script.ofList_startsWith [1, 7] last).right Case.flag_invalid)

/-- The other decoder takes both. -/
theorem Case.flag_decodes_both (f : Nat) : Decodes (E := String) (byteGrammar Case.flagValue) (Script.ofList [1, 0] (.ok f))
    (Script.ofList [true, false] (.ok f)) (fun n => (encodeAll (fun x => [Case.flagCode x]) ([true, false].take n)).length) :=
  decodes_encodeAll Case.flag_encoding (Script.ofList_startsWith (encodeAll (fun x => [Case.flagCode x]) [true, false]) (.ok f))
    (.final rfl)

/-- **C41.** A `Decoder` around a lawful producer is a lawful producer: its sequence is that of the values, ended by the final
value at a value boundary, by `UnexpectedEndOfInput` inside an encoding, and by an error as soon as the bytes are not the
beginning of an encoding or the producer fails. -/
theorem decoder_plays {d : Decodable T R} {g : Grammar T R} (hd : DecodesLaw d.decode g) (hg : g [] = .more)
    {P : BulkProducer σ UInt8 F E} {s : σ} {c : Script UInt8 F E} (h : BulkPlays P s c)
    {c' : Script T F (DecodeError F E R)} {used : Nat → Nat} (hc : Decodes g c c' used) : BufPlays (decoder d P) s c' :=
  ⟨_, decoder_law hd hg P, c, used, h, hc⟩

example : BufPlays (decoder Case.flagDecodable.toDecodable Case.bytes) (Case.from_ [1, 0] (.ok 5)) (Script.ofList [true, false] (.ok 5)) :=
  decoder_plays Case.flag_decodes rfl (Case.from_plays _ _) (Case.flag_decodes_both 5)

theorem canonic_decoder_plays {d : DecodableCanonic T R RC} {g : Grammar T RC} (hd : DecodesLaw d.decodeCanonic g)
    (hg : g [] = .more) {P : BulkProducer σ UInt8 F E} {s : σ} {c : Script UInt8 F E} (h : BulkPlays P s c)
    {c' : Script T F (DecodeError F E RC)} {used : Nat → Nat} (hc : Decodes g c c' used) : BufPlays (canonicDecoder d P) s c' :=
  ⟨_, decoder_law hd hg P, c, used, h, hc⟩

example : BufPlays (canonicDecoder Case.flagDecodable Case.bytes) (Case.from_ [1, 7] (.ok 5))
    (Script.ofList [true] (.error (.other 7))) :=
  canonic_decoder_plays Case.flag_decodes_canonic rfl (Case.from_plays _ _) (Case.flag_decodes_all _)

/-- **C41, no byte past the values.** After a `Decoder` has emitted `xs`, the producer of bytes goes on directly after them. -/
theorem decoder_position {d : Decodable T R} {g : Grammar T R} (hd : DecodesLaw d.decode g) (hg : g [] = .more)
    {enc : T → List UInt8} (hinv : ∀ x, g.Encoding (enc x) x) {P : BulkProducer σ UInt8 F E} {s : σ} {c : Script UInt8 F E}
    (h : BulkPlays P s c) {xs : List T} (hs : c.StartsWith (encodeAll enc xs)) :
    ∃ s', Emits (decoder d P).toProducer s xs s' ∧ BulkPlays P s' (c.drop (encodeAll enc xs).length) := by
  induction xs generalizing s c with
  | nil => exact ⟨s, .nil _, by simpa [encodeAll] using h⟩
  | cons x xs ih =>
    rw [encodeAll_cons] at hs
    obtain ⟨s1, h1, h2⟩ := decoderProduce_spec hd hg h (.value hs.left (hinv x))
    obtain ⟨s', h3, h4⟩ := ih (h2 x rfl) hs.right
    refine ⟨s', .cons h1 h3, ?_⟩
    rw [encodeAll_cons, List.length_append]
    simpa using h4

/-- After the first number, the producer continues with the third byte. -/
example : ∃ s', Emits (decoder U16BE.decodable.toDecodable Case.bytes).toProducer (Case.from_ [1, 2, 3] (.ok 5)) [0x0102] s' ∧
    BulkPlays Case.bytes s' ((Script.ofList [1, 2, 3] (.ok 5)).drop 2) :=
  decoder_position (u16.decodesLaw .big) (by simp [FixedInt.grammar]) Case.u16_encoding (Case.from_plays _ _)
    (xs := [0x0102]) (Script.StartsWith.left (ys := [3]) (Script.ofList_startsWith [1, 2, 3] _))

theorem canonic_decoder_position {d : DecodableCanonic T R RC} {g : Grammar T RC} (hd : DecodesLaw d.decodeCanonic g)
    (hg : g [] = .more) {enc : T → List UInt8} (hinv : ∀ x, g.Encoding (enc x) x) {P : BulkProducer σ UInt8 F E} {s : σ}
    {c : Script UInt8 F E} (h : BulkPlays P s c) {xs : List T} (hs : c.StartsWith (encodeAll enc xs)) :
    ∃ s', Emits (canonicDecoder d P).toProducer s xs s' ∧ BulkPlays P s' (c.drop (encodeAll enc xs).length) :=
  decoder_position (d := ⟨d.decodeCanonic⟩) hd hg hinv h hs

example : ∃ s', Emits (canonicDecoder Case.flagDecodable Case.bytes).toProducer (Case.from_ [1, 7] (.ok 5)) [true] s' ∧
    BulkPlays Case.bytes s' ((Script.ofList [1, 7] (.ok 5)).drop 1) :=
  canonic_decoder_position Case.flag_decodes_canonic rfl Case.flag_encoding_canonic (Case.from_plays _ _) (xs := [true])
    (Script.StartsWith.left (ys := [7]) (Script.ofList_startsWith [1, 7] _))

/-! ## C41: how the sequence ends -/

/-- The end of the sequence of a decoder if the bytes end, with `last`, after `part`, which is the beginning of an encoding (or
empty). -/
def endInside (R : Type) (part : List UInt8) (last : Except E F) : Except (DecodeError F E R) F :=
  match last with
  | .error e => .error (.producer e)
  | .ok f => if part = [] then .ok f else .error (.unexpectedEndOfInput f)

theorem decodes_ended {g : Grammar T R} {enc : T → List UInt8} (hinv : ∀ x, g.Encoding (enc x) x) (xs : List T)
    {part : List UInt8} (hpart : g.Incomplete part) (last : Except E F) :
    Decodes g (Script.ofList (encodeAll enc xs ++ part) last) (Script.ofList xs (endInside R part last))
      (fun n => (encodeAll enc (xs.take n)).length) := by
  refine decodes_encodeAll hinv (Script.ofList_startsWith _ _).left ?_
  rw [Script.ofList_drop _ _ _ (by simp), List.drop_left]
  cases last with
  | error e => exact .failed (Script.ofList_startsWith _ _) hpart (Script.ofList_end _ _)
  | ok f =>
    simp only [endInside]
    split
    · subst part; exact .final (Script.ofList_end _ _)
    · exact .truncated (Script.ofList_startsWith _ _) ‹_› hpart (Script.ofList_end _ _)

/-- **C41.** If the bytes are the encodings of `xs`, followed by `part`, which is the beginning of an encoding or empty, and
then end with `last`: the decoder emits `xs`; then, at a value boundary, the final value; inside an encoding,
`UnexpectedEndOfInput` with the final value; and in both cases an error of the producer as such. -/
theorem decoder_ends {d : Decodable T R} {g : Grammar T R} (hd : DecodesLaw d.decode g) (hg : g [] = .more)
    {enc : T → List UInt8} (hinv : ∀ x, g.Encoding (enc x) x) {P : BulkProducer σ UInt8 F E} {s : σ} {xs : List T}
    {part : List UInt8} (hpart : part = [] ∨ ∃ y, part.length < (enc y).length ∧ part <+: enc y) {last : Except E F}
    (h : BulkPlays P s (Script.ofList (encodeAll enc xs ++ part) last)) :
    BufPlays (decoder d P) s (Script.ofList xs (endInside R part last)) := by
  refine decoder_plays hd hg h (decodes_ended hinv xs ?_ last)
  rcases hpart with rfl | ⟨y, h1, h2⟩
  · exact ⟨fun k hk => absurd hk (Nat.not_lt_zero _), hg⟩
  · obtain ⟨h3, _⟩ := hinv y
    have hp := List.prefix_iff_eq_take.mp h2
    refine ⟨fun k hk => ?_, ?_⟩
    · rw [hp, List.take_take, Nat.min_eq_left (Nat.le_of_lt hk)]
      exact h3 k (by omega)
    · rw [hp]; exact h3 _ h1

/-- A truncated second number. -/
example : BufPlays (decoder U16BE.decodable.toDecodable Case.bytes) (Case.from_ [1, 2, 3] (.ok 5))
      (Script.ofList [0x0102] (.error (.unexpectedEndOfInput 5))) :=
  decoder_ends (u16.decodesLaw .big) (by simp [FixedInt.grammar]) Case.u16_encoding (xs := [0x0102]) (part := [3])
    (.inr ⟨0x0300, by simp, [0], by decide⟩) (last := .ok 5) (Case.from_plays _ _)

theorem canonic_decoder_ends {d : DecodableCanonic T R RC} {g : Grammar T RC} (hd : DecodesLaw d.decodeCanonic g)
    (hg : g [] = .more) {enc : T → List UInt8} (hinv : ∀ x, g.Encoding (enc x) x) {P : BulkProducer σ UInt8 F E} {s : σ}
    {xs : List T} {part : List UInt8} (hpart : part = [] ∨ ∃ y, part.length < (enc y).length ∧ part <+: enc y)
    {last : Except E F} (h : BulkPlays P s (Script.ofList (encodeAll enc xs ++ part) last)) :
    BufPlays (canonicDecoder d P) s (Script.ofList xs (endInside RC part last)) :=
  decoder_ends (d := ⟨d.decodeCanonic⟩) hd hg hinv hpart h

example : BufPlays (canonicDecoder U16BE.decodable Case.bytes) (Case.from_ [1, 2] (.error "broken"))
      (Script.ofList [0x0102] (.error (.producer "broken"))) :=
  canonic_decoder_ends (u16.decodesLaw .big) (by simp [FixedInt.grammar]) Case.u16_encoding (xs := [0x0102]) (part := [])
    (.inl rfl) (last := .error "broken") (Case.from_plays _ _)

/-- **C41.** If the bytes are the encodings of `xs`, followed by something that is not the beginning of an encoding, then the
decoder emits `xs` and then the reason. (Nothing is assumed about what comes after that.) -/
theorem decoder_invalid {d : Decodable T R} {g : Grammar T R} (hd : DecodesLaw d.decode g) (hg : g [] = .more)
    {enc : T → List UInt8} (hinv : ∀ x, g.Encoding (enc x) x) {P : BulkProducer σ UInt8 F E} {s : σ} {xs : List T}
    {bad : List UInt8} {r : R} (hbad : g.Invalid bad r) {c : Script UInt8 F E} (hs : c.StartsWith (encodeAll enc xs ++ bad))
    (h : BulkPlays P s c) : BufPlays (decoder d P) s (Script.ofList xs (.error (.other r))) :=
  decoder_plays hd hg h (decodes_encodeAll hinv hs.left (.invalid hs.right hbad))

/-- As `decode` of the truth values never complains, `decode_canonic` is taken for it here. -/
example : BufPlays (decoder (⟨Case.flagDecodable.decodeCanonic⟩ : Decodable Bool UInt8) Case.bytes) (Case.from_ [1, 0, 7, 1] (.ok 5))
    (Script.ofList [true, false] (.error (.other 7))) :=
  decoder_invalid Case.flag_decodes_canonic rfl Case.flag_encoding_canonic (xs := [true, false]) Case.flag_invalid
    (Script.StartsWith.left (ys := [1]) (Script.ofList_startsWith [1, 0, 7, 1] _)) (Case.from_plays _ _)

/-- **C41, "exactly when".** The decoder answers with a final value if and only if the producer of bytes does, and with the
same one. This does not depend on any law of the codec. -/
theorem decoder_final_iff (d : Decodable T R) {P : BulkProducer σ UInt8 F E} {s : σ} {c : Script UInt8 F E}
    (h : BulkPlays P s c) (f : F) :
    (∃ s', (decoder d P).produce s = ok (s', .ok (.inr f))) ↔ c 0 = .ok (.inr f) := by
  obtain ⟨s1, ⟨x, xs, h0, h1, h2⟩ | ⟨f', h0, h1⟩ | ⟨e, h0, h1⟩⟩ := h.expose
  · constructor
    · rintro ⟨s', h3⟩
      simp only [decoder, decoderProduce, h1, bind_eq, bind_ok] at h3
      cases h4 : d.decode P s1 with
      | ok r =>
        obtain ⟨s2, r⟩ := r
        cases r <;> simp [h4] at h3
      | panic => simp [h4] at h3
      | diverge => simp [h4] at h3
    · intro h3; rw [h0] at h3; cases h3
  · constructor
    · rintro ⟨s', h3⟩
      simp [decoder, decoderProduce, h1] at h3
      rw [h0, h3.2]
    · intro h3
      rw [h0] at h3; cases h3
      exact ⟨s1, by simp [decoder, decoderProduce, h1]⟩
  · constructor
    · rintro ⟨s', h3⟩
      simp [decoder, decoderProduce, h1] at h3
    · intro h3; rw [h0] at h3; cases h3

example : (∃ s', (decoder Case.flagDecodable.toDecodable Case.bytes).produce (Case.from_ [] (.ok 5)) = ok (s', .ok (.inr 5))) ∧
    ¬ ∃ s', (decoder Case.flagDecodable.toDecodable Case.bytes).produce (Case.from_ [1] (.ok 5)) = ok (s', .ok (.inr 5)) :=
  ⟨(decoder_final_iff _ (Case.from_plays [] _) 5).mpr rfl, fun h => nomatch (decoder_final_iff _ (Case.from_plays [1] _) 5).mp h⟩

/-! ## C40 -/

theorem encoder_consumes {t : Encodable T} {enc : T → List UInt8} (he : EncodesLaw t.encode enc) {C : BulkConsumer σ UInt8 F E}
    {D : σ → List UInt8 → Option F → Prop} {q : Policy UInt8 F E} {s : σ} {l : List UInt8} (h : BulkCollects C D q s l)
    {xs : List T} (ha : q.Accepts l (encodeAll enc xs)) :
    ∃ s', Consumes (encoder t C).toConsumer s xs s' ∧ BulkCollects C D q s' (l ++ encodeAll enc xs) := by
  induction xs generalizing s l with
  | nil => exact ⟨s, .nil _, by simpa [encodeAll] using h⟩
  | cons x xs ih =>
    rw [encodeAll_cons, Policy.accepts_append] at ha
    obtain ⟨s1, h1, h2⟩ := he.accepted x h ha.1
    obtain ⟨s', h3, h4⟩ := ih h2 ha.2
    refine ⟨s', .cons h1 h3, ?_⟩
    rw [encodeAll_cons, ← List.append_assoc]; exact h4

/-- Two numbers of two bytes each, into a consumer with room for four bytes. -/
example : ∃ s', Consumes (encoder (u16.encodable .big).toEncodable Case.sink).toConsumer (Case.upTo 4) [258, 3] s' ∧
    BulkCollects Case.sink TestConsumer.Seen (.failAfter 4 "full") s' ([] ++ encodeAll (u16.toBytes .big) [258, 3]) :=
  encoder_consumes (u16.encodesLaw .big) (Case.upTo_collects 4) (xs := [258, 3]) (Case.upTo_accepts (by decide))

/-- The claim of C40 for an encoder `t` and a decoder `D` of the same type: there are byte strings `bytes xs` such that encoding
`xs` (into whichever consumer accepts these bytes) makes the consumer receive `bytes xs`, and decoding `bytes xs` (from
whichever producer) yields `xs` and then the final value. -/
def Inverse (t : Encodable T) (d : Decodable T R) : Prop :=
  ∃ bytes : List T → List UInt8, ∀ xs,
    (∀ {σ F E : Type} {C : BulkConsumer σ UInt8 F E} {D : σ → List UInt8 → Option F → Prop} {q : Policy UInt8 F E} {s : σ},
      BulkCollects C D q s [] → q.Accepts [] (bytes xs) →
      ∃ s', Consumes (encoder t C).toConsumer s xs s' ∧ D s' (bytes xs) none ∧
        ∀ f, q.refuseClose (bytes xs) f = none → ∃ s'', (encoder t C).close s' f = ok (s'', .ok ()) ∧ D s'' (bytes xs) (some f)) ∧
    (∀ {σ F E : Type} {P : BulkProducer σ UInt8 F E} {s : σ} {f : F},
      BulkPlays P s (Script.ofList (bytes xs) (.ok f)) → BufPlays (decoder d P) s (Script.ofList xs (.ok f)))

/-- **C40**, for all codecs without empty encodings (`g [] = .more`). What is missing from the full statement: codecs that
encode some value as the empty string. For these it is false, see `empty_encoding_not_inverse`. -/
theorem encoder_decoder_inverse_partial {t : Encodable T} {d : Decodable T R} {enc : T → List UInt8} {g : Grammar T R}
    (he : EncodesLaw t.encode enc) (hd : DecodesLaw d.decode g) (hinv : ∀ x, g.Encoding (enc x) x) (hg : g [] = .more) :
    Inverse t d := by
  refine ⟨encodeAll enc, fun xs => ⟨?_, ?_⟩⟩
  · intro σ F E C D q s h ha
    obtain ⟨s', h1, h2⟩ := encoder_consumes he h ha
    refine ⟨s', h1, by simpa using h2.observe, fun f hf => ?_⟩
    have h3 := h2.toCollects.close_ok f (by simpa using hf)
    rw [List.nil_append] at h3
    exact h3
  · intro σ F E P s f h
    have := decoder_ends hd hg hinv (part := []) (.inl rfl) (last := .ok f) (by simpa using h)
    simpa [endInside] using this

example : Inverse Case.flagEncodable.toEncodable Case.flagDecodable.toDecodable :=
  encoder_decoder_inverse_partial Case.flag_encodes Case.flag_decodes Case.flag_encoding rfl

theorem canonic_encoder_decoder_inverse_partial {t : Encodable T} {d : DecodableCanonic T R RC} {enc : T → List UInt8}
    {g : Grammar T RC} (he : EncodesLaw t.encode enc) (hd : DecodesLaw d.decodeCanonic g) (hinv : ∀ x, g.Encoding (enc x) x)
    (hg : g [] = .more) : Inverse t ⟨d.decodeCanonic⟩ :=
  encoder_decoder_inverse_partial he hd hinv hg

example : Inverse Case.flagEncodable.toEncodable ⟨Case.flagDecodable.decodeCanonic⟩ :=
  canonic_encoder_decoder_inverse_partial Case.flag_encodes Case.flag_decodes_canonic Case.flag_encoding_canonic rfl

end

/-! ### Instances -/

/-- The claim of C40 for both decoders of a codec. -/
def EndianCodec.Inverts {T : Type} (k : EndianCodec T) : Prop :=
  Inverse k.encodable.toEncodable k.decodable.toDecodable ∧ Inverse k.encodable.toEncodable ⟨k.decodable.decodeCanonic⟩

theorem FixedInt.inverts {T : Type} {N : Nat} {i : FixedInt T N} (hi : i.Faithful) (o : ByteOrder) (hN : 0 < N) :
    (i.codec o).Inverts := by
  have h : Inverse (i.codec o).encodable.toEncodable (i.codec o).decodable.toDecodable :=
    encoder_decoder_inverse_partial (i.encodesLaw o) (i.decodesLaw o)
      (fun x => (encoding_iff i o _ x).mpr ⟨by simp, fromBytes_toBytes hi o x⟩) (by simp [grammar, hN])
  exact ⟨h, h⟩

/-- **C40** for the sixteen endian codecs. -/
theorem endian_inverts :
    (U8BE.Inverts ∧ U16BE.Inverts ∧ U32BE.Inverts ∧ U64BE.Inverts ∧ I8BE.Inverts ∧ I16BE.Inverts ∧ I32BE.Inverts ∧
      I64BE.Inverts) ∧
    (U8LE.Inverts ∧ U16LE.Inverts ∧ U32LE.Inverts ∧ U64LE.Inverts ∧ I8LE.Inverts ∧ I16LE.Inverts ∧ I32LE.Inverts ∧
      I64LE.Inverts) := by
  refine ⟨⟨FixedInt.inverts u8_faithful .big (by decide), FixedInt.inverts u16_faithful .big (by decide),
      FixedInt.inverts u32_faithful .big (by decide), FixedInt.inverts u64_faithful .big (by decide),
      FixedInt.inverts i8_faithful .big (by decide), FixedInt.inverts i16_faithful .big (by decide),
      FixedInt.inverts i32_faithful .big (by decide), FixedInt.inverts i64_faithful .big (by decide)⟩,
    FixedInt.inverts u8_faithful .big (by decide), FixedInt.inverts u16_faithful .little (by decide),
    FixedInt.inverts u32_faithful .little (by decide), FixedInt.inverts u64_faithful .little (by decide),
    FixedInt.inverts i8_faithful .big (by decide), FixedInt.inverts i16_faithful .little (by decide),
    FixedInt.inverts i32_faithful .little (by decide), FixedInt.inverts i64_faithful .little (by decide)⟩

/-- Two numbers encoded into a vector, and decoded from a test producer that yields and exposes one to two bytes at a time. -/
example : ∃ bytes, (∃ s, Consumes (encoder U16BE.encodable.toEncodable publicIntoVec).toConsumer IntoVec.new [0x0102, 7] s ∧
      s.intoVec = bytes) ∧
    BufPlays (decoder U16BE.decodable.toDecodable (publicProducer true (TestProducer.producer true UInt8 Nat String)))
      (.new (TestProducer.new bytes (.ok 5) [⟨1, by decide⟩, ⟨2, by decide⟩] (some [true]))) (Script.ofList [0x0102, 7] (.ok 5)) := by
  obtain ⟨bytes, h⟩ := endian_inverts.1.2.1.1
  obtain ⟨h1, h2⟩ := h [0x0102, 7]
  obtain ⟨s, h3, h4, _⟩ := h1 (into_vec_noop_collects []) (by simp)
  exact ⟨_, ⟨s, h3, h4.2⟩, h2 (test_producer_public_plays true _ (.ok 5) _ _)⟩

/-! ### Codecs with empty encodings -/

/-- A codec for a type with one value, which is encoded as the empty string. -/
def unitEncodable : Encodable Unit := ⟨fun _ s _ => ok (s, .ok ())⟩
def unitDecodable : Decodable Unit Empty := ⟨fun _ s => ok (s, .ok ())⟩

theorem unit_encodes : EncodesLaw unitEncodable.encode (fun _ => []) where
  accepted _ h _ := ⟨_, rfl, by simpa using h⟩
  refused _ _ _ _ hf := absurd hf.lt (Nat.not_lt_zero _)
  deferred _ _ h := ⟨_, .inl ⟨rfl, by simpa using h⟩⟩

theorem unit_decodes : DecodesLaw unitDecodable.decode (fun _ => .done ()) where
  value {_ _ _ _ _ _ bs _} h _ henc := by
    cases bs with
    | nil => exact ⟨_, rfl, by simpa using h⟩
    | cons b bs => have := henc.1 0 (by simp); cases this
  invalid _ _ h := nomatch h.2
  truncated _ _ h := nomatch h.2
  failed _ _ h := nomatch h.2

/-- The full statement of C40 is false: the codec `unitEncodable`, `unitDecodable` is lawful, and decode inverts encode, but
after encoding a list of values the decoder emits none of them. -/
theorem empty_encoding_not_inverse :
    EncodesLaw unitEncodable.encode (fun _ => []) ∧ DecodesLaw unitDecodable.decode (fun _ => .done ()) ∧
    (∀ x, Grammar.Encoding (fun _ => .done () : Grammar Unit Empty) [] x) ∧ ¬ Inverse unitEncodable unitDecodable := by
  refine ⟨unit_encodes, unit_decodes, fun _ => ⟨fun k hk => absurd hk (Nat.not_lt_zero _), rfl⟩, ?_⟩
  rintro ⟨bytes, h⟩
  obtain ⟨h1, h2⟩ := h [()]
  obtain ⟨s, h3, h4, _⟩ := h1 (into_vec_noop_collects []) (by simp)
  cases h3 with
  | cons h5 h6 =>
    cases h6
    cases h5
    have h7 : [] = bytes [()] := h4.2
    rw [← h7] at h2
    obtain ⟨s', h8, _⟩ := (h2 (from_slice_noop_plays [])).toPlays.step
    have h9 := (decoder_final_iff unitDecodable (from_slice_noop_plays []) ()).mpr
      (by simp [Script.ofList, Except.map])
    obtain ⟨s'', h9⟩ := h9
    rw [h9] at h8
    cases h8

/-- **C40**: for which lawful codecs the full statement holds: exactly those that encode no value as the empty string. -/
theorem encoder_decoder_inverse_iff {T R : Type} [Nonempty T] {t : Encodable T} {d : Decodable T R} {enc : T → List UInt8}
    {g : Grammar T R} (he : EncodesLaw t.encode enc) (hd : DecodesLaw d.decode g) (hinv : ∀ x, g.Encoding (enc x) x) :
    Inverse t d ↔ ∀ x, enc x ≠ [] := by
  constructor
  · rintro ⟨bytes, h⟩ x hx
    obtain ⟨h1, h2⟩ := h [x]
    obtain ⟨s, h3, h4, _⟩ := h1 (into_vec_noop_collects []) (by simp)
    obtain ⟨s₁, h5, h6⟩ := he.accepted x (into_vec_noop_collects []) (by simp)
    have h7 : bytes [x] = [] := by
      cases h3 with
      | cons h8 h9 =>
        cases h9
        have h10 := h5.symm.trans h8
        simp only [Outcome.ok.injEq, Prod.mk.injEq, and_true] at h10
        subst h10
        rw [← h4.2, h6.observe.2, hx, List.nil_append]
    rw [h7] at h2
    obtain ⟨s', h8, _⟩ := (h2 (from_slice_noop_plays [])).toPlays.step
    obtain ⟨s'', h9⟩ := (decoder_final_iff d (from_slice_noop_plays []) ()).mpr (by simp [Script.ofList, Except.map])
    rw [h9] at h8
    cases h8
  · intro hne
    obtain ⟨x⟩ := ‹Nonempty T›
    have hg : g [] = .more := by
      have := (hinv x).1 0 (List.length_pos_iff.2 (hne x))
      simpa using this
    exact encoder_decoder_inverse_partial he hd hinv hg

example : Inverse Case.flagEncodable.toEncodable Case.flagDecodable.toDecodable ∧ ¬ Inverse unitEncodable unitDecodable :=
  ⟨(encoder_decoder_inverse_iff Case.flag_encodes Case.flag_decodes Case.flag_encoding).mpr (by intro x; cases x <;> decide),
    fun h => (encoder_decoder_inverse_iff unit_encodes unit_decodes
      (fun _ => ⟨fun k hk => absurd hk (Nat.not_lt_zero _), rfl⟩)).mp h () rfl⟩

/-- And where there are bytes, the decoder emits values without end, whatever these bytes are. -/
theorem empty_encoding_endless {σ F E : Type} {P : BulkProducer σ UInt8 F E} {s : σ} {c : Script UInt8 F E} {b : UInt8}
    (h : BulkPlays P s c) (hb : c 0 = .ok (.inl b)) (n : Nat) :
    ∃ s', Emits (decoder unitDecodable P).toProducer s (List.replicate n ()) s' ∧ BulkPlays P s' c := by
  induction n generalizing s with
  | zero => exact ⟨s, .nil _, h⟩
  | succ n ih =>
    obtain ⟨s1, ⟨x, xs, h0, h1, h2⟩ | ⟨f', h0, h1⟩ | ⟨e, h0, h1⟩⟩ := h.expose
    · obtain ⟨s', h3, h4⟩ := ih h2
      exact ⟨s', .cons (by simp [decoder, decoderProduce, h1, unitDecodable]) h3, h4⟩
    · rw [hb] at h0; cases h0
    · rw [hb] at h0; cases h0

example : ∃ s', Emits (decoder unitDecodable publicFromSlice).toProducer (FromSlice.new [1]) (List.replicate 1000 ()) s' :=
  (empty_encoding_endless (from_slice_noop_plays [1]) rfl 1000).imp fun _ h => h.1

/-! ## C45 -/

section

variable {T R RC Rel : Type}

theorem intoVecWith_spec {encode : EncodeFn T} {enc : T → List UInt8} (he : EncodesLaw encode enc) (x : T) :
    intoVecWith (fun C s => encode C s x) = ok (enc x) := by
  obtain ⟨s', h1, h2⟩ := he.accepted x (into_vec_noop_collects []) (by simp)
  have h3 : s'.intoVec = enc x := by simpa using h2.observe.2
  simp only [intoVecWith]
  rw [show publicIntoVec = invariantNoopBulkConsumer (IntoVec.consumer UInt8) from rfl,
    show IntoVec.new = IntoVec.fromVec ([] : List UInt8) from rfl, h1]
  simp [h3]

/-- **C45.** `encode_into_vec` never panics and returns the encoding. -/
theorem encode_into_vec_eq {t : Encodable T} {enc : T → List UInt8} (he : EncodesLaw t.encode enc) (x : T) :
    t.encodeIntoVec x = ok (enc x) := intoVecWith_spec he x

example : U32LE.encodable.encodeIntoVec 0x12cd = ok [0xcd, 0x12, 0, 0] :=
  (encode_into_vec_eq (u32.encodesLaw .little) 0x12cd).trans (by decide)

/-- **C45.** `encode_into_boxed_slice` never panics and returns the encoding; it is as long as announced. -/
theorem encode_into_boxed_slice_eq {t : EncodableKnownSize T} {enc : T → List UInt8} (he : EncodesLaw t.encode enc)
    (hl : ∀ x, (enc x).length = t.lenOfEncoding x) (x : T) :
    t.encodeIntoBoxedSlice x = ok (enc x) ∧ t.encodeIntoBoxedSlice x = t.encodeIntoVec x ∧
    ∃ bs, t.encodeIntoBoxedSlice x = ok bs ∧ bs.length = t.lenOfEncoding x := by
  have h := intoVecWith_spec he x
  exact ⟨h, rfl, enc x, h, hl x⟩

example : U32LE.encodable.encodeIntoBoxedSlice 0x12cd = ok [0xcd, 0x12, 0, 0] :=
  (encode_into_boxed_slice_eq (u32.encodesLaw .little) (fun x => by simp [U32LE, FixedInt.codec, FixedInt.encodable]) 0x12cd).1.trans
    (by decide)

theorem relative_encode_into_vec_eq {t : RelativeEncodable T Rel} {enc : Rel → T → List UInt8}
    (he : ∀ r, EncodesLaw (t.relativeEncode r) (enc r)) (x : T) (r : Rel) : t.relativeEncodeIntoVec x r = ok (enc r x) :=
  intoVecWith_spec (he r) x

example : differenceEncodable.relativeEncodeIntoVec 3 10 = ok [249] :=
  (relative_encode_into_vec_eq difference_encodes 3 10).trans (by decide)

theorem relative_encode_into_boxed_slice_eq {t : RelativeEncodableKnownSize T Rel} {enc : Rel → T → List UInt8}
    (he : ∀ r, EncodesLaw (t.relativeEncode r) (enc r)) (hl : ∀ x r, (enc r x).length = t.relativeLenOfEncoding x r) (x : T)
    (r : Rel) : ∃ bs, t.relativeEncodeIntoBoxedSlice x r = ok bs ∧ bs = enc r x ∧ bs.length = t.relativeLenOfEncoding x r :=
  ⟨_, intoVecWith_spec (he r) x, rfl, hl x r⟩

example : ∃ bs, RelativeEncodableKnownSize.relativeEncodeIntoBoxedSlice ⟨differenceEncodable, fun _ _ => 1⟩ 3 10 = ok bs ∧
    bs = [249] ∧ bs.length = 1 :=
  relative_encode_into_boxed_slice_eq (t := ⟨differenceEncodable, fun _ _ => 1⟩) difference_encodes (fun _ _ => rfl) 3 10

/-- What decoding from a slice must return, for the language `g`. -/
structure FromSliceSpec (decode : List UInt8 → Outcome (Except (DecodeError Unit Empty R) T)) (g : Grammar T R) : Prop where
  /-- A slice that starts with an encoding of `x`. -/
  value : ∀ bs x rest, g.Encoding bs x → decode (bs ++ rest) = ok (.ok x)
  /-- The empty slice, and the beginning of an encoding. -/
  truncated : ∀ bs, g.Incomplete bs → decode bs = ok (.error (.unexpectedEndOfInput ()))
  invalid : ∀ bs r rest, g.Invalid bs r → decode (bs ++ rest) = ok (.error (.other r))

theorem fromSlice_spec {decode : DecodeFn T R} {g : Grammar T R} (hd : DecodesLaw decode g) :
    FromSliceSpec (fun bs => Decodable.decodeFromSlice ⟨decode⟩ bs) g where
  value bs x rest h := by
    obtain ⟨s', h1, _⟩ := hd.value (from_slice_noop_plays (bs ++ rest)) (Script.ofList_startsWith _ _).left h
    simp [Decodable.decodeFromSlice, h1]
  truncated bs h := by
    obtain ⟨s', h1⟩ := hd.truncated (from_slice_noop_plays bs) (Script.ofList_startsWith _ _) h (Script.ofList_end _ _)
    simp [Decodable.decodeFromSlice, h1]
  invalid bs r rest h := by
    obtain ⟨s', h1⟩ := hd.invalid (from_slice_noop_plays (bs ++ rest)) (Script.ofList_startsWith _ _).left h
    simp [Decodable.decodeFromSlice, h1]

/-- **C45.** `decode_from_slice` -/
theorem decode_from_slice_spec {t : Decodable T R} {g : Grammar T R} (hd : DecodesLaw t.decode g) :
    FromSliceSpec t.decodeFromSlice g := fromSlice_spec hd

example : U32LE.decodable.decodeFromSlice [0xcd, 0x12, 0, 0, 9] = ok (.ok 0x12cd) ∧
    U32LE.decodable.decodeFromSlice [0xcd, 0x12, 0] = ok (.error (.unexpectedEndOfInput ())) ∧
    U32LE.decodable.decodeFromSlice [] = ok (.error (.unexpectedEndOfInput ())) := by
  have h := decode_from_slice_spec (t := U32LE.decodable.toDecodable) (u32.decodesLaw .little)
  exact ⟨h.value [0xcd, 0x12, 0, 0] 0x12cd [9] ((FixedInt.encoding_iff _ _ _ _).mpr (by decide)),
    h.truncated _ ((FixedInt.incomplete_iff _ _ _).mpr (by decide)),
    h.truncated _ ((FixedInt.incomplete_iff _ _ _).mpr (by decide))⟩

theorem decode_canonic_from_slice_spec {t : DecodableCanonic T R RC} {g : Grammar T RC} (hd : DecodesLaw t.decodeCanonic g) :
    FromSliceSpec t.decodeCanonicFromSlice g := fromSlice_spec hd

example : Case.flagDecodable.decodeCanonicFromSlice [1, 7] = ok (.ok true) ∧
    Case.flagDecodable.decodeCanonicFromSlice [7, 1] = ok (.error (.other 7)) := by
  have h := decode_canonic_from_slice_spec Case.flag_decodes_canonic
  exact ⟨h.value [1] true [7] (Case.flag_encoding_canonic true), h.invalid [7] 7 [1] Case.flag_invalid⟩

theorem relative_decode_from_slice_spec {t : RelativeDecodable T Rel R} {g : Rel → Grammar T R}
    (hd : ∀ r, DecodesLaw (t.relativeDecode r) (g r)) (r : Rel) :
    FromSliceSpec (fun bs => t.relativeDecodeFromSlice bs r) (g r) := fromSlice_spec (hd r)

example : differenceDecodable.relativeDecodeFromSlice [249, 0] 10 = ok (.ok 3) :=
  (relative_decode_from_slice_spec difference_decodes 10).value [249] 3 [0] (difference_encoding 10 3)

theorem relative_decode_canonic_from_slice_spec {t : RelativeDecodableCanonic T Rel R RC} {g : Rel → Grammar T RC}
    (hd : ∀ r, DecodesLaw (t.relativeDecodeCanonic r) (g r)) (r : Rel) :
    FromSliceSpec (fun bs => t.relativeDecodeCanonicFromSlice bs r) (g r) := fromSlice_spec (hd r)

example : RelativeDecodableCanonic.relativeDecodeCanonicFromSlice
    ⟨differenceDecodable, id, differenceDecodable.relativeDecode⟩ [249, 0] 10 = ok (.ok 3) :=
  (relative_decode_canonic_from_slice_spec (t := ⟨differenceDecodable, id, differenceDecodable.relativeDecode⟩)
    difference_decodes 10).value [249] 3 [0] (difference_encoding 10 3)

/-- **C45.** The methods are inverse to each other. -/
theorem decode_from_slice_encode_into_vec {t : Encodable T} {d : Decodable T R} {enc : T → List UInt8} {g : Grammar T R}
    (he : EncodesLaw t.encode enc) (hd : DecodesLaw d.decode g) (hinv : ∀ x, g.Encoding (enc x) x) (x : T) :
    ∃ bs, t.encodeIntoVec x = ok bs ∧ d.decodeFromSlice bs = ok (.ok x) :=
  ⟨_, encode_into_vec_eq he x, by simpa using (decode_from_slice_spec hd).value _ x [] (hinv x)⟩

example (x : Bool) : ∃ bs, Case.flagEncodable.encodeIntoVec x = ok bs ∧ Case.flagDecodable.decodeFromSlice bs = ok (.ok x) :=
  decode_from_slice_encode_into_vec Case.flag_encodes Case.flag_decodes Case.flag_encoding x

end

/-! ## C46 -/

section

variable {F E A B : Type}

/-- **C46.** A failure to produce enough items becomes the end of input or an error of the producer, with the same payload. -/
theorem from_produce_at_least (err : ProduceAtLeastError F E) (f : F) (e : E) :
    ((DecodeError.fromProduceAtLeast err : DecodeError F E A) = .unexpectedEndOfInput f ↔ err.reason = .inl f) ∧
    ((DecodeError.fromProduceAtLeast err : DecodeError F E A) = .producer e ↔ err.reason = .inr e) ∧
    (∀ r, (DecodeError.fromProduceAtLeast err : DecodeError F E A) ≠ .other r) := by
  obtain ⟨count, reason⟩ := err
  cases reason <;> simp [DecodeError.fromProduceAtLeast]

theorem from_error (e e' : E) : ((DecodeError.fromError e : DecodeError F E A) = .producer e' ↔ e = e') ∧
    (∀ f, (DecodeError.fromError e : DecodeError F E A) ≠ .unexpectedEndOfInput f) ∧
    (∀ r, (DecodeError.fromError e : DecodeError F E A) ≠ .other r) := by
  simp [DecodeError.fromError]

/-- **C46.** `map_other` and `map_other_from` change nothing but the payload of `Other`. -/
theorem map_other_spec (g : A → B) (err : DecodeError F E A) :
    (∀ f, err.mapOther g = .unexpectedEndOfInput f ↔ err = .unexpectedEndOfInput f) ∧
    (∀ e, err.mapOther g = .producer e ↔ err = .producer e) ∧
    (∀ b, err.mapOther g = .other b ↔ ∃ a, err = .other a ∧ g a = b) ∧
    err.mapOtherFrom g = err.mapOther g := by
  cases err <;> simp [DecodeError.mapOther, DecodeError.mapOtherFrom]

theorem map_other_id (err : DecodeError F E A) : err.mapOther id = err := by cases err <;> rfl

theorem map_other_comp {G : Type} (g : A → B) (h : B → G) (err : DecodeError F E A) :
    (err.mapOther g).mapOther h = err.mapOther (h ∘ g) := by cases err <;> rfl

/-- **C46.** A conversion of the number `n` to an integer type with the range `fits` that returns the same number or reports
`OurFault`, and the latter only if the number does not fit. -/
def SameOrFault {N : Type} (n : N) (fits : Prop) (r : Except (DecodeError F E Blame) N) : Prop :=
  (fits ∧ r = .ok n) ∨ (¬ fits ∧ r = .error (.other .ourFault))

/-- **C46**, for every width of `usize` of at least 16 bits (as Rust guarantees). -/
theorem blame_conversions (bits : Nat) (hb : 16 ≤ bits) :
    (∀ n : UInt64, SameOrFault (F := F) (E := E) n.toNat (n.toNat < 2 ^ bits) (Blame.u64ToUsize bits n)) ∧
    (∀ n : UInt32, SameOrFault (F := F) (E := E) n.toNat (n.toNat < 2 ^ bits) (Blame.u32ToUsize bits n)) ∧
    (∀ n : UInt16, SameOrFault (F := F) (E := E) n.toNat (n.toNat < 2 ^ bits) (Blame.u16ToUsize n)) ∧
    (∀ n : Int64, SameOrFault (F := F) (E := E) n.toInt (-2 ^ (bits - 1) ≤ n.toInt ∧ n.toInt < 2 ^ (bits - 1))
      (Blame.i64ToUsize bits n)) ∧
    (∀ n : Int32, SameOrFault (F := F) (E := E) n.toInt (-2 ^ (bits - 1) ≤ n.toInt ∧ n.toInt < 2 ^ (bits - 1))
      (Blame.i32ToUsize bits n)) ∧
    (∀ n : Int16, SameOrFault (F := F) (E := E) n.toInt (-2 ^ (bits - 1) ≤ n.toInt ∧ n.toInt < 2 ^ (bits - 1))
      (Blame.i16ToUsize n)) := by
  have h16 : 2 ^ 16 ≤ 2 ^ bits := Nat.pow_le_pow_right (by decide) hb
  have h15 : 2 ^ 15 ≤ 2 ^ (bits - 1) := Nat.pow_le_pow_right (by decide) (by omega)
  have h15' : (2 ^ 15 : Int) ≤ 2 ^ (bits - 1) := by exact_mod_cast h15
  refine ⟨fun n => ?_, fun n => ?_, fun n => ?_, fun n => ?_, fun n => ?_, fun n => ?_⟩
  · by_cases h : n.toNat < 2 ^ bits
    · exact .inl ⟨h, by simp [Blame.u64ToUsize, Blame.tryUsize, h]⟩
    · exact .inr ⟨h, by simp only [Blame.u64ToUsize, Blame.tryUsize, if_neg h]⟩
  · by_cases h : n.toNat < 2 ^ bits
    · exact .inl ⟨h, by simp [Blame.u32ToUsize, Blame.tryUsize, h]⟩
    · exact .inr ⟨h, by simp only [Blame.u32ToUsize, Blame.tryUsize, if_neg h]⟩
  · exact .inl ⟨Nat.lt_of_lt_of_le n.toNat_lt h16, rfl⟩
  · by_cases h : -2 ^ (bits - 1) ≤ n.toInt ∧ n.toInt < 2 ^ (bits - 1)
    · exact .inl ⟨h, by simp [Blame.i64ToUsize, Blame.tryIsize, h]⟩
    · exact .inr ⟨h, by simp only [Blame.i64ToUsize, Blame.tryIsize, if_neg h]⟩
  · by_cases h : -2 ^ (bits - 1) ≤ n.toInt ∧ n.toInt < 2 ^ (bits - 1)
    · exact .inl ⟨h, by simp [Blame.i32ToUsize, Blame.tryIsize, h]⟩
    · exact .inr ⟨h, by simp only [Blame.i32ToUsize, Blame.tryIsize, if_neg h]⟩
  · refine .inl ⟨⟨?_, ?_⟩, rfl⟩
    · have := n.le_toInt; omega
    · have := n.toInt_lt; omega

/-- The largest and the smallest numbers that fit into 32 bits, and the ones after them, which do not. -/
example : Blame.u64ToUsize (F := Unit) (E := Unit) 32 4294967295 = .ok 4294967295 ∧
    Blame.u64ToUsize (F := Unit) (E := Unit) 32 4294967296 = .error (.other .ourFault) ∧
    Blame.i64ToUsize (F := Unit) (E := Unit) 32 (-2147483649) = .error (.other .ourFault) ∧
    Blame.i64ToUsize (F := Unit) (E := Unit) 32 (-2147483648) = .ok (-2147483648) :=
  ⟨rfl, rfl, rfl, rfl⟩

/-- **C46.** The source of an error is its payload, except for the end of input. -/
theorem decode_error_source (err : DecodeError F E A) :
    (∀ e, err.source = some (.inl e) ↔ err = .producer e) ∧ (∀ r, err.source = some (.inr r) ↔ err = .other r) ∧
    (err.source = none ↔ ∃ f, err = .unexpectedEndOfInput f) := by
  cases err <;> simp [DecodeError.source]

end

end Verif
