import Verif.Cases
import Verif.Lemmas.Codec
import Verif.ProptestSpec

/-!
# Concrete codecs

The cases that the examples beside the theorems about codecs use, besides the endian codecs of the repository: truth values, of
which each is encoded as one byte, with a `decode` that accepts more than `decode_canonic`; and bytes that are encoded by their
difference to another byte.
-/

namespace Verif

open Outcome

section

variable {T R : Type}

/-! ## Codecs that use a single byte -/

/-- Encode a value as a single byte. -/
noncomputable def byteEncode (code : T → UInt8) : EncodeFn T := fun C s x => U8BE.encodable.encode C s (code x)

/-- Decode a single byte. -/
noncomputable def byteDecode (value : UInt8 → Except R T) : DecodeFn T R := fun P s => do
  match ← U8BE.decodable.decode P s with
  | (s, .error e) => return (s, .error (e.mapOther nofun))
  | (s, .ok b) => return (s, (value b).mapError .other)

/-- The language of `byteDecode`. -/
def byteGrammar (value : UInt8 → Except R T) : Grammar T R
  | [] => .more
  | b :: _ => match value b with
    | .ok x => .done x
    | .error r => .bad r

theorem byte_encodes (code : T → UInt8) : EncodesLaw (byteEncode code) (fun x => [code x]) := by
  have e : ∀ b, u8.toBytes .big b = [b] := fun b => by simp [FixedInt.toBytes, leBytes, u8]
  have h := u8.encodesLaw .big
  exact ⟨fun x h1 h2 => by have := h.accepted (code x) h1 (by simpa [e] using h2); rwa [e] at this,
    fun x _ _ h1 h2 => by have := h.refused (code x) h1 (by simpa [e] using h2); rwa [e] at this,
    fun x h1 h2 => by have := h.deferred (code x) h1 h2; rwa [e] at this⟩

theorem byteGrammar_reaches (value : UInt8 → Except R T) {bs : List UInt8} (h : (byteGrammar value).Reaches bs) :
    bs = [] ∨ ∃ b, bs = [b] := by
  match bs with
  | [] => exact .inl rfl
  | [b] => exact .inr ⟨b, rfl⟩
  | b :: b' :: bs =>
    have := h 1 (by simp)
    simp only [byteGrammar, List.take_succ_cons, List.take_zero] at this
    split at this <;> cases this

theorem byteGrammar_encoding {value : UInt8 → Except R T} {b : UInt8} {x : T} (h : value b = .ok x) :
    (byteGrammar value).Encoding [b] x :=
  ⟨fun k hk => by obtain rfl : k = 0 := by simpa using hk
                  rfl, by simp [byteGrammar, h]⟩

theorem byteGrammar_invalid {value : UInt8 → Except R T} {b : UInt8} {r : R} (h : value b = .error r) :
    (byteGrammar value).Invalid [b] r :=
  ⟨fun k hk => by obtain rfl : k = 0 := by simpa using hk
                  rfl, by simp [byteGrammar, h]⟩

theorem byteGrammar_encoding_iff {value : UInt8 → Except R T} {bs : List UInt8} {x : T} :
    (byteGrammar value).Encoding bs x ↔ ∃ b, bs = [b] ∧ value b = .ok x := by
  refine ⟨fun ⟨h1, h2⟩ => ?_, ?_⟩
  · rcases byteGrammar_reaches value h1 with rfl | ⟨b, rfl⟩
    · cases h2
    · simp only [byteGrammar] at h2
      split at h2
      · cases h2; exact ⟨b, rfl, ‹_›⟩
      · cases h2
  · rintro ⟨b, rfl, h⟩; exact byteGrammar_encoding h

theorem byte_decodes (value : UInt8 → Except R T) : DecodesLaw (byteDecode value) (byteGrammar value) := by
  have h := u8.decodesLaw .big
  have hval : ∀ {σ F E : Type} {P : BulkProducer σ UInt8 F E} {s : σ} {c : Script UInt8 F E} {b : UInt8}, BulkPlays P s c →
      c.StartsWith [b] → ∃ s', U8BE.decodable.decode P s = ok (s', .ok b) ∧ BulkPlays P s' (c.drop 1) := by
    intro σ F E P s c b h1 h2
    exact h.value h1 h2 ((FixedInt.encoding_iff u8 .big [b] b).mpr ⟨rfl, by simp [FixedInt.fromBytes, ofLeBytes, u8]⟩)
  have hinc : ∀ bs, (byteGrammar value).Incomplete bs → (u8.grammar .big).Incomplete bs := by
    rintro bs ⟨h1, h2⟩
    rcases byteGrammar_reaches value h1 with rfl | ⟨b, rfl⟩
    · exact ⟨fun k hk => absurd hk (Nat.not_lt_zero _), rfl⟩
    · simp only [byteGrammar] at h2
      split at h2 <;> cases h2
  refine ⟨?_, ?_, ?_, ?_⟩
  · rintro σ F E P s c bs x h1 h2 ⟨h3, h4⟩
    rcases byteGrammar_reaches value h3 with rfl | ⟨b, rfl⟩
    · cases h4
    · obtain ⟨s', h5, h6⟩ := hval h1 h2
      simp only [byteGrammar] at h4
      split at h4
      · cases h4
        exact ⟨s', by simp [byteDecode, h5, *, Except.mapError], h6⟩
      · cases h4
  · rintro σ F E P s c bs r h1 h2 ⟨h3, h4⟩
    rcases byteGrammar_reaches value h3 with rfl | ⟨b, rfl⟩
    · cases h4
    · obtain ⟨s', h5, h6⟩ := hval h1 h2
      simp only [byteGrammar] at h4
      split at h4
      · cases h4
      · cases h4
        exact ⟨s', by simp [byteDecode, h5, *, Except.mapError]⟩
  · rintro σ F E P s c bs f h1 h2 h3 h4
    obtain ⟨s', h5⟩ := h.truncated h1 h2 (hinc _ h3) h4
    have h5' : U8BE.decodable.decode P s = ok (s', .error (.unexpectedEndOfInput f)) := h5
    exact ⟨s', by simp [byteDecode, h5', DecodeError.mapOther]⟩
  · rintro σ F E P s c bs e h1 h2 h3 h4
    obtain ⟨s', h5⟩ := h.failed h1 h2 (hinc _ h3) h4
    have h5' : U8BE.decodable.decode P s = ok (s', .error (.producer e)) := h5
    exact ⟨s', by simp [byteDecode, h5', DecodeError.mapOther]⟩

end

/-! ## Truth values -/

namespace Case

/-- False is 0, true is 1. -/
def flagCode (x : Bool) : UInt8 := if x then 1 else 0

/-- Every byte is a truth value. -/
def flagValue (b : UInt8) : Except Empty Bool := .ok (b != 0)

/-- Only 0 and 1 are canonic. -/
def flagCanonic (b : UInt8) : Except UInt8 Bool := if b = 0 then .ok false else if b = 1 then .ok true else .error b

noncomputable def flagEncodable : EncodableKnownSize Bool := ⟨⟨byteEncode flagCode⟩, fun _ => 1⟩

noncomputable def flagDecodable : DecodableCanonic Bool Empty UInt8 := ⟨⟨byteDecode flagValue⟩, nofun, byteDecode flagCanonic⟩

theorem flag_encodes : EncodesLaw flagEncodable.encode (fun x => [flagCode x]) := byte_encodes _

theorem flag_decodes : DecodesLaw flagDecodable.decode (byteGrammar flagValue) := byte_decodes _

theorem flag_decodes_canonic : DecodesLaw flagDecodable.decodeCanonic (byteGrammar flagCanonic) := byte_decodes _

theorem flag_encoding (x : Bool) : (byteGrammar flagValue).Encoding [flagCode x] x := byteGrammar_encoding (by cases x <;> rfl)

theorem flag_encoding_canonic (x : Bool) : (byteGrammar flagCanonic).Encoding [flagCode x] x :=
  byteGrammar_encoding (by cases x <;> rfl)

theorem flag_invalid : (byteGrammar flagCanonic).Invalid [7] 7 := byteGrammar_invalid rfl

/-! ## Two bytes -/

theorem u16_encoding (x : UInt16) : (u16.grammar .big).Encoding (u16.toBytes .big x) x :=
  (FixedInt.encoding_iff u16 .big _ x).mpr ⟨by simp, FixedInt.fromBytes_toBytes u16_faithful .big x⟩

/-! ## Producers and consumers of bytes -/

/-- A `TestProducer` of bytes. -/
noncomputable abbrev bytes : BulkProducer (TestProducer UInt8 Nat String) UInt8 Nat String := TestProducer.producer true _ _ _

/-- It emits `bs` in slices of changing sizes, and then `last`. -/
def from_ (bs : List UInt8) (last : Except String Nat) : TestProducer UInt8 Nat String :=
  .new bs last [⟨1, by decide⟩, ⟨2, by decide⟩] none

theorem from_plays (bs : List UInt8) (last : Except String Nat) : BulkPlays bytes (from_ bs last) (Script.ofList bs last) :=
  test_producer_plays true bs last _ _

/-- A `TestConsumer` of bytes. -/
noncomputable abbrev sink : BulkConsumer (TestConsumer UInt8 Unit String) UInt8 Unit String := TestConsumer.consumer true _ _ _

/-- It accepts `n` bytes. -/
def upTo (n : Nat) : TestConsumer UInt8 Unit String := .new "full" n [⟨1, by decide⟩, ⟨2, by decide⟩] none

theorem upTo_collects (n : Nat) : BulkCollects sink TestConsumer.Seen (.failAfter n "full") (upTo n) [] :=
  test_consumer_collects true "full" n _ _

theorem upTo_accepts {n : Nat} {l xs : List UInt8} (h : l.length + xs.length ≤ n) :
    (Policy.failAfter (F := Unit) n "full").Accepts l xs := by
  intro i x hx
  have := (List.getElem?_eq_some_iff.mp hx).1
  simp [Policy.failAfter, Policy.answer]
  omega

theorem upTo_fails {n : Nat} {l xs : List UInt8} {i : Nat} (h : l.length + i = n) (hi : i < xs.length) :
    (Policy.failAfter (F := Unit) n "full").FailsAt l xs i "full" :=
  ⟨upTo_accepts (by simp; omega), xs[i], List.getElem?_eq_getElem hi, by simp [Policy.failAfter, Policy.answer]; omega⟩

end Case

/-! ## Differences -/

/-- Bytes encoded by their difference to another byte. -/
noncomputable def differenceEncodable : RelativeEncodable UInt8 UInt8 := ⟨fun r => byteEncode (· - r)⟩

noncomputable def differenceDecodable : RelativeDecodable UInt8 UInt8 Empty := ⟨fun r => byteDecode fun b => .ok (b + r)⟩

def differenceGrammar (r : UInt8) : Grammar UInt8 Empty := byteGrammar fun b => .ok (b + r)

theorem difference_encodes (r : UInt8) : EncodesLaw (differenceEncodable.relativeEncode r) (fun x => [x - r]) := byte_encodes _

theorem difference_decodes (r : UInt8) : DecodesLaw (differenceDecodable.relativeDecode r) (differenceGrammar r) := byte_decodes _

theorem difference_encoding (r x : UInt8) : (differenceGrammar r).Encoding [x - r] x := byteGrammar_encoding (by simp)

end Verif
