import Verif.Props.Proptest

/-!
# C53: what the assertion functions of `ufotofu_codec::proptest` detect

The full statement would be: if no input makes `fuzz_absolute_basic` panic, then the type obeys the contracts of `Encodable` and
`Decodable`, that is, `∃ enc g, BasicContract (fun _ => True) encode decode enc g`. This is false in two ways
(`fuzz_blind_to_consumer`, `fuzz_blind_to_overreading`). What does follow is `fuzz_basic_detects_partial`; it makes no assumption
about the methods of the type.
-/

namespace Verif

open Outcome Proptest

section

variable {T R RC : Type} [BEq T] [BEq R]

/-- Decoding gave the same result: equal values or equal errors. -/
def SameResult : Except (DecodeError Unit Unit R) T → Except (DecodeError Unit Unit R) T → Prop
  | .ok x, .ok y => x == y
  | .error (.unexpectedEndOfInput _), .error (.unexpectedEndOfInput _) => True
  | .error (.producer _), .error (.producer _) => True
  | .error (.other a), .error (.other b) => a == b
  | _, _ => False

omit [BEq T] [BEq R] in
theorem encodingDoesNotCare_inv {encode : EncodeFn T} {t : T} {c₁ c₂ : Sink} (h : encodingDoesNotCare encode t c₁ c₂ = ok ()) :
    ∃ s₁ r₁ s₂ r₂ l₁ l₂, encode sink c₁ t = ok (s₁, r₁) ∧ encode sink c₂ t = ok (s₂, r₂) ∧ s₁.inner.consumed = ok l₁ ∧
      s₂.inner.consumed = ok l₂ ∧ (l₁ <+: l₂ ∨ l₂ <+: l₁) := by
  simp only [encodingDoesNotCare, bind_eq, pure_eq, bind_eq_ok] at h
  obtain ⟨⟨s₁, r₁⟩, h₁, ⟨s₂, r₂⟩, h₂, l₁, h₃, l₂, h₄, p₁, h₅, p₂, h₆, h⟩ := h
  refine ⟨s₁, r₁, s₂, r₂, l₁, l₂, h₁, h₂, h₃, h₄, ?_⟩
  rw [slice_of_le (Nat.zero_le _) (Nat.min_le_left _ _)] at h₅
  rw [slice_of_le (Nat.zero_le _) (Nat.min_le_right _ _)] at h₆
  cases h₅
  cases h₆
  split at h
  · rename_i he
    simp only [List.drop_zero] at he
    by_cases hl : l₁.length ≤ l₂.length
    · rw [Nat.min_eq_left hl, List.take_length] at he
      exact .inl (he ▸ List.take_prefix _ _)
    · rw [Nat.min_eq_right (by omega), List.take_length] at he
      exact .inr (he ▸ List.take_prefix _ _)
  · cases h

omit [BEq R] in
theorem prefixFree_inv {encode : EncodeFn T} {t₁ t₂ : T} {b₁ b₂ : List UInt8} (h : prefixFree encode t₁ t₂ = ok ())
    (h₁ : intoVecWith (fun C s => encode C s t₁) = ok b₁) (h₂ : intoVecWith (fun C s => encode C s t₂) = ok b₂)
    (hp : b₁ <+: b₂) : t₁ == t₂ := by
  cases he : t₁ == t₂ with
  | true => rfl
  | false => simp [prefixFree, bne, he, h₁, h₂, hp] at h

theorem decodingDoesNotCare_inv {decode : DecodeFn T R} {bytes : List UInt8} {z₁ z₂ : List NonZero} {p₁ p₂ : List Bool}
    (h : decodingDoesNotCare decode bytes z₁ z₂ p₁ p₂ = ok ()) : ∃ s₁ r₁ s₂ r₂,
      decode source (Source.build bytes z₁ p₁) = ok (s₁, r₁) ∧ decode source (Source.build bytes z₂ p₂) = ok (s₂, r₂) ∧
      SameResult r₁ r₂ := by
  simp only [decodingDoesNotCare, bind_eq, pure_eq, bind_eq_ok] at h
  obtain ⟨⟨s₁, r₁⟩, h₁, ⟨s₂, r₂⟩, h₂, h⟩ := h
  refine ⟨s₁, r₁, s₂, r₂, h₁, h₂, ?_⟩
  rcases r₁ with e₁ | x₁ <;> rcases r₂ with e₂ | x₂
  · rcases e₁ with _ | _ | a <;> rcases e₂ with _ | _ | b <;> simp_all [sameError, SameResult]
  · cases h
  · cases h
  · simp only [bne] at h
    cases he : x₁ == x₂ with
    | true => simpa [SameResult] using he
    | false => simp [he] at h

omit [BEq T] [BEq R] in
theorem readsNoExcessiveBytes_inv {decode : DecodeFn T R} {bytes bs : List UInt8} {p : FromSlice UInt8} {x : T}
    (h : readsNoExcessiveBytes decode bytes = ok ()) (h₁ : decode publicFromSlice (FromSlice.new bytes) = ok (p, .ok x))
    (h₂ : p.producedSoFar = ok bs) (h₃ : 1 < bs.length) : ∃ p',
      decode publicFromSlice (FromSlice.new (bs.take (bs.length - 1))) = ok (p', .error (.unexpectedEndOfInput ())) := by
  simp only [readsNoExcessiveBytes, bind_eq, h₁, bind_ok, h₂] at h
  rw [if_pos h₃, slice_of_le (Nat.zero_le _) (by omega)] at h
  simp only [List.drop_zero, bind_ok, bind_eq_ok] at h
  obtain ⟨⟨p', r⟩, h₄, h⟩ := h
  rcases r with (_ | _ | _) | _
  · exact ⟨p', h₄⟩
  all_goals cases h

/-- **C53.** If no input makes the basic assertions panic, then
* values can be encoded into vectors,
* the encoding of a value is a prefix of the encoding of another only if the values are equal,
* decoding the encoding of a value yields an equal value,
* the result of decoding does not depend on how many items a `TestProducer` exposes at a time, nor on when it yields,
* if decoding has read at least two bytes, then the last of these was required,
* the bytes written to two `TestConsumer`s do not contradict each other. -/
theorem fuzz_basic_detects_partial [Inhabited T] {encode : EncodeFn T} {decode : DecodeFn T R}
    (h : ∀ data, basicOf encode decode data = ok ()) : ∃ enc : T → List UInt8,
    (∀ t, intoVecWith (fun C s => encode C s t) = ok (enc t)) ∧
    (∀ t₁ t₂, enc t₁ <+: enc t₂ → t₁ == t₂) ∧
    (∀ t, ∃ y, Decodable.decodeFromSlice ⟨decode⟩ (enc t) = ok (.ok y) ∧ t == y) ∧
    (∀ bytes z₁ z₂ p₁ p₂, ∃ s₁ r₁ s₂ r₂, decode source (Source.build bytes z₁ p₁) = ok (s₁, r₁) ∧
      decode source (Source.build bytes z₂ p₂) = ok (s₂, r₂) ∧ SameResult r₁ r₂) ∧
    (∀ bytes p x bs, decode publicFromSlice (FromSlice.new bytes) = ok (p, .ok x) → p.producedSoFar = ok bs → 1 < bs.length →
      ∃ p', decode publicFromSlice (FromSlice.new (bs.take (bs.length - 1))) = ok (p', .error (.unexpectedEndOfInput ()))) ∧
    (∀ t n₁ z₁ p₁ n₂ z₂ p₂, ∃ s₁ r₁ s₂ r₂ l₁ l₂, encode sink (Sink.arbitrary n₁ z₁ p₁) t = ok (s₁, r₁) ∧
      encode sink (Sink.arbitrary n₂ z₂ p₂) t = ok (s₂, r₂) ∧ s₁.inner.consumed = ok l₁ ∧ s₂.inner.consumed = ok l₂ ∧
      (l₁ <+: l₂ ∨ l₂ <+: l₁)) := by
  have key : ∀ data : Data T,
      encodingDoesNotCare encode data.t1 (Sink.arbitrary data.untilError1 data.slotSizes1 data.slotPattern1)
        (Sink.arbitrary data.untilError2 data.slotSizes2 data.slotPattern2) = ok () ∧
      prefixFree encode data.t1 data.t2 = ok () ∧
      decodingDoesNotCare decode data.bytes1 data.itemSizes1 data.itemSizes2 data.itemPattern1 data.itemPattern2 = ok () ∧
      readsNoExcessiveBytes decode data.bytes1 = ok () ∧ yieldsTheOriginal encode decode data.t1 = ok () := by
    intro data
    have := h data
    simp only [basicOf, basicInvariants, bind_eq, bind_eq_ok] at this
    obtain ⟨_, h1, _, _, _, h3, _, h4, _, h5, h6⟩ := this
    exact ⟨h1, h3, h4, h5, h6⟩
  have horig : ∀ t, ∃ b, intoVecWith (fun C s => encode C s t) = ok b ∧
      ∃ y, Decodable.decodeFromSlice ⟨decode⟩ b = ok (.ok y) ∧ t == y := by
    intro t
    have := (key ⟨t, t, 0, [], [], 0, [], [], [], [], [], [], [], []⟩).2.2.2.2
    simp only [yieldsTheOriginal, bind_eq, bind_eq_ok] at this
    obtain ⟨b, h1, r, h2, h3⟩ := this
    refine ⟨b, h1, ?_⟩
    rcases r with e | y
    · cases h3
    · refine ⟨y, h2, ?_⟩
      cases he : t == y with
      | true => rfl
      | false => simp [bne, he] at h3
  refine ⟨fun t => (horig t).choose, fun t => (horig t).choose_spec.1, fun t₁ t₂ hp => ?_, fun t => (horig t).choose_spec.2,
    fun bytes z₁ z₂ p₁ p₂ => ?_, fun bytes p x bs h₁ h₂ h₃ => ?_, fun t n₁ z₁ p₁ n₂ z₂ p₂ => ?_⟩
  · exact prefixFree_inv (key ⟨t₁, t₂, 0, [], [], 0, [], [], [], [], [], [], [], []⟩).2.1 (horig t₁).choose_spec.1
      (horig t₂).choose_spec.1 hp
  · exact decodingDoesNotCare_inv (key ⟨default, default, 0, [], [], 0, [], [], bytes, [], z₁, z₂, p₁, p₂⟩).2.2.1
  · exact readsNoExcessiveBytes_inv (key ⟨default, default, 0, [], [], 0, [], [], bytes, [], [], [], [], []⟩).2.2.2.1 h₁ h₂ h₃
  · exact encodingDoesNotCare_inv (key ⟨t, t, n₁, z₁, p₁, n₂, z₂, p₂, [], [], [], [], [], []⟩).1

example (t₁ t₂ : UInt16) (h : u16.toBytes .big t₁ <+: u16.toBytes .big t₂) : t₁ = t₂ := by
  obtain ⟨enc, h1, h2, _⟩ := fuzz_basic_detects_partial (encode := u16.encode .big) (decode := u16.decode .big)
    (fun data => basic_silent (FixedInt.basicContract u16_faithful .big) data trivial trivial)
  have e : ∀ t, enc t = u16.toBytes .big t := fun t => by
    have := h1 t
    rw [intoVecWith_spec (u16.encodesLaw .big)] at this
    exact (Outcome.ok.inj this).symm
  exact eq_of_beq (h2 t₁ t₂ (by simpa [e] using h))

omit [BEq R] in
/-- **C53.** If no input makes the assertions about canonic decoding panic, then what was canonically decoded from some bytes is
encoded as these bytes, decodes to the same value with `decode`, and is not canonically decoded from other bytes. -/
theorem fuzz_canonic_detects {encode : EncodeFn T} {decode : DecodeFn T R} {decodeCanonic : DecodeFn T RC}
    (h : ∀ bytes₁ bytes₂, canonicInvariants encode decode decodeCanonic bytes₁ bytes₂ = ok ()) {bytes₁ : List UInt8}
    {p₁ : FromSlice UInt8} {t₁ : T} (h₁ : decodeCanonic publicFromSlice (FromSlice.new bytes₁) = ok (p₁, .ok t₁)) :
    (∃ b₁, p₁.producedSoFar = ok b₁ ∧ intoVecWith (fun C s => encode C s t₁) = ok b₁) ∧
    (∃ y, Decodable.decodeFromSlice ⟨decode⟩ bytes₁ = ok (.ok y) ∧ t₁ == y) ∧
    (∀ bytes₂ p₂ t₂, decodeCanonic publicFromSlice (FromSlice.new bytes₂) = ok (p₂, .ok t₂) → t₁ == t₂ →
      p₁.producedSoFar = p₂.producedSoFar) := by
  have key : ∀ bytes₂, canonicDistinct decodeCanonic bytes₁ bytes₂ = ok () ∧
      canonicSpecialises decode decodeCanonic bytes₁ = ok () ∧ canonicRoundtrips encode decodeCanonic bytes₁ = ok () := by
    intro bytes₂
    have := h bytes₁ bytes₂
    simp only [canonicInvariants, bind_eq, bind_eq_ok] at this
    obtain ⟨_, h1, _, h2, h3⟩ := this
    exact ⟨h1, h2, h3⟩
  refine ⟨?_, ?_, ?_⟩
  · have := (key []).2.2
    simp only [canonicRoundtrips, bind_eq, h₁, bind_ok, bind_eq_ok] at this
    obtain ⟨b, hb, b', hb', h⟩ := this
    split at h
    · cases h
    · rename_i he
      have he : b' = b := by simpa using he
      exact ⟨b, he ▸ hb', hb⟩
  · have := (key []).2.1
    simp only [canonicSpecialises, bind_eq, bind_eq_ok] at this
    obtain ⟨r, hr, h⟩ := this
    simp only [Decodable.decodeFromSlice, bind_eq, h₁, bind_ok, pure_eq] at hr
    cases hr
    simp only [bind_eq_ok] at h
    obtain ⟨r, hr, h⟩ := h
    rcases r with e | y
    · cases h
    · refine ⟨y, hr, ?_⟩
      cases he : t₁ == y with
      | true => rfl
      | false => simp [bne, he] at h
  · intro bytes₂ p₂ t₂ h₂ ht
    have := (key bytes₂).1
    simp only [canonicDistinct, bind_eq, h₁, h₂, bind_ok, bind_eq_ok] at this
    obtain ⟨b₁, q₁, b₂, q₂, h⟩ := this
    by_cases hb : b₁ = b₂
    · rw [q₁, q₂, hb]
    · simp [hb, ht] at h

/-- What it says about the truth values; the second byte is not read. -/
example {p : FromSlice UInt8} (h : Case.flagDecodable.decodeCanonic publicFromSlice (FromSlice.new [1, 9]) = ok (p, .ok true)) :
    p.producedSoFar = ok [1] := by
  obtain ⟨⟨b, h1, h2⟩, _⟩ := fuzz_canonic_detects (canonic_silent Case.flag_encodes Case.flag_decodes Case.flag_canonic) h
  rw [h1, Outcome.ok.inj (h2.symm.trans (intoVecWith_spec Case.flag_encodes true))]
  rfl

/-- And there is such a `p`. -/
example : ∃ p, Case.flagDecodable.decodeCanonic publicFromSlice (FromSlice.new [1, 9]) = ok (p, .ok true) := by
  obtain ⟨p, h, _⟩ := Case.flag_decodes_canonic.value (from_slice_noop_plays [1, 9])
    (Script.StartsWith.left (ys := [9]) (Script.ofList_startsWith [1, 9] _)) (Case.flag_encoding_canonic true)
  exact ⟨p, h⟩

omit [BEq T] [BEq R] in
/-- **C53.** The assertion about the announced length panics unless this is the length of the encoding. -/
theorem fuzz_known_size_detects {encode : EncodeFn T} {len : T → Nat} {t : T} (h : knownSizeInvariants encode len t = ok ()) :
    ∃ b, intoVecWith (fun C s => encode C s t) = ok b ∧ b.length = len t := by
  simp only [knownSizeInvariants, bind_eq, bind_eq_ok] at h
  obtain ⟨b, hb, h⟩ := h
  refine ⟨b, hb, ?_⟩
  split at h
  · cases h
  · rename_i he; simpa using he

example : ∃ b, intoVecWith (fun C s => Case.flagEncodable.encode C s true) = ok b ∧ b.length = 1 :=
  fuzz_known_size_detects (len := fun _ => 1) (known_size_silent Case.flag_encodes rfl)

end

/-! ## The fuzz macros: none of the assertions is left out -/

section

variable {T R RC Rel : Type} [BEq T] [BEq R]

theorem unit_bind_ok (x : Outcome Unit) (y : Outcome Unit) : (x.bind fun _ => y) = ok () ↔ x = ok () ∧ y = ok () := by
  cases x <;> simp [Outcome.bind]

/-- **C53.** A run of a fuzz target for absolute codecs is silent only if each of the assertions that belong to it is. -/
theorem fuzz_absolute_targets (t : EncodableKnownSize T) (d : DecodableCanonic T R RC) (data : Data T) :
    (fuzzAbsoluteBasic t.toEncodable d.toDecodable data = ok () ↔ basicOf t.encode d.decode data = ok ()) ∧
    (fuzzAbsoluteKnownSize t d.toDecodable data = ok () ↔ basicOf t.encode d.decode data = ok () ∧
      knownSizeInvariants t.encode t.lenOfEncoding data.t1 = ok ()) ∧
    (fuzzAbsoluteCanonic t.toEncodable d data = ok () ↔ basicOf t.encode d.decode data = ok () ∧
      canonicInvariants t.encode d.decode d.decodeCanonic data.bytes1 data.bytes2 = ok ()) ∧
    (fuzzAbsoluteAll t d data = ok () ↔ basicOf t.encode d.decode data = ok () ∧
      knownSizeInvariants t.encode t.lenOfEncoding data.t1 = ok () ∧
      canonicInvariants t.encode d.decode d.decodeCanonic data.bytes1 data.bytes2 = ok ()) := by
  simp [fuzzAbsoluteBasic, fuzzAbsoluteKnownSize, fuzzAbsoluteCanonic, fuzzAbsoluteAll, unit_bind_ok]

/-- **C53.** The same for relative codecs, for the inputs whose values both satisfy the predicate. -/
theorem fuzz_relative_targets (t : RelativeEncodableKnownSize T Rel) (d : RelativeDecodableCanonic T Rel R RC)
    {predicate : T → Rel → Bool} {r : Rel} {data : Data T} (h₁ : predicate data.t1 r) (h₂ : predicate data.t2 r) :
    (fuzzRelativeBasic t.toRelativeEncodable d.toRelativeDecodable predicate r data = ok () ↔
      basicOf (t.relativeEncode r) (d.relativeDecode r) data = ok ()) ∧
    (fuzzRelativeKnownSize t d.toRelativeDecodable predicate r data = ok () ↔
      basicOf (t.relativeEncode r) (d.relativeDecode r) data = ok () ∧
      knownSizeInvariants (t.relativeEncode r) (fun x => t.relativeLenOfEncoding x r) data.t1 = ok ()) ∧
    (fuzzRelativeCanonic t.toRelativeEncodable d predicate r data = ok () ↔
      basicOf (t.relativeEncode r) (d.relativeDecode r) data = ok () ∧
      canonicInvariants (t.relativeEncode r) (d.relativeDecode r) (d.relativeDecodeCanonic r) data.bytes1 data.bytes2 = ok ()) ∧
    (fuzzRelativeAll t d predicate r data = ok () ↔
      basicOf (t.relativeEncode r) (d.relativeDecode r) data = ok () ∧
      knownSizeInvariants (t.relativeEncode r) (fun x => t.relativeLenOfEncoding x r) data.t1 = ok () ∧
      canonicInvariants (t.relativeEncode r) (d.relativeDecode r) (d.relativeDecodeCanonic r) data.bytes1 data.bytes2 = ok ()) := by
  simp [fuzzRelativeBasic, fuzzRelativeKnownSize, fuzzRelativeCanonic, fuzzRelativeAll, h₁, h₂, unit_bind_ok]

/-- A type that announces a wrong length is found out by the target that tests everything. -/
example (data : Data UInt16) : fuzzAbsoluteAll { u16.encodable .big with lenOfEncoding := fun _ => 3 } (u16.decodable .big) data
    ≠ ok () := by
  intro h
  obtain ⟨b, h1, h2⟩ := fuzz_known_size_detects ((fuzz_absolute_targets _ _ _).2.2.2.mp h).2.1
  have h3 := intoVecWith_spec (u16.encodesLaw .big) data.t1
  cases (h1.symm.trans h3)
  simp at h2

end

/-! ## Blind spots -/

/-- An encoder that looks at the number of slots that the consumer exposes. -/
def moodyEncode : EncodeFn Unit := fun C s _ => do
  match ← C.consume s 1 with
  | (s, .error e) => return (s, .error e)
  | (s, .ok ()) =>
    match ← C.exposeSlots s with
    | (s, .error e) => return (s, .error e)
    | (s, .ok slots) => if slots.length ≤ 1 then return (s, .ok ()) else C.consume s 2

/-- A decoder that reads two bytes. -/
noncomputable def pairDecode : DecodeFn Unit Empty := fun P s => do
  match ← u16.decode .big P s with
  | (s, .error e) => return (s, .error e)
  | (s, .ok _) => return (s, .ok ())

def pairGrammar : Grammar Unit Empty := fun bs => if bs.length < 2 then .more else .done ()

theorem take_of_prefix {α : Type} {l m : List α} {k : Nat} (h : l <+: m) (hk : k ≤ l.length) : l.take k = m.take k := by
  obtain ⟨r, rfl⟩ := h
  rw [List.take_append_of_le_length hk]

theorem moody_outputs {σ F E : Type} {C : BulkConsumer σ UInt8 F E} {D : σ → List UInt8 → Option F → Prop} {q : Policy UInt8 F E}
    {s : σ} (h : BulkCollects C D q s []) : ∃ s' r l, moodyEncode C s () = ok (s', r) ∧ D s' l none ∧ l <+: [1, 2] := by
  obtain ⟨Q, hQ, sl, hs⟩ := h
  have hobs : ∀ {s l}, (∃ sl, Q s l sl) → D s l none := fun h => hQ.base.toCollectsLaw.observe _ _ h
  cases h1 : q.answer [] 1 with
  | some e =>
    obtain ⟨s1, h2, h3⟩ := hQ.base.toCollectsLaw.consume_err s [] 1 e ⟨sl, hs⟩ h1
    exact ⟨s1, .error e, [], by simp [moodyEncode, h2], h3, List.nil_prefix⟩
  | none =>
    obtain ⟨s1, h2, sl1, h3⟩ := hQ.base.toCollectsLaw.consume_ok s [] 1 ⟨sl, hs⟩ h1
    cases h4 : q.refuse ([] ++ [1]) with
    | some e =>
      obtain ⟨s2, h5, h6⟩ := hQ.expose_err _ _ _ _ h3 h4
      exact ⟨s2, .error e, [1], by simp [moodyEncode, h2, h5], h6, ⟨[2], rfl⟩⟩
    | none =>
      obtain ⟨s2, sl2, hne, h5, h6⟩ := hQ.expose_ok _ _ _ h3 h4
      by_cases hl : sl2.length ≤ 1
      · exact ⟨s2, .ok (), [1], by simp [moodyEncode, h2, h5, hl], hobs ⟨sl2, h6⟩, ⟨[2], rfl⟩⟩
      · cases h7 : q.answer ([] ++ [1]) 2 with
        | some e =>
          obtain ⟨s3, h8, h9⟩ := hQ.base.toCollectsLaw.consume_err s2 _ 2 e ⟨sl2, h6⟩ h7
          exact ⟨s3, .error e, [1], by simp [moodyEncode, h2, h5, hl, h8], h9, ⟨[2], rfl⟩⟩
        | none =>
          obtain ⟨s3, h8, sl3, h9⟩ := hQ.base.toCollectsLaw.consume_ok s2 _ 2 ⟨sl2, h6⟩ h7
          exact ⟨s3, .ok (), [1, 2], by simp [moodyEncode, h2, h5, hl, h8], hobs ⟨sl3, h9⟩, List.prefix_rfl⟩

theorem pair_decodes : DecodesLaw pairDecode pairGrammar := by
  have h := u16.decodesLaw .big
  have hg : ∀ bs, (u16.grammar .big bs = .more ↔ pairGrammar bs = .more) ∧
      (∀ u, pairGrammar bs = .done u → u16.grammar .big bs = .done (u16.fromBytes .big (bs.take 2))) := by
    intro bs
    by_cases hl : bs.length < 2 <;> simp [FixedInt.grammar, pairGrammar, hl]
  have hr : ∀ bs, pairGrammar.Reaches bs → (u16.grammar .big).Reaches bs := fun bs h k hk => (hg _).1.mpr (h k hk)
  refine ⟨?_, ?_, ?_, ?_⟩
  · rintro σ F E P s c bs x h1 h2 ⟨h3, h4⟩
    obtain ⟨s', h5, h6⟩ := h.value h1 h2 ⟨hr _ h3, (hg _).2 _ h4⟩
    exact ⟨s', by simp [pairDecode, h5], h6⟩
  · rintro σ F E P s c bs r
    exact nomatch r
  · rintro σ F E P s c bs f h1 h2 ⟨h3, h4⟩ h5
    obtain ⟨s', h6⟩ := h.truncated h1 h2 ⟨hr _ h3, (hg _).1.mpr h4⟩ h5
    exact ⟨s', by simp [pairDecode, h6]⟩
  · rintro σ F E P s c bs e h1 h2 ⟨h3, h4⟩ h5
    obtain ⟨s', h6⟩ := h.failed h1 h2 ⟨hr _ h3, (hg _).1.mpr h4⟩ h5
    exact ⟨s', by simp [pairDecode, h6]⟩

theorem pair_uniform : DecodeFn.Uniform pairDecode := by
  intro σ F E P K hK s s' res hs h
  simp only [pairDecode, bind_eq, pure_eq, bind_eq_ok] at h
  obtain ⟨⟨s1, r1⟩, h1, h⟩ := h
  have := u16.uniform .big P K hK s s1 r1 hs h1
  rcases r1 with e | x <;> cases h <;> assumption

/-- The full statement of C53 is false: no input makes the basic assertions panic for `moodyEncode`, `pairDecode`; but the bytes
written by `moodyEncode` depend on the number of slots that the consumer exposes, and it may write bytes that cannot be decoded.
Both consumers are `IntoVec`s and accept everything; the second one has been given one byte before. -/
theorem fuzz_blind_to_consumer :
    (∀ data, basicOf moodyEncode pairDecode data = ok ()) ∧
    (∃ s, moodyEncode publicIntoVec (IntoVec.fromVec []) () = ok (s, .ok ()) ∧ s.intoVec = [1, 2]) ∧
    (∃ s, moodyEncode publicIntoVec (IntoVec.fromVec [9]) () = ok (s, .ok ()) ∧ s.intoVec = [9] ++ [1]) ∧
    Decodable.decodeFromSlice ⟨pairDecode⟩ [1] = ok (.error (.unexpectedEndOfInput ())) ∧
    ¬ ∃ enc, EncodesLaw moodyEncode enc := by
  have hvec : intoVecWith (fun C s => moodyEncode C s ()) = ok [1, 2] := rfl
  refine ⟨fun data => ?_, ⟨_, rfl, rfl⟩, ⟨_, rfl, rfl⟩, ?_, ?_⟩
  · have h1 : encodingDoesNotCare moodyEncode data.t1 (Sink.arbitrary data.untilError1 data.slotSizes1 data.slotPattern1)
        (Sink.arbitrary data.untilError2 data.slotSizes2 data.slotPattern2) = ok () := by
      obtain ⟨s₁, r₁, l₁, e₁, d₁, q₁⟩ := moody_outputs (test_consumer_public_collects (I := UInt8) (F := Unit) false ()
        data.untilError1 data.slotSizes1 (some data.slotPattern1))
      obtain ⟨s₂, r₂, l₂, e₂, d₂, q₂⟩ := moody_outputs (test_consumer_public_collects (I := UInt8) (F := Unit) false ()
        data.untilError2 data.slotSizes2 (some data.slotPattern2))
      have d₁ := d₁.1
      have d₂ := d₂.1
      simp only [encodingDoesNotCare, Sink.arbitrary, bind_eq, e₁, e₂, d₁, d₂, bind_ok]
      rw [slice_of_le (Nat.zero_le _) (Nat.min_le_left _ _), slice_of_le (Nat.zero_le _) (Nat.min_le_right _ _)]
      simp only [bind_ok, List.drop_zero]
      rw [take_of_prefix q₁ (Nat.min_le_left _ _), take_of_prefix q₂ (Nat.min_le_right _ _), if_pos rfl]
      rfl
    have h2 : distinctEncodings moodyEncode data.t1 data.t2 = ok () := by simp [distinctEncodings]
    have h3 : prefixFree moodyEncode data.t1 data.t2 = ok () := by simp [prefixFree]
    have h4 : yieldsTheOriginal moodyEncode pairDecode data.t1 = ok () := by
      have h5 := (fromSlice_spec pair_decodes).value [1, 2] () [] ⟨fun k hk => by
        have : k < 2 := hk
        simp [pairGrammar]; omega, rfl⟩
      rw [List.append_nil] at h5
      simp [yieldsTheOriginal, hvec, h5]
    simp [basicOf, basicInvariants, h1, h2, h3, h4, decoding_does_not_care_silent pair_decodes,
      reads_no_excessive_bytes_silent pair_decodes pair_uniform]
  · exact (fromSlice_spec pair_decodes).truncated [1] ⟨fun k hk => by
      have : k < 1 := hk
      simp [pairGrammar]; omega, rfl⟩
  · rintro ⟨enc, he⟩
    obtain ⟨s, h1, h2⟩ := he.accepted () (into_vec_noop_collects ([] : List UInt8)) (by simp)
    cases h1
    have h2 : [1, 2] = [] ++ enc () := h2.observe.2
    obtain ⟨s, h3, h4⟩ := he.accepted () (into_vec_noop_collects ([9] : List UInt8)) (by simp)
    cases h3
    have h4 : [9, 1] = [9] ++ enc () := h4.observe.2
    rw [List.nil_append] at h2
    rw [← h2] at h4
    cases h4

/-- A decoder for `Unit` that reads a byte if there is one. -/
def greedyDecode : DecodeFn Unit Empty := fun P s => do
  match ← P.exposeItems s with
  | (s, .error e) => return (s, .error (.producer e))
  | (s, .ok (.inr _)) => return (s, .ok ())
  | (s, .ok (.inl _)) =>
    match ← P.considerProduced s 1 with
    | (s, .error e) => return (s, .error (.producer e))
    | (s, .ok ()) => return (s, .ok ())

theorem greedy_result {σ F E : Type} {P : BulkProducer σ UInt8 F E} {s : σ} {xs : List UInt8} {f : F}
    (h : BulkPlays P s (Script.ofList xs (.ok f))) : ∃ s', greedyDecode P s = ok (s', .ok ()) := by
  obtain ⟨Q, hQ, n, hs⟩ := h
  obtain ⟨s1, ⟨ys, h1, _, h2, h3⟩ | ⟨f', _, h2⟩ | ⟨e, h1, _⟩⟩ := hQ.expose _ _ _ hs
  · have hl : 0 < ys.length := List.length_pos_iff.mpr h1
    obtain ⟨s2, h4, _⟩ := hQ.consider _ _ _ 1 h3 hl hl
    exact ⟨s2, by simp [greedyDecode, h2, h4]⟩
  · exact ⟨s1, by simp [greedyDecode, h2]⟩
  · cases xs <;> simp [Script.ofList, Except.map] at h1

theorem greedy_from_slice (bytes : List UInt8) : ∃ p bs, greedyDecode publicFromSlice (FromSlice.new bytes) = ok (p, .ok ()) ∧
    p.producedSoFar = ok bs ∧ bs.length ≤ 1 := by
  cases bytes with
  | nil => exact ⟨_, _, rfl, rfl, Nat.zero_le _⟩
  | cons b bytes =>
    have hx : publicFromSlice.exposeItems (FromSlice.new (b :: bytes)) =
        ok (FromSlice.new (b :: bytes), .ok (.inl (b :: bytes))) := by
      show FromSlice.exposeItems _ = _
      simp [FromSlice.exposeItems, FromSlice.new, slice_of_le]
    have hc : publicFromSlice.considerProduced (FromSlice.new (b :: bytes)) 1 = ok (⟨b :: bytes, 1⟩, .ok ()) := rfl
    refine ⟨⟨b :: bytes, 1⟩, [b], by simp [greedyDecode, hx, hc], ?_, Nat.le_refl _⟩
    simp [FromSlice.producedSoFar, FromSlice.offset, slice_of_le]

/-- The full statement of C53 is false: no input makes the basic assertions panic for `unitEncodable`, `greedyDecode`; but the
latter reads a byte beyond the end of the (empty) encoding. So a value that is encoded after a `()` cannot be decoded. -/
theorem fuzz_blind_to_overreading :
    (∀ data, basicOf unitEncodable.encode greedyDecode data = ok ()) ∧
    intoVecWith (fun C s => unitEncodable.encode C s ()) = ok [] ∧
    Decodable.decodeFromSlice ⟨greedyDecode⟩ [] = ok (.ok ()) ∧
    greedyDecode publicFromSlice (FromSlice.new [7]) = ok (⟨[7], 1⟩, .ok ()) ∧
    ¬ ∃ enc g, BasicContract (fun _ => True) unitEncodable.encode greedyDecode enc g := by
  refine ⟨fun data => ?_, rfl, rfl, rfl, ?_⟩
  · have h1 : decodingDoesNotCare greedyDecode data.bytes1 data.itemSizes1 data.itemSizes2 data.itemPattern1 data.itemPattern2
        = ok () := by
      obtain ⟨s₁, e₁⟩ := greedy_result (test_producer_public_plays false data.bytes1 (.ok () : Except Unit Unit) data.itemSizes1
        (some data.itemPattern1))
      obtain ⟨s₂, e₂⟩ := greedy_result (test_producer_public_plays false data.bytes1 (.ok () : Except Unit Unit) data.itemSizes2
        (some data.itemPattern2))
      simp [decodingDoesNotCare, Source.build, e₁, e₂]
    have h2 : readsNoExcessiveBytes greedyDecode data.bytes1 = ok () := by
      obtain ⟨p, bs, e, hp, hl⟩ := greedy_from_slice data.bytes1
      have hl : ¬ bs.length > 1 := by omega
      simp [readsNoExcessiveBytes, e, hp, hl]
    have h3 : distinctEncodings unitEncodable.encode data.t1 data.t2 = ok () := by simp [distinctEncodings]
    have h4 : prefixFree unitEncodable.encode data.t1 data.t2 = ok () := by simp [prefixFree]
    have h5 : yieldsTheOriginal unitEncodable.encode greedyDecode data.t1 = ok () := rfl
    simp [basicOf, basicInvariants, h1, h2, h3, h4, h5, encoding_does_not_care_silent unit_encodes]
  · rintro ⟨enc, g, h⟩
    obtain ⟨s, h1, h2⟩ := h.encodes.accepted () (into_vec_noop_collects ([] : List UInt8)) (by simp)
    cases h1
    have henc : [] = [] ++ enc () := h2.observe.2
    rw [List.nil_append] at henc
    obtain ⟨⟨⟩, h3, _⟩ := h.inverse () trivial
    rw [← henc] at h3
    obtain ⟨s', h4, h5⟩ := h.decodes.value (from_slice_noop_plays [7]) (fun i x hx => by simp at hx) h3
    cases h4
    have h6 := (FromSlice.plays_position h5).2.2
    cases h6

end Verif
