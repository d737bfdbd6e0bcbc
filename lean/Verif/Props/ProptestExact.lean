import Verif.Props.ProptestDetects

/-!
# C53: exactly when the assertion functions of `ufotofu_codec::proptest` are silent

`fuzz_basic_detects_partial` and `fuzz_canonic_detects` say what follows from the silence of the assertions on all inputs. Here are
the conditions that are equivalent to it: they are what fuzzing can establish about a type at best. Nothing is assumed about the
methods of the type, in particular not that they return.
-/

namespace Verif

open Outcome Proptest

section

variable {T R RC : Type} [BEq T] [BEq R]

omit [BEq T] [BEq R] in
theorem encodingDoesNotCare_iff {encode : EncodeFn T} {t : T} {c₁ c₂ : Sink} : encodingDoesNotCare encode t c₁ c₂ = ok () ↔
    ∃ s₁ r₁ s₂ r₂ l₁ l₂, encode sink c₁ t = ok (s₁, r₁) ∧ encode sink c₂ t = ok (s₂, r₂) ∧ s₁.inner.consumed = ok l₁ ∧
      s₂.inner.consumed = ok l₂ ∧ (l₁ <+: l₂ ∨ l₂ <+: l₁) := by
  refine ⟨encodingDoesNotCare_inv, ?_⟩
  rintro ⟨s₁, r₁, s₂, r₂, l₁, l₂, h₁, h₂, h₃, h₄, h⟩
  simp only [encodingDoesNotCare, bind_eq, h₁, h₂, h₃, h₄, bind_ok]
  rw [slice_of_le (Nat.zero_le _) (Nat.min_le_left _ _), slice_of_le (Nat.zero_le _) (Nat.min_le_right _ _)]
  simp only [bind_ok, List.drop_zero]
  rcases h with h | h
  · rw [take_of_prefix h (Nat.min_le_left _ _), if_pos rfl]; rfl
  · rw [take_of_prefix h (Nat.min_le_right _ _), if_pos rfl]; rfl

theorem decodingDoesNotCare_iff {decode : DecodeFn T R} {bytes : List UInt8} {z₁ z₂ : List NonZero} {p₁ p₂ : List Bool} :
    decodingDoesNotCare decode bytes z₁ z₂ p₁ p₂ = ok () ↔ ∃ s₁ r₁ s₂ r₂,
      decode source (Source.build bytes z₁ p₁) = ok (s₁, r₁) ∧ decode source (Source.build bytes z₂ p₂) = ok (s₂, r₂) ∧
      SameResult r₁ r₂ := by
  refine ⟨decodingDoesNotCare_inv, ?_⟩
  rintro ⟨s₁, r₁, s₂, r₂, h₁, h₂, h⟩
  simp only [decodingDoesNotCare, bind_eq, h₁, h₂, bind_ok, pure_eq]
  rcases r₁ with e₁ | x₁ <;> rcases r₂ with e₂ | x₂
  · rcases e₁ with _ | _ | a <;> rcases e₂ with _ | _ | b <;> simp_all [sameError, SameResult]
  · rcases e₁ with _ | _ | a <;> cases h
  · cases h
  · have h : x₁ == x₂ := h
    simp [bne, h]

omit [BEq T] [BEq R] in
theorem readsNoExcessiveBytes_iff {decode : DecodeFn T R} {bytes : List UInt8} : readsNoExcessiveBytes decode bytes = ok () ↔
    ∃ p r, decode publicFromSlice (FromSlice.new bytes) = ok (p, r) ∧ ∀ x, r = .ok x → ∃ bs, p.producedSoFar = ok bs ∧
      (1 < bs.length → ∃ p',
        decode publicFromSlice (FromSlice.new (bs.take (bs.length - 1))) = ok (p', .error (.unexpectedEndOfInput ()))) := by
  constructor
  · intro h
    have h' := h
    simp only [readsNoExcessiveBytes, bind_eq, bind_eq_ok] at h
    obtain ⟨⟨p, r⟩, h₁, h⟩ := h
    refine ⟨p, r, h₁, ?_⟩
    rintro x rfl
    simp only [bind_eq_ok] at h
    obtain ⟨bs, h₂, _⟩ := h
    exact ⟨bs, h₂, fun h₃ => readsNoExcessiveBytes_inv h' h₁ h₂ h₃⟩
  · rintro ⟨p, r, h₁, h⟩
    simp only [readsNoExcessiveBytes, bind_eq, h₁, bind_ok, pure_eq]
    rcases r with e | x
    · rfl
    · obtain ⟨bs, h₂, h₃⟩ := h x rfl
      simp only [h₂, bind_ok]
      split
      · rename_i hl
        obtain ⟨p', h₄⟩ := h₃ hl
        rw [slice_of_le (Nat.zero_le _) (by omega)]
        simp only [bind_ok, List.drop_zero, h₄]
      · rfl

/-- **C53.** Exactly when no input makes the basic assertions panic (or run forever): there are bytes `enc t` for every `t` such that
* `t` is encoded as `enc t` into an `IntoVec`,
* of two values, unless they are equal, neither is encoded as a prefix of the other,
* decoding `enc t` from a slice yields a value equal to `t`,
* decoding from a `TestProducer` of any bytes returns, and the result depends on nothing but the bytes,
* decoding any slice returns; and if it is successful and took more than one byte, then decoding all of these but the last is
  reported to have ended too early,
* encoding into any `TestConsumer` returns, and what two of these have been given of the same value is one a prefix of the other. -/
theorem fuzz_basic_silent_iff [Inhabited T] {encode : EncodeFn T} {decode : DecodeFn T R} :
    (∀ data, basicOf encode decode data = ok ()) ↔ ∃ enc : T → List UInt8,
    (∀ t, intoVecWith (fun C s => encode C s t) = ok (enc t)) ∧
    (∀ t₁ t₂, enc t₁ <+: enc t₂ ∨ enc t₂ <+: enc t₁ → t₁ == t₂) ∧
    (∀ t, ∃ y, Decodable.decodeFromSlice ⟨decode⟩ (enc t) = ok (.ok y) ∧ t == y) ∧
    (∀ bytes z₁ z₂ p₁ p₂, ∃ s₁ r₁ s₂ r₂, decode source (Source.build bytes z₁ p₁) = ok (s₁, r₁) ∧
      decode source (Source.build bytes z₂ p₂) = ok (s₂, r₂) ∧ SameResult r₁ r₂) ∧
    (∀ bytes, ∃ p r, decode publicFromSlice (FromSlice.new bytes) = ok (p, r) ∧ ∀ x, r = .ok x → ∃ bs, p.producedSoFar = ok bs ∧
      (1 < bs.length → ∃ p',
        decode publicFromSlice (FromSlice.new (bs.take (bs.length - 1))) = ok (p', .error (.unexpectedEndOfInput ())))) ∧
    (∀ t n₁ z₁ p₁ n₂ z₂ p₂, ∃ s₁ r₁ s₂ r₂ l₁ l₂, encode sink (Sink.arbitrary n₁ z₁ p₁) t = ok (s₁, r₁) ∧
      encode sink (Sink.arbitrary n₂ z₂ p₂) t = ok (s₂, r₂) ∧ s₁.inner.consumed = ok l₁ ∧ s₂.inner.consumed = ok l₂ ∧
      (l₁ <+: l₂ ∨ l₂ <+: l₁)) := by
  constructor
  · intro h
    obtain ⟨enc, h1, _, h3, h4, _, h6⟩ := fuzz_basic_detects_partial h
    refine ⟨enc, h1, fun t₁ t₂ hp => ?_, h3, h4, fun bytes => ?_, h6⟩
    · have := h ⟨t₁, t₂, 0, [], [], 0, [], [], [], [], [], [], [], []⟩
      simp only [basicOf, basicInvariants, bind_eq, bind_eq_ok] at this
      obtain ⟨_, _, _, _, _, this, _⟩ := this
      cases he : t₁ == t₂ with
      | true => rfl
      | false =>
        exfalso
        simp only [prefixFree, bne, he, Bool.not_false, if_true, bind_eq, h1, bind_ok, List.isPrefixOf_iff_prefix] at this
        split at this
        · cases this
        · rename_i hn
          rcases hp with hp | hp
          · exact hn hp
          · rw [if_pos hp] at this
            cases this
    · have := h ⟨default, default, 0, [], [], 0, [], [], bytes, [], [], [], [], []⟩
      simp only [basicOf, basicInvariants, bind_eq, bind_eq_ok] at this
      obtain ⟨_, _, _, _, _, _, _, _, _, this, _⟩ := this
      exact readsNoExcessiveBytes_iff.mp this
  · rintro ⟨enc, h1, h2, h3, h4, h5, h6⟩ d
    have e1 := encodingDoesNotCare_iff.mpr (h6 d.t1 d.untilError1 d.slotSizes1 d.slotPattern1 d.untilError2 d.slotSizes2 d.slotPattern2)
    have e2 : distinctEncodings encode d.t1 d.t2 = ok () := by
      cases he : d.t1 == d.t2 with
      | true => simp [distinctEncodings, bne, he]
      | false =>
        have : enc d.t1 ≠ enc d.t2 := fun hq => by
          simp [h2 d.t1 d.t2 (.inl (by rw [hq]; exact List.prefix_rfl))] at he
        simp [distinctEncodings, bne, he, h1, this]
    have e3 : prefixFree encode d.t1 d.t2 = ok () := by
      cases he : d.t1 == d.t2 with
      | true => simp [prefixFree, bne, he]
      | false =>
        have q1 : ¬ enc d.t1 <+: enc d.t2 := fun hq => by simp [h2 _ _ (.inl hq)] at he
        have q2 : ¬ enc d.t2 <+: enc d.t1 := fun hq => by simp [h2 _ _ (.inr hq)] at he
        simp [prefixFree, bne, he, h1, q1, q2]
    have e4 := decodingDoesNotCare_iff.mpr (h4 d.bytes1 d.itemSizes1 d.itemSizes2 d.itemPattern1 d.itemPattern2)
    have e5 := readsNoExcessiveBytes_iff.mpr (h5 d.bytes1)
    have e6 : yieldsTheOriginal encode decode d.t1 = ok () := by
      obtain ⟨y, h7, h8⟩ := h3 d.t1
      simp [yieldsTheOriginal, h1, h7, h8, bne]
    simp [basicOf, basicInvariants, e1, e2, e3, e4, e5, e6]

/-- Both sides hold of the big-endian `u16`, and neither holds of a decoder for it that never fails (it does not panic either). -/
example : (∀ data, basicOf (u16.encode .big) (u16.decode .big) data = ok ()) ∧
    ¬ ∀ data, basicOf (u16.encode .big) (fun _ s => ok (s, .ok 0) : DecodeFn UInt16 Empty) data = ok () := by
  refine ⟨fun data => basic_silent (FixedInt.basicContract u16_faithful .big) data trivial trivial, fun h => ?_⟩
  obtain ⟨enc, _, _, h3, _⟩ := fuzz_basic_silent_iff.mp h
  obtain ⟨y, h4, h5⟩ := h3 1
  have : Decodable.decodeFromSlice ⟨(fun _ s => ok (s, .ok 0) : DecodeFn UInt16 Empty)⟩ (enc 1) = ok (.ok 0) := rfl
  rw [this] at h4
  cases h4
  exact absurd h5 (by decide)

omit [BEq R] in
/-- **C53.** Exactly when no input makes the assertions about canonic decoding panic (or run forever): decoding any slice canonically
returns, and whenever it is successful, the value is encoded as the bytes that were taken, it equals what `decode` makes of the
slice, and equal values have been decoded from equal bytes. -/
theorem fuzz_canonic_silent_iff {encode : EncodeFn T} {decode : DecodeFn T R} {decodeCanonic : DecodeFn T RC} :
    (∀ bytes₁ bytes₂, canonicInvariants encode decode decodeCanonic bytes₁ bytes₂ = ok ()) ↔
    ∀ bytes₁, ∃ p₁ r₁, decodeCanonic publicFromSlice (FromSlice.new bytes₁) = ok (p₁, r₁) ∧ ∀ t₁, r₁ = .ok t₁ →
      (∃ b₁, p₁.producedSoFar = ok b₁ ∧ intoVecWith (fun C s => encode C s t₁) = ok b₁) ∧
      (∃ y, Decodable.decodeFromSlice ⟨decode⟩ bytes₁ = ok (.ok y) ∧ t₁ == y) ∧
      (∀ bytes₂ p₂ t₂, decodeCanonic publicFromSlice (FromSlice.new bytes₂) = ok (p₂, .ok t₂) → t₁ == t₂ →
        p₁.producedSoFar = p₂.producedSoFar) := by
  constructor
  · intro h bytes₁
    have := h bytes₁ []
    simp only [canonicInvariants, canonicDistinct, bind_eq, bind_eq_ok] at this
    obtain ⟨_, ⟨⟨p₁, r₁⟩, h₁, _⟩, _⟩ := this
    refine ⟨p₁, r₁, h₁, ?_⟩
    rintro t₁ rfl
    exact fuzz_canonic_detects h h₁
  · intro h bytes₁ bytes₂
    obtain ⟨p₁, r₁, h₁, g₁⟩ := h bytes₁
    obtain ⟨p₂, r₂, h₂, g₂⟩ := h bytes₂
    have e1 : canonicDistinct decodeCanonic bytes₁ bytes₂ = ok () := by
      simp only [canonicDistinct, bind_eq, h₁, h₂, bind_ok, pure_eq]
      rcases r₁ with _ | t₁
      · rfl
      rcases r₂ with _ | t₂
      · rfl
      obtain ⟨⟨b₁, q₁, _⟩, _, g⟩ := g₁ t₁ rfl
      obtain ⟨⟨b₂, q₂, _⟩, _⟩ := g₂ t₂ rfl
      simp only [q₁, q₂, bind_ok]
      cases he : t₁ == t₂ with
      | false => simp
      | true =>
        have := g bytes₂ p₂ t₂ h₂ he
        rw [q₁, q₂] at this
        simp [Outcome.ok.inj this]
    have e2 : canonicSpecialises decode decodeCanonic bytes₁ = ok () := by
      rcases r₁ with _ | t₁
      · simp [canonicSpecialises, Decodable.decodeFromSlice, h₁]
      obtain ⟨_, ⟨y, q, hy⟩, _⟩ := g₁ t₁ rfl
      have : Decodable.decodeFromSlice ⟨decodeCanonic⟩ bytes₁ = ok (.ok t₁) := by simp [Decodable.decodeFromSlice, h₁]
      simp [canonicSpecialises, this, q, bne, hy]
    have e3 : canonicRoundtrips encode decodeCanonic bytes₁ = ok () := by
      simp only [canonicRoundtrips, bind_eq, h₁, bind_ok, pure_eq]
      rcases r₁ with _ | t₁
      · rfl
      obtain ⟨⟨b₁, q₁, q₂⟩, _⟩ := g₁ t₁ rfl
      simp [q₁, q₂]
    simp [canonicInvariants, e1, e2, e3]

/-- The canonic decoder of the truth values meets the condition. A decoder for `()` that reads a byte, if there is one, does not. -/
example : (∀ bytes₁ bytes₂, canonicInvariants Case.flagEncodable.encode Case.flagDecodable.decode Case.flagDecodable.decodeCanonic
      bytes₁ bytes₂ = ok ()) ∧
    ¬ ∀ bytes₁ bytes₂, canonicInvariants unitEncodable.encode greedyDecode greedyDecode bytes₁ bytes₂ = ok () := by
  refine ⟨canonic_silent Case.flag_encodes Case.flag_decodes Case.flag_canonic, fun h => ?_⟩
  obtain ⟨p, r, h1, h2⟩ := fuzz_canonic_silent_iff.mp h [7]
  cases h1
  obtain ⟨⟨b, h3, h4⟩, _⟩ := h2 () rfl
  cases h4
  cases h3

omit [BEq T] [BEq R] in
/-- **C53.** Exactly when the assertion about the announced length is silent. -/
theorem fuzz_known_size_silent_iff {encode : EncodeFn T} {len : T → Nat} {t : T} : knownSizeInvariants encode len t = ok () ↔
    ∃ b, intoVecWith (fun C s => encode C s t) = ok b ∧ b.length = len t := by
  refine ⟨fuzz_known_size_detects, ?_⟩
  rintro ⟨b, h1, h2⟩
  simp [knownSizeInvariants, h1, h2]

example : knownSizeInvariants (u16.encode .big) (fun _ => 2) 7 = ok () ∧
    ¬ knownSizeInvariants (u16.encode .big) (fun _ => 3) 7 = ok () := by
  have h := intoVecWith_spec (u16.encodesLaw .big) 7
  refine ⟨fuzz_known_size_silent_iff.mpr ⟨_, h, by simp⟩, fun hk => ?_⟩
  obtain ⟨b, h1, h2⟩ := fuzz_known_size_silent_iff.mp hk
  cases h.symm.trans h1
  simp at h2

end

end Verif
