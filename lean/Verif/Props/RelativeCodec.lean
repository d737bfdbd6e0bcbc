import Verif.Props.Codec

/-!
# C42: relative encoders and decoders
-/

namespace Verif

open Outcome

section

variable {σ T R RC Rel B F E : Type}

/-! ## Without changes of the relative-to value: lawful consumers and producers -/

/-- A `RelativeEncoder` is a lawful consumer that encodes relative to its current value. (So this applies again after every
`set_relative_to`.) -/
theorem relative_encoder_collects {t : RelativeEncodable T Rel} {borrow : B → Rel} {enc : Rel → T → List UInt8}
    (he : ∀ r, EncodesLaw (t.relativeEncode r) (enc r)) {C : BulkConsumer σ UInt8 F E} {D : σ → List UInt8 → Option F → Prop}
    {q : Policy UInt8 F E} {s : RelativeSt σ B} {l : List UInt8} (h : BulkCollects C D q s.inner l) :
    BufCollects (relativeEncoder t borrow C) (fun s' => Encoded D (enc (borrow s.relativeTo)) l s'.inner)
      (q.encoding (enc (borrow s.relativeTo)) l) s [] := by
  obtain ⟨b, hb⟩ : ∃ b, s.relativeTo = b := ⟨_, rfl⟩
  rw [hb]
  have L := encoder_law (he (borrow b)) C D q l
  refine ⟨fun s' xs => s'.relativeTo = b ∧ BulkCollects C D q s'.inner (l ++ encodeAll (enc (borrow b)) xs),
    ⟨⟨?_, ?_, ?_, ?_, ?_⟩, ?_⟩, hb, by simpa [encodeAll] using h⟩
  · rintro s xs ⟨_, h⟩
    exact L.observe _ _ h
  · rintro s xs x ⟨rfl, h⟩ ha
    obtain ⟨s', h1, h2⟩ := L.consume_ok _ _ x h ha
    exact ⟨{ s with inner := s' }, by simp only [relativeEncoder] at h1 ⊢; rw [h1]; rfl, rfl, h2⟩
  · rintro s xs x e ⟨rfl, h⟩ ha
    obtain ⟨s', h1, h2⟩ := L.consume_err _ _ x e h ha
    exact ⟨{ s with inner := s' }, by simp only [relativeEncoder] at h1 ⊢; rw [h1]; rfl, h2⟩
  · rintro s xs f ⟨rfl, h⟩ ha
    obtain ⟨s', h1, h2⟩ := L.close_ok _ _ f h ha
    exact ⟨{ s with inner := s' }, by simp only [relativeEncoder] at h1 ⊢; rw [h1]; rfl, h2⟩
  · rintro s xs f e ⟨rfl, h⟩ ha
    obtain ⟨s', h1, h2⟩ := L.close_err _ _ f e h ha
    exact ⟨{ s with inner := s' }, by simp only [relativeEncoder] at h1 ⊢; rw [h1]; rfl, h2⟩
  · rintro s xs ⟨rfl, h⟩
    obtain ⟨s', ⟨h1, h2⟩ | ⟨e, h0, h1, h2⟩⟩ := L.flush _ _ h
    · exact ⟨{ s with inner := s' }, .inl ⟨by simp only [relativeEncoder] at h1 ⊢; rw [h1]; rfl, rfl, h2⟩⟩
    · exact ⟨{ s with inner := s' }, .inr ⟨e, h0, by simp only [relativeEncoder] at h1 ⊢; rw [h1]; rfl, h2⟩⟩

example : BufCollects (relativeEncoder differenceEncodable id Case.sink)
    (fun s => Encoded TestConsumer.Seen (fun x => [x - 10]) [] s.inner)
    ((Policy.failAfter 3 "full").encoding (fun x => [x - 10]) []) ⟨Case.upTo 3, 10⟩ [] :=
  relative_encoder_collects (borrow := id) (s := ⟨Case.upTo 3, (10 : UInt8)⟩) difference_encodes (Case.upTo_collects 3)

/-- Common part of the two relative decoders. -/
theorem relativeDecoder_law {decode : Rel → DecodeFn T R} {g : Rel → Grammar T R} (hd : ∀ r, DecodesLaw (decode r) (g r))
    (hg : ∀ r, g r [] = .more) (borrow : B → Rel) (P : BulkProducer σ UInt8 F E) (b : B) :
    BufPlaysLaw (relativeDecoder ⟨decode⟩ borrow P) (fun s c' => s.relativeTo = b ∧
      ∃ c used, BulkPlays P s.inner c ∧ Decodes (g (borrow b)) c c' used) := by
  have L := decoder_law (hd (borrow b)) (hg _) P
  refine ⟨⟨?_⟩, ?_⟩
  · rintro s c' ⟨rfl, h⟩
    obtain ⟨s', h1, h2⟩ := L.produce _ _ h
    exact ⟨{ s with inner := s' }, by simp only [relativeDecoder] at h1 ⊢; rw [h1]; rfl, fun x hx => ⟨rfl, h2 x hx⟩⟩
  · rintro s c' ⟨rfl, h⟩
    obtain ⟨s', ⟨h1, h2⟩ | ⟨e, h0, h1⟩⟩ := L.slurp _ _ h
    · exact ⟨{ s with inner := s' }, .inl ⟨by simp only [relativeDecoder] at h1 ⊢; rw [h1]; rfl, rfl, h2⟩⟩
    · exact ⟨{ s with inner := s' }, .inr ⟨e, h0, by simp only [relativeDecoder] at h1 ⊢; rw [h1]; rfl⟩⟩

/-- A `RelativeDecoder` is a lawful producer that decodes relative to its current value. -/
theorem relative_decoder_plays {t : RelativeDecodable T Rel R} {borrow : B → Rel} {g : Rel → Grammar T R}
    (hd : ∀ r, DecodesLaw (t.relativeDecode r) (g r)) (hg : ∀ r, g r [] = .more) {P : BulkProducer σ UInt8 F E}
    {s : RelativeSt σ B} {c : Script UInt8 F E} (h : BulkPlays P s.inner c) {c' : Script T F (DecodeError F E R)}
    {used : Nat → Nat} (hc : Decodes (g (borrow s.relativeTo)) c c' used) : BufPlays (relativeDecoder t borrow P) s c' :=
  ⟨_, relativeDecoder_law hd hg borrow P s.relativeTo, rfl, c, used, h, hc⟩

/-- The bytes 1 and 249, relative to 10. -/
theorem Case.difference_decodes_all (f : Nat) : Decodes (E := String) (differenceGrammar 10) (Script.ofList [1, 249] (.ok f))
    (Script.ofList [11, 3] (.ok f)) (fun n => (encodeAll (fun x => [x - 10]) (([11, 3] : List UInt8).take n)).length) :=
  decodes_encodeAll (difference_encoding 10) (Script.ofList_startsWith (encodeAll (fun x => [x - 10]) ([11, 3] : List UInt8)) (.ok f))
    (.final rfl)

example : BufPlays (relativeDecoder differenceDecodable id Case.bytes) ⟨Case.from_ [1, 249] (.ok 5), 10⟩
    (Script.ofList [11, 3] (.ok 5)) :=
  relative_decoder_plays (borrow := id) difference_decodes (fun _ => rfl) (Case.from_plays _ _) (Case.difference_decodes_all 5)

theorem relative_canonic_decoder_plays {t : RelativeDecodableCanonic T Rel R RC} {borrow : B → Rel} {g : Rel → Grammar T RC}
    (hd : ∀ r, DecodesLaw (t.relativeDecodeCanonic r) (g r)) (hg : ∀ r, g r [] = .more) {P : BulkProducer σ UInt8 F E}
    {s : RelativeSt σ B} {c : Script UInt8 F E} (h : BulkPlays P s.inner c) {c' : Script T F (DecodeError F E RC)}
    {used : Nat → Nat} (hc : Decodes (g (borrow s.relativeTo)) c c' used) :
    BufPlays (relativeCanonicDecoder t borrow P) s c' :=
  ⟨_, relativeDecoder_law hd hg borrow P s.relativeTo, rfl, c, used, h, hc⟩

example : BufPlays (relativeCanonicDecoder ⟨differenceDecodable, id, differenceDecodable.relativeDecode⟩ id Case.bytes)
    ⟨Case.from_ [1, 249] (.ok 5), 10⟩ (Script.ofList [11, 3] (.ok 5)) :=
  relative_canonic_decoder_plays (t := ⟨differenceDecodable, id, differenceDecodable.relativeDecode⟩) (borrow := id)
    difference_decodes (fun _ => rfl) (Case.from_plays _ _) (Case.difference_decodes_all 5)

/-! ## With changes of the relative-to value -/

/-- What happens to a relative encoder or decoder: the relative-to value changes, or a value is encoded or decoded. -/
inductive RelativeOp (B T : Type) where
  | setRelativeTo (b : B)
  | value (x : T)
  deriving DecidableEq, Repr

/-- The operations are carried out one after the other; each `consume` succeeds. -/
inductive RelativeConsumes (C : Consumer (RelativeSt σ B) T F E) : RelativeSt σ B → List (RelativeOp B T) → RelativeSt σ B → Prop
  where
  | nil (s) : RelativeConsumes C s [] s
  | set {s s' b ops} : RelativeConsumes C (s.setRelativeTo b) ops s' → RelativeConsumes C s (.setRelativeTo b :: ops) s'
  | value {s s₁ s' x ops} : C.consume s x = ok (s₁, .ok ()) → RelativeConsumes C s₁ ops s' →
      RelativeConsumes C s (.value x :: ops) s'

/-- The operations are carried out one after the other; each `produce` yields the corresponding value. -/
inductive RelativeEmits (P : Producer (RelativeSt σ B) T F E) : RelativeSt σ B → List (RelativeOp B T) → RelativeSt σ B → Prop
  where
  | nil (s) : RelativeEmits P s [] s
  | set {s s' b ops} : RelativeEmits P (s.setRelativeTo b) ops s' → RelativeEmits P s (.setRelativeTo b :: ops) s'
  | value {s s₁ s' x ops} : P.produce s = ok (s₁, .ok (.inl x)) → RelativeEmits P s₁ ops s' →
      RelativeEmits P s (.value x :: ops) s'

/-- The bytes of the values, each relative to the value that is set at the time; `b` is set initially. -/
def relativeBytes (enc : Rel → T → List UInt8) (borrow : B → Rel) : B → List (RelativeOp B T) → List UInt8
  | _, [] => []
  | _, .setRelativeTo b :: ops => relativeBytes enc borrow b ops
  | b, .value x :: ops => enc (borrow b) x ++ relativeBytes enc borrow b ops

/-- The value that is set in the end. -/
def lastRelativeTo : B → List (RelativeOp B T) → B
  | b, [] => b
  | _, .setRelativeTo b :: ops => lastRelativeTo b ops
  | b, .value _ :: ops => lastRelativeTo b ops

theorem relative_encoder_consumes {t : RelativeEncodable T Rel} {borrow : B → Rel} {enc : Rel → T → List UInt8}
    (he : ∀ r, EncodesLaw (t.relativeEncode r) (enc r)) {C : BulkConsumer σ UInt8 F E} {D : σ → List UInt8 → Option F → Prop}
    {q : Policy UInt8 F E} {ops : List (RelativeOp B T)} {s : σ} {b : B} {l : List UInt8} (h : BulkCollects C D q s l)
    (ha : q.Accepts l (relativeBytes enc borrow b ops)) :
    ∃ s', RelativeConsumes (relativeEncoder t borrow C).toConsumer ⟨s, b⟩ ops ⟨s', lastRelativeTo b ops⟩ ∧
      BulkCollects C D q s' (l ++ relativeBytes enc borrow b ops) := by
  induction ops generalizing s b l with
  | nil => exact ⟨s, .nil _, by simpa [relativeBytes] using h⟩
  | cons op ops ih =>
    cases op with
    | setRelativeTo b' =>
      obtain ⟨s', h1, h2⟩ := ih h ha
      exact ⟨s', .set h1, h2⟩
    | value x =>
      rw [relativeBytes, Policy.accepts_append] at ha
      obtain ⟨s1, h1, h2⟩ := (he (borrow b)).accepted x h ha.1
      obtain ⟨s', h3, h4⟩ := ih h2 ha.2
      refine ⟨s', .value (s₁ := ⟨s1, b⟩) (by simp [relativeEncoder, h1]) h3, ?_⟩
      rw [relativeBytes, ← List.append_assoc]; exact h4

theorem relative_decoder_emits {t : RelativeDecodable T Rel R} {borrow : B → Rel} {g : Rel → Grammar T R}
    {enc : Rel → T → List UInt8} (hd : ∀ r, DecodesLaw (t.relativeDecode r) (g r)) (hg : ∀ r, g r [] = .more)
    (hinv : ∀ r x, (g r).Encoding (enc r x) x) {P : BulkProducer σ UInt8 F E} {ops : List (RelativeOp B T)} {s : σ} {b : B}
    {c : Script UInt8 F E} (h : BulkPlays P s c) (hs : c.StartsWith (relativeBytes enc borrow b ops)) :
    ∃ s', RelativeEmits (relativeDecoder t borrow P).toProducer ⟨s, b⟩ ops ⟨s', lastRelativeTo b ops⟩ ∧
      BulkPlays P s' (c.drop (relativeBytes enc borrow b ops).length) := by
  induction ops generalizing s b c with
  | nil => exact ⟨s, .nil _, by simpa [relativeBytes] using h⟩
  | cons op ops ih =>
    cases op with
    | setRelativeTo b' =>
      obtain ⟨s', h1, h2⟩ := ih h hs
      exact ⟨s', .set h1, h2⟩
    | value x =>
      rw [relativeBytes] at hs
      obtain ⟨s1, h1, h2⟩ := decoderProduce_spec (hd (borrow b)) (hg _) h (.value hs.left (hinv _ x))
      obtain ⟨s', h3, h4⟩ := ih (h2 x rfl) hs.right
      refine ⟨s', .value (s₁ := ⟨s1, b⟩) (by simp [relativeDecoder, h1]) h3, ?_⟩
      rw [relativeBytes, List.length_append]
      simpa using h4

/-- The claim of C42: there are byte strings `bytes b ops` such that a relative encoder that starts with `b` and goes through the
operations `ops` makes its consumer receive `bytes b ops`; and a relative decoder of these bytes that starts with `b` and goes
through the same changes yields the same values, and then the final value. -/
def RelativeInverse (t : RelativeEncodable T Rel) (d : RelativeDecodable T Rel R) (borrow : B → Rel) : Prop :=
  ∃ bytes : B → List (RelativeOp B T) → List UInt8, ∀ b ops,
    (∀ {σ F E : Type} {C : BulkConsumer σ UInt8 F E} {D : σ → List UInt8 → Option F → Prop} {q : Policy UInt8 F E} {s : σ},
      BulkCollects C D q s [] → q.Accepts [] (bytes b ops) →
      ∃ s', RelativeConsumes (relativeEncoder t borrow C).toConsumer ⟨s, b⟩ ops s' ∧ D s'.inner (bytes b ops) none ∧
        ∀ f, q.refuseClose (bytes b ops) f = none →
          ∃ s'', (relativeEncoder t borrow C).close s' f = ok (s'', .ok ()) ∧ D s''.inner (bytes b ops) (some f)) ∧
    (∀ {σ F E : Type} {P : BulkProducer σ UInt8 F E} {s : σ} {f : F},
      BulkPlays P s (Script.ofList (bytes b ops) (.ok f)) →
      ∃ s' s'', RelativeEmits (relativeDecoder d borrow P).toProducer ⟨s, b⟩ ops s' ∧
        (relativeDecoder d borrow P).produce s' = ok (s'', .ok (.inr f)))

/-- **C42**, for all relative codecs without empty encodings (`g r [] = .more`). What is missing from the full statement: codecs
that encode some value as the empty string; for these it is false (`relative_empty_encoding_not_inverse`). -/
theorem relative_encoder_decoder_inverse_partial {t : RelativeEncodable T Rel} {d : RelativeDecodable T Rel R} {borrow : B → Rel}
    {enc : Rel → T → List UInt8} {g : Rel → Grammar T R} (he : ∀ r, EncodesLaw (t.relativeEncode r) (enc r))
    (hd : ∀ r, DecodesLaw (d.relativeDecode r) (g r)) (hinv : ∀ r x, (g r).Encoding (enc r x) x)
    (hg : ∀ r, g r [] = .more) : RelativeInverse t d borrow := by
  refine ⟨relativeBytes enc borrow, fun b ops => ⟨?_, ?_⟩⟩
  · intro σ F E C D q s h ha
    obtain ⟨s', h1, h2⟩ := relative_encoder_consumes he h ha
    refine ⟨_, h1, by simpa using h2.observe, fun f hf => ?_⟩
    obtain ⟨s'', h3, h4⟩ := h2.toCollects.close_ok f (by simpa using hf)
    exact ⟨⟨s'', lastRelativeTo b ops⟩, by simp [relativeEncoder, h3], by simpa using h4⟩
  · intro σ F E P s f h
    obtain ⟨s', h1, h2⟩ := relative_decoder_emits hd hg hinv h (Script.ofList_startsWith _ _)
    rw [Script.ofList_drop _ _ _ (Nat.le_refl _), List.drop_length] at h2
    obtain ⟨s'', h3, _⟩ := decoderProduce_spec (hd (borrow (lastRelativeTo b ops))) (hg _) h2
      (.final (f := f) (n := 0) (by simp [Script.ofList, Except.map]))
    exact ⟨_, ⟨s'', lastRelativeTo b ops⟩, h1, by simp [relativeDecoder, h3]⟩

example : RelativeInverse differenceEncodable differenceDecodable (fun x : UInt8 × Bool => x.1) :=
  relative_encoder_decoder_inverse_partial difference_encodes difference_decodes difference_encoding (fun _ => rfl)

theorem relative_canonic_encoder_decoder_inverse_partial {t : RelativeEncodable T Rel} {d : RelativeDecodableCanonic T Rel R RC}
    {borrow : B → Rel} {enc : Rel → T → List UInt8} {g : Rel → Grammar T RC}
    (he : ∀ r, EncodesLaw (t.relativeEncode r) (enc r)) (hd : ∀ r, DecodesLaw (d.relativeDecodeCanonic r) (g r))
    (hinv : ∀ r x, (g r).Encoding (enc r x) x) (hg : ∀ r, g r [] = .more) :
    RelativeInverse t ⟨d.relativeDecodeCanonic⟩ borrow :=
  relative_encoder_decoder_inverse_partial he hd hinv hg

example : RelativeInverse differenceEncodable ⟨differenceDecodable.relativeDecode⟩ (fun x : UInt8 × Bool => x.1) :=
  relative_canonic_encoder_decoder_inverse_partial (d := ⟨differenceDecodable, id, differenceDecodable.relativeDecode⟩)
    difference_encodes difference_decodes difference_encoding (fun _ => rfl)

/-! ## Relative to `()` -/

/-- A call on the inner state of a relative adaptor. -/
def onInner {A : Type} (f : σ → Outcome (σ × A)) (s : RelativeSt σ B) : Outcome (RelativeSt σ B × A) := do
  let (inner, r) ← f s.inner
  return ({ s with inner := inner }, r)

/-- **C42.** Used relative to `()`, an absolute codec encodes and decodes exactly as with the absolute adaptors: same answers,
same effects on the inner consumer or producer, in every state. -/
theorem relative_to_unit (t : Encodable T) (borrow : B → Unit) (C : BulkConsumer σ UInt8 F E) (d : DecodableCanonic T R RC)
    (P : BulkProducer σ UInt8 F E) (s : RelativeSt σ B) :
    (∀ x, (relativeEncoder t.toRelative borrow C).consume s x = onInner (fun s => (encoder t C).consume s x) s) ∧
    (∀ f, (relativeEncoder t.toRelative borrow C).close s f = onInner (fun s => (encoder t C).close s f) s) ∧
    (relativeEncoder t.toRelative borrow C).flush s = onInner (encoder t C).flush s ∧
    (relativeDecoder d.toDecodable.toRelative borrow P).produce s = onInner (decoder d.toDecodable P).produce s ∧
    (relativeDecoder d.toDecodable.toRelative borrow P).slurp s = onInner (decoder d.toDecodable P).slurp s ∧
    (relativeCanonicDecoder d.toRelative borrow P).produce s = onInner (canonicDecoder d P).produce s ∧
    (relativeCanonicDecoder d.toRelative borrow P).slurp s = onInner (canonicDecoder d P).slurp s :=
  ⟨fun _ => rfl, fun _ => rfl, rfl, rfl, rfl, rfl, rfl⟩

/-- **C42.** The methods for vectors and slices also agree. -/
theorem relative_to_unit_slices (t : EncodableKnownSize T) (d : DecodableCanonic T R RC) (x : T) (bs : List UInt8) :
    t.toRelative.relativeEncodeIntoVec x () = t.encodeIntoVec x ∧
    t.toRelative.relativeEncodeIntoBoxedSlice x () = t.encodeIntoBoxedSlice x ∧
    t.toRelative.relativeLenOfEncoding x () = t.lenOfEncoding x ∧
    d.toRelative.relativeDecodeFromSlice bs () = d.decodeFromSlice bs ∧
    d.toRelative.relativeDecodeCanonicFromSlice bs () = d.decodeCanonicFromSlice bs :=
  ⟨rfl, rfl, rfl, rfl, rfl⟩

end

/-! ### Instances -/

theorem difference_inverse {B : Type} (borrow : B → UInt8) : RelativeInverse differenceEncodable differenceDecodable borrow :=
  relative_encoder_decoder_inverse_partial difference_encodes difference_decodes difference_encoding (fun _ => rfl)

/-- Three values, relative to 10, 10 and 200, become the bytes 1, 255, 55, and are decoded again. -/
example : ∃ s s' s'', RelativeConsumes (relativeEncoder differenceEncodable id publicIntoVec).toConsumer ⟨IntoVec.new, 10⟩
      [.value 11, .value 9, .setRelativeTo 200, .value 255] s ∧ s.inner.intoVec = [1, 255, 55] ∧
    RelativeEmits (relativeDecoder differenceDecodable id publicFromSlice).toProducer ⟨FromSlice.new [1, 255, 55], 10⟩
      [.value 11, .value 9, .setRelativeTo 200, .value 255] s' ∧
    (relativeDecoder differenceDecodable id publicFromSlice).produce s' = ok (s'', .ok (.inr ())) := by
  obtain ⟨s, h1, h2⟩ := relative_encoder_consumes difference_encodes (borrow := id) (b := 10)
    (ops := [.value 11, .value 9, .setRelativeTo 200, .value 255]) (into_vec_noop_collects []) (by simp)
  obtain ⟨s', h3, h4⟩ := relative_decoder_emits difference_decodes (fun _ => rfl)
    (enc := fun r x => [x - r]) difference_encoding (borrow := id) (b := 10)
    (ops := [.value 11, .value 9, .setRelativeTo 200, .value 255]) (from_slice_noop_plays [1, 255, 55])
    (Script.ofList_startsWith [1, 255, 55] _)
  obtain ⟨s'', h5, _⟩ := decoderProduce_spec (difference_decodes 200) rfl h4 (.final (n := 0) rfl)
  exact ⟨_, _, ⟨s'', 200⟩, h1, h2.observe.2, h3, by simp [relativeDecoder, h5, lastRelativeTo]⟩

/-- With empty encodings the statement is false, as for `Encoder` and `Decoder`. -/
theorem relative_empty_encoding_not_inverse :
    (∀ r, EncodesLaw (unitEncodable.toRelative.relativeEncode r) (fun _ => [])) ∧
    (∀ r, DecodesLaw (unitDecodable.toRelative.relativeDecode r) (fun _ => .done ())) ∧
    ¬ RelativeInverse unitEncodable.toRelative unitDecodable.toRelative (fun b : Unit => b) := by
  refine ⟨fun _ => unit_encodes, fun _ => unit_decodes, ?_⟩
  rintro ⟨bytes, h⟩
  obtain ⟨h1, h2⟩ := h () [.value ()]
  obtain ⟨s, h3, h4, _⟩ := h1 (into_vec_noop_collects []) (by simp)
  cases h3 with
  | value h5 h6 =>
    cases h6
    cases h5
    have h7 : [] = bytes () [.value ()] := h4.2
    rw [← h7] at h2
    obtain ⟨s', s'', h8, _⟩ := h2 (from_slice_noop_plays [])
    obtain ⟨s3, h9⟩ := (decoder_final_iff unitDecodable (from_slice_noop_plays []) ()).mpr
      (by simp [Script.ofList, Except.map])
    cases h8 with
    | value h10 _ =>
      simp only [decoder] at h9
      simp only [relativeDecoder, Decodable.toRelative] at h10
      rw [h9] at h10
      cases h10

/-- **C42**: for which lawful relative codecs the full statement holds: exactly those that encode no value as the empty string,
relative to whichever value. -/
theorem relative_encoder_decoder_inverse_iff {T B Rel R : Type} [Nonempty T] {t : RelativeEncodable T Rel}
    {d : RelativeDecodable T Rel R} {borrow : B → Rel} {enc : Rel → T → List UInt8} {g : Rel → Grammar T R}
    (he : ∀ r, EncodesLaw (t.relativeEncode r) (enc r)) (hd : ∀ r, DecodesLaw (d.relativeDecode r) (g r))
    (hinv : ∀ r x, (g r).Encoding (enc r x) x) (hborrow : ∀ r, ∃ b, borrow b = r) :
    RelativeInverse t d borrow ↔ ∀ r x, enc r x ≠ [] := by
  constructor
  · rintro ⟨bytes, h⟩ r x hx
    obtain ⟨b, rfl⟩ := hborrow r
    obtain ⟨h1, h2⟩ := h b [.value x]
    obtain ⟨s, h3, h4, _⟩ := h1 (into_vec_noop_collects []) (by simp)
    obtain ⟨s₁, h5, h6⟩ := (he (borrow b)).accepted x (into_vec_noop_collects []) (by simp)
    have h7 : bytes b [.value x] = [] := by
      cases h3 with
      | value h8 h9 =>
        cases h9
        simp only [relativeEncoder, h5, bind_eq, bind_ok, pure_eq, Outcome.ok.injEq, Prod.mk.injEq, and_true] at h8
        subst h8
        have h10 : s₁.intoVec = bytes b [.value x] := h4.2
        rw [← h10]
        exact h6.observe.2.trans (by rw [hx, List.nil_append])
    rw [h7] at h2
    obtain ⟨s', s'', h8, _⟩ := h2 (from_slice_noop_plays [])
    obtain ⟨s3, h9⟩ := (decoder_final_iff ⟨d.relativeDecode (borrow b)⟩ (from_slice_noop_plays []) ()).mpr
      (by simp [Script.ofList, Except.map])
    cases h8 with
    | value h10 _ =>
      simp only [decoder] at h9
      simp only [relativeDecoder] at h10
      rw [h9] at h10
      cases h10
  · intro hne
    obtain ⟨x⟩ := ‹Nonempty T›
    refine relative_encoder_decoder_inverse_partial he hd hinv fun r => ?_
    have := (hinv r x).1 0 (List.length_pos_iff.2 (hne r x))
    simpa using this

example : RelativeInverse differenceEncodable differenceDecodable (id : UInt8 → UInt8) ∧
    ¬ RelativeInverse unitEncodable.toRelative unitDecodable.toRelative (id : Unit → Unit) :=
  ⟨(relative_encoder_decoder_inverse_iff difference_encodes difference_decodes difference_encoding fun r => ⟨r, rfl⟩).mpr
      fun _ _ => nofun,
    fun h => (relative_encoder_decoder_inverse_iff (enc := fun _ _ => []) (fun _ => unit_encodes) (fun _ => unit_decodes)
      (fun _ _ => ⟨fun k hk => absurd hk (Nat.not_lt_zero _), rfl⟩) fun r => ⟨r, rfl⟩).mp h () () rfl⟩

end Verif
