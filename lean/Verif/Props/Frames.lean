import Verif.Props.Reencode
import Verif.Props.IntoInner
import Verif.Props.MergeExact

/-!
# C99: frames: values of which the encodings have a given total length

A protocol may announce how many bytes are going to follow, and then send values that fill exactly these bytes. With ufotofu, one reads such a
frame with a `Decoder` around a `producer::Limit`, and writes it with an `Encoder` around a `consumer::Limit`; afterwards `into_inner`
gives back the producer or consumer, for the next frame. The theorems are about any codecs that touch the producer or consumer by calling
its methods only, in an allowed way.
-/

namespace Verif

open Outcome

section

variable {σ T R F E : Type}

/-! ## Codecs as clients -/

/-- If decoding succeeds, then what it has done to the producer is a history of allowed calls, none of which was the last one. -/
def DecodeFn.Client (decode : DecodeFn T R) : Prop :=
  ∀ {σ F E : Type} (P : BulkProducer σ UInt8 F E) (s s' : σ) (x : T), decode P s = ok (s', .ok x) →
    ∃ handed shown, ProducerRuns P s handed s' shown none

/-- What encoding has done to the consumer is a history of allowed calls. They wrote exactly the encoding if encoding succeeds, and
a part of it if encoding fails, with the error of the last call. -/
structure EncodeFn.Client (encode : EncodeFn T) (enc : T → List UInt8) : Prop where
  written : ∀ {σ F E : Type} (C : BulkConsumer σ UInt8 F E) (s s' : σ) (x : T), encode C s x = ok (s', .ok ()) →
    ∃ slots, ConsumerRuns C s (enc x) s' slots none
  failed : ∀ {σ F E : Type} (C : BulkConsumer σ UInt8 F E) (s s' : σ) (x : T) (e : E), encode C s x = ok (s', .error e) →
    ∃ taken slots offered, taken <+: enc x ∧ ConsumerRuns C s taken s' slots (some (.failed e offered))

/-- Decoding does not depend on `slurp`. (Relevant here only because `slurp` of a `Limit` fetches too much, see C21.) -/
def DecodeFn.IgnoresSlurp (decode : DecodeFn T R) : Prop :=
  ∀ {σ F E : Type} (P : BulkProducer σ UInt8 F E) (s : σ), decode P.noSlurp s = decode P s

theorem bulk_overwrite_full_slice_client {P : BulkProducer σ UInt8 F E} {s s' : σ} {buf buf' : List UInt8}
    (h : bulkOverwriteFullSlice P s buf = ok (s', .ok (), buf')) : ∃ handed shown, ProducerRuns P s handed s' shown none := by
  refine loop_keeps (fun st => ∃ handed shown, ProducerRuns P s handed st.1 shown none)
    (fun r => r.2.1 = .ok () → ∃ handed shown, ProducerRuns P s handed r.1 shown none) ?_ ?_ (s := (s, buf, 0)) ⟨[], [], .start⟩ h rfl
  · rintro ⟨t, buf, n⟩ st ⟨handed, shown, hr⟩ hb
    simp only [bulkOverwriteFullSliceBody, bind_eq, pure_eq] at hb
    split at hb
    · rename_i hlt
      simp only [bind_eq_ok] at hb
      obtain ⟨⟨t1, r1, tail⟩, h1, hb⟩ := hb
      rcases r1 with e | (k | f) <;> cases hb
      exact ⟨_, _, hr.call (op := .bulkProduce (buf.drop n)) (r := ⟨tail.take k, [], none⟩)
        (by intro h0; have := congrArg List.length h0; simp at this; omega) (by simp [BulkProducer.call, h1])⟩
    · cases hb
  · rintro ⟨t, buf, n⟩ ⟨t', r, b⟩ ⟨handed, shown, hr⟩ hb
    simp only [bulkOverwriteFullSliceBody, bind_eq, pure_eq] at hb
    split at hb
    · simp only [bind_eq_ok] at hb
      obtain ⟨⟨t1, r1, tail⟩, h1, hb⟩ := hb
      rcases r1 with e | (k | f) <;> cases hb <;> intro h0 <;> cases h0
    · cases hb
      exact fun _ => ⟨_, _, hr⟩

theorem bulk_consume_full_slice_client {C : BulkConsumer σ UInt8 F E} {s s' : σ} {buf : List UInt8} {r : Except (ConsumeAtLeastError E) Unit}
    (h : bulkConsumeFullSlice C s buf = ok (s', r)) :
    (r = .ok () → ∃ slots, ConsumerRuns C s buf s' slots none) ∧
    ∀ e, r = .error e → ∃ taken slots offered, taken <+: buf ∧ ConsumerRuns C s taken s' slots (some (.failed e.reason offered)) := by
  refine loop_keeps (fun st => ∃ slots, ConsumerRuns C s (buf.take st.2) st.1 slots none)
    (fun r => (r.2 = .ok () → ∃ slots, ConsumerRuns C s buf r.1 slots none) ∧
      ∀ e, r.2 = .error e → ∃ taken slots offered, taken <+: buf ∧
        ConsumerRuns C s taken r.1 slots (some (.failed e.reason offered))) ?_ ?_ (s := (s, 0)) ⟨[], .start⟩ h
  · rintro ⟨t, n⟩ st ⟨slots, hr⟩ hb
    simp only [bulkConsumeFullSliceBody, bind_eq, pure_eq] at hb
    split at hb
    · rename_i hlt
      simp only [bind_eq_ok] at hb
      obtain ⟨⟨t1, r1⟩, h1, hb⟩ := hb
      rcases r1 with e | k <;> cases hb
      have := hr.call (op := .bulkConsume (buf.drop n)) (r := ⟨(buf.drop n).take k, [], none⟩)
        (by intro h0; have := congrArg List.length h0; simp at this; omega) (s' := t1) (by simp [BulkConsumer.call, h1])
      refine ⟨[], ?_⟩
      simp only [List.take_add]
      exact this
    · cases hb
  · rintro ⟨t, n⟩ ⟨t', r⟩ ⟨slots, hr⟩ hb
    simp only [bulkConsumeFullSliceBody, bind_eq, pure_eq] at hb
    split at hb
    · rename_i hlt
      simp only [bind_eq_ok] at hb
      obtain ⟨⟨t1, r1⟩, h1, hb⟩ := hb
      rcases r1 with e | k <;> cases hb
      have := hr.call (op := .bulkConsume (buf.drop n)) (r := ⟨[], [], some (.failed e (buf.drop n))⟩)
        (by intro h0; have := congrArg List.length h0; simp at this; omega) (s' := t') (by simp [BulkConsumer.call, h1])
      refine ⟨nofun, fun e' he => ?_⟩
      cases he
      exact ⟨_, _, _, List.take_prefix _ _, by simpa using this⟩
    · rename_i hge
      cases hb
      refine ⟨fun _ => ⟨slots, ?_⟩, nofun⟩
      rw [List.take_of_length_le (by simp only at hge ⊢; omega)] at hr
      exact hr

/-- The fixed-width integers are such codecs. -/
theorem FixedInt.decode_client {N : Nat} (i : FixedInt T N) (o : ByteOrder) : DecodeFn.Client (i.decode o) := by
  intro σ F E P s s' x h
  simp only [FixedInt.decode, bind_eq, pure_eq, bind_eq_ok] at h
  obtain ⟨⟨s1, r1, buf⟩, h1, h⟩ := h
  rcases r1 with e | _ <;> cases h
  exact bulk_overwrite_full_slice_client h1

theorem FixedInt.decode_ignores_slurp {N : Nat} (i : FixedInt T N) (o : ByteOrder) : DecodeFn.IgnoresSlurp (i.decode o) :=
  fun _ _ => rfl

theorem FixedInt.encode_client {N : Nat} (i : FixedInt T N) (o : ByteOrder) : EncodeFn.Client (i.encode o) (i.toBytes o) := by
  constructor
  · intro σ F E C s s' x h
    simp only [FixedInt.encode, bind_eq, pure_eq, bind_eq_ok] at h
    obtain ⟨⟨s1, r1⟩, h1, h⟩ := h
    rcases r1 with e | _ <;> cases h
    exact (bulk_consume_full_slice_client h1).1 rfl
  · intro σ F E C s s' x e h
    simp only [FixedInt.encode, bind_eq, pure_eq, bind_eq_ok] at h
    obtain ⟨⟨s1, r1⟩, h1, h⟩ := h
    rcases r1 with e | _ <;> cases h
    exact (bulk_consume_full_slice_client h1).2 _ rfl

/-- So are codecs that use a single byte. -/
theorem byte_decode_client (value : UInt8 → Except R T) : DecodeFn.Client (byteDecode value) := by
  intro σ F E P s s' x h
  simp only [byteDecode, bind_eq, pure_eq, bind_eq_ok] at h
  obtain ⟨⟨s1, r1⟩, h1, h⟩ := h
  rcases r1 with e | b <;> simp only [ok.injEq, Prod.mk.injEq] at h
  · cases h.2
  · obtain ⟨rfl, -⟩ := h
    exact u8.decode_client .big P s s1 b h1

theorem byte_decode_ignores_slurp (value : UInt8 → Except R T) : DecodeFn.IgnoresSlurp (byteDecode value) := fun _ _ => rfl

theorem byte_encode_client (code : T → UInt8) : EncodeFn.Client (byteEncode code) (fun x => [code x]) := by
  have e : ∀ b, u8.toBytes .big b = [b] := fun b => by simp [FixedInt.toBytes, leBytes, u8]
  have h := u8.encode_client .big
  constructor
  · intro σ F E C s s' x h1
    have := h.written C s s' (code x) h1
    rwa [e] at this
  · intro σ F E C s s' x er h1
    have := h.failed C s s' (code x) er h1
    rwa [e] at this

/-! ## Reading -/

theorem Script.limit_full {c : Script UInt8 F E} {bs : List UInt8} (h : c.StartsWith bs) :
    c.limit bs.length = Script.ofList bs (.ok none) := by
  funext i
  simp only [Script.limit, Script.ofList]
  split
  · rename_i hlt
    rw [h i _ (List.getElem?_eq_getElem hlt), List.getElem?_eq_getElem hlt]
  · rw [List.getElem?_eq_none (by omega)]; rfl

theorem Grammar.Encoding.ne_nil {g : Grammar T R} (hg : g [] = .more) {bs : List UInt8} {x : T} (h : g.Encoding bs x) : bs ≠ [] := by
  rintro rfl
  have := h.2
  rw [hg] at this
  cases this

theorem ProducerRuns.of_noSlurp {P : BulkProducer σ UInt8 F E} {s t : σ} {handed shown : List UInt8} {ended : Option (Except E F)}
    (h : ProducerRuns P.noSlurp s handed t shown ended) : ∃ shown', ProducerRuns P s handed t shown' ended ∧ (shown = [] ∨ shown = shown') := by
  induction h with
  | start => exact ⟨[], .start, .inl rfl⟩
  | @call handed t shown op t' r _ hop hcall ih =>
    obtain ⟨shown', h1, h2⟩ := ih
    cases op with
    | slurp =>
      cases hcall
      exact ⟨shown', by simpa using h1, .inl rfl⟩
    | considerProduced k =>
      obtain rfl := h2.resolve_left hop.1
      exact ⟨_, h1.call hop hcall, .inr rfl⟩
    | produce => exact ⟨_, h1.call (op := .produce) trivial hcall, .inr rfl⟩
    | exposeItems => exact ⟨_, h1.call (op := .exposeItems) trivial hcall, .inr rfl⟩
    | bulkProduce buf => exact ⟨_, h1.call (op := .bulkProduce buf) hop hcall, .inr rfl⟩

/-- Decoding one value from a `Limit` is a history of calls that hands out exactly the bytes of the value. -/
theorem frame_decode {d : Decodable T R} {g : Grammar T R} (hd : DecodesLaw d.decode g) (hc : DecodeFn.Client d.decode)
    {P : BulkProducer σ UInt8 F E} {s : σ} {c : Script UInt8 F E} (hP : BulkPlays P s c) {code bs : List UInt8} {x : T}
    (hx : g.Encoding code x) (hs : c.StartsWith (code ++ bs))
    (hn : DecodeFn.IgnoresSlurp d.decode ∨ ∀ e, c (code ++ bs).length ≠ .error e) :
    ∃ t handed shown, d.decode (limitBulkProducer P) ⟨s, (code ++ bs).length⟩ = ok (t, .ok x) ∧
      ProducerRuns (limitBulkProducer P) ⟨s, (code ++ bs).length⟩ handed t shown none ∧ handed.length = code.length := by
  have key : ∀ {L : BulkProducer (LimitSt σ) UInt8 (Option F) E},
      BulkPlays L ⟨s, (code ++ bs).length⟩ (Script.ofList (code ++ bs) (.ok none)) →
      ∃ t handed shown, d.decode L ⟨s, (code ++ bs).length⟩ = ok (t, .ok x) ∧
        ProducerRuns L ⟨s, (code ++ bs).length⟩ handed t shown none ∧ handed.length = code.length := by
    intro L hL
    obtain ⟨t, h5, h6⟩ := hd.value hL (Script.ofList_startsWith _ _).left hx
    obtain ⟨handed, shown, hr⟩ := hc _ _ _ _ h5
    obtain ⟨h7, h8⟩ := hL.afterRun hr
    have hle := (Script.ofList_prefix h7).length_le
    refine ⟨t, handed, shown, h5, hr, ?_⟩
    rw [Script.ofList_drop _ _ _ (by simp)] at h6
    rw [Script.ofList_drop _ _ _ hle] at h8
    have := (h6.toPlays.is_unique h8.toPlays (Script.is_ofList _ _) (Script.is_ofList _ _)).1
    have := congrArg List.length this
    simp only [List.length_drop, List.length_append] at this hle
    omega
  rcases hn with hn | hn
  · obtain ⟨t, handed, shown, h1, h2, h3⟩ := key (L := (limitBulkProducer P).noSlurp) (by
      rw [← Script.limit_full hs]
      exact limit_bulk_plays_without_slurp hP _)
    obtain ⟨shown', h4, -⟩ := h2.of_noSlurp
    exact ⟨t, handed, shown', (hn _ _).symm.trans h1, h4, h3⟩
  · exact key (by
      rw [← Script.limit_full hs]
      exact limit_bulk_plays_partial hP _ fun e he => absurd he (hn e))

/-- **C99, reading one value of a frame**: it advances the inner producer by exactly the bytes of the value, and leaves room for the rest
of the frame. -/
theorem frame_step {d : Decodable T R} {g : Grammar T R} (hd : DecodesLaw d.decode g) (hc : DecodeFn.Client d.decode) (hg : g [] = .more)
    {P : BulkProducer σ UInt8 F E} {s : σ} {c : Script UInt8 F E} (hP : BulkPlays P s c) {code bs : List UInt8} {x : T}
    (hx : g.Encoding code x) (hs : c.StartsWith (code ++ bs))
    (hn : DecodeFn.IgnoresSlurp d.decode ∨ ∀ e, c (code ++ bs).length ≠ .error e) :
    ∃ s', (decoder d (limitBulkProducer P)).produce ⟨s, (code ++ bs).length⟩ = ok (⟨s', bs.length⟩, .ok (.inl x)) ∧
      BulkPlays P s' (c.drop code.length) := by
  have hne : code ++ bs ≠ [] := by simp [hx.ne_nil hg]
  have hpos : (code ++ bs).length ≠ 0 := by simpa using hne
  obtain ⟨R', hR, k, hk⟩ := id hP
  obtain ⟨s1, ⟨xs, h1, h2, h3, h4⟩ | ⟨f, h1, -⟩ | ⟨e, h1, -⟩⟩ := hR.expose _ _ _ hk
  case inr.inl => obtain ⟨y, hy⟩ := hs.ne_nil_zero hne; rw [hy] at h1; cases h1
  case inr.inr => obtain ⟨y, hy⟩ := hs.ne_nil_zero hne; rw [hy] at h1; cases h1
  have hP1 : BulkPlays P s1 c := ⟨R', hR, _, h4⟩
  obtain ⟨t, handed, shown, h5, hr, hlen⟩ := frame_decode hd hc hP1 hx hs hn
  obtain ⟨-, h9⟩ := limit_into_inner hP1 hr (.inl rfl)
  obtain ⟨-, -, -, -, -, -, h10⟩ := limit_histories (fun hr => hP1.never_empty hr) hr
  obtain ⟨h10, -⟩ := h10 rfl
  refine ⟨t.inner, ?_, by rw [← hlen]; exact h9⟩
  have ht : t = ⟨t.inner, bs.length⟩ := by
    obtain ⟨i, r⟩ := t
    simp only [List.length_append] at h10
    simp only [LimitSt.mk.injEq, true_and]
    omega
  rw [← ht]
  have hsl : slice xs 0 (min (code ++ bs).length xs.length) = ok (xs.take (min (code ++ bs).length xs.length)) := by
    simp [slice, Nat.min_le_right]
  show decoderProduce d.decode (limitBulkProducer P) _ = _
  have hex : (limitBulkProducer P).exposeItems ⟨s, (code ++ bs).length⟩ =
      ok (⟨s1, (code ++ bs).length⟩, .ok (.inl (xs.take (min (code ++ bs).length xs.length)))) := by
    simp only [limitBulkProducer, if_neg hpos, h3, bind_eq, bind_ok, hsl, pure_eq]
  simp only [decoderProduce, hex, bind_eq, bind_ok, h5, pure_eq]

theorem FixedInt.encoding_toBytes {N : Nat} {i : FixedInt T N} (hi : i.Faithful) (o : ByteOrder) (x : T) :
    (i.grammar o).Encoding (i.toBytes o x) x :=
  (encoding_iff i o _ x).mpr ⟨by simp, fromBytes_toBytes hi o x⟩

/-- The first of the two numbers of a frame. -/
example : ∃ s', (decoder U16BE.decodable.toDecodable (limitBulkProducer (FromSlice.producer UInt8))).produce ⟨FromSlice.new [0, 1, 0, 2, 9], 4⟩ =
      ok (⟨s', 2⟩, .ok (.inl 1)) ∧
    BulkPlays (FromSlice.producer UInt8) s' ((Script.ofList [0, 1, 0, 2, 9] (.ok ())).drop 2) :=
  frame_step (d := U16BE.decodable.toDecodable) (code := [0, 1]) (bs := [0, 2]) (u16.decodesLaw .big) (u16.decode_client .big)
    (by simp [FixedInt.grammar]) (from_slice_plays _) (FixedInt.encoding_toBytes u16_faithful .big 1) (Script.ofList_startsWith_iff.mpr ⟨[9], rfl⟩)
    (.inl (u16.decode_ignores_slurp .big))

/-- At the end of the frame, the decoder emits the final value `None` without touching the inner producer. -/
theorem frame_end {d : Decodable T R} (P : BulkProducer σ UInt8 F E) (s : σ) :
    (decoder d (limitBulkProducer P)).produce ⟨s, 0⟩ = ok (⟨s, 0⟩, .ok (.inr none)) := rfl

/-- **C99, reading a frame.** If the frame begins with encodings, then their values are emitted one after the other. The inner producer is
then directly after the encodings. -/
theorem frame_read {d : Decodable T R} {g : Grammar T R} (hd : DecodesLaw d.decode g) (hc : DecodeFn.Client d.decode) (hg : g [] = .more)
    {P : BulkProducer σ UInt8 F E} {codes : List (List UInt8 × T)} (hx : ∀ p ∈ codes, g.Encoding p.1 p.2) {rest : List UInt8} {s : σ}
    {c : Script UInt8 F E} (hP : BulkPlays P s c) (hs : c.StartsWith ((codes.map (·.1)).flatten ++ rest))
    (hn : DecodeFn.IgnoresSlurp d.decode ∨ ∀ e, c ((codes.map (·.1)).flatten ++ rest).length ≠ .error e) :
    ∃ s', Emits (decoder d (limitBulkProducer P)).toProducer ⟨s, ((codes.map (·.1)).flatten ++ rest).length⟩ (codes.map (·.2))
        ⟨s', rest.length⟩ ∧
      BulkPlays P s' (c.drop (codes.map (·.1)).flatten.length) := by
  induction codes generalizing s c with
  | nil => exact ⟨s, .nil _, by simpa using hP⟩
  | cons p codes ih =>
    simp only [List.map_cons, List.flatten_cons, List.append_assoc] at hs hn ⊢
    obtain ⟨s1, h1, h2⟩ := frame_step hd hc hg hP (hx p (by simp)) hs hn
    obtain ⟨s2, h3, h4⟩ := ih (fun q hq => hx q (by simp [hq])) h2 hs.right (hn.imp_right fun hn e he => by
      apply hn e
      rw [List.length_append, ← he, Script.drop_apply])
    exact ⟨s2, .cons h1 h3, by simpa using h4⟩

/-- One number, and a byte that remains. -/
example : ∃ s', Emits (decoder U16BE.decodable.toDecodable (limitBulkProducer (FromSlice.producer UInt8))).toProducer ⟨FromSlice.new [0, 1, 7, 9], 3⟩ [1]
      ⟨s', 1⟩ ∧
    BulkPlays (FromSlice.producer UInt8) s' ((Script.ofList [0, 1, 7, 9] (.ok ())).drop 2) :=
  frame_read (d := U16BE.decodable.toDecodable) (codes := [([0, 1], 1)]) (rest := [7]) (u16.decodesLaw .big) (u16.decode_client .big)
    (by simp [FixedInt.grammar]) (by rintro p (_ | ⟨_, ⟨⟩⟩); exact FixedInt.encoding_toBytes u16_faithful .big 1) (from_slice_plays _)
    (Script.ofList_startsWith_iff.mpr ⟨[9], rfl⟩) (.inl (u16.decode_ignores_slurp .big))

/-- Read frames in turn: decode from a `Limit` until the decoder emits the final value `None`, take the producer back with `into_inner`, and go on
with the next frame. Each frame is given by its length and the values it turned out to contain. -/
inductive FramesRead (d : Decodable T R) (P : BulkProducer σ UInt8 F E) : σ → List (Nat × List T) → σ → Prop where
  | nil {s} : FramesRead d P s [] s
  | cons {s n xs t t' frames s'} : Emits (decoder d (limitBulkProducer P)).toProducer ⟨s, n⟩ xs t →
      (decoder d (limitBulkProducer P)).produce t = ok (t', .ok (.inr none)) → FramesRead d P t'.intoInner frames s' →
      FramesRead d P s ((n, xs) :: frames) s'

/-- **C99, reading frames.** Frames of encodings that follow each other directly are read one after the other, each with exactly its values;
whatever comes after the last frame is still there. -/
theorem frames_read {d : Decodable T R} {g : Grammar T R} (hd : DecodesLaw d.decode g) (hc : DecodeFn.Client d.decode) (hg : g [] = .more)
    {enc : T → List UInt8} (henc : ∀ x, g.Encoding (enc x) x) {P : BulkProducer σ UInt8 F E} {frames : List (List T)} {s : σ}
    {c : Script UInt8 F E} (hP : BulkPlays P s c) (hs : c.StartsWith (encodeAll enc frames.flatten))
    (hn : DecodeFn.IgnoresSlurp d.decode ∨ ∀ e, c (encodeAll enc frames.flatten).length ≠ .error e) :
    ∃ s', FramesRead d P s (frames.map fun xs => ((encodeAll enc xs).length, xs)) s' ∧
      BulkPlays P s' (c.drop (encodeAll enc frames.flatten).length) := by
  induction frames generalizing s c with
  | nil => exact ⟨s, .nil, by simpa [encodeAll] using hP⟩
  | cons xs frames ih =>
    have e1 : encodeAll enc (xs :: frames).flatten = encodeAll enc xs ++ encodeAll enc frames.flatten := by simp [encodeAll]
    have e2 : ((xs.map fun x => (enc x, x)).map (·.1)).flatten = encodeAll enc xs := by simp only [encodeAll, List.map_map]; rfl
    have e3 : (xs.map fun x => (enc x, x)).map (·.2) = xs := by
      rw [List.map_map]; exact List.map_id xs
    rw [e1] at hs hn
    obtain ⟨s1, h1, h2⟩ := frame_read hd hc hg (codes := xs.map fun x => (enc x, x)) (rest := []) (by
        intro p hp
        obtain ⟨x, -, rfl⟩ := List.mem_map.mp hp
        exact henc x) hP (by rw [e2, List.append_nil]; exact hs.left) (hn.imp_right fun hn e he => by
        rw [e2, List.append_nil] at he
        by_cases hr : encodeAll enc frames.flatten = []
        · rw [hr, List.append_nil] at hn
          exact hn e he
        · obtain ⟨y, hy⟩ := hs.right.ne_nil_zero hr
          rw [Script.drop_apply, Nat.add_zero, he] at hy
          cases hy)
    rw [e2, e3, List.append_nil] at h1
    rw [e2] at h2
    obtain ⟨s2, h3, h4⟩ := ih h2 hs.right (hn.imp_right fun hn e he => by
      apply hn e
      rw [List.length_append, ← he, Script.drop_apply])
    refine ⟨s2, .cons h1 (frame_end P s1) h3, ?_⟩
    rw [e1, List.length_append, ← Script.drop_drop]
    exact h4

/-- Two frames of 16-bit numbers, with two numbers and one number, an empty frame, and a further byte. -/
example : ∃ s', FramesRead U16BE.decodable.toDecodable (FromSlice.producer UInt8) (FromSlice.new [0, 1, 0, 2, 1, 0, 9])
      [(4, [1, 2]), (2, [256]), (0, [])] s' ∧
    BulkPlays (FromSlice.producer UInt8) s' ((Script.ofList [0, 1, 0, 2, 1, 0, 9] (.ok ())).drop 6) :=
  frames_read (d := U16BE.decodable.toDecodable) (enc := u16.toBytes .big) (frames := [[1, 2], [256], []]) (u16.decodesLaw .big)
    (u16.decode_client .big) (by simp [FixedInt.grammar]) (FixedInt.encoding_toBytes u16_faithful .big) (from_slice_plays _)
    (Script.ofList_startsWith_iff.mpr ⟨[9], by decide⟩) (.inl (u16.decode_ignores_slurp .big))

/-- The stream fails directly after the frame. -/
example : ∃ s', FramesRead U16BE.decodable.toDecodable Case.bytes (Case.from_ [0, 1, 0, 2] (.error "broken")) [(2, [1]), (2, [2])] s' ∧
    BulkPlays Case.bytes s' ((Script.ofList [0, 1, 0, 2] (.error "broken")).drop 4) :=
  frames_read (d := U16BE.decodable.toDecodable) (enc := u16.toBytes .big) (frames := [[1], [2]]) (u16.decodesLaw .big)
    (u16.decode_client .big) (by simp [FixedInt.grammar]) (FixedInt.encoding_toBytes u16_faithful .big) (Case.from_plays _ _)
    (Script.ofList_startsWith _ _) (.inl (u16.decode_ignores_slurp .big))

/-- **C99, any content of a frame.** The decoder emits the values of the encodings that the bytes of the frame begin with. If they do not fill the frame,
decoding fails: with `UnexpectedEndOfInput(None)` if the frame ends within an encoding. -/
theorem frame_ending {d : Decodable T R} {g : Grammar T R} (hd : DecodesLaw d.decode g) (hg : g [] = .more) {P : BulkProducer σ UInt8 F E} {s : σ}
    {c : Script UInt8 F E} (hP : BulkPlays P s c) {bs : List UInt8} (hs : c.StartsWith bs) (hn : ∀ e, c bs.length ≠ .error e)
    {codes : List (List UInt8 × T)} {rest : List UInt8} (hsp : g.Splits bs codes rest) {fin : Except (DecodeError (Option F) E R) (Option F)}
    (hfin : g.Ending rest (.ok none) fin) :
    BufPlays (decoder d (limitBulkProducer P)) ⟨s, bs.length⟩ (Script.ofList (codes.map (·.2)) fin) := by
  refine decoder_reads hd hg ?_ hsp hfin
  rw [← Script.limit_full hs]
  exact limit_bulk_plays_partial hP _ fun e he => absurd he (hn e)

/-- A frame of three bytes, but numbers of two bytes each. -/
example : BufPlays (decoder U16BE.decodable.toDecodable (limitBulkProducer (FromSlice.producer UInt8))) ⟨FromSlice.new [0, 1, 0, 2], 3⟩
    (Script.ofList [1] (.error (.unexpectedEndOfInput none))) := by
  have hi : (u16.grammar .big).Incomplete [0] := ⟨fun k hk => by obtain rfl : k = 0 := by simpa using hk
                                                                 rfl, rfl⟩
  have hs : (u16.grammar .big).Splits [0, 1, 0] [([0, 1], 1)] [0] :=
    encodeAll_splits (FixedInt.encoding_toBytes u16_faithful .big) [1] (.inl hi)
  exact frame_ending (d := U16BE.decodable.toDecodable) (bs := [0, 1, 0]) (u16.decodesLaw .big) (by simp [FixedInt.grammar]) (from_slice_plays _)
    (Script.ofList_startsWith_iff.mpr ⟨[2], rfl⟩) (fun e => nomatch e) hs (.truncated (by simp) hi rfl)

/-- **C99, a stream that ends before the frame does.** Then a final value of the stream is told apart from the end of the frame. -/
theorem frame_cut_off {d : Decodable T R} {g : Grammar T R} (hd : DecodesLaw d.decode g) (hg : g [] = .more) {P : BulkProducer σ UInt8 F E} {s : σ}
    {bs : List UInt8} {last : Except E F} (hP : BulkPlays P s (Script.ofList bs last)) {n : Nat} (hn : bs.length < n)
    {codes : List (List UInt8 × T)} {rest : List UInt8} (hsp : g.Splits bs codes rest) {fin : Except (DecodeError (Option F) E R) (Option F)}
    (hfin : g.Ending rest (last.map some) fin) :
    Plays (decoder d (limitBulkProducer P)).toProducer ⟨s, n⟩ (Script.ofList (codes.map (·.2)) fin) := by
  have hL := limit_bulk_plays_partial hP n fun e he => ⟨bs.length, hn, fun x hx => by
    rw [Script.ofList_end] at hx
    cases last <;> cases hx⟩
  obtain ⟨rfl, h2, -⟩ := hsp
  have hsw : ((Script.ofList ((codes.map (·.1)).flatten ++ rest) last).limit n).StartsWith ((codes.map (·.1)).flatten ++ rest) :=
    (Script.ofList_startsWith _ _).limit (by omega)
  have hend : ((Script.ofList ((codes.map (·.1)).flatten ++ rest) last).limit n) ((codes.map (·.1)).flatten ++ rest).length =
      (last.map some).map .inr := by
    simp only [Script.limit, if_pos hn, Script.ofList_end]
    cases last <;> rfl
  refine (decoder_plays hd hg hL (decodes_codes h2 hsw.left ?_)).toPlays
  have hr := hsw.right
  have he : (((Script.ofList ((codes.map (·.1)).flatten ++ rest) last).limit n).drop (codes.map (·.1)).flatten.length) rest.length =
      (last.map some).map .inr := by
    rw [Script.drop_apply, ← List.length_append, hend]
  cases hfin with
  | final h1 h3 => subst h1; rw [h3] at he; exact .final he
  | truncated h1 h3 h4 => rw [h4] at he; exact .truncated hr h1 h3 he
  | failed h1 h3 => rw [h3] at he; exact .failed hr h1 he
  | invalid h1 h3 =>
    obtain ⟨u, rfl⟩ := h1
    exact .invalid hr.left h3

example : Plays (decoder U16BE.decodable.toDecodable (limitBulkProducer (FromSlice.producer UInt8))).toProducer ⟨FromSlice.new [0, 1, 0], 4⟩
    (Script.ofList [1] (.error (.unexpectedEndOfInput (some ())))) := by
  have hi : (u16.grammar .big).Incomplete [0] := ⟨fun k hk => by obtain rfl : k = 0 := by simpa using hk
                                                                 rfl, rfl⟩
  have hs : (u16.grammar .big).Splits [0, 1, 0] [([0, 1], 1)] [0] :=
    encodeAll_splits (FixedInt.encoding_toBytes u16_faithful .big) [1] (.inl hi)
  exact frame_cut_off (d := U16BE.decodable.toDecodable) (u16.decodesLaw .big) (by simp [FixedInt.grammar]) (from_slice_plays _)
    (by decide) hs (.truncated (by simp) hi rfl)

/-! ## Writing -/

theorem Policy.accepts_limit {q : Policy UInt8 F E} {l xs : List UInt8} {n : Nat} (h : q.Accepts l xs) (hn : l.length + xs.length ≤ n) :
    (q.limit n).Accepts l xs := by
  intro i x hi
  have hlt : i < xs.length := (List.getElem?_eq_some_iff.mp hi).1
  have := h i x hi
  simp only [Policy.answer, Option.or_eq_none_iff] at this
  simp only [Policy.answer, Policy.limit, Option.or_eq_none_iff, List.length_append, List.length_take]
  rw [if_neg (by omega)]
  simp [this.1, this.2]

/-- **C99, writing one value of a frame**: if there is room for it, exactly its encoding is written. -/
theorem frame_write_step {t : Encodable T} {enc : T → List UInt8} (he : EncodesLaw t.encode enc) (hc : EncodeFn.Client t.encode enc)
    {C : BulkConsumer σ UInt8 F E} {D : σ → List UInt8 → Option F → Prop} {q : Policy UInt8 F E} {s : σ} {l : List UInt8}
    (hC : BulkCollects C D q s l) {x : T} (hq : q.Accepts l (enc x)) (room : Nat) :
    ∃ s', (encoder t (limitBulkConsumer C)).consume ⟨s, (enc x).length + room⟩ x = ok (⟨s', room⟩, .ok ()) ∧
      BulkCollects C D q s' (l ++ enc x) := by
  obtain ⟨u, h1, -⟩ := he.accepted x (limit_collects hC ((enc x).length + room)) (Policy.accepts_limit hq (by omega))
  obtain ⟨slots, hr⟩ := hc.written _ _ _ _ h1
  obtain ⟨-, h2⟩ := limit_consumer_into_inner hC hr (.inl rfl)
  obtain ⟨-, -, -, -, -, -, h3, -⟩ := limit_consumer_histories (fun hr => hC.never_empty hr) hr
  obtain ⟨h3, -⟩ := h3 rfl
  refine ⟨u.inner, ?_, h2⟩
  obtain ⟨i, r⟩ := u
  obtain rfl : r = room := by simp only at h3; omega
  exact h1

example : ∃ s', (encoder U16BE.encodable.toEncodable (limitBulkConsumer Case.sink)).consume ⟨Case.upTo 5, 3⟩ 0x0304 = ok (⟨s', 1⟩, .ok ()) ∧
    BulkCollects Case.sink TestConsumer.Seen (Policy.failAfter 5 "full") s' [3, 4] :=
  frame_write_step (t := U16BE.encodable.toEncodable) (enc := u16.toBytes .big) (u16.encodesLaw .big) (u16.encode_client .big) (Case.upTo_collects 5)
    (x := 0x0304) (Policy.failAfter_accepts (by decide)) 1

/-- **C99, a value that does not fit.** The frame is filled up with the beginning of its encoding, then `consume` fails with `None`; the inner consumer can
still be used. -/
theorem frame_write_full {t : Encodable T} {enc : T → List UInt8} (he : EncodesLaw t.encode enc) (hc : EncodeFn.Client t.encode enc)
    {C : BulkConsumer σ UInt8 F E} {D : σ → List UInt8 → Option F → Prop} {q : Policy UInt8 F E} {s : σ} {l : List UInt8}
    (hC : BulkCollects C D q s l) {x : T} {room : Nat} (hroom : room < (enc x).length) (hq : q.Accepts l ((enc x).take room)) :
    ∃ u, (encoder t (limitBulkConsumer C)).consume ⟨s, room⟩ x = ok (u, .error none) ∧
      BulkCollects C D q u.intoInner (l ++ (enc x).take room) := by
  have hf : (q.limit (l.length + room)).FailsAt l (enc x) room none := by
    refine ⟨Policy.accepts_limit hq (by rw [List.length_take]; omega), _, List.getElem?_eq_getElem hroom, ?_⟩
    simp only [Policy.answer, Policy.limit, List.length_append, List.length_take]
    rw [if_pos (by omega)]
    rfl
  obtain ⟨u, h1, -⟩ := he.refused x (limit_collects hC room) hf
  obtain ⟨taken, slots, offered, hp, hr⟩ := hc.failed _ _ _ _ _ h1
  obtain ⟨-, h2⟩ := limit_consumer_into_inner hC hr (.inr ⟨_, rfl⟩)
  obtain ⟨-, -, -, -, -, -, -, h3⟩ := limit_consumer_histories (fun hr => hC.never_empty hr) hr
  refine ⟨u, h1, ?_⟩
  rw [← h3 _ rfl, ← List.prefix_iff_eq_take.mp hp]
  exact h2

/-- **C99, writing a frame.** -/
theorem frame_written {t : Encodable T} {enc : T → List UInt8} (he : EncodesLaw t.encode enc) (hc : EncodeFn.Client t.encode enc)
    {C : BulkConsumer σ UInt8 F E} {D : σ → List UInt8 → Option F → Prop} {q : Policy UInt8 F E} {xs : List T} {s : σ} {l : List UInt8}
    (hC : BulkCollects C D q s l) (hq : q.Accepts l (encodeAll enc xs)) (room : Nat) :
    ∃ s', Consumes (encoder t (limitBulkConsumer C)).toConsumer ⟨s, (encodeAll enc xs).length + room⟩ xs ⟨s', room⟩ ∧
      BulkCollects C D q s' (l ++ encodeAll enc xs) := by
  induction xs generalizing s l with
  | nil => exact ⟨s, by simpa [encodeAll] using Consumes.nil _, by simpa [encodeAll] using hC⟩
  | cons x xs ih =>
    have e1 : encodeAll enc (x :: xs) = enc x ++ encodeAll enc xs := by simp [encodeAll]
    rw [e1] at hq ⊢
    obtain ⟨h1, h2⟩ := Policy.accepts_append.mp hq
    obtain ⟨s1, h3, h4⟩ := frame_write_step he hc hC h1 ((encodeAll enc xs).length + room)
    obtain ⟨s2, h5, h6⟩ := ih h4 h2
    rw [List.length_append, Nat.add_assoc]
    exact ⟨s2, .cons h3 h5, by rwa [List.append_assoc] at h6⟩

example : ∃ s', Consumes (encoder U16BE.encodable.toEncodable (limitBulkConsumer Case.sink)).toConsumer ⟨Case.upTo 5, 5⟩ [1, 2] ⟨s', 1⟩ ∧
    BulkCollects Case.sink TestConsumer.Seen (Policy.failAfter 5 "full") s' [0, 1, 0, 2] :=
  frame_written (t := U16BE.encodable.toEncodable) (enc := u16.toBytes .big) (u16.encodesLaw .big) (u16.encode_client .big) (xs := [1, 2])
    (Case.upTo_collects 5) (Policy.failAfter_accepts (by decide)) 1

/-- Write frames in turn: encode into a `Limit`, take the consumer back with `into_inner`, and go on with the next frame. Each frame is given by its
length and its values. -/
inductive FramesWritten (t : Encodable T) (C : BulkConsumer σ UInt8 F E) : σ → List (Nat × List T) → σ → Prop where
  | nil {s} : FramesWritten t C s [] s
  | cons {s n xs u frames s'} : Consumes (encoder t (limitBulkConsumer C)).toConsumer ⟨s, n⟩ xs u →
      FramesWritten t C u.intoInner frames s' → FramesWritten t C s ((n, xs) :: frames) s'

/-- **C99, writing frames.** The inner consumer gets the encodings, one after the other and nothing else. -/
theorem frames_written {t : Encodable T} {enc : T → List UInt8} (he : EncodesLaw t.encode enc) (hc : EncodeFn.Client t.encode enc)
    {C : BulkConsumer σ UInt8 F E} {D : σ → List UInt8 → Option F → Prop} {q : Policy UInt8 F E} {frames : List (List T)} {s : σ}
    {l : List UInt8} (hC : BulkCollects C D q s l) (hq : q.Accepts l (encodeAll enc frames.flatten)) :
    ∃ s', FramesWritten t C s (frames.map fun xs => ((encodeAll enc xs).length, xs)) s' ∧
      BulkCollects C D q s' (l ++ encodeAll enc frames.flatten) := by
  induction frames generalizing s l with
  | nil => exact ⟨s, .nil, by simpa [encodeAll] using hC⟩
  | cons xs frames ih =>
    have e1 : encodeAll enc (xs :: frames).flatten = encodeAll enc xs ++ encodeAll enc frames.flatten := by simp [encodeAll]
    rw [e1] at hq ⊢
    obtain ⟨h1, h2⟩ := Policy.accepts_append.mp hq
    obtain ⟨s1, h3, h4⟩ := frame_written he hc hC h1 0
    obtain ⟨s2, h5, h6⟩ := ih h4 h2
    exact ⟨s2, .cons h3 h5, by rwa [List.append_assoc] at h6⟩

/-- The consumer takes five bytes; the frames are two numbers and none. -/
example : ∃ s', FramesWritten U16BE.encodable.toEncodable Case.sink (Case.upTo 5) [(4, [1, 2]), (0, [])] s' ∧
    BulkCollects Case.sink TestConsumer.Seen (Policy.failAfter 5 "full") s' [0, 1, 0, 2] :=
  frames_written (t := U16BE.encodable.toEncodable) (frames := [[1, 2], []]) (u16.encodesLaw .big) (u16.encode_client .big)
    (Case.upTo_collects 5) (Policy.failAfter_accepts (by decide))

/-- A number does not fit into a frame of one byte, and half of it is written. -/
example : ∃ u, (encoder U16BE.encodable.toEncodable (limitBulkConsumer Case.sink)).consume ⟨Case.upTo 5, 1⟩ 0x0304 = ok (u, .error none) ∧
    BulkCollects Case.sink TestConsumer.Seen (Policy.failAfter 5 "full") u.intoInner [3] :=
  frame_write_full (t := U16BE.encodable.toEncodable) (u16.encodesLaw .big) (u16.encode_client .big) (Case.upTo_collects 5) (x := 0x0304)
    (by decide) (Policy.failAfter_accepts (by decide))

/-- **C99, there and back again**: frames written to a vector are read back from its bytes, and nothing is left over. -/
theorem frames_round_trip {t : Encodable T} {enc : T → List UInt8} (he : EncodesLaw t.encode enc) (hw : EncodeFn.Client t.encode enc)
    {d : Decodable T R} {g : Grammar T R} (hd : DecodesLaw d.decode g) (hr : DecodeFn.Client d.decode) (hg : g [] = .more)
    (henc : ∀ x, g.Encoding (enc x) x) (frames : List (List T)) :
    ∃ v s', FramesWritten t (IntoVec.consumer UInt8) IntoVec.new (frames.map fun xs => ((encodeAll enc xs).length, xs)) v ∧
      FramesRead d (FromSlice.producer UInt8) (FromSlice.new v.intoVec) (frames.map fun xs => ((encodeAll enc xs).length, xs)) s' ∧
      BulkPlays (FromSlice.producer UInt8) s' (Script.ofList [] (.ok ())) := by
  obtain ⟨v, h1, h2⟩ := frames_written he hw (frames := frames) into_vec_new_collects Policy.accepts_acceptAll
  have hv := into_vec_open h2.toBulkDefers
  rw [List.nil_append] at hv
  obtain ⟨s', h3, h4⟩ := frames_read hd hr hg henc (from_slice_plays v.intoVec) (frames := frames)
    (by rw [hv]; exact Script.ofList_startsWith _ _) (.inr fun e => nomatch e)
  refine ⟨v, s', h1, h3, ?_⟩
  rwa [hv, Script.ofList_drop _ _ _ (Nat.le_refl _), List.drop_length] at h4

theorem FixedInt.encodeAll_length {N : Nat} (i : FixedInt T N) (o : ByteOrder) (xs : List T) : (encodeAll (i.toBytes o) xs).length = N * xs.length := by
  induction xs with
  | nil => rfl
  | cons x xs ih =>
    have : encodeAll (i.toBytes o) (x :: xs) = i.toBytes o x ++ encodeAll (i.toBytes o) xs := by simp [encodeAll]
    rw [this, List.length_append, ih, List.length_cons, Nat.mul_add, FixedInt.toBytes_length]
    omega

/-- In particular for the integers. -/
theorem FixedInt.frames_round_trip {N : Nat} {i : FixedInt T N} (hi : i.Faithful) (hN : 0 < N) (o : ByteOrder) (frames : List (List T)) :
    ∃ v s', FramesWritten (i.codec o).encodable.toEncodable (IntoVec.consumer UInt8) IntoVec.new
        (frames.map fun xs => (N * xs.length, xs)) v ∧
      FramesRead (i.codec o).decodable.toDecodable (FromSlice.producer UInt8) (FromSlice.new v.intoVec)
        (frames.map fun xs => (N * xs.length, xs)) s' ∧
      BulkPlays (FromSlice.producer UInt8) s' (Script.ofList [] (.ok ())) := by
  have := Verif.frames_round_trip (t := (i.codec o).encodable.toEncodable) (d := (i.codec o).decodable.toDecodable) (i.encodesLaw o)
    (i.encode_client o) (i.decodesLaw o) (i.decode_client o) (by simp [FixedInt.grammar, hN]) (FixedInt.encoding_toBytes hi o) frames
  simpa only [FixedInt.encodeAll_length] using this

example : ∃ v s', FramesWritten U16LE.encodable.toEncodable (IntoVec.consumer UInt8) IntoVec.new [(4, [1, 2]), (0, []), (2, [3])] v ∧
    FramesRead U16LE.decodable.toDecodable (FromSlice.producer UInt8) (FromSlice.new v.intoVec) [(4, [1, 2]), (0, []), (2, [3])] s' ∧
    BulkPlays (FromSlice.producer UInt8) s' (Script.ofList [] (.ok ())) :=
  FixedInt.frames_round_trip u16_faithful (by decide) .little [[1, 2], [], [3]]

end

end Verif
