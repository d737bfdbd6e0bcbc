import Verif.Props.Frames

/-!
# C101: messages that begin with their length

A message consists of a header, which is decoded first and says how many bytes follow, and of these bytes, which are the encodings of some values. The header
is read with a `Decoder` around the producer itself, the rest with a `Decoder` around a `producer::Limit`, as in C99. Here the bytes need not be
what was agreed on: they may end within an encoding.
-/

namespace Verif

open Outcome

section

variable {σ T L R R' F E : Type}

/-! ## Frames that end within an encoding -/

/-- If decoding fails because the producer has ended, then what it has done to the producer is a history of allowed calls, the last of which got the final value. -/
def DecodeFn.ClientToTheEnd (decode : DecodeFn T R) : Prop :=
  ∀ {σ F E : Type} (P : BulkProducer σ UInt8 F E) (s s' : σ) (f : F), decode P s = ok (s', .error (.unexpectedEndOfInput f)) →
    ∃ handed shown, ProducerRuns P s handed s' shown (some (.ok f))

theorem bulk_overwrite_full_slice_client_end {P : BulkProducer σ UInt8 F E} {s s' : σ} {buf buf' : List UInt8} {f : F} {n : Nat}
    (h : bulkOverwriteFullSlice P s buf = ok (s', .error ⟨n, .inl f⟩, buf')) : ∃ handed shown, ProducerRuns P s handed s' shown (some (.ok f)) := by
  refine loop_keeps (fun st => ∃ handed shown, ProducerRuns P s handed st.1 shown none)
    (fun r => ∀ n f, r.2.1 = .error ⟨n, .inl f⟩ → ∃ handed shown, ProducerRuns P s handed r.1 shown (some (.ok f))) ?_ ?_ (s := (s, buf, 0))
    ⟨[], [], .start⟩ h n f rfl
  · rintro ⟨t, buf, n⟩ st ⟨handed, shown, hr⟩ hb
    simp only [bulkOverwriteFullSliceBody, bind_eq, pure_eq] at hb
    split at hb
    · rename_i hlt
      simp only [bind_eq_ok] at hb
      obtain ⟨⟨t1, r1, tail⟩, h1, hb⟩ := hb
      rcases r1 with e | (k | f) <;> cases hb
      exact ⟨_, _, hr.call (op := .bulkProduce (buf.drop n)) (r := ⟨tail.take k, [], none⟩)
        (by intro h0; have := congrArg List.length h0; simp at this; omega) (by simp [BulkProducer.call, h1])⟩
    · cases hb
  · rintro ⟨t, buf, n⟩ ⟨t', r, b⟩ ⟨handed, shown, hr⟩ hb
    simp only [bulkOverwriteFullSliceBody, bind_eq, pure_eq] at hb
    split at hb
    · simp only [bind_eq_ok] at hb
      obtain ⟨⟨t1, r1, tail⟩, h1, hb⟩ := hb
      rcases r1 with e | (k | f) <;> cases hb <;> intro m f' h0 <;> cases h0
      exact ⟨_, _, hr.call (op := .bulkProduce (buf.drop n)) (r := ⟨[], [], some (.ok f)⟩)
        (by intro h0; have := congrArg List.length h0; simp at this; omega) (by simp [BulkProducer.call, h1])⟩
    · cases hb
      intro m f' h0
      cases h0

theorem FixedInt.decode_client_end {N : Nat} (i : FixedInt T N) (o : ByteOrder) : DecodeFn.ClientToTheEnd (i.decode o) := by
  intro σ F E P s s' f h
  simp only [FixedInt.decode, bind_eq, pure_eq, bind_eq_ok] at h
  obtain ⟨⟨s1, r1, buf⟩, h1, h⟩ := h
  rcases r1 with ⟨n, f' | e⟩ | _ <;> cases h
  exact bulk_overwrite_full_slice_client_end h1

/-- **C101, a frame that ends within an encoding**: decoding fails, but all of the frame has been read and nothing after it. -/
theorem frame_truncated {d : Decodable T R} {g : Grammar T R} (hd : DecodesLaw d.decode g) (hc : DecodeFn.ClientToTheEnd d.decode)
    {P : BulkProducer σ UInt8 F E} {s : σ} {c : Script UInt8 F E} (hP : BulkPlays P s c) {part : List UInt8} (hne : part ≠ [])
    (hi : g.Incomplete part) (hs : c.StartsWith part) (hn : DecodeFn.IgnoresSlurp d.decode ∨ ∀ e, c part.length ≠ .error e) :
    ∃ t, (decoder d (limitBulkProducer P)).produce ⟨s, part.length⟩ = ok (t, .error (.unexpectedEndOfInput none)) ∧
      BulkPlays P t.intoInner (c.drop part.length) := by
  have hpos : part.length ≠ 0 := by simpa using hne
  obtain ⟨R', hR, k, hk⟩ := id hP
  obtain ⟨s1, ⟨xs, h1, h2, h3, h4⟩ | ⟨f, h1, -⟩ | ⟨e, h1, -⟩⟩ := hR.expose _ _ _ hk
  case inr.inl => obtain ⟨y, hy⟩ := hs.ne_nil_zero hne; rw [hy] at h1; cases h1
  case inr.inr => obtain ⟨y, hy⟩ := hs.ne_nil_zero hne; rw [hy] at h1; cases h1
  have hP1 : BulkPlays P s1 c := ⟨R', hR, _, h4⟩
  have key : ∀ {L : BulkProducer (LimitSt σ) UInt8 (Option F) E},
      BulkPlays L ⟨s1, part.length⟩ (Script.ofList part (.ok none)) →
      ∃ t handed shown, d.decode L ⟨s1, part.length⟩ = ok (t, .error (.unexpectedEndOfInput none)) ∧
        ProducerRuns L ⟨s1, part.length⟩ handed t shown (some (.ok none)) := by
    intro L hL
    obtain ⟨t, h5⟩ := hd.truncated hL (Script.ofList_startsWith _ _) hi (f := none) (by rw [Script.ofList_end]; rfl)
    obtain ⟨handed, shown, hr⟩ := hc _ _ _ _ h5
    exact ⟨t, handed, shown, h5, hr⟩
  have key2 : ∃ t handed shown, d.decode (limitBulkProducer P) ⟨s1, part.length⟩ = ok (t, .error (.unexpectedEndOfInput none)) ∧
      ProducerRuns (limitBulkProducer P) ⟨s1, part.length⟩ handed t shown (some (.ok none)) := by
    rcases hn with hn | hn
    · obtain ⟨t, handed, shown, h1, h2⟩ := key (L := (limitBulkProducer P).noSlurp) (by
        rw [← Script.limit_full hs]
        exact limit_bulk_plays_without_slurp hP1 _)
      obtain ⟨shown', h4, -⟩ := h2.of_noSlurp
      exact ⟨t, handed, shown', (hn _ _).symm.trans h1, h4⟩
    · exact key (by
        rw [← Script.limit_full hs]
        exact limit_bulk_plays_partial hP1 _ fun e he => absurd he (hn e))
  obtain ⟨t, handed, shown, h5, hr⟩ := key2
  obtain ⟨-, h9⟩ := limit_into_inner hP1 hr (.inr rfl)
  obtain ⟨_, _, _, _, h10, _⟩ := limit_histories (fun hr => hP1.never_empty hr) hr
  refine ⟨t, ?_, by rw [← h10.2]; exact h9⟩
  have hsl : slice xs 0 (min part.length xs.length) = ok (xs.take (min part.length xs.length)) := by
    simp [slice, Nat.min_le_right]
  show decoderProduce d.decode (limitBulkProducer P) _ = _
  have hex : (limitBulkProducer P).exposeItems ⟨s, part.length⟩ =
      ok (⟨s1, part.length⟩, .ok (.inl (xs.take (min part.length xs.length)))) := by
    simp only [limitBulkProducer, if_neg hpos, h3, bind_eq, bind_ok, hsl, pure_eq]
  simp only [decoderProduce, hex, bind_eq, bind_ok, h5, pure_eq]

theorem Case.u16_incomplete (o : ByteOrder) (b : UInt8) : (u16.grammar o).Incomplete [b] := (FixedInt.incomplete_iff u16 o _).mpr (by simp)

/-- Half a number in a frame of one byte; the next byte is 7. -/
example : ∃ t, (decoder U16BE.decodable.toDecodable (limitBulkProducer (FromSlice.producer UInt8))).produce ⟨FromSlice.new [9, 7], 1⟩ =
      ok (t, .error (.unexpectedEndOfInput none)) ∧
    BulkPlays (FromSlice.producer UInt8) t.intoInner ((Script.ofList [9, 7] (.ok ())).drop 1) :=
  frame_truncated (d := U16BE.decodable.toDecodable) (part := [9]) (u16.decodesLaw .big) (u16.decode_client_end .big) (from_slice_plays _) nofun
    (Case.u16_incomplete .big 9) (Script.ofList_startsWith_iff.mpr ⟨[7], rfl⟩) (.inl (u16.decode_ignores_slurp .big))

/-! ## Reading messages -/

/-- Read messages in turn: read a header with a `Decoder`; read as many bytes as it says with a `Decoder` around a `Limit`, until that emits its final value
`None` or fails for want of bytes; take the producer back and go on. Each message is given by its header, its values, and whether there was no such failure. -/
inductive MessagesRead (dh : Decodable L R') (size : L → Nat) (d : Decodable T R) (P : BulkProducer σ UInt8 F E) :
    σ → List (L × List T × Bool) → σ → Prop where
  | nil {s} : MessagesRead dh size d P s [] s
  | whole {s s₁ h xs t t' ms s'} : (decoder dh P).produce s = ok (s₁, .ok (.inl h)) →
      Emits (decoder d (limitBulkProducer P)).toProducer ⟨s₁, size h⟩ xs t →
      (decoder d (limitBulkProducer P)).produce t = ok (t', .ok (.inr none)) → MessagesRead dh size d P t'.intoInner ms s' →
      MessagesRead dh size d P s ((h, xs, true) :: ms) s'
  | broken {s s₁ h xs t t' ms s'} : (decoder dh P).produce s = ok (s₁, .ok (.inl h)) →
      Emits (decoder d (limitBulkProducer P)).toProducer ⟨s₁, size h⟩ xs t →
      (decoder d (limitBulkProducer P)).produce t = ok (t', .error (.unexpectedEndOfInput none)) → MessagesRead dh size d P t'.intoInner ms s' →
      MessagesRead dh size d P s ((h, xs, false) :: ms) s'

/-- A message: a header, values, and bytes that are not enough for a further value. -/
structure Message (L T : Type) where
  header : L
  values : List T
  excess : List UInt8

/-- What follows the header. -/
def Message.body (enc : T → List UInt8) (m : Message L T) : List UInt8 := encodeAll enc m.values ++ m.excess

def Message.bytes (ench : L → List UInt8) (enc : T → List UInt8) (m : Message L T) : List UInt8 := ench m.header ++ m.body enc

/-- The header says how many bytes follow it, and the bytes after the values are the beginning of an encoding (or none). -/
structure Message.Fits (size : L → Nat) (enc : T → List UInt8) (g : Grammar T R) (m : Message L T) : Prop where
  size : size m.header = (m.body enc).length
  excess : g.Incomplete m.excess

def messageBytes (ench : L → List UInt8) (enc : T → List UInt8) (ms : List (Message L T)) : List UInt8 := (ms.map (Message.bytes ench enc)).flatten

/-- **C101, reading messages.** Messages that follow each other directly are read one after the other, each with exactly its values. That a message
ends within an encoding is noticed, and does not affect the messages after it. -/
theorem messages_read {dh : Decodable L R'} {gh : Grammar L R'} (hdh : DecodesLaw dh.decode gh) (hgh : gh [] = .more) {ench : L → List UInt8}
    (hench : ∀ h, gh.Encoding (ench h) h) (size : L → Nat) {d : Decodable T R} {g : Grammar T R} (hd : DecodesLaw d.decode g)
    (hc : DecodeFn.Client d.decode) (hce : DecodeFn.ClientToTheEnd d.decode) (hg : g [] = .more) {enc : T → List UInt8}
    (henc : ∀ x, g.Encoding (enc x) x) {P : BulkProducer σ UInt8 F E} {ms : List (Message L T)} (hms : ∀ m ∈ ms, m.Fits size enc g) {s : σ}
    {c : Script UInt8 F E} (hP : BulkPlays P s c) (hs : c.StartsWith (messageBytes ench enc ms))
    (hn : DecodeFn.IgnoresSlurp d.decode ∨ ∀ e, c (messageBytes ench enc ms).length ≠ .error e) :
    ∃ s', MessagesRead dh size d P s (ms.map fun m => (m.header, m.values, m.excess.isEmpty)) s' ∧
      BulkPlays P s' (c.drop (messageBytes ench enc ms).length) := by
  induction ms generalizing s c with
  | nil => exact ⟨s, .nil, by simpa [messageBytes] using hP⟩
  | cons m ms ih =>
    obtain ⟨h, xs, part⟩ := m
    obtain ⟨hsize, hpart⟩ := hms _ List.mem_cons_self
    simp only [Message.body] at hsize hpart
    have e1 : messageBytes ench enc (⟨h, xs, part⟩ :: ms) = ench h ++ ((encodeAll enc xs ++ part) ++ messageBytes ench enc ms) := by
      simp [messageBytes, Message.bytes, Message.body]
    rw [e1] at hs hn ⊢
    obtain ⟨s1, h1, h2⟩ := decoderProduce_spec hdh hgh hP (.value hs.left (hench h))
    have hP1 := h2 h rfl
    have hs1 := hs.right
    have hn1 : DecodeFn.IgnoresSlurp d.decode ∨
        ∀ e, (c.drop (ench h).length) ((encodeAll enc xs ++ part) ++ messageBytes ench enc ms).length ≠ .error e := hn.imp_right fun hn e he =>
      hn e (by rw [List.length_append, ← he, Script.drop_apply])
    generalize hc' : c.drop (ench h).length = c' at hP1 hs1 hn1
    have hn2 : DecodeFn.IgnoresSlurp d.decode ∨ ∀ e, c' (encodeAll enc xs ++ part).length ≠ .error e := hn1.imp_right fun hn e he => by
      by_cases hr : messageBytes ench enc ms = []
      · rw [hr, List.append_nil] at hn
        exact hn e he
      · obtain ⟨y, hy⟩ := hs1.right.ne_nil_zero hr
        rw [Script.drop_apply, Nat.add_zero, he] at hy
        cases hy
    have e2 : ((xs.map fun x => (enc x, x)).map (·.1)).flatten = encodeAll enc xs := by simp only [encodeAll, List.map_map]; rfl
    have e3 : (xs.map fun x => (enc x, x)).map (·.2) = xs := by
      rw [List.map_map]; exact List.map_id xs
    obtain ⟨s2, h3, h4⟩ := frame_read hd hc hg (codes := xs.map fun x => (enc x, x)) (rest := part) (by
        intro p hp
        obtain ⟨x, -, rfl⟩ := List.mem_map.mp hp
        exact henc x) hP1 (by rw [e2]; exact hs1.left) (by rw [e2]; exact hn2)
    rw [e2, e3, ← hsize] at h3
    rw [e2] at h4
    have hnext : ∃ s3, BulkPlays P s3 (c'.drop (encodeAll enc xs ++ part).length) ∧
        ∀ {ms s'}, MessagesRead dh size d P s3 ms s' → MessagesRead dh size d P s ((h, xs, part.isEmpty) :: ms) s' := by
      cases part with
      | nil => exact ⟨s2, by simpa using h4, fun hm => .whole h1 h3 (frame_end P s2) hm⟩
      | cons b part =>
        obtain ⟨t, h5, h6⟩ := frame_truncated hd hce h4 (List.cons_ne_nil b part) hpart hs1.left.right (hn2.imp_right fun hn e he =>
          hn e (by rw [List.length_append, ← he, Script.drop_apply]))
        refine ⟨t.intoInner, ?_, fun hm => .broken h1 h3 h5 hm⟩
        rw [List.length_append, ← Script.drop_drop]
        exact h6
    obtain ⟨s3, h5, h6⟩ := hnext
    obtain ⟨s4, h7, h8⟩ := ih (fun m hm => hms m (List.mem_cons_of_mem _ hm)) h5 hs1.right (hn1.imp_right fun hn e he =>
      hn e (by rw [List.length_append, ← he, Script.drop_apply]))
    refine ⟨s4, h6 h7, ?_⟩
    rw [List.length_append, ← Script.drop_drop, hc', List.length_append, ← Script.drop_drop]
    exact h8

/-- A message of two numbers; one that has a byte too many; an empty one; and then the end. -/
example : ∃ s', MessagesRead U8BE.decodable.toDecodable UInt8.toNat U16BE.decodable.toDecodable (FromSlice.producer UInt8)
      (FromSlice.new [4, 0, 1, 0, 2, 3, 0, 3, 0, 0]) [(4, [1, 2], true), (3, [3], false), (0, [], true)] s' ∧
    BulkPlays (FromSlice.producer UInt8) s' ((Script.ofList [4, 0, 1, 0, 2, 3, 0, 3, 0, 0] (.ok ())).drop 10) := by
  have := messages_read (dh := U8BE.decodable.toDecodable) (ench := u8.toBytes .big) (u8.decodesLaw .big) (by simp [FixedInt.grammar])
    (FixedInt.encoding_toBytes u8_faithful .big) UInt8.toNat (d := U16BE.decodable.toDecodable) (enc := u16.toBytes .big) (u16.decodesLaw .big)
    (u16.decode_client .big) (u16.decode_client_end .big) (by simp [FixedInt.grammar]) (FixedInt.encoding_toBytes u16_faithful .big)
    (ms := [⟨4, [1, 2], []⟩, ⟨3, [3], [0]⟩, ⟨0, [], []⟩]) ?_ (from_slice_plays [4, 0, 1, 0, 2, 3, 0, 3, 0, 0])
    (Script.ofList_startsWith_iff.mpr ⟨[], by decide⟩) (.inl (u16.decode_ignores_slurp .big))
  · exact this
  · intro m hm
    simp only [List.mem_cons, List.not_mem_nil, or_false] at hm
    rcases hm with rfl | rfl | rfl
    · exact ⟨rfl, (FixedInt.incomplete_iff u16 .big _).mpr (by simp)⟩
    · exact ⟨rfl, Case.u16_incomplete .big 0⟩
    · exact ⟨rfl, (FixedInt.incomplete_iff u16 .big _).mpr (by simp)⟩

/-! ## Writing messages -/

/-- Write messages in turn: a header, and then the values, into a `Limit` for as many bytes as the header says. -/
inductive MessagesWritten (th : Encodable L) (size : L → Nat) (t : Encodable T) (C : BulkConsumer σ UInt8 F E) :
    σ → List (L × List T) → σ → Prop where
  | nil {s} : MessagesWritten th size t C s [] s
  | cons {s s₁ h xs u ms s'} : (encoder th C).consume s h = ok (s₁, .ok ()) →
      Consumes (encoder t (limitBulkConsumer C)).toConsumer ⟨s₁, size h⟩ xs u → MessagesWritten th size t C u.intoInner ms s' →
      MessagesWritten th size t C s ((h, xs) :: ms) s'

/-- **C101, writing messages.** The consumer gets the headers and values, one after the other and nothing else. -/
theorem messages_written {th : Encodable L} {ench : L → List UInt8} (heh : EncodesLaw th.encode ench) (size : L → Nat)
    {t : Encodable T} {enc : T → List UInt8} (he : EncodesLaw t.encode enc) (hc : EncodeFn.Client t.encode enc) {C : BulkConsumer σ UInt8 F E}
    {D : σ → List UInt8 → Option F → Prop} {q : Policy UInt8 F E} {ms : List (L × List T)}
    (hms : ∀ m ∈ ms, size m.1 = (encodeAll enc m.2).length) {s : σ} {l : List UInt8} (hC : BulkCollects C D q s l)
    (hq : q.Accepts l (messageBytes ench enc (ms.map fun m => ⟨m.1, m.2, []⟩))) :
    ∃ s', MessagesWritten th size t C s ms s' ∧ BulkCollects C D q s' (l ++ messageBytes ench enc (ms.map fun m => ⟨m.1, m.2, []⟩)) := by
  induction ms generalizing s l with
  | nil => exact ⟨s, .nil, by simpa [messageBytes] using hC⟩
  | cons m ms ih =>
    obtain ⟨h, xs⟩ := m
    have hsize := hms _ List.mem_cons_self
    simp only at hsize
    have e1 : messageBytes ench enc (((h, xs) :: ms).map fun m => (⟨m.1, m.2, []⟩ : Message L T)) =
        ench h ++ (encodeAll enc xs ++ messageBytes ench enc (ms.map fun m => ⟨m.1, m.2, []⟩)) := by
      simp [messageBytes, Message.bytes, Message.body]
    rw [e1] at hq ⊢
    obtain ⟨hq1, hq2⟩ := Policy.accepts_append.mp hq
    obtain ⟨hq2, hq3⟩ := Policy.accepts_append.mp hq2
    obtain ⟨s1, h1, h2⟩ := heh.accepted h hC hq1
    obtain ⟨s2, h3, h4⟩ := frame_written he hc h2 hq2 0
    rw [Nat.add_zero, ← hsize] at h3
    obtain ⟨s3, h5, h6⟩ := ih (fun m hm => hms m (List.mem_cons_of_mem _ hm)) h4 hq3
    exact ⟨s3, .cons h1 h3 h5, by simpa only [List.append_assoc] using h6⟩

/-- The consumer takes nine bytes. -/
example : ∃ s', MessagesWritten U8BE.encodable.toEncodable UInt8.toNat U16BE.encodable.toEncodable Case.sink (Case.upTo 9)
      [(4, [1, 2]), (0, []), (2, [3])] s' ∧
    BulkCollects Case.sink TestConsumer.Seen (Policy.failAfter 9 "full") s' [4, 0, 1, 0, 2, 0, 2, 0, 3] :=
  messages_written (th := U8BE.encodable.toEncodable) (ench := u8.toBytes .big) (u8.encodesLaw .big) UInt8.toNat
    (t := U16BE.encodable.toEncodable) (enc := u16.toBytes .big) (u16.encodesLaw .big) (u16.encode_client .big) (ms := [(4, [1, 2]), (0, []), (2, [3])])
    (by decide) (Case.upTo_collects 9) (Policy.failAfter_accepts (by decide))

/-- **C101, there and back again**: messages written to a vector are read back, all of them whole, and then the reader of headers sees the end. -/
theorem messages_round_trip {th : Encodable L} {dh : Decodable L R'} {ench : L → List UInt8} (heh : EncodesLaw th.encode ench) {gh : Grammar L R'}
    (hdh : DecodesLaw dh.decode gh) (hgh : gh [] = .more) (hench : ∀ h, gh.Encoding (ench h) h) (size : L → Nat)
    {t : Encodable T} {enc : T → List UInt8} (he : EncodesLaw t.encode enc) (hw : EncodeFn.Client t.encode enc)
    {d : Decodable T R} {g : Grammar T R} (hd : DecodesLaw d.decode g) (hc : DecodeFn.Client d.decode) (hce : DecodeFn.ClientToTheEnd d.decode)
    (hg : g [] = .more) (henc : ∀ x, g.Encoding (enc x) x) {ms : List (L × List T)} (hms : ∀ m ∈ ms, size m.1 = (encodeAll enc m.2).length) :
    ∃ v s' s'', MessagesWritten th size t (IntoVec.consumer UInt8) IntoVec.new ms v ∧
      MessagesRead dh size d (FromSlice.producer UInt8) (FromSlice.new v.intoVec) (ms.map fun m => (m.1, m.2, true)) s' ∧
      (decoder dh (FromSlice.producer UInt8)).produce s' = ok (s'', .ok (.inr ())) := by
  obtain ⟨v, h1, h2⟩ := messages_written heh size he hw hms into_vec_new_collects Policy.accepts_acceptAll
  have hv := into_vec_open h2.toBulkDefers
  rw [List.nil_append] at hv
  obtain ⟨s', h3, h4⟩ := messages_read hdh hgh hench size hd hc hce hg henc (ms := ms.map fun m => ⟨m.1, m.2, []⟩)
    (by
      intro m hm
      obtain ⟨m, hm', rfl⟩ := List.mem_map.mp hm
      exact ⟨by simpa [Message.body] using hms m hm', fun k hk => absurd hk (Nat.not_lt_zero _), hg⟩)
    (from_slice_plays v.intoVec) (by rw [hv]; exact Script.ofList_startsWith _ _) (.inr fun e => nomatch e)
  rw [hv, Script.ofList_drop _ _ _ (Nat.le_refl _), List.drop_length] at h4
  rw [List.map_map] at h3
  obtain ⟨s'', h5, -⟩ := decoderProduce_spec hdh hgh h4 (k := 0) (.final rfl)
  exact ⟨v, s', s'', h1, h3, h5⟩

/-- **C101, integers.** Messages of integers with `N` bytes each, after headers that are unsigned numbers with `M` bytes, are read back if their lengths can be
written with `M` bytes. -/
theorem FixedInt.messages_round_trip {M N : Nat} {ih : FixedInt L M} (hih : ih.Faithful) (hM : 0 < M) (oh : ByteOrder)
    {i : FixedInt T N} (hi : i.Faithful) (hN : 0 < N) (o : ByteOrder) {ms : List (List T)} (hms : ∀ xs ∈ ms, N * xs.length < 2 ^ (8 * M)) :
    let ms' := ms.map fun xs => (ih.ofBits (BitVec.ofNat (8 * M) (N * xs.length)), xs)
    let size h := (ih.toBits h).toNat
    ∃ v s' s'', MessagesWritten (ih.codec oh).encodable.toEncodable size (i.codec o).encodable.toEncodable (IntoVec.consumer UInt8) IntoVec.new ms' v ∧
      MessagesRead (ih.codec oh).decodable.toDecodable size (i.codec o).decodable.toDecodable (FromSlice.producer UInt8) (FromSlice.new v.intoVec)
        (ms'.map fun m => (m.1, m.2, true)) s' ∧
      (decoder (ih.codec oh).decodable.toDecodable (FromSlice.producer UInt8)).produce s' = ok (s'', .ok (.inr ())) := by
  intro ms' size
  refine Verif.messages_round_trip (th := (ih.codec oh).encodable.toEncodable) (dh := (ih.codec oh).decodable.toDecodable)
    (t := (i.codec o).encodable.toEncodable) (d := (i.codec o).decodable.toDecodable) (ih.encodesLaw oh) (ih.decodesLaw oh)
    (by simp [FixedInt.grammar, hM]) (FixedInt.encoding_toBytes hih oh) size (i.encodesLaw o) (i.encode_client o) (i.decodesLaw o) (i.decode_client o)
    (i.decode_client_end o) (by simp [FixedInt.grammar, hN]) (FixedInt.encoding_toBytes hi o) ?_
  intro m hm
  obtain ⟨xs, hxs, rfl⟩ := List.mem_map.mp hm
  show (ih.toBits (ih.ofBits _)).toNat = _
  rw [hih.toBits_ofBits, BitVec.toNat_ofNat, Nat.mod_eq_of_lt (hms xs hxs), FixedInt.encodeAll_length]

example : ∃ v s' s'', MessagesWritten U16BE.encodable.toEncodable UInt16.toNat U16LE.encodable.toEncodable (IntoVec.consumer UInt8) IntoVec.new
      [(4, [1, 2]), (0, []), (2, [3])] v ∧
    MessagesRead U16BE.decodable.toDecodable UInt16.toNat U16LE.decodable.toDecodable (FromSlice.producer UInt8) (FromSlice.new v.intoVec)
      [(4, [1, 2], true), (0, [], true), (2, [3], true)] s' ∧
    (decoder U16BE.decodable.toDecodable (FromSlice.producer UInt8)).produce s' = ok (s'', .ok (.inr ())) :=
  FixedInt.messages_round_trip u16_faithful (by decide) .big u16_faithful (by decide) .little (ms := [[1, 2], [], [3]]) (by simp)

end

end Verif
