import Verif.Props.Codec
import Verif.Props.PipeDefers
import Verif.Props.Slices

/-!
# C81: values written to a file and read back

A sequence of values is piped into an `Encoder` around a `WriterToBulkConsumer`; later, the bytes that have been written are
read by a `Decoder` around a `ReaderToBulkProducer` or `BufReaderToBulkProducer`. The writer may fail at any time, so that the file may
end anywhere.
-/

namespace Verif

open Outcome

section

variable {σ τ T R F E E₁ E₂ : Type}

/-! ## Writing -/

/-- What may come out when the sequence `c` is piped into an `Encoder` around a consumer of bytes to which `l` has been passed, and which
fails only as described by `X`. In every case, what the consumer of bytes has done is told by `D`, or by `Open`, if it can be used on. -/
inductive EncodedPipe (c : Script T F E₁) (X : Faults UInt8 F E₂) (enc : T → List UInt8) (l : List UInt8) (Open : τ → List UInt8 → Prop)
    (D : τ → List UInt8 → Option F → Prop) : τ → Except (PipeError E₁ E₂) Unit → Prop where
  | closed {t' xs f} : c.StartsWith xs → c xs.length = .ok (.inr f) → D t' (l ++ encodeAll enc xs) (some f) →
      EncodedPipe c X enc l Open D t' (.ok ())
  | producerFailed {t' xs e} : c.StartsWith xs → c xs.length = .error e → Open t' (l ++ encodeAll enc xs) →
      EncodedPipe c X enc l Open D t' (.error (.producer e))
  | itemFailed {t' xs d e} : xs ≠ [] → c.StartsWith xs → X.during (l ++ encodeAll enc xs) d e → D t' d none →
      EncodedPipe c X enc l Open D t' (.error (.consumer e))
  | closeFailed {t' xs f d e} : c.StartsWith xs → c xs.length = .ok (.inr f) → X.closing (l ++ encodeAll enc xs) f d e →
      D t' d none → EncodedPipe c X enc l Open D t' (.error (.consumer e))

/-- **C81**: piping into an `Encoder` around any consumer of bytes that may keep bytes back. -/
theorem encoder_pipe {t : Encodable T} {enc : T → List UInt8} (he : EncodesLaw t.encode enc) {P : Producer σ T F E₁}
    {C : BulkConsumer τ UInt8 F E₂} {D : τ → List UInt8 → Option F → Prop} {c : Script T F E₁} {X : Faults UInt8 F E₂}
    (hX : X.Regular) {s : σ} {u : τ} {l : List UInt8} (hP : Plays P s c) (hC : BulkDefers C D X u l) :
    (∃ s' u' res, pipe P (encoder t C).toConsumer s u = ok ((s', u'), res) ∧ EncodedPipe c X enc l (BulkDefers C D X) D u' res) ∨
    (pipe P (encoder t C).toConsumer s u = .diverge ∧ ∀ n, ∃ xs, xs.length = n ∧ c.StartsWith xs) := by
  have := loop_or_forever (body := pipeBody P (encoder t C).toConsumer)
    (fun xs st => c.StartsWith xs ∧ Plays P st.1 (c.drop xs.length) ∧ BulkDefers C D X st.2 (l ++ encodeAll enc xs))
    (fun r => EncodedPipe c X enc l (BulkDefers C D X) D r.1.2 r.2) ?_ (xs := []) (s := (s, u))
    ⟨by simp, by simpa using hP, by simpa [encodeAll] using hC⟩
  · rcases this with ⟨⟨⟨s', t'⟩, res⟩, h1, h2⟩ | ⟨h1, h2⟩
    · exact .inl ⟨s', t', res, h1, h2⟩
    · refine .inr ⟨h1, Script.exact_prefixes fun n => ?_⟩
      obtain ⟨ys, _, h3, h4, _⟩ := h2 n
      exact ⟨ys, h3, h4⟩
  · rintro xs ⟨s, u⟩ ⟨hsw, hP, hC⟩
    obtain ⟨s1, hs1, hP1⟩ := hP.step
    simp only [Script.drop_apply, Nat.add_zero] at hs1 hP1
    rcases hc : c xs.length with e | x | f
    · exact .inl ⟨((s1, u), .error (.producer e)), by simp [pipeBody, hs1, hc], .producerFailed hsw hc hC⟩
    · obtain ⟨u1, ⟨h1, h2⟩ | ⟨e, d, h1, h2, h3⟩⟩ := he.deferred x hX hC
      · have h1' : (encoder t C).consume u x = ok (u1, .ok ()) := h1
        refine .inr ⟨[x], (s1, u1), by simp, by simp [pipeBody, hs1, hc, h1'], hsw.snoc hc, ?_, ?_⟩
        · have := hP1 x hc
          rw [Script.drop_drop] at this
          simpa using this
        · simpa [encodeAll_concat] using h2
      · have h1' : (encoder t C).consume u x = ok (u1, .error e) := h1
        exact .inl ⟨((s1, u1), .error (.consumer e)), by simp [pipeBody, hs1, hc, h1'],
          .itemFailed (xs := xs ++ [x]) (by simp) (hsw.snoc hc) (by simpa [encodeAll_concat] using h2) h3⟩
    · obtain ⟨u1, ⟨h1, h2⟩ | ⟨e, d, h1, h2, h3⟩⟩ := hC.toDefers.close f
      · have h1' : (encoder t C).close u f = ok (u1, .ok ()) := h1
        exact .inl ⟨((s1, u1), .ok ()), by simp [pipeBody, hs1, hc, h1'], .closed hsw hc h2⟩
      · have h1' : (encoder t C).close u f = ok (u1, .error e) := h1
        exact .inl ⟨((s1, u1), .error (.consumer e)), by simp [pipeBody, hs1, hc, h1'], .closeFailed hsw hc h2 h3⟩

/-- Three numbers, but room for five bytes only. -/
example : ∃ s' u' res, pipe (FromSlice.producer UInt16).toProducer (encoder U16BE.encodable.toEncodable Case.sink).toConsumer
      (FromSlice.new [1, 2, 3]) (Case.upTo 5) = ok ((s', u'), res) ∧
    EncodedPipe (Script.ofList [1, 2, 3] (.ok ())) (Policy.failAfter 5 "full").faults (u16.toBytes .big) []
      (BulkDefers Case.sink TestConsumer.Seen (Policy.failAfter 5 "full").faults) TestConsumer.Seen u' res := by
  rcases encoder_pipe (t := U16BE.encodable.toEncodable) (u16.encodesLaw .big) (Policy.regular_faults _)
    (from_slice_plays [1, 2, 3]).toPlays (Case.upTo_collects 5).toBulkDefers with h | ⟨_, h⟩
  · exact h
  · obtain ⟨xs, h1, h2⟩ := h 4
    obtain ⟨x, hx⟩ : ∃ x, xs[3]? = some x := ⟨xs[3], List.getElem?_eq_getElem (by omega)⟩
    nomatch h2 3 x hx

/-- What a finite sequence starts with are its beginnings. -/
theorem Script.ofList_startsWith_iff {xs ys : List T} {last : Except E F} :
    (Script.ofList xs last).StartsWith ys ↔ ys <+: xs := by
  refine ⟨fun h => ?_, fun ⟨zs, h⟩ => h ▸ (Script.ofList_startsWith _ _).left⟩
  rw [List.prefix_iff_getElem?]
  intro i hi
  have h1 := h i _ (List.getElem?_eq_getElem hi)
  simp only [Script.ofList] at h1
  split at h1
  · next h2 => cases h1; exact h2
  · cases last <;> cases h1

theorem Script.ofList_final {xs ys : List T} {f f' : F} (h : (Script.ofList xs (.ok f) : Script T F E).StartsWith ys)
    (he : (Script.ofList xs (.ok f) : Script T F E) ys.length = .ok (.inr f')) : ys = xs ∧ f' = f := by
  obtain ⟨zs, rfl⟩ := Script.ofList_startsWith_iff.mp h
  cases zs with
  | nil =>
    rw [List.append_nil] at he ⊢
    rw [Script.ofList_end] at he
    cases he
    exact ⟨rfl, rfl⟩
  | cons z zs => simp [Script.ofList] at he

theorem Script.not_endless {xs : List T} {last : Except E F} (h : ∀ n, ∃ ys, ys.length = n ∧ (Script.ofList xs last).StartsWith ys) :
    False := by
  obtain ⟨ys, h1, h2⟩ := h (xs.length + 1)
  have := (Script.ofList_startsWith_iff.mp h2).length_le
  omega

theorem encodeAll_prefix {enc : T → List UInt8} {xs ys : List T} (h : ys <+: xs) : encodeAll enc ys <+: encodeAll enc xs := by
  obtain ⟨zs, rfl⟩ := h
  rw [encodeAll_append]
  exact List.prefix_append _ _

/-- **C81, writing.** Values are piped into an `Encoder` around a `WriterToBulkConsumer`, with whatever queue and whatever amounts the
writer accepts at once. Either this succeeds and exactly the encodings of all values have been written, and the writer has been
closed; or the writer has failed, and what was written before is a beginning of those encodings. -/
theorem file_written {t : Encodable T} {enc : T → List UInt8} (he : EncodesLaw t.encode enc) {P : Producer σ T Unit E₁} {s : σ}
    {xs : List T} (hP : Plays P s (Script.ofList xs (.ok ()))) {ω κ : Type} {W : AsyncWrite ω} {D : ω → List UInt8 → Option Unit → Prop}
    {X : WriterFaults} {w : ω} (hw : Writes W D X w []) {Q : Queue κ UInt8} {cap : Nat}
    {RQ : κ → List UInt8 → List UInt8 → Nat → Prop} (hQ : FifoLaw Q cap RQ) (hcap : 0 < cap) {q : κ} (hq : RQ q [] [] 0) :
    ∃ s' w' q' res, pipe P (encoder t (writerConsumer W Q)).toConsumer s ⟨w, q⟩ = ok ((s', ⟨w', q'⟩), res) ∧
      ((res = .ok () ∧ D w' (encodeAll enc xs) (some ())) ∨
       ∃ e d, res = .error (.consumer e) ∧ d <+: encodeAll enc xs ∧ D w' d none ∧
        (X.writing d e ∨ X.flush d e ∨ d = encodeAll enc xs ∧ X.close d e)) := by
  rcases encoder_pipe he X.regular hP (writer_defers hw hQ hcap hq) with ⟨s', ⟨w', q'⟩, res, h1, h2⟩ | ⟨_, h⟩
  · refine ⟨s', w', q', res, h1, ?_⟩
    cases h2 with
    | closed h3 h4 h5 =>
      obtain ⟨rfl, rfl⟩ := Script.ofList_final h3 h4
      exact .inl ⟨rfl, h5⟩
    | @producerFailed ys e h3 h4 h5 =>
      simp only [Script.ofList] at h4
      split at h4 <;> cases h4
    | @itemFailed ys d e h3 h4 h5 h6 =>
      refine .inr ⟨e, d, rfl, h5.1.trans (encodeAll_prefix (Script.ofList_startsWith_iff.mp h4)), h6, ?_⟩
      rcases h5.2 with h | h
      · exact .inl h
      · exact .inr (.inl h)
    | @closeFailed ys f d e h3 h4 h5 h6 =>
      obtain ⟨rfl, rfl⟩ := Script.ofList_final h3 h4
      refine .inr ⟨e, d, rfl, h5.1, h6, ?_⟩
      rcases h5.2 with h | h | ⟨h, h'⟩
      · exact .inl h
      · exact .inr (.inl h)
      · have h : d = encodeAll enc ys := h
        exact .inr (.inr ⟨h, h ▸ h'⟩)
  · exact (Script.not_endless h).elim

/-- Two numbers into a file that takes at most three bytes. -/
example : ∃ s' w' q' res, pipe (FromSlice.producer UInt16).toProducer
      (encoder U16BE.encodable.toEncodable (writerConsumer (chunkWriter 1 3 ⟨.other 3, none⟩) (Static.queue UInt8 2))).toConsumer
      (FromSlice.new [0x0102, 0x0304]) ⟨([], none), Static.new 2 fun _ => 0⟩ = ok ((s', ⟨w', q'⟩), res) ∧
    ((res = .ok () ∧ w' = ([1, 2, 3, 4], some ())) ∨
      ∃ e d, res = .error (.consumer e) ∧ d <+: [1, 2, 3, 4] ∧ w' = (d, none) ∧ 3 ≤ d.length ∧ e = ⟨.other 3, none⟩) := by
  obtain ⟨s', w', q', res, h1, h2⟩ := file_written (t := U16BE.encodable.toEncodable) (u16.encodesLaw .big)
    (from_slice_plays [0x0102, 0x0304]).toPlays ⟨_, chunkWriter_writes 1 3 ⟨.other 3, none⟩, rfl⟩ (Static.fifoLaw UInt8 2)
    (by decide) (Static.holds_new 2 fun _ => 0)
  refine ⟨s', w', q', res, h1, ?_⟩
  rcases h2 with h | ⟨e, d, h3, h4, h5, (h6 | ⟨h, _⟩) | h | ⟨_, h⟩⟩
  · exact .inl h
  · exact .inr ⟨e, d, h3, h4, h5, h6⟩
  · exact h.elim
  · exact h.elim
  · exact h.elim

/-! ## Reading -/

/-- A file that was to contain `xs` ends after the encodings of `ys` and then `part`, a part (if not empty) of the next encoding. -/
structure CutAfter (enc : T → List UInt8) (xs ys : List T) (part : List UInt8) : Prop where
  isPrefix : ys <+: xs
  next : part = [] ∨ ∃ y, ys ++ [y] <+: xs ∧ part <+: enc y ∧ part.length < (enc y).length

theorem prefix_cut {enc : T → List UInt8} {xs : List T} {bytes : List UInt8} (h : bytes <+: encodeAll enc xs) :
    ∃ ys part, bytes = encodeAll enc ys ++ part ∧ CutAfter enc xs ys part := by
  obtain ⟨ys, h1, h2 | ⟨y, k, hk, h3, h2⟩⟩ := prefix_encodeAll h
  · exact ⟨ys, [], by simpa using h2, h1, .inl rfl⟩
  · exact ⟨ys, _, h2, h1, .inr ⟨y, h3, List.take_prefix _ _, by simp; omega⟩⟩

theorem CutAfter.whole {enc : T → List UInt8} (hne : ∀ x, enc x ≠ []) {xs ys : List T} {part : List UInt8}
    (h : CutAfter enc xs ys part) (he : encodeAll enc xs = encodeAll enc ys ++ part) : ys = xs ∧ part = [] := by
  obtain ⟨zs, rfl⟩ := h.isPrefix
  rw [encodeAll_append] at he
  have he := List.append_cancel_left he
  cases zs with
  | nil => simpa [encodeAll] using he.symm
  | cons z zs =>
    rw [encodeAll_cons] at he
    have hz := List.length_pos_iff.mpr (hne z)
    rcases h.next with h | ⟨y, h1, h2, h3⟩
    · exact absurd (List.append_eq_nil_iff.mp (he.trans h)).1 (hne z)
    · obtain ⟨us, h1⟩ := h1
      rw [List.append_assoc, List.append_cancel_left_eq] at h1
      cases h1
      have := congrArg List.length he
      simp at this
      omega

/-- **C81, reading.** Whatever is left of the encodings of `xs`, a `Decoder` emits only values of `xs`, in order and from the first
one on: all that are complete. Then it ends, with an error if something is left over. If nothing is missing, it emits `xs`. -/
theorem file_read {d : Decodable T R} {g : Grammar T R} (hd : DecodesLaw d.decode g) (hg : g [] = .more) {enc : T → List UInt8}
    (hinv : ∀ x, g.Encoding (enc x) x) {xs : List T} {bytes : List UInt8} (hb : bytes <+: encodeAll enc xs)
    {P : BulkProducer σ UInt8 F E} {s : σ} {last : Except E F} (h : BulkPlays P s (Script.ofList bytes last)) :
    ∃ ys part, bytes = encodeAll enc ys ++ part ∧ CutAfter enc xs ys part ∧
      BufPlays (decoder d P) s (Script.ofList ys (endInside R part last)) ∧ (bytes = encodeAll enc xs → ys = xs ∧ part = []) := by
  have hne : ∀ x, enc x ≠ [] := fun x hx => by
    have := (hinv x).2
    rw [hx, hg] at this
    cases this
  obtain ⟨ys, part, rfl, hcut⟩ := prefix_cut hb
  refine ⟨ys, part, rfl, hcut, decoder_ends hd hg hinv ?_ h, fun hw => hcut.whole hne hw.symm⟩
  rcases hcut.next with h | ⟨y, _, h1, h2⟩
  · exact .inl h
  · exact .inr ⟨y, h2, h1⟩

/-- A file that ends inside the second number. -/
example : ∃ ys part, [1, 2, 3] = encodeAll (u16.toBytes .big) ys ++ part ∧ CutAfter (u16.toBytes .big) [0x0102, 0x0304] ys part ∧
    BufPlays (decoder U16BE.decodable.toDecodable Case.bytes) (Case.from_ [1, 2, 3] (.ok 5))
      (Script.ofList ys (endInside Empty part (.ok 5))) ∧
    ([1, 2, 3] = encodeAll (u16.toBytes .big) [0x0102, 0x0304] → ys = [0x0102, 0x0304] ∧ part = []) :=
  file_read (d := U16BE.decodable.toDecodable) (u16.decodesLaw .big) (by simp [FixedInt.grammar]) Case.u16_encoding
    (show [1, 2, 3] <+: encodeAll (u16.toBytes .big) [0x0102, 0x0304] from ⟨[4], by decide⟩) (Case.from_plays _ _)

/-- **C81, reading**, with a `CanonicDecoder`. -/
theorem file_read_canonic {RC : Type} {d : DecodableCanonic T R RC} {g : Grammar T RC} (hd : DecodesLaw d.decodeCanonic g)
    (hg : g [] = .more) {enc : T → List UInt8} (hinv : ∀ x, g.Encoding (enc x) x) {xs : List T} {bytes : List UInt8}
    (hb : bytes <+: encodeAll enc xs) {P : BulkProducer σ UInt8 F E} {s : σ} {last : Except E F}
    (h : BulkPlays P s (Script.ofList bytes last)) :
    ∃ ys part, bytes = encodeAll enc ys ++ part ∧ CutAfter enc xs ys part ∧
      BufPlays (canonicDecoder d P) s (Script.ofList ys (endInside RC part last)) ∧
      (bytes = encodeAll enc xs → ys = xs ∧ part = []) :=
  file_read (d := ⟨d.decodeCanonic⟩) hd hg hinv hb h

example : ∃ ys part, [1, 0] = encodeAll (fun x => [Case.flagCode x]) ys ++ part ∧
    CutAfter (fun x => [Case.flagCode x]) [true, false, true] ys part ∧
    BufPlays (canonicDecoder Case.flagDecodable Case.bytes) (Case.from_ [1, 0] (.error "broken"))
      (Script.ofList ys (endInside UInt8 part (.error "broken"))) ∧
    ([1, 0] = encodeAll (fun x => [Case.flagCode x]) [true, false, true] → ys = [true, false, true] ∧ part = []) :=
  file_read_canonic Case.flag_decodes_canonic rfl Case.flag_encoding_canonic
    (show [1, 0] <+: encodeAll (fun x => [Case.flagCode x]) [true, false, true] from ⟨[1], rfl⟩) (Case.from_plays _ _)

/-! ## Both -/

theorem BufReads.toReads {ρ : Type} {Rd : AsyncBufRead ρ} {r : ρ} {c : Script UInt8 Unit IoError} (h : BufReads Rd r c) :
    Reads Rd.toAsyncRead r c := by
  obtain ⟨_, hR, hr⟩ := h
  exact ⟨_, hR.read, hr⟩

/-- The file of the examples: what has been written to a `chunkWriter` is read by a `chunkReader`. -/
theorem Case.file_reads (w : List UInt8 × Option Unit) (bytes : List UInt8) (closed : Option Unit) (h : w = (bytes, closed)) :
    BufReads (chunkReader 1 (.ok ())) w.1 (Script.ofList bytes (.ok ())) :=
  ⟨_, chunkReader_reads 1 (.ok ()), 0, by rw [h], by simp⟩

/-- **C81.** Values are piped into an `Encoder` around a `WriterToBulkConsumer`, and then the file is read by a `Decoder` around a
`ReaderToBulkProducer`. Here `load w` is the reader of what has been written to `w`, whether it has been closed or not. The decoder
emits `xs` and then the end if the pipe has succeeded; in any case, it emits the first of the values, and then the end, or an error if
the last one is incomplete. -/
theorem file_round_trip {t : Encodable T} {d : Decodable T R} {enc : T → List UInt8} {g : Grammar T R} (he : EncodesLaw t.encode enc)
    (hd : DecodesLaw d.decode g) (hinv : ∀ x, g.Encoding (enc x) x) (hg : g [] = .more)
    {P : Producer σ T Unit E₁} {s : σ} {xs : List T} (hP : Plays P s (Script.ofList xs (.ok ()))) {ω κ ρ κ' : Type} {W : AsyncWrite ω}
    {D : ω → List UInt8 → Option Unit → Prop} {X : WriterFaults} {w : ω} (hw : Writes W D X w []) {Q : Queue κ UInt8} {cap : Nat}
    {RQ : κ → List UInt8 → List UInt8 → Nat → Prop} (hQ : FifoLaw Q cap RQ) (hcap : 0 < cap) {q : κ} (hq : RQ q [] [] 0)
    {Rd : AsyncRead ρ} {load : ω → ρ} (hload : ∀ w bytes closed, D w bytes closed → Reads Rd (load w) (Script.ofList bytes (.ok ())))
    {Q' : Queue κ' UInt8} {cap' : Nat} {RQ' : κ' → List UInt8 → List UInt8 → Nat → Prop} (hQ' : FifoLaw Q' cap' RQ')
    (hcap' : 0 < cap') {q₂ : κ'} (hq₂ : RQ' q₂ [] [] 0) :
    ∃ s' w' q' res, pipe P (encoder t (writerConsumer W Q)).toConsumer s ⟨w, q⟩ = ok ((s', ⟨w', q'⟩), res) ∧
      ∃ ys part, CutAfter enc xs ys part ∧ (res = .ok () → ys = xs ∧ part = []) ∧
        BufPlays (decoder d (readerProducer Rd Q')) ⟨load w', q₂⟩ (Script.ofList ys (endInside R part (.ok ()))) := by
  obtain ⟨s', w', q', res, h1, h2⟩ := file_written he hP hw hQ hcap hq
  refine ⟨s', w', q', res, h1, ?_⟩
  rcases h2 with ⟨rfl, h3⟩ | ⟨e, bytes, rfl, h3, h4, _⟩
  · obtain ⟨ys, part, _, h5, h6, h7⟩ := file_read hd hg hinv List.prefix_rfl
      (reader_plays (hload _ _ _ h3) (ofList_noUnexpectedEof _) hQ' hcap' hq₂)
    exact ⟨ys, part, h5, fun _ => h7 rfl, h6⟩
  · obtain ⟨ys, part, _, h5, h6, _⟩ := file_read hd hg hinv h3
      (reader_plays (hload _ _ _ h4) (ofList_noUnexpectedEof _) hQ' hcap' hq₂)
    exact ⟨ys, part, h5, nofun, h6⟩

example : ∃ s' w' q' res, pipe (FromSlice.producer UInt16).toProducer
      (encoder U16BE.encodable.toEncodable (writerConsumer (chunkWriter 1 3 ⟨.other 3, none⟩) (Static.queue UInt8 2))).toConsumer
      (FromSlice.new [0x0102, 0x0304]) ⟨([], none), Static.new 2 fun _ => 0⟩ = ok ((s', ⟨w', q'⟩), res) ∧
    ∃ ys part, CutAfter (u16.toBytes .big) [0x0102, 0x0304] ys part ∧ (res = .ok () → ys = [0x0102, 0x0304] ∧ part = []) ∧
      BufPlays (decoder U16BE.decodable.toDecodable (readerProducer (chunkReader 1 (.ok ())).toAsyncRead (Fixed.queue UInt8)))
        ⟨w'.1, Fixed.new 3 fun _ => 0⟩ (Script.ofList ys (endInside Empty part (.ok ()))) :=
  file_round_trip (t := U16BE.encodable.toEncodable) (d := U16BE.decodable.toDecodable) (u16.encodesLaw .big) (u16.decodesLaw .big)
    Case.u16_encoding (by simp [FixedInt.grammar]) (from_slice_plays [0x0102, 0x0304]).toPlays
    ⟨_, chunkWriter_writes 1 3 ⟨.other 3, none⟩, rfl⟩ (Static.fifoLaw UInt8 2) (by decide) (Static.holds_new 2 fun _ => 0)
    (load := Prod.fst) (fun w bytes closed h => (Case.file_reads w bytes closed h).toReads) (Fixed.fifoLaw UInt8 3) (by decide)
    (Fixed.holds_new 3 fun _ => 0)

/-- **C81**, with a `BufReaderToBulkProducer`. -/
theorem file_buf_round_trip {t : Encodable T} {d : Decodable T R} {enc : T → List UInt8} {g : Grammar T R}
    (he : EncodesLaw t.encode enc) (hd : DecodesLaw d.decode g) (hinv : ∀ x, g.Encoding (enc x) x) (hg : g [] = .more)
    {P : Producer σ T Unit E₁} {s : σ} {xs : List T} (hP : Plays P s (Script.ofList xs (.ok ()))) {ω κ ρ : Type} {W : AsyncWrite ω}
    {D : ω → List UInt8 → Option Unit → Prop} {X : WriterFaults} {w : ω} (hw : Writes W D X w []) {Q : Queue κ UInt8} {cap : Nat}
    {RQ : κ → List UInt8 → List UInt8 → Nat → Prop} (hQ : FifoLaw Q cap RQ) (hcap : 0 < cap) {q : κ} (hq : RQ q [] [] 0)
    {Rd : AsyncBufRead ρ} {load : ω → ρ}
    (hload : ∀ w bytes closed, D w bytes closed → BufReads Rd (load w) (Script.ofList bytes (.ok ()))) :
    ∃ s' w' q' res, pipe P (encoder t (writerConsumer W Q)).toConsumer s ⟨w, q⟩ = ok ((s', ⟨w', q'⟩), res) ∧
      ∃ ys part, CutAfter enc xs ys part ∧ (res = .ok () → ys = xs ∧ part = []) ∧
        BufPlays (decoder d (bufReaderProducer Rd)) (load w') (Script.ofList ys (endInside R part (.ok ()))) := by
  obtain ⟨s', w', q', res, h1, h2⟩ := file_written he hP hw hQ hcap hq
  refine ⟨s', w', q', res, h1, ?_⟩
  rcases h2 with ⟨rfl, h3⟩ | ⟨e, bytes, rfl, h3, h4, _⟩
  · obtain ⟨ys, part, _, h5, h6, h7⟩ := file_read hd hg hinv List.prefix_rfl (buf_reader_plays (hload _ _ _ h3) (ofList_noUnexpectedEof _))
    exact ⟨ys, part, h5, fun _ => h7 rfl, h6⟩
  · obtain ⟨ys, part, _, h5, h6, _⟩ := file_read hd hg hinv h3 (buf_reader_plays (hload _ _ _ h4) (ofList_noUnexpectedEof _))
    exact ⟨ys, part, h5, nofun, h6⟩

example : ∃ s' w' q' res, pipe (FromSlice.producer UInt16).toProducer
      (encoder U16BE.encodable.toEncodable (writerConsumer (chunkWriter 1 3 ⟨.other 3, none⟩) (Static.queue UInt8 2))).toConsumer
      (FromSlice.new [0x0102, 0x0304]) ⟨([], none), Static.new 2 fun _ => 0⟩ = ok ((s', ⟨w', q'⟩), res) ∧
    ∃ ys part, CutAfter (u16.toBytes .big) [0x0102, 0x0304] ys part ∧ (res = .ok () → ys = [0x0102, 0x0304] ∧ part = []) ∧
      BufPlays (decoder U16BE.decodable.toDecodable (bufReaderProducer (chunkReader 1 (.ok ()))))
        w'.1 (Script.ofList ys (endInside Empty part (.ok ()))) :=
  file_buf_round_trip (t := U16BE.encodable.toEncodable) (d := U16BE.decodable.toDecodable) (u16.encodesLaw .big) (u16.decodesLaw .big)
    Case.u16_encoding (by simp [FixedInt.grammar]) (from_slice_plays [0x0102, 0x0304]).toPlays
    ⟨_, chunkWriter_writes 1 3 ⟨.other 3, none⟩, rfl⟩ (Static.fifoLaw UInt8 2) (by decide) (Static.holds_new 2 fun _ => 0)
    (load := Prod.fst) Case.file_reads

/-- **C81**, from a vector to a vector. If writing succeeds, so does reading, and the vector is the same; otherwise, a beginning of it
is read. -/
theorem file_copies [Inhabited T] {t : Encodable T} {d : Decodable T R} {enc : T → List UInt8} {g : Grammar T R}
    (he : EncodesLaw t.encode enc) (hd : DecodesLaw d.decode g) (hinv : ∀ x, g.Encoding (enc x) x) (hg : g [] = .more) (xs : List T) {ω κ ρ κ' : Type}
    {W : AsyncWrite ω} {D : ω → List UInt8 → Option Unit → Prop} {X : WriterFaults} {w : ω} (hw : Writes W D X w [])
    {Q : Queue κ UInt8} {cap : Nat} {RQ : κ → List UInt8 → List UInt8 → Nat → Prop} (hQ : FifoLaw Q cap RQ) (hcap : 0 < cap) {q : κ}
    (hq : RQ q [] [] 0) {Rd : AsyncRead ρ} {load : ω → ρ}
    (hload : ∀ w bytes closed, D w bytes closed → Reads Rd (load w) (Script.ofList bytes (.ok ())))
    {Q' : Queue κ' UInt8} {cap' : Nat} {RQ' : κ' → List UInt8 → List UInt8 → Nat → Prop} (hQ' : FifoLaw Q' cap' RQ')
    (hcap' : 0 < cap') {q₂ : κ'} (hq₂ : RQ' q₂ [] [] 0) :
    ∃ s' w' q' written s'' v read,
      pipe (FromSlice.producer T).toProducer (encoder t (writerConsumer W Q)).toConsumer (FromSlice.new xs) ⟨w, q⟩ =
        ok ((s', ⟨w', q'⟩), written) ∧
      pipe (decoder d (readerProducer Rd Q')).toProducer (IntoVec.consumer T).toConsumer ⟨load w', q₂⟩ IntoVec.new =
        ok ((s'', v), read) ∧
      v.intoVec <+: xs ∧ (read = .ok () ∨ read = .error (.producer (.unexpectedEndOfInput ()))) ∧
      (written = .ok () → read = .ok () ∧ v.intoVec = xs) := by
  obtain ⟨s', w', q', written, h1, ys, part, h2, h3, h4⟩ :=
    file_round_trip he hd hinv hg (from_slice_plays xs).toPlays hw hQ hcap hq hload hQ' hcap' hq₂
  have hacc : (Policy.acceptAll : Policy T Unit Empty).Accepts [] ys := by simp
  by_cases hp : part = []
  · subst hp
    obtain ⟨s'', v, h5, _, h6⟩ := pipe_spec h4.toPlays into_vec_new_collects.toCollects
      (.closed (Script.ofList_startsWith _ _) hacc (Script.ofList_end _ _) rfl)
    refine ⟨s', w', q', written, s'', v, _, h1, h5, ?_, .inl rfl, fun h => ⟨rfl, ?_⟩⟩
    · rw [h6]; exact h2.isPrefix
    · rw [h6]; exact (h3 h).1
  · have hend : endInside (F := Unit) (E := IoError) R part (.ok ()) = .error (.unexpectedEndOfInput ()) := by simp [endInside, hp]
    rw [hend] at h4
    obtain ⟨s'', v, h5, _, h6⟩ := pipe_spec h4.toPlays into_vec_new_collects.toCollects
      (.producerFailed (Script.ofList_startsWith _ _) hacc (Script.ofList_end _ _))
    refine ⟨s', w', q', written, s'', v, _, h1, h5, ?_, .inr rfl, fun h => absurd (h3 h).2 hp⟩
    rw [h6]; exact h2.isPrefix

/-- There is room for ten bytes, so everything is read back. -/
example : ∃ s' w' q' s'' v,
    pipe (FromSlice.producer UInt16).toProducer
        (encoder U16BE.encodable.toEncodable (writerConsumer (chunkWriter 1 10 ⟨.other 3, none⟩) (Static.queue UInt8 2))).toConsumer
        (FromSlice.new [0x0102, 0x0304]) ⟨([], none), Static.new 2 fun _ => 0⟩ = ok ((s', ⟨w', q'⟩), .ok ()) ∧
      pipe (decoder U16BE.decodable.toDecodable (readerProducer (chunkReader 1 (.ok ())).toAsyncRead (Fixed.queue UInt8))).toProducer
        (IntoVec.consumer UInt16).toConsumer ⟨w'.1, Fixed.new 3 fun _ => 0⟩ IntoVec.new = ok ((s'', v), .ok ()) ∧
      v.intoVec = [0x0102, 0x0304] := by
  obtain ⟨s', w', q', written, s'', v, read, h1, h2, h3, h4, h5⟩ := file_copies (t := U16BE.encodable.toEncodable)
    (d := U16BE.decodable.toDecodable) (u16.encodesLaw .big) (u16.decodesLaw .big) Case.u16_encoding (by simp [FixedInt.grammar])
    [0x0102, 0x0304] ⟨_, chunkWriter_writes 1 10 ⟨.other 3, none⟩, rfl⟩ (Static.fifoLaw UInt8 2) (by decide)
    (Static.holds_new 2 fun _ => 0) (load := Prod.fst) (fun w bytes closed h => (Case.file_reads w bytes closed h).toReads)
    (Fixed.fifoLaw UInt8 3) (by decide) (Fixed.holds_new 3 fun _ => 0)
  obtain ⟨_, _, _, written', h6, h7⟩ := file_written (t := U16BE.encodable.toEncodable) (u16.encodesLaw .big)
    (from_slice_plays [0x0102, 0x0304]).toPlays ⟨_, chunkWriter_writes 1 10 ⟨.other 3, none⟩, rfl⟩ (Static.fifoLaw UInt8 2)
    (by decide) (Static.holds_new 2 fun _ => 0)
  have hw : written = .ok () := by
    cases h1.symm.trans h6
    rcases h7 with ⟨h, _⟩ | ⟨e, d, h3, h4, h5, (⟨h6, _⟩ | ⟨h, _⟩) | h | ⟨_, h⟩⟩
    · exact h
    · have := h4.length_le
      have h7 : 10 ≤ d.length := h6
      have h8 : (encodeAll (u16.toBytes .big) [0x0102, 0x0304]).length = 4 := rfl
      omega
    · exact h.elim
    · exact h.elim
    · exact h.elim
  obtain ⟨hr, hv⟩ := h5 hw
  subst hw hr
  exact ⟨s', w', q', s'', v, h1, h2, hv⟩

end

end Verif
