import Verif.Props.AsyncCodec
import Verif.Props.AsyncIo
import Verif.Props.Files
import Verif.Props.Network
import Verif.Lemmas.Merged

/-!
# C96: merging streams of encoded values

`Decoder`s as leaves of a network, which is piped into an `Encoder`.
-/

namespace Verif.Async

open Outcome

variable {σ σ₁ σ₂ τ T R F E E₁ E₂ : Type}

/-! ## The codecs of the fixed-width integers -/

theorem FixedInt.encode_law {N : Nat} (i : FixedInt T N) (o : ByteOrder) : EncodesLaw (EncodeFn.seq (FixedInt.encode i o)) (i.toBytes o) := by
  have h : @EncodeFn.seq _ (FixedInt.encode i o) = @Verif.FixedInt.encode _ _ i o := by
    funext σ F E C s x
    show (FixedInt.encode i o (.ofSeq C) s x).run = _
    rw [FixedInt.encode_run, BulkConsumer.ofSeq_seq]
  rw [h]
  exact i.encodesLaw o

theorem FixedInt.decode_law {N : Nat} (i : FixedInt T N) (o : ByteOrder) : DecodesLaw (DecodeFn.seq (FixedInt.decode i o)) (i.grammar o) := by
  have h : @DecodeFn.seq _ _ (FixedInt.decode i o) = @Verif.FixedInt.decode _ _ i o := by
    funext σ F E P s
    show (FixedInt.decode i o (.ofSeq P) s).run = _
    rw [FixedInt.decode_run, BulkProducer.ofSeq_seq]
  rw [h]
  exact i.decodesLaw o

/-- A test producer of bytes that yields before every other call. -/
noncomputable abbrev Case.byteProducer : BulkProducer (TestProducer UInt8 Unit String) UInt8 Unit String :=
  TestProducer.producer false UInt8 Unit String

def Case.late (bs : List UInt8) (last : Except String Unit) : TestProducer UInt8 Unit String :=
  TestProducer.new bs last [⟨1, by decide⟩, ⟨2, by decide⟩] (some [true, false])

theorem Case.late_plays (bs : List UInt8) (last : Except String Unit) :
    BulkPlays Case.byteProducer.seq (Case.late bs last) (Script.ofList bs last) := by
  rw [testProducer_seq]
  exact test_producer_plays false bs last _ _

/-! ## Networks -/

/-- **C96, leaves.** A `Decoder` is a leaf of a network: it emits the values and then the end, or an error if the bytes end inside of an
encoding. -/
theorem decoder_network {d : Decodable T R} (hu : DecodeFn.Uniform d.decode) {g : Grammar T R} (hd : DecodesLaw (DecodeFn.seq d.decode) g)
    (hg : g [] = .more) {enc : T → List UInt8} (hinv : ∀ x, g.Encoding (enc x) x) {P : BulkProducer σ UInt8 F E} {s : σ} {xs : List T}
    {part : List UInt8} (hpart : part = [] ∨ ∃ y, part.length < (enc y).length ∧ part <+: enc y) {last : Except E F}
    (h : BulkPlays P.seq s (Script.ofList (encodeAll enc xs ++ part) last)) :
    Network (decoder d P).toProducer s fun ys r => ys = xs ∧ r = endInside R part last := by
  have h1 := (decoder_ends (d := ⟨DecodeFn.seq d.decode⟩) hd hg hinv hpart h).toPlays
  rw [← decoder_seq d hu P] at h1
  exact .leaf h1 (Script.is_ofList _ _)

/-- Two numbers, and then half of a third one. -/
theorem Case.half_network : Network (decoder (⟨FixedInt.decode u16 .big⟩ : Decodable UInt16 Empty) Case.byteProducer).toProducer
    (Case.late [1, 2, 3, 4, 5] (.ok ())) fun ys r => ys = [0x0102, 0x0304] ∧ r = .error (.unexpectedEndOfInput ()) :=
  decoder_network (d := ⟨FixedInt.decode u16 .big⟩) (FixedInt.decode_uniform u16 .big) (FixedInt.decode_law u16 .big)
    (by simp [FixedInt.grammar]) Case.u16_encoding (xs := [0x0102, 0x0304]) (part := [5]) (.inr ⟨0x0500, by simp, [0], by decide⟩)
    (last := .ok ()) (Case.late_plays _ _)

/-- What may come out when a network, which may emit what `S` says, is piped into an `Encoder` around a consumer of bytes to which `l`
has been passed, and which fails only as described by `X`. -/
inductive EncodedNetwork (S : List T → Except E₁ F → Prop) (X : Faults UInt8 F E₂) (enc : T → List UInt8) (l : List UInt8)
    (Open : τ → List UInt8 → Prop) (D : τ → List UInt8 → Option F → Prop) : τ → Except (PipeError E₁ E₂) Unit → Prop where
  | closed {t' zs f} : S zs (.ok f) → D t' (l ++ encodeAll enc zs) (some f) → EncodedNetwork S X enc l Open D t' (.ok ())
  | producerFailed {t' zs e} : S zs (.error e) → Open t' (l ++ encodeAll enc zs) → EncodedNetwork S X enc l Open D t' (.error (.producer e))
  | itemFailed {t' zs r ys d e} : S zs r → ys <+: zs → ys ≠ [] → X.during (l ++ encodeAll enc ys) d e → D t' d none →
      EncodedNetwork S X enc l Open D t' (.error (.consumer e))
  | closeFailed {t' zs f d e} : S zs (.ok f) → X.closing (l ++ encodeAll enc zs) f d e → D t' d none →
      EncodedNetwork S X enc l Open D t' (.error (.consumer e))

/-- **C96, pipes.** Piping from a network into an `Encoder` around any consumer of bytes returns: with the encodings of what the network
emits, up to its error if it has one, or with an error of the consumer. -/
theorem network_encoded {P : Producer σ T F E₁} {s : σ} {S : List T → Except E₁ F → Prop} (h : Network P s S) {t : Encodable T}
    (hu : EncodeFn.Uniform t.encode) {enc : T → List UInt8} (he : EncodesLaw (EncodeFn.seq t.encode) enc)
    {C : BulkConsumer τ UInt8 F E₂} {D : τ → List UInt8 → Option F → Prop} {X : Faults UInt8 F E₂} (hX : X.Regular) {u : τ}
    {l : List UInt8} (hC : BulkDefers C.seq D X u l) :
    ∃ s' u' res, (pipe P (encoder t C).toConsumer s u).run = ok ((s', u'), res) ∧
      EncodedNetwork S X enc l (BulkDefers C.seq D X) D u' res := by
  obtain ⟨c, zs, r, h1, h2, h3⟩ := network_plays h
  have hrun : (pipe P (encoder t C).toConsumer s u).run =
      Verif.pipe P.seq (Verif.encoder ⟨EncodeFn.seq t.encode⟩ C.seq).toConsumer s u := by
    rw [← encoder_seq t hu C]
    exact pipe_run _ _ _ _
  rw [hrun]
  rcases encoder_pipe (t := ⟨EncodeFn.seq t.encode⟩) he hX h1 hC with ⟨s', u', res, h4, h5⟩ | ⟨_, h4⟩
  · refine ⟨s', u', res, h4, ?_⟩
    cases h5 with
    | @closed xs f h6 h7 h8 =>
      obtain ⟨rfl, rfl⟩ := h2.exhausted (r' := .ok f) ⟨h6, h7⟩
      exact .closed h3 h8
    | @producerFailed xs e h6 h7 h8 =>
      obtain ⟨rfl, rfl⟩ := h2.exhausted (r' := .error e) ⟨h6, h7⟩
      exact .producerFailed h3 h8
    | itemFailed h6 h7 h8 h9 => exact .itemFailed h3 (h2.prefix h7) h6 h8 h9
    | @closeFailed xs f d e h6 h7 h8 h9 =>
      obtain ⟨rfl, rfl⟩ := h2.exhausted (r' := .ok f) ⟨h6, h7⟩
      exact .closeFailed h3 h8 h9
  · obtain ⟨ys, h5, h6⟩ := h4 (zs.length + 1)
    have := (h2.prefix h6).length_le
    omega

/-- The two numbers, doubled, into a vector; then the error. -/
example : ∃ s' u', (pipe ((SourceLayers.mapItem .nil (fun (_ : Unit) x => ((), 2 * x)) ()).applyAsync
        (decoder (⟨FixedInt.decode u16 .big⟩ : Decodable UInt16 Empty) Case.byteProducer).toProducer)
      (encoder ⟨FixedInt.encode u16 .big⟩ (BulkConsumer.ofSeq (IntoVec.consumer UInt8))).toConsumer
      ((SourceLayers.mapItem .nil (fun (_ : Unit) x => ((), 2 * x)) ()).wrap (Case.late [1, 2, 3, 4, 5] (.ok ())))
      (IntoVec.fromVec [9])).run = ok ((s', u'), .error (.producer (.unexpectedEndOfInput ()))) ∧
    ∃ v, (IntoVec.consumer UInt8).close u' () = ok (v, .ok ()) ∧ v.intoVec = [9, 2, 4, 6, 8] := by
  have hC : BulkCollects (BulkConsumer.ofSeq (IntoVec.consumer UInt8)).seq (fun s l _ => s.asRef = ok l ∧ s.intoVec = l)
      Policy.acceptAll (IntoVec.fromVec [9]) [9] := by
    rw [BulkConsumer.ofSeq_seq]; exact into_vec_collects [9]
  obtain ⟨s', u', res, h1, h2⟩ := network_encoded (.stack (SourceLayers.mapItem .nil (fun (_ : Unit) x => ((), 2 * x)) ()) Case.half_network)
    (t := ⟨FixedInt.encode u16 .big⟩) (FixedInt.encode_uniform u16 .big) (FixedInt.encode_law u16 .big)
    (Policy.regular_faults _) hC.toBulkDefers
  cases h2 with
  | closed h3 _ =>
    obtain ⟨_, _, ⟨rfl, rfl⟩, _, h⟩ := h3
    cases h
  | producerFailed h3 h4 =>
    obtain ⟨_, _, ⟨rfl, rfl⟩, rfl, h⟩ := h3
    cases h
    refine ⟨s', u', h1, ?_⟩
    rw [BulkConsumer.ofSeq_seq] at h4
    obtain ⟨v, ⟨h5, h6⟩ | ⟨e, _, h5, _⟩⟩ := h4.toDefers.close ()
    · exact ⟨v, h5, h6.2⟩
    · exact e.elim
  | @itemFailed _ _ _ _ e => exact e.elim
  | closeFailed h3 _ _ =>
    obtain ⟨_, _, ⟨rfl, rfl⟩, _, h⟩ := h3
    cases h

/-- **C96.** Two `Decoder`s on top of producers of the encodings of `xs₁` and `xs₂`, each possibly ending inside of an encoding, are
merged, and piped into an `Encoder` around any consumer of bytes. If the pipe succeeds, no encoding was incomplete, and the consumer has
got the encodings of an interleaving of `xs₁` and `xs₂`. If it reports an error of the merge, this is the one of one of the decoders,
all values of which have been encoded. In all cases, no bytes but the encodings of values of `xs₁` and `xs₂`, each in order, have been
passed to the consumer. -/
theorem streams_merged {t : Encodable T} (hu : EncodeFn.Uniform t.encode) {d : Decodable T R} (hv : DecodeFn.Uniform d.decode)
    {enc : T → List UInt8} (he : EncodesLaw (EncodeFn.seq t.encode) enc) {g : Grammar T R} (hd : DecodesLaw (DecodeFn.seq d.decode) g)
    (hg : g [] = .more) (hinv : ∀ x, g.Encoding (enc x) x)
    {P₁ : BulkProducer σ₁ UInt8 F E} {s₁ : σ₁} {xs₁ : List T} {part₁ : List UInt8}
    (hpart₁ : part₁ = [] ∨ ∃ y, part₁.length < (enc y).length ∧ part₁ <+: enc y) {last₁ : Except E F}
    (h₁ : BulkPlays P₁.seq s₁ (Script.ofList (encodeAll enc xs₁ ++ part₁) last₁))
    {P₂ : BulkProducer σ₂ UInt8 F E} {s₂ : σ₂} {xs₂ : List T} {part₂ : List UInt8}
    (hpart₂ : part₂ = [] ∨ ∃ y, part₂.length < (enc y).length ∧ part₂ <+: enc y) {last₂ : Except E F}
    (h₂ : BulkPlays P₂.seq s₂ (Script.ofList (encodeAll enc xs₂ ++ part₂) last₂))
    {C : BulkConsumer τ UInt8 F E₂} {D : τ → List UInt8 → Option F → Prop} {X : Faults UInt8 F E₂} (hX : X.Regular) {u : τ}
    {l : List UInt8} (hC : BulkDefers C.seq D X u l) :
    ∃ s' u' res, (pipe (Merge.producer (decoder d P₁).toProducer (decoder d P₂).toProducer) (encoder t C).toConsumer
        (.new _ _ s₁ s₂) u).run = ok ((s', u'), res) ∧
      ((∃ zs f₁ f₂ f, res = .ok () ∧ part₁ = [] ∧ part₂ = [] ∧ last₁ = .ok f₁ ∧ last₂ = .ok f₂ ∧ (f = f₁ ∨ f = f₂) ∧
          Interleaving xs₁ xs₂ zs ∧ D u' (l ++ encodeAll enc zs) (some f)) ∨
       (∃ zs e, res = .error (.producer e) ∧
          ((endInside R part₁ last₁ = .error e ∧ ∃ ys, ys <+: xs₂ ∧ Interleaving xs₁ ys zs) ∨
           (endInside R part₂ last₂ = .error e ∧ ∃ ys, ys <+: xs₁ ∧ Interleaving ys xs₂ zs)) ∧
          BulkDefers C.seq D X u' (l ++ encodeAll enc zs)) ∨
       (∃ zs ys₁ ys₂ b e, res = .error (.consumer e) ∧ ys₁ <+: xs₁ ∧ ys₂ <+: xs₂ ∧ Interleaving ys₁ ys₂ zs ∧
          (X.during (l ++ encodeAll enc zs) b e ∨ ∃ f, X.closing (l ++ encodeAll enc zs) f b e) ∧ D u' b none)) := by
  obtain ⟨s', u', res, h3, h4⟩ := network_encoded (.merge (decoder_network hv hd hg hinv hpart₁ h₁)
    (decoder_network hv hd hg hinv hpart₂ h₂)) hu he hX hC
  refine ⟨s', u', res, h3, ?_⟩
  have hend : ∀ {part : List UInt8} {last : Except E F} {f : F}, endInside R part last = .ok f → part = [] ∧ last = .ok f := by
    intro part last f h
    cases last with
    | error e => cases h
    | ok f' =>
      simp only [endInside] at h
      split at h
      · cases h; exact ⟨‹_›, rfl⟩
      · cases h
  have hsome : ∀ {zs r}, Merged xs₁ (endInside R part₁ last₁) xs₂ (endInside R part₂ last₂) zs r →
      ∃ ys₁ ys₂, ys₁ <+: xs₁ ∧ ys₂ <+: xs₂ ∧ Interleaving ys₁ ys₂ zs := by
    intro zs r h
    cases h with
    | final _ _ _ h => exact ⟨_, _, List.prefix_rfl, List.prefix_rfl, h⟩
    | first _ h h' => exact ⟨_, _, List.prefix_rfl, h, h'⟩
    | second _ h h' => exact ⟨_, _, h, List.prefix_rfl, h'⟩
  cases h4 with
  | closed h5 h6 =>
    obtain ⟨_, _, _, _, ⟨rfl, rfl⟩, ⟨rfl, rfl⟩, h5⟩ := h5
    cases h5 with
    | final h7 h8 h9 h10 =>
      obtain ⟨h11, h12⟩ := hend h7
      obtain ⟨h13, h14⟩ := hend h8
      exact .inl ⟨_, _, _, _, rfl, h11, h13, h12, h14, h9, h10, h6⟩
  | producerFailed h5 h6 =>
    obtain ⟨_, _, _, _, ⟨rfl, rfl⟩, ⟨rfl, rfl⟩, h5⟩ := h5
    cases h5 with
    | first h7 h8 h9 => exact .inr (.inl ⟨_, _, rfl, .inl ⟨h7, _, h8, h9⟩, h6⟩)
    | second h7 h8 h9 => exact .inr (.inl ⟨_, _, rfl, .inr ⟨h7, _, h8, h9⟩, h6⟩)
  | itemFailed h5 h6 _ h8 h9 =>
    obtain ⟨_, _, _, _, ⟨rfl, rfl⟩, ⟨rfl, rfl⟩, h5⟩ := h5
    obtain ⟨ys₁, ys₂, h10, h11, h12⟩ := hsome h5
    obtain ⟨zs₁, zs₂, h13, h14, h15⟩ := h12.prefix h6
    exact .inr (.inr ⟨_, _, _, _, _, rfl, h13.trans h10, h14.trans h11, h15, .inl h8, h9⟩)
  | closeFailed h5 h6 h7 =>
    obtain ⟨_, _, _, _, ⟨rfl, rfl⟩, ⟨rfl, rfl⟩, h5⟩ := h5
    obtain ⟨ys₁, ys₂, h10, h11, h12⟩ := hsome h5
    exact .inr (.inr ⟨_, _, _, _, _, rfl, h10, h11, h12, .inr ⟨_, h6⟩, h7⟩)

/-- Two streams of big-endian numbers into a vector. -/
example : ∃ s' u' zs, (pipe (Merge.producer (decoder (⟨FixedInt.decode u16 .big⟩ : Decodable UInt16 Empty) Case.byteProducer).toProducer
        (decoder ⟨FixedInt.decode u16 .big⟩ Case.byteProducer).toProducer)
      (encoder ⟨FixedInt.encode u16 .big⟩ (BulkConsumer.ofSeq (IntoVec.consumer UInt8))).toConsumer
      (.new _ _ (Case.late [1, 2, 3, 4] (.ok ())) (Case.late [5, 6] (.ok ()))) (IntoVec.fromVec [9])).run = ok ((s', u'), .ok ()) ∧
    Interleaving [0x0102, 0x0304] [0x0506] zs ∧ u'.intoVec = 9 :: encodeAll (u16.toBytes .big) zs := by
  have hC : BulkCollects (BulkConsumer.ofSeq (IntoVec.consumer UInt8)).seq (fun s l _ => s.asRef = ok l ∧ s.intoVec = l)
      Policy.acceptAll (IntoVec.fromVec [9]) [9] := by
    rw [BulkConsumer.ofSeq_seq]; exact into_vec_collects [9]
  obtain ⟨s', u', res, h1, h2⟩ := streams_merged (t := ⟨FixedInt.encode u16 .big⟩) (FixedInt.encode_uniform u16 .big)
    (d := ⟨FixedInt.decode u16 .big⟩) (FixedInt.decode_uniform u16 .big) (FixedInt.encode_law u16 .big) (FixedInt.decode_law u16 .big)
    (by simp [FixedInt.grammar]) Case.u16_encoding (xs₁ := [0x0102, 0x0304]) (.inl rfl) (Case.late_plays [1, 2, 3, 4] (.ok ()))
    (xs₂ := [0x0506]) (.inl rfl) (Case.late_plays [5, 6] (.ok ())) (Policy.regular_faults _) hC.toBulkDefers
  rcases h2 with ⟨zs, _, _, _, rfl, _, _, _, _, _, h3, h4⟩ | ⟨zs, e, rfl, ⟨h, _⟩ | ⟨h, _⟩, _⟩ | ⟨_, _, _, _, e, _⟩
  · exact ⟨s', u', zs, h1, h3, h4.2⟩
  · cases h
  · cases h
  · exact e.elim

/-- **C96, files.** As above, the bytes are written to a file through a `WriterToBulkConsumer`, and then the file is read by a `Decoder`
around any producer of its bytes. It emits an interleaving of beginnings of `xs₁` and `xs₂`, of both lists as a whole and then the end if
the pipe has succeeded. -/
theorem streams_merged_file {t : Encodable T} (hu : EncodeFn.Uniform t.encode) {d : Decodable T R} (hv : DecodeFn.Uniform d.decode)
    {enc : T → List UInt8} (he : EncodesLaw (EncodeFn.seq t.encode) enc) {g : Grammar T R} (hd : DecodesLaw (DecodeFn.seq d.decode) g)
    (hg : g [] = .more) (hinv : ∀ x, g.Encoding (enc x) x)
    {P₁ : BulkProducer σ₁ UInt8 Unit E} {s₁ : σ₁} {xs₁ : List T} {part₁ : List UInt8}
    (hpart₁ : part₁ = [] ∨ ∃ y, part₁.length < (enc y).length ∧ part₁ <+: enc y) {last₁ : Except E Unit}
    (h₁ : BulkPlays P₁.seq s₁ (Script.ofList (encodeAll enc xs₁ ++ part₁) last₁))
    {P₂ : BulkProducer σ₂ UInt8 Unit E} {s₂ : σ₂} {xs₂ : List T} {part₂ : List UInt8}
    (hpart₂ : part₂ = [] ∨ ∃ y, part₂.length < (enc y).length ∧ part₂ <+: enc y) {last₂ : Except E Unit}
    (h₂ : BulkPlays P₂.seq s₂ (Script.ofList (encodeAll enc xs₂ ++ part₂) last₂))
    {ω κ : Type} {W : AsyncWrite ω} {D : ω → List UInt8 → Option Unit → Prop} {X : WriterFaults} {w : ω} (hw : Writes W.seq D X w [])
    {Q : Queue κ UInt8} {cap : Nat} {RQ : κ → List UInt8 → List UInt8 → Nat → Prop} (hQ : FifoLaw Q cap RQ) (hcap : 0 < cap) {q : κ}
    (hq : RQ q [] [] 0) {P₃ : BulkProducer σ UInt8 F E₂} {load : ω → σ} {f : F}
    (hload : ∀ w bytes closed, D w bytes closed → BulkPlays P₃.seq (load w) (Script.ofList bytes (.ok f))) :
    ∃ s' w' q' res, (pipe (Merge.producer (decoder d P₁).toProducer (decoder d P₂).toProducer) (encoder t (writerConsumer W Q)).toConsumer
        (.new _ _ s₁ s₂) ⟨w, q⟩).run = ok ((s', ⟨w', q'⟩), res) ∧
      ∃ zs ys₁ ys₂ part, BufPlays (decoder d P₃).seq (load w') (Script.ofList zs (endInside R part (.ok f))) ∧
        ys₁ <+: xs₁ ∧ ys₂ <+: xs₂ ∧ Interleaving ys₁ ys₂ zs ∧ (res = .ok () → ys₁ = xs₁ ∧ ys₂ = xs₂ ∧ part = []) := by
  have hC : BulkDefers (writerConsumer W Q).seq (fun s => D s.writer) X.faults ⟨w, q⟩ [] := by
    rw [writerConsumer_seq]
    exact writer_defers hw hQ hcap hq
  obtain ⟨s', ⟨w', q'⟩, res, h3, h4⟩ := streams_merged hu hv he hd hg hinv hpart₁ h₁ hpart₂ h₂ X.regular hC
  refine ⟨s', w', q', res, h3, ?_⟩
  have hread : ∀ {zs : List T} {bytes : List UInt8} {closed : Option Unit}, D w' bytes closed → bytes <+: encodeAll enc zs →
      ∃ ys part, ys <+: zs ∧ BufPlays (decoder d P₃).seq (load w') (Script.ofList ys (endInside R part (.ok f))) ∧
        (bytes = encodeAll enc zs → ys = zs ∧ part = []) := by
    intro zs bytes closed hD hb
    obtain ⟨ys, part, _, h5, h6, h7⟩ := file_read (d := ⟨DecodeFn.seq d.decode⟩) hd hg hinv hb (hload _ _ _ hD)
    rw [← decoder_seq d hv P₃] at h6
    exact ⟨ys, part, h5.isPrefix, h6, h7⟩
  have hfail : ∀ {zs ys₁ ys₂ : List T} {bytes : List UInt8}, ys₁ <+: xs₁ → ys₂ <+: xs₂ → Interleaving ys₁ ys₂ zs →
      D w' bytes none → bytes <+: encodeAll enc zs → ∃ zs ys₁ ys₂ part,
        BufPlays (decoder d P₃).seq (load w') (Script.ofList zs (endInside R part (.ok f))) ∧
        ys₁ <+: xs₁ ∧ ys₂ <+: xs₂ ∧ Interleaving ys₁ ys₂ zs := by
    intro zs ys₁ ys₂ bytes hy₁ hy₂ hi hD hb
    obtain ⟨vs, part, h5, h6, -⟩ := hread hD hb
    obtain ⟨zs₁, zs₂, h13, h14, h15⟩ := hi.prefix h5
    exact ⟨vs, zs₁, zs₂, part, h6, h13.trans hy₁, h14.trans hy₂, h15⟩
  rcases h4 with ⟨zs, _, _, _, rfl, -, -, -, -, -, h5, h6⟩ | ⟨zs, e, rfl, h5, R', h6, sl, h7⟩ | ⟨zs, ys₁, ys₂, b, e, rfl, h5, h6, h7, h8, h9⟩
  · obtain ⟨ys, part, _, h7, h8⟩ := hread h6 List.prefix_rfl
    obtain ⟨rfl, rfl⟩ := h8 rfl
    exact ⟨ys, xs₁, xs₂, [], h7, List.prefix_rfl, List.prefix_rfl, h5, fun _ => ⟨rfl, rfl, rfl⟩⟩
  · obtain ⟨b, h8, h9⟩ := h6.base.observe _ _ ⟨_, h7⟩
    rcases h5 with ⟨-, ys, h10, h11⟩ | ⟨-, ys, h10, h11⟩
    · obtain ⟨vs, v₁, v₂, part, h12, h13, h14, h15⟩ := hfail List.prefix_rfl h10 h11 h9 h8
      exact ⟨vs, v₁, v₂, part, h12, h13, h14, h15, nofun⟩
    · obtain ⟨vs, v₁, v₂, part, h12, h13, h14, h15⟩ := hfail h10 List.prefix_rfl h11 h9 h8
      exact ⟨vs, v₁, v₂, part, h12, h13, h14, h15, nofun⟩
  · have hb : b <+: encodeAll enc zs := by
      rcases h8 with h | ⟨_, h⟩
      · exact h.1
      · exact h.1
    obtain ⟨vs, v₁, v₂, part, h12, h13, h14, h15⟩ := hfail h5 h6 h7 h9 hb
    exact ⟨vs, v₁, v₂, part, h12, h13, h14, h15, nofun⟩

/-- A writer that is never pending. -/
noncomputable def AsyncWrite.ofSeq {ω : Type} (W : Verif.AsyncWrite ω) : AsyncWrite ω where
  write w buf := Fut.lift (W.write w buf)
  flush w := Fut.lift (W.flush w)
  close w := Fut.lift (W.close w)

theorem AsyncWrite.ofSeq_seq {ω : Type} (W : Verif.AsyncWrite ω) : (AsyncWrite.ofSeq W).seq = W := by
  simp only [AsyncWrite.seq, AsyncWrite.ofSeq, Fut.run_lift]

/-- Two streams of big-endian numbers, one of which ends inside of an encoding, into a file that takes at most five bytes, which is then
read. -/
example : ∃ s' w' q' res, (pipe (Merge.producer (decoder (⟨FixedInt.decode u16 .big⟩ : Decodable UInt16 Empty) Case.byteProducer).toProducer
        (decoder ⟨FixedInt.decode u16 .big⟩ Case.byteProducer).toProducer)
      (encoder ⟨FixedInt.encode u16 .big⟩ (writerConsumer (.ofSeq (chunkWriter 1 5 ⟨.other 3, none⟩)) (Static.queue UInt8 2))).toConsumer
      (.new _ _ (Case.late [1, 2, 3, 4, 7] (.ok ())) (Case.late [5, 6] (.ok ()))) ⟨([], none), Static.new 2 fun _ => 0⟩).run =
        ok ((s', ⟨w', q'⟩), res) ∧
    ∃ zs ys₁ ys₂ part, BufPlays (decoder (⟨FixedInt.decode u16 .big⟩ : Decodable UInt16 Empty) Case.byteProducer).seq
        (Case.late w'.1 (.ok ())) (Script.ofList zs (endInside Empty part (.ok ()))) ∧
      ys₁ <+: [0x0102, 0x0304] ∧ ys₂ <+: [0x0506] ∧ Interleaving ys₁ ys₂ zs ∧
      (res = .ok () → ys₁ = [0x0102, 0x0304] ∧ ys₂ = [0x0506] ∧ part = []) := by
  obtain ⟨X, hw⟩ : ∃ X, Writes (AsyncWrite.ofSeq (chunkWriter 1 5 ⟨.other 3, none⟩)).seq (fun w l closed => w = (l, closed)) X
      ([], none) [] := by
    rw [AsyncWrite.ofSeq_seq]
    exact ⟨_, _, chunkWriter_writes 1 5 ⟨.other 3, none⟩, rfl⟩
  exact streams_merged_file (t := ⟨FixedInt.encode u16 .big⟩) (FixedInt.encode_uniform u16 .big)
    (d := ⟨FixedInt.decode u16 .big⟩) (FixedInt.decode_uniform u16 .big) (FixedInt.encode_law u16 .big) (FixedInt.decode_law u16 .big)
    (by simp [FixedInt.grammar]) Case.u16_encoding (xs₁ := [0x0102, 0x0304]) (part₁ := [7]) (.inr ⟨0x0700, by simp, [0], by decide⟩)
    (Case.late_plays [1, 2, 3, 4, 7] (.ok ())) (xs₂ := [0x0506]) (part₂ := []) (.inl rfl) (Case.late_plays [5, 6] (.ok ()))
    hw (Static.fifoLaw UInt8 2) (by decide) (Static.holds_new 2 fun _ => 0) (P₃ := Case.byteProducer)
    (load := fun w => Case.late w.1 (.ok ())) (f := ()) (fun w bytes closed h => by rw [h]; exact Case.late_plays _ _)

end Verif.Async
