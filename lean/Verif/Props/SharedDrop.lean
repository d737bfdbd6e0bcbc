import Verif.Props.Shared
import Verif.SharedDropCases

/-!
# Shared adaptors whose futures are dropped (C50, C66)

The contract of the traits (`/repo/ufotofu/src/lib.rs:33`) allows to drop a future, as long as the adaptor is not used again. A future
that is dropped in its critical section gives back the lock, and the others continue with what it has left. `shared_encoder_dropped`
(`Verif/Props/Shared.lean`) and `shared_decoder_dropped` show what this can lead to; the other theorems say how far it can go.
-/

namespace Verif

open Outcome

variable {ι σ β Op A T R F E B Rel : Type} [DecidableEq ι]

/-! ## All shared adaptors -/

section

variable {method : β → Op → SharedMethod σ β A} {m : Suspension σ β Op A} {b : ι → β} {s₀ : σ} {st : Shared ι σ β Op A m.κ}

/-- **C50, C66**, for all shared adaptors: whatever is dropped, and when, everything that happens amounts to a sequential execution
of the completed calls, in the order of completion, and of the beginnings of the dropped calls. No task is dropped twice or comes
back. At any time at most one further call is in progress: the one that has the lock. -/
theorem shared_drop_serial (hI : m.Implements method) (h : Shared.ReachableOrDrop method m (Shared.init s₀ b) st) :
    ∃ d s, SerialOrDrop method m b s₀ st.finished d st.fields s ∧ (st.owner = none → st.shared = s) ∧
      (∀ i, st.owner = some i → ∃ op k run, st.phase i = .running op k ∧ method (st.fields i) op = .locked run ∧
        m.Path (m.start (st.fields i) op) s k st.shared) ∧
      (∀ i op k, st.phase i = .running op k → st.owner = some i) ∧
      (∀ i op, (i, op) ∈ d → st.phase i = .gone op) ∧ (d.map (·.1)).Nodup ∧
      ∀ i, st.called i = callsOf i st.finished ++ (st.phase i).current := by
  obtain ⟨d, s, h1, h2, h3⟩ := h.inv hI
  exact ⟨d, s, h1.serial, h1.free, h1.held, h1.mutex, h2, h3, h1.order⟩

/-- Two tasks, of which one has been dropped with the lock, as in `shared_encoder_dropped`. -/
example : ∃ st : TwoEncoders, ∃ d s, st.finished = [(true, .consume 0x0304, .ok ())] ∧ st.phase false = .gone (.consume 0x0102) ∧
    SerialOrDrop (sharedEncoder U16BE.encodable.toEncodable trickle) (writeSuspension trickle (u16.opSlice .big)) (fun _ => ())
      ⟨[], none, 0⟩ st.finished d st.fields s ∧ s.received = [1, 3, 4] := by
  obtain ⟨st, h1, h2, h3, h4, _, _, h5, _⟩ := shared_encoder_dropped
  obtain ⟨d, s, h6, h7, _⟩ := shared_drop_serial (u16.suspension_implements .big trickle) h1
  exact ⟨st, d, s, h3, h4, h6, h7 h2 ▸ h5⟩

end

/-! ## C50 -/

section Encoder

variable {t : Encodable T} {enc : T → List UInt8} {C : BulkConsumer σ UInt8 F E} {D : σ → List UInt8 → Option F → Prop}
  {q : Policy UInt8 F E} {m : Suspension σ Unit (SharedEncoderOp T F) (Except E Unit)} {b : ι → Unit} {s₀ : σ} {l : List UInt8}
  {st : Shared ι σ Unit (SharedEncoderOp T F) (Except E Unit) m.κ}

/-- **C50**, partial: whatever is dropped, and when, up to the first error the consumer has received, one after the other, the
complete encodings of the values of the completed calls, in the order of completion, and a beginning of the encoding of each value
whose call has been dropped with the lock, at most one per task; and, while a task has the lock, a beginning of the encoding of its
value. Nothing else, and these do not interleave. What is missing: that there are no such beginnings, which is false, see
`shared_encoder_dropped`. -/
theorem shared_encoder_drop_bytes_partial (he : EncodesLaw t.encode enc) (hI : m.Implements (sharedEncoder t C))
    (hW : m.WritesParts D (fun _ => opBytes enc) C q) (hC : BulkCollects C D q s₀ l)
    (h : Shared.ReachableOrDrop (sharedEncoder t C) m (Shared.init s₀ b) st) (hok : ∀ e ∈ st.finished, e.2.2 = .ok ()) :
    ∃ d bs, WrittenOrDropped (fun _ _ => opBytes enc) st.finished d bs ∧
      (∀ i op, (i, op) ∈ d → st.phase i = .gone op) ∧ (d.map (·.1)).Nodup ∧
      (st.owner = none → BulkCollects C D q st.shared (l ++ bs)) ∧
      ∀ i, st.owner = some i → ∃ op k part, st.phase i = .running op k ∧ part <+: opBytes enc op ∧
        BulkCollects C D q st.shared (l ++ bs ++ part) := by
  obtain ⟨d, s, h1, h2, h3, _, h4, h5, _⟩ := shared_drop_serial hI h
  obtain ⟨bs, h6, h7⟩ := sharedEncoder_written he hW hC h1 hok
  refine ⟨d, bs, h6, h4, h5, fun ho => h2 ho ▸ h7, fun i ho => ?_⟩
  obtain ⟨op, k, run, h8, h9, h10⟩ := h3 i ho
  obtain ⟨part, h11, h12⟩ := hW _ _ _ _ _ _ h7 h10
  exact ⟨op, k, part, h8, h11, h12⟩

/-- The theorem applies to these tasks, whatever they call, however they are scheduled, and whatever is dropped. -/
example {st : TwoEncoders}
    (h : Shared.ReachableOrDrop (sharedEncoder U16BE.encodable.toEncodable trickle) (writeSuspension trickle (u16.opSlice .big))
      (Shared.init ⟨[], none, 0⟩ fun _ => ()) st) (ho : st.owner = none) :
    ∃ d bs, WrittenOrDropped (fun _ _ => opBytes (u16.toBytes .big)) st.finished d bs ∧ st.shared.received = bs := by
  obtain ⟨d, bs, h1, _, _, h2, _⟩ := shared_encoder_drop_bytes_partial (u16.encodesLaw .big) (u16.suspension_implements .big trickle)
    (u16.suspension_writesParts .big) trickle_collects h (fun e _ => match e.2.2 with | .ok () => rfl | .error e => nomatch e)
  exact ⟨d, bs, h1, (h2 ho).toCollects.observe.1⟩

/-- The bytes of `shared_encoder_dropped`: `[1]` is a beginning of the encoding of `0x0102`, and `[3, 4]` is the one of `0x0304`. -/
example : WrittenOrDropped (fun (_ : List (Bool × SharedEncoderOp UInt16 Unit × Except Empty Unit)) _ => opBytes (u16.toBytes .big))
    [(true, .consume 0x0304, .ok ())] [(false, .consume 0x0102)] [1, 3, 4] := by
  have h := (WrittenOrDropped.nil (bytes := fun (_ : List (Bool × SharedEncoderOp UInt16 Unit × Except Empty Unit)) _ =>
    opBytes (u16.toBytes .big))).dropped (i := false) (op := .consume 0x0102) (part := [1]) ⟨[2], rfl⟩
  exact h.written (i := true) (op := .consume 0x0304) (a := .ok ())

theorem WrittenOrDropped.complete {fin : List (ι × SharedEncoderOp T F × Except E Unit)} {d : List (ι × SharedEncoderOp T F)}
    {bs : List UInt8} (h : WrittenOrDropped (fun _ _ => opBytes enc) fin d bs) (hd : ∀ i x, (i, .consume x) ∉ d) :
    bs = encodeAll enc (consumedValues fin) := by
  induction h with
  | nil => rfl
  | @written l d bs i op a _ ih =>
    rw [ih hd, consumedValues_append]
    cases op with
    | consume x => exact (encodeAll_concat enc _ x).symm
    | close f => simp [opBytes, consumedValues]
    | flush => simp [opBytes, consumedValues]
  | @dropped l d bs i op part _ hp ih =>
    have ih := ih fun i x hi => hd i x (List.mem_append_left _ hi)
    cases op with
    | consume x => exact absurd (List.mem_append_right _ (by simp)) (hd i x)
    | close f => rw [List.prefix_nil.mp hp, List.append_nil, ih]
    | flush => rw [List.prefix_nil.mp hp, List.append_nil, ih]

/-- **C50**, partial: the claim holds if no `consume` call is dropped; in particular `flush` calls can be dropped at any time. -/
theorem shared_encoder_drop_flush_partial (he : EncodesLaw t.encode enc) (hI : m.Implements (sharedEncoder t C))
    (hW : m.WritesParts D (fun _ => opBytes enc) C q) (hC : BulkCollects C D q s₀ l)
    (h : Shared.ReachableOrDrop (sharedEncoder t C) m (Shared.init s₀ b) st) (hok : ∀ e ∈ st.finished, e.2.2 = .ok ())
    (hgone : ∀ i x, st.phase i ≠ .gone (.consume x)) (ho : st.owner = none) :
    BulkCollects C D q st.shared (l ++ encodeAll enc (consumedValues st.finished)) := by
  obtain ⟨d, bs, h1, h2, _, h3, _⟩ := shared_encoder_drop_bytes_partial he hI hW hC h hok
  rw [← h1.complete fun i x hi => hgone i x (h2 _ _ hi)]
  exact h3 ho

/-- One task is dropped while it flushes, with the lock. -/
example : ∃ st : TwoEncoders,
    Shared.ReachableOrDrop (sharedEncoder U16BE.encodable.toEncodable trickle) (writeSuspension trickle (u16.opSlice .big))
      (Shared.init ⟨[], none, 0⟩ fun _ => ()) st ∧ st.phase false = .gone .flush ∧
    st.finished = [(true, .consume 0x0304, .ok ())] ∧ st.shared.received = encodeAll (u16.toBytes .big) [0x0304] := by
  have r : Shared.ReachableOrDrop (sharedEncoder U16BE.encodable.toEncodable trickle)
    (writeSuspension trickle (u16.opSlice .big)) (Shared.init ⟨[], none, 0⟩ fun _ : Bool => ())
    (Shared.init ⟨[], none, 0⟩ fun _ : Bool => ()) := .refl
  have r := r.snoc (.step (.call false .flush _ rfl rfl))
  have r := r.snoc (.step (.call true (.consume 0x0304) _ rfl rfl))
  have r := r.snoc (.step (.acquire false .flush rfl rfl))
  have r := r.snoc (.step (.step false .flush Writing.flushing Writing.flushing _ rfl (.inl ⟨rfl, rfl⟩)))
  have r := r.snoc (.drop false .flush Writing.flushing rfl)
  have r := r.snoc (.step (.acquire true (.consume 0x0304) rfl rfl))
  have r := r.snoc (.step (.step true (.consume 0x0304) (Writing.writing [3, 4] 0) (Writing.writing [3, 4] 1) _ rfl
    (.inr ⟨[3, 4], 0, 1, rfl, rfl, rfl⟩)))
  have r := r.snoc (.step (.step true (.consume 0x0304) (Writing.writing [3, 4] 1) (Writing.writing [3, 4] 2) _ rfl
    (.inr ⟨[3, 4], 1, 2, rfl, rfl, rfl⟩)))
  have r := r.snoc (.step (.ret true (.consume 0x0304) (Writing.writing [3, 4] 2) (.ok ()) _ rfl
    (.inl ⟨[3, 4], 2, .ok (), rfl, rfl, rfl⟩)))
  have h := shared_encoder_drop_flush_partial (u16.encodesLaw .big) (u16.suspension_implements .big trickle)
    (u16.suspension_writesParts .big) trickle_collects r (fun e _ => match e.2.2 with | .ok () => rfl | .error e => nomatch e)
    (by intro i x; cases i <;> exact nofun) rfl
  exact ⟨_, r, rfl, rfl, h.toCollects.observe.1⟩

end Encoder

section RelativeEncoder

variable {t : RelativeEncodable T Rel} {borrow : B → Rel} {enc : Rel → T → List UInt8} {C : BulkConsumer σ UInt8 F E}
  {D : σ → List UInt8 → Option F → Prop} {q : Policy UInt8 F E}
  {m : Suspension σ B (SharedRelativeEncoderOp T F B) (Except E Unit)} {b : ι → B} {s₀ : σ} {l : List UInt8}
  {st : Shared ι σ B (SharedRelativeEncoderOp T F B) (Except E Unit) m.κ}

/-- **C50**, partial, for relative encoders: each value relative to what its task has set last. -/
theorem shared_relative_encoder_drop_bytes_partial (he : ∀ r, EncodesLaw (t.relativeEncode r) (enc r))
    (hI : m.Implements (sharedRelativeEncoder t borrow C)) (hW : m.WritesParts D (relativeOpBytes enc borrow) C q)
    (hC : BulkCollects C D q s₀ l) (h : Shared.ReachableOrDrop (sharedRelativeEncoder t borrow C) m (Shared.init s₀ b) st)
    (hok : ∀ e ∈ st.finished, e.2.2 = .ok ()) :
    ∃ d bs, WrittenOrDropped (fun l i => relativeOpBytes enc borrow (relativeTos b l i)) st.finished d bs ∧
      (∀ i op, (i, op) ∈ d → st.phase i = .gone op) ∧ (d.map (·.1)).Nodup ∧
      (st.owner = none → BulkCollects C D q st.shared (l ++ bs)) ∧
      ∀ i, st.owner = some i → ∃ op k part, st.phase i = .running op k ∧
        part <+: relativeOpBytes enc borrow (relativeTos b st.finished i) op ∧ BulkCollects C D q st.shared (l ++ bs ++ part) := by
  obtain ⟨d, s, h1, h2, h3, _, h4, h5, _⟩ := shared_drop_serial hI h
  obtain ⟨bs, h6, h7⟩ := sharedRelativeEncoder_written he hW hC h1 hok
  refine ⟨d, bs, h6, h4, h5, fun ho => h2 ho ▸ h7, fun i ho => ?_⟩
  obtain ⟨op, k, run, h8, h9, h10⟩ := h3 i ho
  obtain ⟨part, h11, h12⟩ := hW _ _ _ _ _ _ h7 h10
  exact ⟨op, k, part, h8, sharedRelativeEncoder_fields h1 ▸ h11, h12⟩

/-- Any tasks with encoders of differences. -/
example {b : Bool → UInt8} {st : Shared Bool Trickle UInt8 (SharedRelativeEncoderOp UInt8 Unit UInt8) (Except Empty Unit) Writing}
    (h : Shared.ReachableOrDrop (sharedRelativeEncoder differenceEncodable id trickle) (writeSuspension trickle differenceSlice)
      (Shared.init ⟨[], none, 0⟩ b) st) (ho : st.owner = none) :
    ∃ d, WrittenOrDropped (fun l i => relativeOpBytes (fun r x => [x - r]) id (relativeTos b l i)) st.finished d
      st.shared.received := by
  obtain ⟨d, bs, h1, _, _, h2, _⟩ := shared_relative_encoder_drop_bytes_partial difference_encodes
    (difference_suspension_implements trickle) difference_suspension_writesParts trickle_collects h
    (fun e _ => match e.2.2 with | .ok () => rfl | .error e => nomatch e)
  have : st.shared.received = bs := (h2 ho).toCollects.observe.1
  exact ⟨d, this ▸ h1⟩

end RelativeEncoder

/-! ## C66 -/

section Decoder

variable {d : Decodable T R} {g : Grammar T R} {P : BulkProducer σ UInt8 F E} {bytes : List UInt8} {last : Except E F}
  {m : Suspension σ Unit SharedDecoderOp (SharedDecoderAnswer T F (DecodeError F E R))} {b : ι → Unit} {s₀ : σ}
  {st : Shared ι σ Unit SharedDecoderOp (SharedDecoderAnswer T F (DecodeError F E R)) m.κ}

/-- **C66**, partial: whatever is dropped, and when, as long as nothing but values has been answered the bytes read so far are, one
after the other, the encodings of the values that have been answered, in the order of completion, and what the dropped calls have
read, at most one of them per task and not beyond the end of an encoding. When nobody has the lock the producer goes on directly
after that. What is missing: that the dropped calls have read nothing, which is false, see `shared_decoder_dropped`. -/
theorem shared_decoder_drop_partial (hd : DecodesLaw d.decode g) (hg : g [] = .more) (hI : m.Implements (sharedDecoder d P))
    (hW : m.ReadsParts g P) (hP : BulkPlays P s₀ (Script.ofList bytes last))
    (h : Shared.ReachableOrDrop (sharedDecoder d P) m (Shared.init s₀ b) st)
    (hslurp : NoSlurpError st.finished) (hval : ∀ r ∈ producedAnswers st.finished, ∃ x, r.2 = .ok (.inl x)) :
    ∃ dr bs rest, bytes = bs ++ rest ∧ DecodedOrDropped g st.finished dr bs ∧
      (∀ i op, (i, op) ∈ dr → st.phase i = .gone op) ∧ (dr.map (·.1)).Nodup ∧
      (st.owner = none → BulkPlays P st.shared (Script.ofList rest last)) := by
  obtain ⟨dr, s, h1, h2, h3, _, h4, h5, _⟩ := shared_drop_serial hI h
  obtain ⟨bs, rest, h6, h7, h8⟩ := sharedDecoder_decoded hd hg hW hP h1 hslurp hval
  exact ⟨dr, bs, rest, h6, h7, h4, h5, fun ho => h2 ho ▸ h8⟩

/-- Two tasks with decoders for `u16`, whatever is dropped. -/
example {st : TwoDecoders}
    (h : Shared.ReachableOrDrop (sharedDecoder U16BE.decodable.toDecodable drip) (u16.readSuspension .big drip)
      (Shared.init [1, 2, 3, 4] fun _ => ()) st) (hslurp : NoSlurpError st.finished)
    (hval : ∀ r ∈ producedAnswers st.finished, ∃ x, r.2 = .ok (.inl x)) :
    ∃ dr bs rest, [1, 2, 3, 4] = bs ++ rest ∧ DecodedOrDropped (u16.grammar .big) st.finished dr bs := by
  obtain ⟨dr, bs, rest, h1, h2, _⟩ := shared_decoder_drop_partial (u16.decodesLaw .big) rfl (u16.readSuspension_implements .big drip)
    (u16.readSuspension_readsParts .big drip) (drip_plays [1, 2, 3, 4]) h hslurp hval
  exact ⟨dr, bs, rest, h1, h2⟩

/-- The full claim is false: if the future of a call of one decoder is dropped in its critical section (which is allowed as long
as this decoder is not used again), then the others go on in the middle of a value. Here the bytes are those of `0x0102` and
`0x0304`. Two tasks with decoders for `u16` call `produce` once each; one of the futures is dropped after it has read one byte; the
other call returns `Ok`, with a number that nobody has encoded. -/
theorem shared_decoder_dropped : ∃ st : TwoDecoders,
    encodeAll (u16.toBytes .big) [0x0102, 0x0304] = [1, 2, 3, 4] ∧
    Shared.ReachableOrDrop (sharedDecoder U16BE.decodable.toDecodable drip) (u16.readSuspension .big drip)
      (Shared.init [1, 2, 3, 4] fun _ => ()) st ∧
    st.owner = none ∧ st.finished = [(true, .produce, .produced (.ok (.inl 0x0203)))] ∧ st.phase false = .gone .produce ∧
    st.called false = [.produce] ∧ st.called true = [.produce] ∧ st.shared = [4] := by
  have r : Shared.ReachableOrDrop (sharedDecoder U16BE.decodable.toDecodable drip) (u16.readSuspension .big drip)
    (Shared.init [1, 2, 3, 4] fun _ : Bool => ()) (Shared.init [1, 2, 3, 4] fun _ : Bool => ()) := .refl
  have r := r.snoc (.step (.call false .produce _ rfl rfl))
  have r := r.snoc (.step (.call true .produce _ rfl rfl))
  have r := r.snoc (.step (.acquire false .produce rfl rfl))
  have r := r.snoc (.step (.step false .produce Reading.exposing (Reading.reading [0, 0] 0) [1, 2, 3, 4] rfl
    (.inr (.inl ⟨[1], rfl, rfl, rfl⟩))))
  have r := r.snoc (.step (.step false .produce (Reading.reading [0, 0] 0) (Reading.reading [1, 0] 1) [2, 3, 4] rfl
    (.inr (.inr ⟨[0, 0], 0, [1, 0], 1, rfl, rfl, rfl⟩))))
  have r := r.snoc (.drop false .produce (Reading.reading [1, 0] 1) rfl)
  have r := r.snoc (.step (.acquire true .produce rfl rfl))
  have r := r.snoc (.step (.step true .produce Reading.exposing (Reading.reading [0, 0] 0) [2, 3, 4] rfl
    (.inr (.inl ⟨[2], rfl, rfl, rfl⟩))))
  have r := r.snoc (.step (.step true .produce (Reading.reading [0, 0] 0) (Reading.reading [2, 0] 1) [3, 4] rfl
    (.inr (.inr ⟨[0, 0], 0, [2, 0], 1, rfl, rfl, rfl⟩))))
  have r := r.snoc (.step (.step true .produce (Reading.reading [2, 0] 1) (Reading.reading [2, 3] 2) [4] rfl
    (.inr (.inr ⟨[2, 0], 1, [2, 3], 2, rfl, rfl, rfl⟩))))
  have r := r.snoc (.step (.ret true .produce (Reading.reading [2, 3] 2) (.produced (.ok (.inl 0x0203))) [4] rfl
    (.inr (.inr (.inl ⟨[2, 3], 2, .ok (), [2, 3], rfl, rfl, rfl⟩)))))
  exact ⟨_, rfl, r, rfl, rfl, rfl, rfl, rfl, rfl⟩

/-- **C66**, partial, for `SharedCanonicDecoder`. -/
theorem shared_canonic_decoder_drop_partial {RC : Type} {d : DecodableCanonic T R RC} {g : Grammar T RC}
    {m : Suspension σ Unit SharedDecoderOp (SharedDecoderAnswer T F (DecodeError F E RC))}
    {st : Shared ι σ Unit SharedDecoderOp (SharedDecoderAnswer T F (DecodeError F E RC)) m.κ}
    (hd : DecodesLaw d.decodeCanonic g) (hg : g [] = .more) (hI : m.Implements (sharedCanonicDecoder d P))
    (hW : m.ReadsParts g P) (hP : BulkPlays P s₀ (Script.ofList bytes last))
    (h : Shared.ReachableOrDrop (sharedCanonicDecoder d P) m (Shared.init s₀ b) st)
    (hslurp : NoSlurpError st.finished) (hval : ∀ r ∈ producedAnswers st.finished, ∃ x, r.2 = .ok (.inl x)) :
    ∃ dr bs rest, bytes = bs ++ rest ∧ DecodedOrDropped g st.finished dr bs ∧
      (∀ i op, (i, op) ∈ dr → st.phase i = .gone op) ∧ (dr.map (·.1)).Nodup ∧
      (st.owner = none → BulkPlays P st.shared (Script.ofList rest last)) := by
  have e : sharedCanonicDecoder d P = sharedDecoder ⟨d.decodeCanonic⟩ P := by funext u op; cases op <;> rfl
  rw [e] at hI h
  exact shared_decoder_drop_partial (d := ⟨d.decodeCanonic⟩) hd hg hI hW hP h hslurp hval

/-- Two tasks with canonic decoders for `u16`, whatever is dropped. -/
example {st : TwoDecoders}
    (h : Shared.ReachableOrDrop (sharedCanonicDecoder U16BE.decodable drip) (u16.readSuspension .big drip)
      (Shared.init [1, 2, 3, 4] fun _ => ()) st) (hslurp : NoSlurpError st.finished)
    (hval : ∀ r ∈ producedAnswers st.finished, ∃ x, r.2 = .ok (.inl x)) :
    ∃ dr bs rest, [1, 2, 3, 4] = bs ++ rest ∧ DecodedOrDropped (u16.grammar .big) st.finished dr bs := by
  have e : sharedCanonicDecoder U16BE.decodable drip = sharedDecoder U16BE.decodable.toDecodable drip := by
    funext u op; cases op <;> rfl
  obtain ⟨dr, bs, rest, h1, h2, _⟩ := shared_canonic_decoder_drop_partial (d := U16BE.decodable) (u16.decodesLaw .big) rfl
    (e ▸ u16.readSuspension_implements .big drip) (u16.readSuspension_readsParts .big drip) (drip_plays [1, 2, 3, 4]) h hslurp hval
  exact ⟨dr, bs, rest, h1, h2⟩

end Decoder

section RelativeDecoder

variable {d : RelativeDecodable T Rel R} {borrow : B → Rel} {g : Rel → Grammar T R} {P : BulkProducer σ UInt8 F E}
  {bytes : List UInt8} {last : Except E F}
  {m : Suspension σ B (SharedRelativeDecoderOp B) (SharedDecoderAnswer T F (DecodeError F E R))} {b : ι → B} {s₀ : σ}
  {st : Shared ι σ B (SharedRelativeDecoderOp B) (SharedDecoderAnswer T F (DecodeError F E R)) m.κ}

/-- **C66**, partial, for relative decoders: each value, and what has been read of the value of a dropped call, relative to what its
task has set last. -/
theorem shared_relative_decoder_drop_partial (hd : ∀ r, DecodesLaw (d.relativeDecode r) (g r)) (hg : ∀ r, g r [] = .more)
    (hI : m.Implements (sharedRelativeDecoder d borrow P)) (hW : m.ReadsPartsRelative g borrow P)
    (hP : BulkPlays P s₀ (Script.ofList bytes last))
    (h : Shared.ReachableOrDrop (sharedRelativeDecoder d borrow P) m (Shared.init s₀ b) st)
    (hslurp : NoSlurpError st.finished) (hval : ∀ i op r, (i, op, .produced r) ∈ st.finished → ∃ x, r = .ok (.inl x)) :
    ∃ dr bs rest, bytes = bs ++ rest ∧ DecodedRelativeOrDropped g borrow b st.finished dr st.fields bs ∧
      (∀ i op, (i, op) ∈ dr → st.phase i = .gone op) ∧ (dr.map (·.1)).Nodup ∧
      (st.owner = none → BulkPlays P st.shared (Script.ofList rest last)) := by
  obtain ⟨dr, s, h1, h2, h3, _, h4, h5, _⟩ := shared_drop_serial hI h
  obtain ⟨bs, rest, h6, h7, h8⟩ := sharedRelativeDecoder_decoded hd hg hW hP h1 hslurp hval
  exact ⟨dr, bs, rest, h6, h7, h4, h5, fun ho => h2 ho ▸ h8⟩

/-- Any tasks with decoders of differences, whatever is dropped. -/
example {b : Bool → UInt8} {st : Shared Bool (List UInt8) UInt8 (SharedRelativeDecoderOp UInt8)
      (SharedDecoderAnswer UInt8 Unit (DecodeError Unit Empty Empty)) ((UInt8 × SharedRelativeDecoderOp UInt8) ⊕ UInt8)}
    (h : Shared.ReachableOrDrop (sharedRelativeDecoder differenceDecodable id drip) (lateSuspension differenceDecodable id drip)
      (Shared.init [1, 249, 3] b) st) (hslurp : NoSlurpError st.finished)
    (hval : ∀ i op r, (i, op, .produced r) ∈ st.finished → ∃ x, r = .ok (.inl x)) :
    ∃ dr bs rest, [1, 249, 3] = bs ++ rest ∧ DecodedRelativeOrDropped differenceGrammar id b st.finished dr st.fields bs := by
  obtain ⟨dr, bs, rest, h1, h2, _⟩ := shared_relative_decoder_drop_partial difference_decodes (fun _ => rfl)
    (lateSuspension_implements _ _ _) (lateSuspension_readsParts difference_decodes (fun _ => rfl) difference_decodesNext)
    (drip_plays [1, 249, 3]) h hslurp hval
  exact ⟨dr, bs, rest, h1, h2⟩

/-- **C66**, partial, for `SharedRelativeCanonicDecoder`. -/
theorem shared_relative_canonic_decoder_drop_partial {RC : Type} {d : RelativeDecodableCanonic T Rel R RC}
    {g : Rel → Grammar T RC} {m : Suspension σ B (SharedRelativeDecoderOp B) (SharedDecoderAnswer T F (DecodeError F E RC))}
    {st : Shared ι σ B (SharedRelativeDecoderOp B) (SharedDecoderAnswer T F (DecodeError F E RC)) m.κ}
    (hd : ∀ r, DecodesLaw (d.relativeDecodeCanonic r) (g r)) (hg : ∀ r, g r [] = .more)
    (hI : m.Implements (sharedRelativeCanonicDecoder d borrow P)) (hW : m.ReadsPartsRelative g borrow P)
    (hP : BulkPlays P s₀ (Script.ofList bytes last))
    (h : Shared.ReachableOrDrop (sharedRelativeCanonicDecoder d borrow P) m (Shared.init s₀ b) st)
    (hslurp : NoSlurpError st.finished) (hval : ∀ i op r, (i, op, .produced r) ∈ st.finished → ∃ x, r = .ok (.inl x)) :
    ∃ dr bs rest, bytes = bs ++ rest ∧ DecodedRelativeOrDropped g borrow b st.finished dr st.fields bs ∧
      (∀ i op, (i, op) ∈ dr → st.phase i = .gone op) ∧ (dr.map (·.1)).Nodup ∧
      (st.owner = none → BulkPlays P st.shared (Script.ofList rest last)) := by
  have e : sharedRelativeCanonicDecoder d borrow P = sharedRelativeDecoder ⟨d.relativeDecodeCanonic⟩ borrow P := by
    funext u op; cases op <;> rfl
  rw [e] at hI h
  exact shared_relative_decoder_drop_partial (d := ⟨d.relativeDecodeCanonic⟩) hd hg hI hW hP h hslurp hval

/-- Any tasks with canonic decoders of differences. -/
example {b : Bool → UInt8} {st : Shared Bool (List UInt8) UInt8 (SharedRelativeDecoderOp UInt8)
      (SharedDecoderAnswer UInt8 Unit (DecodeError Unit Empty Empty)) ((UInt8 × SharedRelativeDecoderOp UInt8) ⊕ UInt8)}
    (h : Shared.ReachableOrDrop
      (sharedRelativeCanonicDecoder ⟨differenceDecodable, id, differenceDecodable.relativeDecode⟩ id drip)
      (lateSuspension differenceDecodable id drip) (Shared.init [1, 249, 3] b) st) (hslurp : NoSlurpError st.finished)
    (hval : ∀ i op r, (i, op, .produced r) ∈ st.finished → ∃ x, r = .ok (.inl x)) :
    ∃ dr bs rest, [1, 249, 3] = bs ++ rest ∧ DecodedRelativeOrDropped differenceGrammar id b st.finished dr st.fields bs := by
  have e : sharedRelativeCanonicDecoder ⟨differenceDecodable, id, differenceDecodable.relativeDecode⟩ id drip =
      sharedRelativeDecoder differenceDecodable id drip := by funext u op; cases op <;> rfl
  obtain ⟨dr, bs, rest, h1, h2, _⟩ := shared_relative_canonic_decoder_drop_partial (g := differenceGrammar)
    difference_decodes (fun _ => rfl) (e ▸ lateSuspension_implements _ _ _)
    (lateSuspension_readsParts difference_decodes (fun _ => rfl) difference_decodesNext)
    (drip_plays [1, 249, 3]) h hslurp hval
  exact ⟨dr, bs, rest, h1, h2⟩

/-- The full claim is false for relative decoders, too, even for values of a single byte: the value that a dropped call has decoded is
lost to the others. -/
theorem shared_relative_decoder_dropped : ∃ st : Shared Bool (List UInt8) UInt8 (SharedRelativeDecoderOp UInt8)
      (SharedDecoderAnswer UInt8 Unit (DecodeError Unit Empty Empty)) ((UInt8 × SharedRelativeDecoderOp UInt8) ⊕ UInt8),
    Shared.ReachableOrDrop (sharedRelativeDecoder differenceDecodable id drip) (lateSuspension differenceDecodable id drip)
      (Shared.init [5, 6] fun _ => 1) st ∧
    st.owner = none ∧ st.finished = [(true, .produce, .produced (.ok (.inl 7)))] ∧ st.phase false = .gone .produce ∧
    BulkPlays drip st.shared (Script.ofList [] (.ok ())) := by
  obtain ⟨s₁, h1, h2⟩ := decoderProduce_spec (difference_decodes 1) rfl (drip_plays [5, 6])
    (.value (bs := [5]) (x := 6) (Script.ofList_startsWith [5, 6] _).left (difference_encoding 1 6))
  have h2 := h2 6 rfl
  rw [Script.ofList_drop _ _ _ (by simp)] at h2
  obtain ⟨s₂, h3, h4⟩ := decoderProduce_spec (difference_decodes 1) rfl h2
    (.value (bs := [6]) (x := 7) (Script.ofList_startsWith [6] _) (difference_encoding 1 7))
  have h4 := h4 7 rfl
  rw [Script.ofList_drop _ _ _ (by simp)] at h4
  have hret : (lateSuspension differenceDecodable id drip).ret (.inl (1, .produce)) s₁ (.produced (.ok (.inl 7))) s₂ :=
    .inl ⟨1, .produce, _, rfl, rfl, withAnswer_ok (f := SharedDecoderAnswer.produced) h3⟩
  have r : Shared.ReachableOrDrop (sharedRelativeDecoder differenceDecodable id drip) (lateSuspension differenceDecodable id drip)
    (Shared.init [5, 6] fun _ : Bool => 1) (Shared.init [5, 6] fun _ : Bool => 1) := .refl
  have r := r.snoc (.step (.call false .produce _ rfl rfl))
  have r := r.snoc (.step (.call true .produce _ rfl rfl))
  have r := r.snoc (.step (.acquire false .produce rfl rfl))
  have r := r.snoc (.step (.step false .produce (Sum.inl (1, SharedRelativeDecoderOp.produce)) (Sum.inr 6) s₁ rfl (.inr ⟨1, 6, rfl, h1, rfl⟩)))
  have r := r.snoc (.drop false .produce (Sum.inr 6) rfl)
  have r := r.snoc (.step (.acquire true .produce rfl rfl))
  have r := r.snoc (.step (.ret true .produce (Sum.inl (1, SharedRelativeDecoderOp.produce)) (.produced (.ok (.inl 7))) s₂ rfl hret))
  exact ⟨_, r, rfl, rfl, rfl, h4⟩

end RelativeDecoder

end Verif
