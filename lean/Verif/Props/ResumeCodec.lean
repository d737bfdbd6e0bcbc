import Verif.CodecDropSpec
import Verif.Props.ResumeSlices

/-!
# Dropped calls of encoders and decoders, started again (C109)

The bytes that a dropped call has written or read are written again or skipped by the next call: from then on, all integers in the
stream are shifted. Only integers of one byte are safe.
-/

namespace Verif.Async

open Outcome

variable {σ τ T F E : Type} {N : Nat}

/-- **C109, `Encoder`.** If `consume` of an integer is dropped, then the first `n` bytes of its encoding have been written, and not all.
Consuming the same integer again writes all its bytes after them. -/
theorem encoder_dropped (i : FixedInt T N) (o : ByteOrder) {C : BulkConsumer τ UInt8 F E} {D : τ → List UInt8 → Option F → Prop}
    {q : Policy UInt8 F E} {S : τ → List UInt8 → List UInt8 → Prop} {d : ConsumerDrops C} {t t' : τ} {l sl : List UInt8} {x : T} {n : Nat}
    (hS : BulkCollectsLaw C.seq D q S) (hd : d.Tolerated S) (ht : S t l sl) {k : ((encoder ⟨FixedInt.encode i o⟩ C).consume t x).κ}
    (h : ((encoder ⟨FixedInt.encode i o⟩ C).consume t x).Pending k) (hk : EncoderDropped i o d t x k n t') :
    n < N ∧ BulkCollects C.seq D q t' (l ++ (i.toBytes o x).take n) ∧
      ∀ y, q.Accepts (l ++ (i.toBytes o x).take n) (i.toBytes o y) → ∃ t₁, ((encoder ⟨FixedInt.encode i o⟩ C).consume t' y).run = ok (t₁, .ok ()) ∧
        BulkCollects C.seq D q t₁ (l ++ (i.toBytes o x).take n ++ i.toBytes o y) := by
  cases hk with
  | mk hk =>
    obtain ⟨hlt, _, sl', hsl⟩ := bulk_consume_full_slice_dropped hS hd ht (Fut.pending_left h) hk
    rw [FixedInt.toBytes_length] at hlt
    have hC : BulkCollects C.seq D q t' (l ++ (i.toBytes o x).take n) := ⟨S, hS, sl', hsl⟩
    refine ⟨hlt, hC, fun y hacc => ?_⟩
    obtain ⟨t₁, h1, h2⟩ := (FixedInt.encodesLaw i o).accepted y hC hacc
    exact ⟨t₁, (FixedInt.encode_run i o C t' y).trans h1, h2⟩

/-- **C109, `Encoder`, integers of one byte.** They can be encoded again: nothing has been written. -/
theorem encoder_dropped_byte (i : FixedInt T 1) (o : ByteOrder) {C : BulkConsumer τ UInt8 F E} {D : τ → List UInt8 → Option F → Prop}
    {q : Policy UInt8 F E} {S : τ → List UInt8 → List UInt8 → Prop} {d : ConsumerDrops C} {t t' : τ} {l sl : List UInt8} {x : T} {n : Nat}
    (hS : BulkCollectsLaw C.seq D q S) (hd : d.Tolerated S) (ht : S t l sl) {k : ((encoder ⟨FixedInt.encode i o⟩ C).consume t x).κ}
    (h : ((encoder ⟨FixedInt.encode i o⟩ C).consume t x).Pending k) (hk : EncoderDropped i o d t x k n t') :
    BulkCollects C.seq D q t' l := by
  obtain ⟨h1, h2, _⟩ := encoder_dropped i o hS hd ht h hk
  obtain rfl : n = 0 := by omega
  simpa using h2

theorem FixedInt.decode_seq_law (i : FixedInt T N) (o : ByteOrder) : DecodesLaw (DecodeFn.seq (FixedInt.decode i o)) (i.grammar o) := by
  rw [FixedInt.decode_seq]
  exact FixedInt.decodesLaw i o

/-- **C109, `Decoder`.** If `produce` is dropped, then some bytes `xs` have been read, fewer than an integer has. From then on, the
decoder emits what a decoder emits that begins after `xs`. -/
theorem decoder_dropped (i : FixedInt T N) (o : ByteOrder) (hN : 0 < N) {P : BulkProducer σ UInt8 F E} {c : Script UInt8 F E}
    {R : σ → Script UInt8 F E → Nat → Prop} {d : ProducerDrops P} {b : BulkProduceDrops P} {s s' : σ} {m n : Nat}
    (hR : BulkPlaysLaw P.seq R) (hd : d.Tolerated R) (hb : b.Tolerated R) (hs : R s c m)
    {k : ((decoder ⟨FixedInt.decode i o⟩ P).produce s).κ} (h : ((decoder ⟨FixedInt.decode i o⟩ P).produce s).Pending k)
    (hk : DecoderDropped i o d b s k n s') :
    n < N ∧ (∃ xs : List UInt8, xs.length = n ∧ c.StartsWith xs) ∧ BulkPlays P.seq s' (c.drop n) ∧
      ∀ {c' : Script T F (DecodeError F E Empty)} {used : Nat → Nat}, Decodes (i.grammar o) (c.drop n) c' used →
        BufPlays (decoder ⟨FixedInt.decode i o⟩ P).seq s' c' := by
  have key : n < N ∧ (∃ xs : List UInt8, xs.length = n ∧ c.StartsWith xs) ∧ BulkPlays P.seq s' (c.drop n) := by
    cases hk with
    | exposing hk =>
      obtain ⟨m', hm'⟩ := hd.exposeItems hs (Fut.pending_left h) hk
      exact ⟨hN, ⟨[], rfl, by simp⟩, R, hR, m', by simpa using hm'⟩
    | decoding hk =>
      obtain ⟨hr, hp⟩ := Fut.pending_right h
      obtain ⟨s₂, ⟨ys, _, _, h1, h2⟩ | ⟨f, _, h1⟩ | ⟨e, _, h1⟩⟩ := hR.expose _ _ _ hs <;> cases h1.symm.trans hr
      obtain ⟨xs, rfl, h3, h4, m', h5⟩ := bulk_overwrite_full_slice_dropped hR hb h2 (Fut.pending_left (Fut.pending_left hp)) hk
      rw [List.length_replicate] at h3
      exact ⟨h3, ⟨xs, rfl, h4⟩, R, hR, m', h5⟩
  refine ⟨key.1, key.2.1, key.2.2, fun hc => ?_⟩
  rw [decoder_seq _ (FixedInt.decode_uniform i o)]
  exact decoder_plays (FixedInt.decode_seq_law i o) (by simp [FixedInt.grammar, hN]) key.2.2 hc

/-- **C109, `Decoder`, integers of one byte.** `produce` can be called again: nothing has been read. -/
theorem decoder_dropped_byte (i : FixedInt T 1) (o : ByteOrder) {P : BulkProducer σ UInt8 F E} {c : Script UInt8 F E}
    {R : σ → Script UInt8 F E → Nat → Prop} {d : ProducerDrops P} {b : BulkProduceDrops P} {s s' : σ} {m n : Nat}
    (hR : BulkPlaysLaw P.seq R) (hd : d.Tolerated R) (hb : b.Tolerated R) (hs : R s c m)
    {k : ((decoder ⟨FixedInt.decode i o⟩ P).produce s).κ} (h : ((decoder ⟨FixedInt.decode i o⟩ P).produce s).Pending k)
    (hk : DecoderDropped i o d b s k n s') :
    ∀ {c' : Script T F (DecodeError F E Empty)} {used : Nat → Nat}, Decodes (i.grammar o) c c' used →
      BufPlays (decoder ⟨FixedInt.decode i o⟩ P).seq s' c' := by
  obtain ⟨h1, _, _, h2⟩ := decoder_dropped i o (by decide) hR hd hb hs h hk
  obtain rfl : n = 0 := by omega
  simpa using @h2

/-! ## Cases -/

namespace Case

/-- The producer `Case.exposed` after a byte has been read. -/
noncomputable def sippedProducer : TestProducer UInt8 Unit String :=
  match (BP.bulkProduce exposed [0, 0]).poll (BP.bulkProduce exposed [0, 0]).start with
  | .ok (.ready (s, _)) => s
  | _ => exposed

abbrev VB : BulkConsumer (IntoVec UInt8) UInt8 Unit Empty := .ofSeq (IntoVec.consumer UInt8)

theorem VB_law : BulkCollectsLaw VB.seq (fun s l _ => s.asRef = ok l ∧ s.intoVec = l) Policy.acceptAll IntoVec.Ready := by
  rw [BulkConsumer.ofSeq_seq]; exact IntoVec.law

/-- An `IntoVec` of bytes that consumes one byte at a time, and is pending once before it consumes the last byte that it is given. -/
noncomputable def sipBytes : BulkConsumer (IntoVec UInt8) UInt8 Unit Empty where
  consume := VB.consume
  close := VB.close
  flush := VB.flush
  exposeSlots := VB.exposeSlots
  writeSlots := VB.writeSlots
  consumeSlots := VB.consumeSlots
  bulkConsume s ys :=
    if ys.length < 2 then do
      pause
      VB.bulkConsume s (ys.take 1)
    else VB.bulkConsume s (ys.take 1)

theorem sipBytes_bulk (s : IntoVec UInt8) (ys : List UInt8) : sipBytes.seq.bulkConsume s ys = VB.seq.bulkConsume s (ys.take 1) := by
  show (sipBytes.bulkConsume s ys).run = (VB.bulkConsume s (ys.take 1)).run
  dsimp only [sipBytes]
  split
  · exact (Fut.run_bind _ _).trans (by rw [pause_run]; rfl)
  · rfl

theorem sipBytes_law : BulkCollectsLaw sipBytes.seq (fun s l _ => s.asRef = ok l ∧ s.intoVec = l) Policy.acceptAll IntoVec.Ready where
  base := VB_law.base
  expose_ok := VB_law.expose_ok
  expose_err := VB_law.expose_err
  write := VB_law.write
  consumeSlots_ok := VB_law.consumeSlots_ok
  consumeSlots_err := VB_law.consumeSlots_err
  bulkConsume := by
    intro s l slots buf hR hne
    have hpos := List.length_pos_iff.2 hne
    obtain ⟨s', ⟨k, h1, h2, h3, h4, h5⟩ | ⟨i, e, h1, h2, h3⟩⟩ := VB_law.bulkConsume s l slots (buf.take 1) hR (by
      simp only [ne_eq, List.take_eq_nil_iff, not_or]; exact ⟨by omega, hne⟩)
    · rw [List.length_take] at h2
      rw [List.take_take, Nat.min_eq_left (by omega)] at h3 h5
      exact ⟨s', .inl ⟨k, h1, by omega, h3, by rw [sipBytes_bulk]; exact h4, h5⟩⟩
    · exact e.elim

/-- While it is pending, nothing has happened. -/
def sipBytesDrops : ConsumerDrops sipBytes where
  bulkConsume t _ _ t' := t' = t

theorem sipBytes_tolerated : sipBytesDrops.Tolerated IntoVec.Ready where
  bulkConsume := by intro t l sl ys k t' h _ _ he; cases he; exact ⟨_, h⟩

theorem BP_law : BulkPlaysLaw BP.seq (Verif.TestProducer.Ready false) := by rw [testProducer_seq]; exact Verif.TestProducer.law false

theorem byByte_ready : Verif.TestProducer.Ready false byByte (Script.ofList [0, 1, 0, 2, 0, 3] (.ok ())) 0 :=
  Verif.TestProducer.ready_new false _ (.ok ()) [⟨1, by decide⟩] _

end Case

/-- **C109**, a witness: 258, the bytes of which are 1 and 2, is encoded. The call is dropped and started again; it reports success. The
bytes that have been written, 1, 1 and 2, decode to 257. -/
theorem encoder_misaligned : ∃ k t', ((encoder ⟨FixedInt.encode u16 .big⟩ Case.sipBytes).consume .new 258).Pending k ∧
    EncoderDropped u16 .big Case.sipBytesDrops .new 258 k 1 t' ∧
    ∃ t₁, ((encoder ⟨FixedInt.encode u16 .big⟩ Case.sipBytes).consume t' 258).run = ok (t₁, .ok ()) ∧ t₁.intoVec = [1, 1, 2] ∧
      ∃ s₁, (FixedInt.decode u16 .big Case.BP (TestProducer.new t₁.intoVec (.ok ()) [] none)).run = ok (s₁, .ok 257) := by
  have hb : ([1, 2] : List UInt8) = u16.toBytes .big 258 := by decide
  have hp : ∀ buf, [1, 2] = buf → ∃ k, (bulkConsumeFullSlice Case.sipBytes .new buf).poll
      (bulkConsumeFullSlice Case.sipBytes .new buf).start = ok (.pending k) ∧
      ∃ t', SliceConsumeDropped Case.sipBytesDrops .new buf k 1 t' := by
    rintro _ rfl
    have h : (bulkConsumeFullSlice Case.sipBytes .new [1, 2]).poll (bulkConsumeFullSlice Case.sipBytes .new [1, 2]).start =
      ok (.pending ⟨(_, 1), Sum.inl _⟩) := loop_eq_of_fuel (n := 2) nofun
    exact ⟨_, h, _, .consuming (n := 1) HEq.rfl rfl⟩
  obtain ⟨k, hk, t', hd⟩ := hp _ hb
  obtain ⟨k, hk, hd⟩ := Fut.first_pending (Q := fun k => EncoderDropped u16 .big Case.sipBytesDrops .new 258 k 1 t')
    (f := (encoder ⟨FixedInt.encode u16 .big⟩ Case.sipBytes).consume .new 258) (Fut.poll_bind_left hk) (.mk hd)
  obtain ⟨_, _, h1⟩ := encoder_dropped u16 .big Case.sipBytes_law Case.sipBytes_tolerated (IntoVec.ready_fromVec []) hk hd
  rw [← hb] at h1
  obtain ⟨t₁, h2, R, hR, sl, hs⟩ := h1 258 Policy.accepts_acceptAll
  rw [← hb] at hs
  have hv : t₁.intoVec = [1, 1, 2] := (hR.base.toCollectsLaw.observe _ _ ⟨sl, hs⟩).2
  refine ⟨k, t', hk, hd, t₁, h2, hv, ?_⟩
  rw [hv]
  have hP : BulkPlays Case.BP.seq (TestProducer.new [1, 1, 2] (.ok ()) [] none) (Script.ofList [1, 1, 2] (.ok ())) := by
    rw [testProducer_seq]; exact test_producer_plays false _ _ _ _
  obtain ⟨s₁, h4, _⟩ := (FixedInt.decodesLaw u16 .big).value hP (bs := [1, 1]) (x := 257)
    (Script.ofList_startsWith ([1, 1] ++ [2]) _).left ((FixedInt.encoding_iff u16 .big _ _).mpr ⟨rfl, by decide⟩)
  exact ⟨s₁, (FixedInt.decode_run ..).trans h4⟩

/-- **C109**, a witness: the bytes are those of 1, 2 and 3. `produce` of a `Decoder` is dropped after the first byte; the next call
emits 256. -/
theorem decoder_misaligned : ∃ k s', ((decoder ⟨FixedInt.decode u16 .big⟩ Case.BP).produce Case.byByte).Pending k ∧
    DecoderDropped u16 .big (TestProducer.drops false UInt8 Unit String) (TestProducer.bulkDrops false UInt8 Unit String) Case.byByte k 1 s' ∧
    ∃ s₁, ((decoder ⟨FixedInt.decode u16 .big⟩ Case.BP).produce s').run = ok (s₁, .ok (.inl 256)) := by
  have he : (Case.BP.exposeItems Case.byByte).poll (Case.BP.exposeItems Case.byByte).start = ok (.ready (Case.exposed, .ok (.inl [0]))) := rfl
  have hb : (bulkOverwriteFullSlice Case.BP Case.exposed (List.replicate 2 0)).poll
      (bulkOverwriteFullSlice Case.BP Case.exposed (List.replicate 2 0)).start = ok (.pending ⟨(Case.sippedProducer, [0, 0], 1), Sum.inl (Sum.inl _)⟩) :=
    loop_eq_of_fuel (n := 2) nofun
  obtain ⟨s', hd⟩ := test_producer_drops_expose_total false (Fut.pending_left (Fut.pending_left (Fut.pending_loop (Fut.Pending.first hb)).2))
  obtain ⟨k, hk, hd⟩ := Fut.first_pending (Q := fun k => DecoderDropped u16 .big (TestProducer.drops false UInt8 Unit String)
    (TestProducer.bulkDrops false UInt8 Unit String) Case.byByte k 1 s') (f := (decoder ⟨FixedInt.decode u16 .big⟩ Case.BP).produce Case.byByte)
    (Fut.poll_bind_right he (Fut.poll_bind_left (Fut.poll_bind_left hb))) (.decoding (.producing (n := 1) HEq.rfl (.exposing hd)))
  obtain ⟨_, _, h1, _⟩ := decoder_dropped u16 .big (by decide) Case.BP_law (test_producer_drops false) (test_producer_bulk_drops false)
    Case.byByte_ready hk hd
  obtain ⟨s₁, h2, _⟩ := decoderProduce_spec (FixedInt.decode_seq_law u16 .big) rfl h1 (.value (bs := [1, 0]) (x := 256)
    (Script.StartsWith.right (xs := [0]) (ys := [1, 0]) (Script.ofList_startsWith ([0, 1, 0] ++ [2, 0, 3]) _).left)
    ((FixedInt.encoding_iff u16 .big _ _).mpr ⟨rfl, by decide⟩))
  exact ⟨k, s', hk, hd, s₁, (decoderProduce_run (FixedInt.decode_uniform u16 .big) Case.BP s').trans h2⟩

/-- An integer of one byte: the call is dropped, and the consumer is as before. -/
example : ∃ k t', ((encoder ⟨FixedInt.encode u8 .big⟩ Case.sipBytes).consume .new 7).Pending k ∧
    EncoderDropped u8 .big Case.sipBytesDrops .new 7 k 0 t' ∧
    BulkCollects Case.sipBytes.seq (fun s l _ => s.asRef = ok l ∧ s.intoVec = l) Policy.acceptAll t' [] := by
  have hb : ([7] : List UInt8) = u8.toBytes .big 7 := by decide
  have hp : ∀ buf, [7] = buf → ∃ k, (bulkConsumeFullSlice Case.sipBytes .new buf).poll
      (bulkConsumeFullSlice Case.sipBytes .new buf).start = ok (.pending k) ∧
      ∃ t', SliceConsumeDropped Case.sipBytesDrops .new buf k 0 t' := by
    rintro _ rfl
    have h : (bulkConsumeFullSlice Case.sipBytes .new [7]).poll (bulkConsumeFullSlice Case.sipBytes .new [7]).start =
      ok (.pending ⟨(_, 0), Sum.inl _⟩) := loop_eq_of_fuel (n := 1) nofun
    exact ⟨_, h, _, .consuming (n := 0) HEq.rfl rfl⟩
  obtain ⟨k, hk, t', hd⟩ := hp _ hb
  obtain ⟨k, hk, hd⟩ := Fut.first_pending (Q := fun k => EncoderDropped u8 .big Case.sipBytesDrops .new 7 k 0 t')
    (f := (encoder ⟨FixedInt.encode u8 .big⟩ Case.sipBytes).consume .new 7) (Fut.poll_bind_left hk) (.mk hd)
  exact ⟨k, t', hk, hd, encoder_dropped_byte u8 .big Case.sipBytes_law Case.sipBytes_tolerated (IntoVec.ready_fromVec []) hk hd⟩

namespace Case

/-- Two bytes; the first poll is pending. -/
def slowBytes : TestProducer UInt8 Unit String := TestProducer.new [5, 6] (.ok ()) [] (some [true, false])

theorem slowBytes_ready : Verif.TestProducer.Ready false slowBytes (Script.ofList [5, 6] (.ok ())) 0 :=
  Verif.TestProducer.ready_new false _ (.ok ()) [] _

end Case

/-- Integers of one byte: `produce` is dropped, and the decoder is as before. -/
example : ∃ k s', ((decoder ⟨FixedInt.decode u8 .big⟩ Case.BP).produce Case.slowBytes).Pending k ∧
    DecoderDropped u8 .big (TestProducer.drops false UInt8 Unit String) (TestProducer.bulkDrops false UInt8 Unit String) Case.slowBytes k 0 s' ∧
    BufPlays (decoder ⟨FixedInt.decode u8 .big⟩ Case.BP).seq s' (Script.ofList [5, 6] (.ok ())) := by
  have he : (Case.BP.exposeItems Case.slowBytes).poll (Case.BP.exposeItems Case.slowBytes).start = ok (.pending _) := rfl
  obtain ⟨s', hd⟩ := test_producer_drops_expose_total false (Fut.Pending.first he)
  obtain ⟨k, hk, hd⟩ := Fut.first_pending (Q := fun k => DecoderDropped u8 .big (TestProducer.drops false UInt8 Unit String)
    (TestProducer.bulkDrops false UInt8 Unit String) Case.slowBytes k 0 s') (f := (decoder ⟨FixedInt.decode u8 .big⟩ Case.BP).produce Case.slowBytes)
    (Fut.poll_bind_left he) (.exposing hd)
  refine ⟨k, s', hk, hd, decoder_dropped_byte u8 .big Case.BP_law (test_producer_drops false) (test_producer_bulk_drops false)
    Case.slowBytes_ready hk hd (used := fun n => (encodeAll (fun x => u8.toBytes .big x) (([5, 6] : List UInt8).take n)).length)
    (decodes_encodeAll (fun x => (FixedInt.encoding_iff u8 .big _ _).mpr ⟨u8.toBytes_length .big x, FixedInt.fromBytes_toBytes u8_faithful .big x⟩)
      (Script.ofList_startsWith (encodeAll (fun x => u8.toBytes .big x) ([5, 6] : List UInt8)) _) (.final rfl))⟩

end Verif.Async
