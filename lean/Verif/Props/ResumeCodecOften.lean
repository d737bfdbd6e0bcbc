import Verif.Props.ResumeCodec

/-!
# Encoders and decoders of integers that are dropped any number of times (C109)

C109 drops one call. Here `consume` or `produce` is called and dropped any number of times.
-/

namespace Verif.Async

open Outcome

variable {σ τ T F E : Type} {N : Nat}

/-- `consume` of an `Encoder` is called and dropped any number of times, with any integers; `w` are the bytes that the calls have
written. -/
inductive EncoderRetried (i : FixedInt T N) (o : ByteOrder) {C : BulkConsumer τ UInt8 F E} (d : ConsumerDrops C) :
    τ → (w : List UInt8) → τ → Prop where
  | refl {t} : EncoderRetried i o d t [] t
  | drop {t x k n t₁ w t'} : ((encoder ⟨FixedInt.encode i o⟩ C).consume t x).Pending k → EncoderDropped i o d t x k n t₁ →
      EncoderRetried i o d t₁ w t' → EncoderRetried i o d t ((i.toBytes o x).take n ++ w) t'

/-- `produce` of a `Decoder` is called and dropped any number of times; `n` is the number of bytes that the calls have read. -/
inductive DecoderRetried (i : FixedInt T N) (o : ByteOrder) {P : BulkProducer σ UInt8 F E} (d : ProducerDrops P) (b : BulkProduceDrops P) :
    σ → (n : Nat) → σ → Prop where
  | refl {s} : DecoderRetried i o d b s 0 s
  | drop {s k n s₁ n' s'} : ((decoder ⟨FixedInt.decode i o⟩ P).produce s).Pending k → DecoderDropped i o d b s k n s₁ →
      DecoderRetried i o d b s₁ n' s' → DecoderRetried i o d b s (n + n') s'

/-- **C109, `Encoder`, any number of drops.** The consumer has got the bytes that the dropped calls have written, and a further call writes
the encoding of its integer behind them. -/
theorem encoder_dropped_often (i : FixedInt T N) (o : ByteOrder) {C : BulkConsumer τ UInt8 F E} {D : τ → List UInt8 → Option F → Prop}
    {q : Policy UInt8 F E} {S : τ → List UInt8 → List UInt8 → Prop} {d : ConsumerDrops C} {t t' : τ} {l sl w : List UInt8}
    (hS : BulkCollectsLaw C.seq D q S) (hd : d.Tolerated S) (ht : S t l sl) (h : EncoderRetried i o d t w t') :
    q.Accepts l w ∧ BulkCollects C.seq D q t' (l ++ w) ∧
      ∀ y, q.Accepts (l ++ w) (i.toBytes o y) → ∃ t₁, ((encoder ⟨FixedInt.encode i o⟩ C).consume t' y).run = ok (t₁, .ok ()) ∧
        BulkCollects C.seq D q t₁ (l ++ w ++ i.toBytes o y) := by
  have key : q.Accepts l w ∧ BulkCollects C.seq D q t' (l ++ w) := by
    induction h generalizing l sl with
    | refl => exact ⟨by simp, S, hS, sl, by simpa using ht⟩
    | @drop t x k n t₁ w t' hp hk _ ih =>
      cases hk with
      | mk hk =>
        obtain ⟨_, ha, sl', hsl⟩ := bulk_consume_full_slice_dropped hS hd ht (Fut.pending_left hp) hk
        obtain ⟨h1, h2⟩ := ih hsl
        exact ⟨Policy.accepts_append.2 ⟨ha, h1⟩, by simpa [List.append_assoc] using h2⟩
  refine ⟨key.1, key.2, fun y hacc => ?_⟩
  obtain ⟨t₁, h1, h2⟩ := (FixedInt.encodesLaw i o).accepted y key.2 hacc
  exact ⟨t₁, (FixedInt.encode_run i o C t' y).trans h1, h2⟩

/-- **C109.** Integers of one byte: however often `consume` is dropped, nothing has been written. -/
theorem encoder_dropped_byte_often (i : FixedInt T 1) (o : ByteOrder) {C : BulkConsumer τ UInt8 F E} {D : τ → List UInt8 → Option F → Prop}
    {q : Policy UInt8 F E} {S : τ → List UInt8 → List UInt8 → Prop} {d : ConsumerDrops C} {t t' : τ} {l sl w : List UInt8}
    (hS : BulkCollectsLaw C.seq D q S) (hd : d.Tolerated S) (ht : S t l sl) (h : EncoderRetried i o d t w t') :
    w = [] ∧ BulkCollects C.seq D q t' l := by
  induction h generalizing sl with
  | refl => exact ⟨rfl, S, hS, sl, ht⟩
  | @drop t x k n t₁ w t' hp hk _ ih =>
    cases hk with
    | mk hk =>
      obtain ⟨hlt, _, sl', hsl⟩ := bulk_consume_full_slice_dropped hS hd ht (Fut.pending_left hp) hk
      rw [FixedInt.toBytes_length] at hlt
      obtain rfl : n = 0 := by omega
      obtain ⟨rfl, h2⟩ := ih (by simpa using hsl)
      exact ⟨by simp, h2⟩

/-- What dropped calls of `produce` leave. -/
theorem decoder_retried (i : FixedInt T N) (o : ByteOrder) (hN : 0 < N) {P : BulkProducer σ UInt8 F E} {c : Script UInt8 F E}
    {R : σ → Script UInt8 F E → Nat → Prop} {d : ProducerDrops P} {b : BulkProduceDrops P} {s s' : σ} {m n : Nat}
    (hR : BulkPlaysLaw P.seq R) (hd : d.Tolerated R) (hb : b.Tolerated R) (hs : R s c m) (h : DecoderRetried i o d b s n s') :
    (∃ xs : List UInt8, xs.length = n ∧ c.StartsWith xs) ∧ (N = 1 → n = 0) ∧ ∃ m, R s' (c.drop n) m := by
  induction h generalizing c m with
  | refl => exact ⟨⟨[], rfl, by simp⟩, fun _ => rfl, m, by simpa using hs⟩
  | @drop s k n s₁ n' s' hp hk _ ih =>
    have key : n < N ∧ (∃ xs : List UInt8, xs.length = n ∧ c.StartsWith xs) ∧ ∃ m, R s₁ (c.drop n) m := by
      cases hk with
      | exposing hk =>
        obtain ⟨m', hm'⟩ := hd.exposeItems hs (Fut.pending_left hp) hk
        exact ⟨hN, ⟨[], rfl, by simp⟩, m', by simpa using hm'⟩
      | decoding hk =>
        obtain ⟨hr, hp⟩ := Fut.pending_right hp
        obtain ⟨s₂, ⟨ys, _, _, h1, h2⟩ | ⟨f, _, h1⟩ | ⟨e, _, h1⟩⟩ := hR.expose _ _ _ hs <;> cases h1.symm.trans hr
        obtain ⟨xs, rfl, h3, h4, m', h5⟩ := bulk_overwrite_full_slice_dropped hR hb h2 (Fut.pending_left (Fut.pending_left hp)) hk
        rw [List.length_replicate] at h3
        exact ⟨h3, ⟨xs, rfl, h4⟩, m', h5⟩
    obtain ⟨hlt, ⟨xs, rfl, hx⟩, m', hm'⟩ := key
    obtain ⟨⟨ys, rfl, hy⟩, h0, m'', hm''⟩ := ih hm'
    refine ⟨⟨xs ++ ys, by simp, ?_⟩, fun h1 => by have := h0 h1; omega, m'', ?_⟩
    · intro i x hi
      rcases Nat.lt_or_ge i xs.length with h | h
      · exact hx i x (by rwa [List.getElem?_append_left h] at hi)
      · have := hy (i - xs.length) x (by rwa [List.getElem?_append_right h] at hi)
        simpa [Script.drop, Nat.sub_add_cancel h, Nat.add_sub_cancel' h] using this
    · have : (c.drop xs.length).drop ys.length = c.drop (xs.length + ys.length) := by
        funext i; simp [Script.drop, Nat.add_comm, Nat.add_left_comm]
      rwa [this] at hm''

/-- **C109, `Decoder`, any number of drops.** If the dropped calls of `produce` have read `n` bytes, then from then on, the decoder emits what
a decoder emits that begins after them. For integers of one byte, `n` is 0. -/
theorem decoder_dropped_often (i : FixedInt T N) (o : ByteOrder) (hN : 0 < N) {P : BulkProducer σ UInt8 F E} {c : Script UInt8 F E}
    {R : σ → Script UInt8 F E → Nat → Prop} {d : ProducerDrops P} {b : BulkProduceDrops P} {s s' : σ} {m n : Nat}
    (hR : BulkPlaysLaw P.seq R) (hd : d.Tolerated R) (hb : b.Tolerated R) (hs : R s c m) (h : DecoderRetried i o d b s n s') :
    (∃ xs : List UInt8, xs.length = n ∧ c.StartsWith xs) ∧ (N = 1 → n = 0) ∧ BulkPlays P.seq s' (c.drop n) ∧
      ∀ {c' : Script T F (DecodeError F E Empty)} {used : Nat → Nat}, Decodes (i.grammar o) (c.drop n) c' used →
        BufPlays (decoder ⟨FixedInt.decode i o⟩ P).seq s' c' := by
  obtain ⟨h1, h2, m', hm'⟩ := decoder_retried i o hN hR hd hb hs h
  have hP : BulkPlays P.seq s' (c.drop n) := ⟨R, hR, m', hm'⟩
  refine ⟨h1, h2, hP, fun hc => ?_⟩
  rw [decoder_seq _ (FixedInt.decode_uniform i o)]
  exact decoder_plays (FixedInt.decode_seq_law i o) (by simp [FixedInt.grammar, hN]) hP hc

/-! ## Cases -/

/-- 7 is encoded; the call is dropped, called again and dropped again. The vector is empty. -/
example : ∃ t', EncoderRetried u8 .big Case.sipBytesDrops .new [] t' ∧
    BulkCollects Case.sipBytes.seq (fun s l _ => s.asRef = ok l ∧ s.intoVec = l) Policy.acceptAll t' [] := by
  have hb : ([7] : List UInt8) = u8.toBytes .big 7 := by decide
  have hp : ∀ t buf, [7] = buf → ∃ k, (bulkConsumeFullSlice Case.sipBytes t buf).poll
      (bulkConsumeFullSlice Case.sipBytes t buf).start = ok (.pending k) ∧
      ∃ t', SliceConsumeDropped Case.sipBytesDrops t buf k 0 t' := by
    rintro t _ rfl
    have h : (bulkConsumeFullSlice Case.sipBytes t [7]).poll (bulkConsumeFullSlice Case.sipBytes t [7]).start =
      ok (.pending ⟨(_, 0), Sum.inl _⟩) := loop_eq_of_fuel (n := 1) nofun
    exact ⟨_, h, _, .consuming (n := 0) HEq.rfl rfl⟩
  have step : ∀ t, ∃ k t', ((encoder ⟨FixedInt.encode u8 .big⟩ Case.sipBytes).consume t 7).Pending k ∧
      EncoderDropped u8 .big Case.sipBytesDrops t 7 k 0 t' := by
    intro t
    obtain ⟨k, hk, t', hd⟩ := hp t _ hb
    obtain ⟨k, hk, hd⟩ := Fut.first_pending (Q := fun k => EncoderDropped u8 .big Case.sipBytesDrops t 7 k 0 t')
      (f := (encoder ⟨FixedInt.encode u8 .big⟩ Case.sipBytes).consume t 7) (Fut.poll_bind_left hk) (.mk hd)
    exact ⟨k, t', hk, hd⟩
  obtain ⟨k, t₁, hk, hd⟩ := step .new
  obtain ⟨k', t₂, hk', hd'⟩ := step t₁
  have hr : EncoderRetried u8 .big Case.sipBytesDrops .new [] t₂ := by
    simpa using EncoderRetried.drop hk hd (.drop hk' hd' .refl)
  exact ⟨t₂, hr, (encoder_dropped_byte_often u8 .big Case.sipBytes_law Case.sipBytes_tolerated (IntoVec.ready_fromVec []) hr).2⟩

/-- `produce` is dropped, and the decoder is as before. -/
example : ∃ s', DecoderRetried u8 .big (TestProducer.drops false UInt8 Unit String) (TestProducer.bulkDrops false UInt8 Unit String)
      Case.slowBytes 0 s' ∧ BufPlays (decoder ⟨FixedInt.decode u8 .big⟩ Case.BP).seq s' (Script.ofList [5, 6] (.ok ())) := by
  have he : (Case.BP.exposeItems Case.slowBytes).poll (Case.BP.exposeItems Case.slowBytes).start = ok (.pending _) := rfl
  obtain ⟨s', hd⟩ := test_producer_drops_expose_total false (Fut.Pending.first he)
  obtain ⟨k, hk, hd⟩ := Fut.first_pending (Q := fun k => DecoderDropped u8 .big (TestProducer.drops false UInt8 Unit String)
    (TestProducer.bulkDrops false UInt8 Unit String) Case.slowBytes k 0 s') (f := (decoder ⟨FixedInt.decode u8 .big⟩ Case.BP).produce Case.slowBytes)
    (Fut.poll_bind_left he) (.exposing hd)
  have hr : DecoderRetried u8 .big (TestProducer.drops false UInt8 Unit String) (TestProducer.bulkDrops false UInt8 Unit String)
      Case.slowBytes (0 + 0) s' := .drop hk hd .refl
  obtain ⟨_, _, _, h⟩ := decoder_dropped_often u8 .big (by decide) Case.BP_law (test_producer_drops false) (test_producer_bulk_drops false)
    Case.slowBytes_ready hr
  have h' := @h
  simp only [Nat.add_zero, Script.drop_zero] at h'
  exact ⟨s', hr, h' (used := fun n => (encodeAll (fun x => u8.toBytes .big x) (([5, 6] : List UInt8).take n)).length)
    (decodes_encodeAll (fun x => (FixedInt.encoding_iff u8 .big _ _).mpr ⟨u8.toBytes_length .big x, FixedInt.fromBytes_toBytes u8_faithful .big x⟩)
      (Script.ofList_startsWith (encodeAll (fun x => u8.toBytes .big x) ([5, 6] : List UInt8)) _) (.final rfl))⟩

end Verif.Async
