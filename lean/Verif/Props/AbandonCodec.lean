import Verif.Props.Abandon
import Verif.Props.Codec
import Verif.Props.AsyncCodec
import Verif.CodecCases

/-!
# Abandoned calls of codecs (C100)

What has happened to the producer or consumer of bytes if a call of a `Decoder` or `Encoder` is dropped before it has completed: which bytes have been read or
written by the calls that have returned, and which call is pending. `k` is the state in which the future was dropped.
-/

namespace Verif.Async

open Outcome

variable {σ T R I F E : Type}

/-! ## First polls -/

theorem Fut.poll_bind_left {A B : Type} {f : Fut A} {g : A → Fut B} {k : f.κ} (h : f.poll f.start = ok (.pending k)) :
    (f >>= g).poll (f >>= g).start = ok (.pending (.inl k)) := by
  show Fut.andThenPoll f g (.inl f.start) = _
  rw [Fut.andThenPoll, h]
  rfl

theorem Fut.poll_bind_right {A B : Type} {f : Fut A} {g : A → Fut B} {a : A} {k : (g a).κ} (h : f.poll f.start = ok (.ready a))
    (hg : (g a).poll (g a).start = ok (.pending k)) : (f >>= g).poll (f >>= g).start = ok (.pending (.inr ⟨a, k⟩)) := by
  have this : Fut.andThenPoll f g (.inl f.start) = ok (.pending (.inr ⟨a, k⟩)) := by
    rw [Fut.andThenPoll]
    simp only [h, Fut.pollIn, bind_ok, hg]
  exact this

/-! ## Full slices -/

/-- For a given invariant of the consumer. -/
theorem bulk_consume_full_slice_left {C : BulkConsumer σ I F E} {D : σ → List I → Option F → Prop} {q : Policy I F E} {R : σ → List I → List I → Prop}
    {s : σ} {l buf slots : List I} (hR : BulkCollectsLaw C.seq D q R) (hs : R s l slots) {k : (bulkConsumeFullSlice C s buf).κ} (h : (bulkConsumeFullSlice C s buf).Pending k) :
    ∃ n s₁ k', k = ⟨(s₁, n), k'⟩ ∧ n < buf.length ∧ q.Accepts l (buf.take n) ∧ (∃ slots, R s₁ (l ++ buf.take n) slots) ∧
      ∃ kc, HEq k' (Sum.inl kc : (bulkConsumeStep C buf s₁ n).κ) ∧ (C.bulkConsume s₁ (buf.drop n)).Pending kc := by
  obtain ⟨⟨s₁, n⟩, k⟩ := k
  obtain ⟨hi, hk⟩ := Fut.pending_loop h
  obtain ⟨hle, hq, slots, hs⟩ := hi.keeps (Inv := fun x => x.2 ≤ buf.length ∧ q.Accepts l (buf.take x.2) ∧ ∃ slots, R x.1 (l ++ buf.take x.2) slots)
    ⟨Nat.zero_le _, by simp, slots, by simpa using hs⟩ (by
    rintro ⟨s₁, n⟩ ⟨s₂, n'⟩ ⟨hle, hq, slots, hs⟩ hr
    rw [bulkConsumeFullSliceBody_run, Verif.bulkConsumeFullSliceBody] at hr
    split at hr
    · next hlt =>
      have hne : buf.drop n ≠ [] := by
        intro h0
        have := congrArg List.length h0
        simp at this
        omega
      obtain ⟨s', ⟨i, h1, h2, h3, h4, slots', h5⟩ | ⟨i, e, h1, h2, h3⟩⟩ := hR.bulkConsume _ _ _ _ hs hne
      · simp only [h4, bind_eq, bind_ok] at hr
        cases hr
        rw [List.length_drop] at h2
        refine ⟨by show n + i ≤ _; omega, ?_, slots', ?_⟩
        · show q.Accepts l (buf.take (n + i))
          rw [List.take_add]
          exact Policy.accepts_append.mpr ⟨hq, h3⟩
        · show R _ (l ++ buf.take (n + i)) slots'
          rw [List.take_add, ← List.append_assoc]
          exact h5
      · simp only [h2, bind_eq, bind_ok] at hr
        cases hr
    · cases hr)
  obtain ⟨hlt, k', hkk, hk⟩ := Fut.pending_ite (p := n < buf.length) (f := bulkConsumeStep C buf s₁ n) (a := .done (s₁, .ok ())) hk
  refine ⟨n, s₁, k, rfl, hlt, hq, ⟨slots, hs⟩, ?_⟩
  rcases Fut.pending_bind hk with ⟨kc, rfl, hk'⟩ | ⟨⟨s₂, e | x⟩, k', rfl, _, hk'⟩
  · exact ⟨kc, hkk, hk'⟩
  all_goals exact (Fut.not_pending_pure hk').elim

/-- **C100, `bulk_consume_full_slice`**: the beginning of the buffer has been consumed, but not all of it; the pending call is one of `bulk_consume` with
the rest. -/
theorem bulk_consume_full_slice_abandoned {C : BulkConsumer σ I F E} {D : σ → List I → Option F → Prop} {q : Policy I F E} {s : σ} {l buf : List I}
    (hC : BulkCollects C.seq D q s l) {k : (bulkConsumeFullSlice C s buf).κ} (h : (bulkConsumeFullSlice C s buf).Pending k) :
    ∃ n s₁ k', k = ⟨(s₁, n), k'⟩ ∧ n < buf.length ∧ q.Accepts l (buf.take n) ∧ BulkCollects C.seq D q s₁ (l ++ buf.take n) ∧
      ∃ kc, HEq k' (Sum.inl kc : (bulkConsumeStep C buf s₁ n).κ) ∧ (C.bulkConsume s₁ (buf.drop n)).Pending kc := by
  obtain ⟨R, hR, slots, hs⟩ := hC
  obtain ⟨n, s₁, k', h1, h2, h3, ⟨slots, h4⟩, h5⟩ := bulk_consume_full_slice_left hR hs h
  exact ⟨n, s₁, k', h1, h2, h3, ⟨R, hR, slots, h4⟩, h5⟩

/-- It is pending at first. -/
example : ∃ k, (bulkConsumeFullSlice Case.TC slowConsumer [1, 2]).Pending k :=
  have h : (bulkConsumeFullSlice Case.TC slowConsumer [1, 2]).poll (bulkConsumeFullSlice Case.TC slowConsumer [1, 2]).start =
      ok (.pending _) := loop_eq_of_fuel (n := 1) nofun
  have := bulk_consume_full_slice_abandoned Case.slow_collects (.first h)
  ⟨_, .first h⟩

/-- **C100, `consume_full_slice`**: the items before the one that is passed to the pending call of `consume` have been consumed. -/
theorem consume_full_slice_abandoned {C : Consumer σ I F E} {D : σ → List I → Option F → Prop} {q : Policy I F E} {s : σ} {l buf : List I}
    (hC : Collects C.seq D q s l) {k : (consumeFullSlice C s buf).κ} (h : (consumeFullSlice C s buf).Pending k) :
    ∃ xs x rest s₁ kc, buf = xs ++ x :: rest ∧ q.Accepts l xs ∧ Collects C.seq D q s₁ (l ++ xs) ∧ (C.consume s₁ x).Pending kc := by
  have key : ∀ (buf : List I) (i : Nat) (s : σ) (l : List I) (k : (consumeFullSliceFrom C s i buf).κ), Collects C.seq D q s l →
      (consumeFullSliceFrom C s i buf).Pending k →
      ∃ xs x rest s₁ kc, buf = xs ++ x :: rest ∧ q.Accepts l xs ∧ Collects C.seq D q s₁ (l ++ xs) ∧ (C.consume s₁ x).Pending kc := by
    intro buf
    induction buf with
    | nil => intro i s l k _ h; exact (Fut.not_pending_pure h).elim
    | cons x buf ih =>
      intro i s l k hC h
      rcases Fut.pending_bind h with ⟨kc, rfl, hk⟩ | ⟨⟨s₁, r⟩, k', rfl, hr, hk⟩
      · exact ⟨[], x, buf, s, kc, rfl, by simp, by simpa using hC, hk⟩
      · rcases hq : q.answer l x with _ | e
        · obtain ⟨s', h1, h2⟩ := hC.consume_ok x hq
          obtain ⟨rfl, rfl⟩ : s' = s₁ ∧ .ok () = r := by simpa using h1.symm.trans hr
          obtain ⟨xs, y, rest, s₂, kc, rfl, h3, h4, h5⟩ := ih _ _ _ _ h2 hk
          exact ⟨x :: xs, y, rest, s₂, kc, rfl, Policy.accepts_cons.mpr ⟨hq, h3⟩, by simpa using h4, h5⟩
        · obtain ⟨s', h1, h2⟩ := hC.consume_err x hq
          obtain ⟨rfl, rfl⟩ : s' = s₁ ∧ .error e = r := by simpa using h1.symm.trans hr
          exact (Fut.not_pending_pure hk).elim
  exact key buf 0 s l k hC h

example : ∃ k, (consumeFullSlice Case.TC.toConsumer slowConsumer [1, 2]).Pending k :=
  have h : (consumeFullSlice Case.TC.toConsumer slowConsumer [1, 2]).poll (consumeFullSlice Case.TC.toConsumer slowConsumer [1, 2]).start =
      ok (.pending _) := rfl
  have := consume_full_slice_abandoned Case.slow_collects.toCollects (.first h)
  ⟨_, .first h⟩

/-- **C100, `overwrite_full_slice`**: the items before the pending call of `produce` have been produced, fewer than the buffer has room for. -/
theorem overwrite_full_slice_abandoned {P : Producer σ I F E} {c : Script I F E} {s : σ} {buf : List I} (hP : Plays P.seq s c)
    {k : (overwriteFullSlice P s buf).κ} (h : (overwriteFullSlice P s buf).Pending k) :
    ∃ xs s₁ kp, c.StartsWith xs ∧ xs.length < buf.length ∧ Plays P.seq s₁ (c.drop xs.length) ∧ (P.produce s₁).Pending kp := by
  have key : ∀ (buf written : List I) (s : σ) (c : Script I F E) (k : (overwriteFullSliceFrom P s written buf).κ), Plays P.seq s c →
      (overwriteFullSliceFrom P s written buf).Pending k →
      ∃ xs s₁ kp, c.StartsWith xs ∧ xs.length < buf.length ∧ Plays P.seq s₁ (c.drop xs.length) ∧ (P.produce s₁).Pending kp := by
    intro buf
    induction buf with
    | nil => intro w s c k _ h; exact (Fut.not_pending_pure h).elim
    | cons old buf ih =>
      intro w s c k hP h
      rcases Fut.pending_bind h with ⟨kp, rfl, hk⟩ | ⟨⟨s₁, r⟩, k', rfl, hr, hk⟩
      · exact ⟨[], s, kp, by simp, by simp, by simpa using hP, hk⟩
      · obtain ⟨s', h1, h2⟩ := hP.step
        obtain ⟨rfl, hc⟩ : s' = s₁ ∧ c 0 = r := by simpa using h1.symm.trans hr
        rcases r with e | x | f
        · exact (Fut.not_pending_pure hk).elim
        · obtain ⟨xs, s₂, kp, h3, h4, h5, h6⟩ := ih _ _ _ _ (h2 x hc) hk
          refine ⟨x :: xs, s₂, kp, Script.startsWith_cons.mpr ⟨hc, h3⟩, by simp; omega, ?_, h6⟩
          simpa [Nat.add_comm] using h5
        · exact (Fut.not_pending_pure hk).elim
  exact key buf [] s c k hP h

example : ∃ k, (overwriteFullSlice Case.TP.toProducer slowProducer [0, 0]).Pending k :=
  have h : (overwriteFullSlice Case.TP.toProducer slowProducer [0, 0]).poll (overwriteFullSlice Case.TP.toProducer slowProducer [0, 0]).start =
      ok (.pending _) := rfl
  have := overwrite_full_slice_abandoned Case.slow_bulk_plays.toPlays (.first h)
  ⟨_, .first h⟩

/-! ## Encoding -/

/-- **C100, encoding integers**: the beginning of the encoding has been written, but not all of it, and the pending call is one of `bulk_consume` with
the rest. -/
theorem encoder_abandoned {N : Nat} (i : FixedInt T N) (o : ByteOrder) {C : BulkConsumer σ UInt8 F E} {D : σ → List UInt8 → Option F → Prop}
    {q : Policy UInt8 F E} {s : σ} {l : List UInt8} (hC : BulkCollects C.seq D q s l) {x : T}
    {k : ((encoder ⟨FixedInt.encode i o⟩ C).consume s x).κ} (h : ((encoder ⟨FixedInt.encode i o⟩ C).consume s x).Pending k) :
    ∃ n s₁ k', k = .inl ⟨(s₁, n), k'⟩ ∧ n < N ∧ BulkCollects C.seq D q s₁ (l ++ (i.toBytes o x).take n) ∧
      ∃ kc, HEq k' (Sum.inl kc : (bulkConsumeStep C (i.toBytes o x) s₁ n).κ) ∧ (C.bulkConsume s₁ ((i.toBytes o x).drop n)).Pending kc := by
  rcases Fut.pending_bind h with ⟨k', rfl, hk⟩ | ⟨⟨s₂, e | x⟩, k', rfl, _, hk⟩
  · obtain ⟨n, s₁, k'', rfl, h1, -, h2, h3⟩ := bulk_consume_full_slice_abandoned hC hk
    rw [FixedInt.toBytes_length] at h1
    exact ⟨n, s₁, k'', rfl, h1, h2, h3⟩
  all_goals exact (Fut.not_pending_pure hk).elim

/-- A consumer of bytes that takes one byte at a time. -/
def Case.slowSink : TestConsumer UInt8 Unit String := TestConsumer.new "full" 5 [⟨1, by decide⟩] (some [true, false])

noncomputable abbrev Case.BC : BulkConsumer (TestConsumer UInt8 Unit String) UInt8 Unit String := TestConsumer.consumer false UInt8 Unit String

theorem Case.slowSink_collects : BulkCollects Case.BC.seq TestConsumer.Seen (.failAfter 5 "full") Case.slowSink [] := by
  rw [testConsumer_seq]; exact test_consumer_collects false "full" 5 _ _

example : ∃ k, ((encoder ⟨FixedInt.encode u16 .big⟩ Case.BC).consume Case.slowSink 258).Pending k := by
  have h : ∃ k, (bulkConsumeFullSlice Case.BC Case.slowSink [1, 2]).poll (bulkConsumeFullSlice Case.BC Case.slowSink [1, 2]).start =
      ok (.pending k) := ⟨_, loop_eq_of_fuel (n := 1) nofun⟩
  rw [show ([1, 2] : List UInt8) = u16.toBytes .big 258 by decide] at h
  obtain ⟨k, h⟩ := h
  have h' : ((encoder ⟨FixedInt.encode u16 .big⟩ Case.BC).consume Case.slowSink 258).Pending (.inl k) := .first (Fut.poll_bind_left h)
  have := encoder_abandoned u16 .big Case.slowSink_collects h'
  exact ⟨_, h'⟩

/-! ## Decoding -/

/-- **C100, `Decoder`**, for any codec: either the call of `expose_items` is pending, and nothing has happened, or there are bytes and decoding is pending. -/
theorem decoder_abandoned {t : Decodable T R} {P : BulkProducer σ UInt8 F E} {c : Script UInt8 F E} {s : σ} (hP : BulkPlays P.seq s c)
    {k : ((decoder t P).produce s).κ} (h : ((decoder t P).produce s).Pending k) :
    (∃ kp, k = .inl kp ∧ (P.exposeItems s).Pending kp) ∨
    ∃ s₁ xs kd, k = .inr ⟨(s₁, .ok (.inl xs)), .inl kd⟩ ∧ xs ≠ [] ∧ c.StartsWith xs ∧ BulkPlays P.seq s₁ c ∧ (t.decode P s₁).Pending kd := by
  rcases Fut.pending_bind h with ⟨kp, rfl, hk⟩ | ⟨⟨s₁, r⟩, k', rfl, hr, hk⟩
  · exact .inl ⟨kp, rfl, hk⟩
  · right
    obtain ⟨R, hR, m, hm⟩ := hP
    obtain ⟨s', ⟨xs, h1, h2, h3, h4⟩ | ⟨f, h1, h2⟩ | ⟨e, h1, h2⟩⟩ := hR.expose _ _ _ hm
    · obtain ⟨rfl, rfl⟩ : s' = s₁ ∧ .ok (.inl xs) = r := by simpa using h3.symm.trans hr
      rcases Fut.pending_bind hk with ⟨kd, rfl, hk'⟩ | ⟨⟨s₂, e | x⟩, k', rfl, _, hk'⟩
      · exact ⟨s', xs, kd, rfl, h1, h2, ⟨R, hR, _, h4⟩, hk'⟩
      all_goals exact (Fut.not_pending_pure hk').elim
    · obtain ⟨rfl, rfl⟩ : s' = s₁ ∧ .ok (.inr f) = r := by simpa using h2.symm.trans hr
      exact (Fut.not_pending_pure hk).elim
    · obtain ⟨rfl, rfl⟩ : s' = s₁ ∧ .error e = r := by simpa using h2.symm.trans hr
      exact (Fut.not_pending_pure hk).elim

/-- **C100, decoding integers**: fewer bytes than an integer has have been read, and the pending call is one of `bulk_produce`. -/
theorem decode_abandoned {N : Nat} (i : FixedInt T N) (o : ByteOrder) {P : BulkProducer σ UInt8 F E} {c : Script UInt8 F E} {s : σ}
    (hP : BulkPlays P.seq s c) {k : (FixedInt.decode i o P s).κ} (h : (FixedInt.decode i o P s).Pending k) :
    ∃ xs rest s₁ k', k = .inl ⟨(s₁, xs ++ rest, xs.length), k'⟩ ∧ c.StartsWith xs ∧ xs.length < N ∧ BulkPlays P.seq s₁ (c.drop xs.length) ∧
      ∃ kp, HEq k' (Sum.inl kp : (bulkOverwriteStep P s₁ (xs ++ rest) xs.length).κ) ∧
        (P.bulkProduce s₁ ((xs ++ rest).drop xs.length)).Pending kp := by
  rcases Fut.pending_bind h with ⟨k', rfl, hk⟩ | ⟨⟨s₂, e | x, b⟩, k', rfl, _, hk⟩
  · obtain ⟨xs, rest, s₁, k'', rfl, h1, h2, h3, h4, h5⟩ := bulk_overwrite_full_slice_abandoned hP hk
    rw [List.length_replicate] at h3
    have := List.length_pos_iff.mpr h2
    exact ⟨xs, rest, s₁, k'', rfl, h1, by omega, h4, h5⟩
  all_goals exact (Fut.not_pending_pure hk).elim

/-! ## Decoding again after a call was abandoned -/

/-- Six bytes, exposed one by one; the fourth poll is pending. -/
def Case.byByte : TestProducer UInt8 Unit String :=
  TestProducer.new [0, 1, 0, 2, 0, 3] (.ok ()) [⟨1, by decide⟩] (some [false, false, false, true])

noncomputable abbrev Case.BP : BulkProducer (TestProducer UInt8 Unit String) UInt8 Unit String := TestProducer.producer false UInt8 Unit String

theorem Case.byByte_plays : BulkPlays Case.BP.seq Case.byByte (Script.ofList [0, 1, 0, 2, 0, 3] (.ok ())) := by
  rw [testProducer_seq]; exact test_producer_plays false _ _ _ _

/-- A first poll, after which one byte has been read. -/
theorem Case.byByte_pending : ∃ s₁ buf k', (FixedInt.decode u16 .big Case.BP Case.byByte).Pending (.inl ⟨(s₁, buf, 1), k'⟩) := by
  have h : (bulkOverwriteFullSlice Case.BP Case.byByte (List.replicate 2 0)).poll
      (bulkOverwriteFullSlice Case.BP Case.byByte (List.replicate 2 0)).start = ok (.pending ⟨(_, _, 1), _⟩) := loop_eq_of_fuel (n := 3) nofun
  exact ⟨_, _, _, .first (Fut.poll_bind_left h)⟩

/-- A call that was dropped, and decoding after it. -/
example : ∃ k, (FixedInt.decode u16 .big Case.BP Case.byByte).Pending k :=
  have ⟨_, _, _, h⟩ := Case.byByte_pending
  have := decode_abandoned u16 .big Case.byByte_plays h
  ⟨_, h⟩

theorem decoder_pending {t : Decodable T R} {P : BulkProducer σ UInt8 F E} {s s₁ : σ} {xs : List UInt8} {kd : (t.decode P s₁).κ}
    (he : (P.exposeItems s).poll (P.exposeItems s).start = ok (.ready (s₁, .ok (.inl xs))))
    (hd : (t.decode P s₁).poll (t.decode P s₁).start = ok (.pending kd)) :
    ((decoder t P).produce s).Pending (.inr ⟨(s₁, .ok (.inl xs)), .inl kd⟩) :=
  .first (Fut.poll_bind_right he (Fut.poll_bind_left hd))

/-- The producer after the first call of `expose_items`. -/
noncomputable def Case.exposed : TestProducer UInt8 Unit String :=
  match (Case.BP.exposeItems Case.byByte).poll (Case.BP.exposeItems Case.byByte).start with
  | .ok (.ready (s, _)) => s
  | _ => Case.byByte

/-- The same within a `Decoder`. -/
example : ∃ k, ((decoder ⟨FixedInt.decode u16 .big⟩ Case.BP).produce Case.byByte).Pending k := by
  have he : (Case.BP.exposeItems Case.byByte).poll (Case.BP.exposeItems Case.byByte).start = ok (.ready (Case.exposed, .ok (.inl [0]))) := rfl
  have hb : (bulkOverwriteFullSlice Case.BP Case.exposed (List.replicate 2 0)).poll
      (bulkOverwriteFullSlice Case.BP Case.exposed (List.replicate 2 0)).start = ok (.pending ⟨(_, _, 1), _⟩) := loop_eq_of_fuel (n := 3) nofun
  have h := decoder_pending (t := ⟨FixedInt.decode u16 .big⟩) he (Fut.poll_bind_left hb)
  have := decoder_abandoned Case.byByte_plays h
  exact ⟨_, h⟩

/-- **C100**: decoding once more after a call was dropped does not begin where that call began, but with the bytes that the call had not read. -/
theorem decode_after_abandoned {N : Nat} (i : FixedInt T N) (o : ByteOrder) {P : BulkProducer σ UInt8 F E} {c : Script UInt8 F E} {s : σ}
    (hP : BulkPlays P.seq s c) {s₁ : σ} {buf : List UInt8} {n : Nat} {k' : (bulkOverwriteFullSliceBody P (s₁, buf, n)).κ}
    (h : (FixedInt.decode i o P s).Pending (.inl ⟨(s₁, buf, n), k'⟩)) {xs ys : List UInt8} (hx : xs.length = n) (hs : c.StartsWith (xs ++ ys))
    (hy : ys.length = N) : ∃ s₂, (FixedInt.decode i o P s₁).run = ok (s₂, .ok (i.fromBytes o ys)) ∧ BulkPlays P.seq s₂ (c.drop (n + N)) := by
  obtain ⟨zs, rest, s₁', k'', h1, h2, h3, h4, -⟩ := decode_abandoned i o hP h
  injection h1 with h1
  injection h1 with h1
  injection h1 with h1 h5
  injection h5 with h5 h6
  subst h1 h6
  obtain ⟨s₂, h7, h8⟩ := (FixedInt.decodesLaw i o).value h4 (bs := ys) (x := i.fromBytes o ys) (by rw [← hx]; exact hs.right)
    ((FixedInt.encoding_iff i o _ _).mpr ⟨hy, rfl⟩)
  rw [FixedInt.decode_run]
  exact ⟨s₂, h7, by rw [hy] at h8; simpa using h8⟩

/-- **C100, an integer that nobody sent**: the bytes are those of 1, 2 and 3. A call that is dropped after the first byte makes the next one yield 256. -/
theorem decode_abandoned_misaligned : ∃ s₁ buf k' s₂ s₃,
    (FixedInt.decode u16 .big Case.BP Case.byByte).Pending (.inl ⟨(s₁, buf, 1), k'⟩) ∧
    (FixedInt.decode u16 .big Case.BP Case.byByte).run = ok (s₂, .ok 1) ∧ (FixedInt.decode u16 .big Case.BP s₁).run = ok (s₃, .ok 256) := by
  obtain ⟨s₁, buf, k', h⟩ := Case.byByte_pending
  have hs : (Script.ofList [0, 1, 0, 2, 0, 3] (.ok ()) : Script UInt8 Unit String).StartsWith ([0] ++ [1, 0]) :=
    (Script.ofList_startsWith ([0, 1, 0] ++ [2, 0, 3]) _).left
  obtain ⟨s₃, h3, -⟩ := decode_after_abandoned u16 .big Case.byByte_plays h (xs := [0]) (ys := [1, 0]) rfl hs rfl
  obtain ⟨s₂, h2, -⟩ := (FixedInt.decodesLaw u16 .big).value Case.byByte_plays (bs := [0, 1]) (x := 1)
    (Script.ofList_startsWith ([0, 1] ++ [0, 2, 0, 3]) _).left ((FixedInt.encoding_iff u16 .big _ _).mpr ⟨rfl, rfl⟩)
  exact ⟨s₁, buf, k', s₂, s₃, h, (FixedInt.decode_run ..).trans h2, h3⟩

end Verif.Async
