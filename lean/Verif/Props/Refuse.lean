import Verif.RefuseSpec
import Verif.Cases
import Verif.Lemmas.Again
import Verif.Props.Again
import Verif.Model.IntoSlice
import Verif.Lemmas.TestConsumer
import Verif.Props.IntoSlice
import Verif.Props.Scramblers
import Verif.Props.TestDoubles

/-!
# C92: calls of consumers after the end
-/

namespace Verif

open Outcome

section

variable {σ I F E : Type}

theorem RefusesLaw.of_default {C : BulkConsumer σ I F E} {e : E} {R : σ → Prop}
    (hdef : C.bulkConsume = bulkConsumeDefault C.exposeSlots C.writeSlots C.consumeSlots)
    (consume : ∀ s x, R s → ∃ s', C.consume s x = ok (s', .error e) ∧ R s')
    (expose : ∀ s, R s → ∃ s', C.exposeSlots s = ok (s', .error e) ∧ R s')
    (flush : ∀ s s' r, R s → C.flush s = ok (s', r) → R s')
    (close : ∀ s s' f r, R s → C.close s f = ok (s', r) → R s') : RefusesLaw C e R where
  consume := consume
  expose := expose
  bulkConsume s buf hs := by
    obtain ⟨s', h1, h2⟩ := expose s hs
    exact ⟨s', by simp [hdef, bulkConsumeDefault, h1], h2⟩
  flush := flush
  close := close

/-- Whatever is offered is refused. -/
theorem Refuses.offered {C : BulkConsumer σ I F E} {e : E} (xs : List I) : ∀ {s : σ}, Refuses C s e →
    ∃ s', Offered C.toConsumer s xs (xs.map fun _ => .error e) s' ∧ Refuses C s' e := by
  induction xs with
  | nil => exact fun {s} h => ⟨s, .nil s, h⟩
  | cons x xs ih =>
    rintro s ⟨R, hR, hs⟩
    obtain ⟨s₁, h1, h2⟩ := hR.consume s x hs
    obtain ⟨s', h3, h4⟩ := ih ⟨R, hR, h2⟩
    exact ⟨s', .cons h1 h3, h4⟩

/-! ## `IntoSlice`, `IntoVec` -/

theorem IntoSlice.refuses {T : Type} : RefusesLaw (IntoSlice.consumer T) () fun s => s.data.length = s.offset := by
  refine .of_default rfl (fun s x hs => ⟨s, ?_, hs⟩) (fun s hs => ⟨s, ?_, hs⟩) ?_ ?_
  · simp [IntoSlice.consumer, IntoSlice.consume, hs]
  · simp [IntoSlice.consumer, IntoSlice.exposeSlots, hs]
  · intro s s' r hs h
    cases h; exact hs
  · intro s s' f r hs h
    cases h; exact hs

/-- **C92, `IntoSlice`.** Once it has refused items, it refuses all items for ever. -/
theorem into_slice_refuses {T : Type} {s s' : IntoSlice T} {slots : List T} {op : ConsumerOp T Unit} {r : Receipt T Unit Unit}
    (h : (IntoSlice.consumer T).call s slots op = ok (s', r)) {xs : List T} (hr : r.ended = some (.failed () xs)) :
    Refuses (IntoSlice.consumer T) s' () := by
  refine ⟨_, IntoSlice.refuses, ?_⟩
  have hexp : ∀ {s s' : IntoSlice T} {r}, (IntoSlice.consumer T).exposeSlots s = ok (s', r) →
      s' = s ∧ (s.data.length = s.offset ∨ ∃ slots, r = .ok slots) := by
    intro s s' r h
    by_cases hs : s.data.length = s.offset
    · simp only [IntoSlice.consumer, IntoSlice.exposeSlots, hs, if_true] at h
      cases h; exact ⟨rfl, .inl hs⟩
    · simp only [IntoSlice.consumer, IntoSlice.exposeSlots, hs, if_false, bind_eq] at h
      obtain ⟨sl, -, h⟩ := bind_eq_ok.mp h
      cases h; exact ⟨rfl, .inr ⟨_, rfl⟩⟩
  cases op with
  | consume x =>
    obtain ⟨⟨s₁, v⟩, h1, h⟩ := bind_eq_ok.mp h
    by_cases hs : s.data.length = s.offset
    · simp only [IntoSlice.consumer, IntoSlice.consume, hs, if_true] at h1
      cases h1; cases h; exact hs
    · simp only [IntoSlice.consumer, IntoSlice.consume, hs, if_false, bind_eq] at h1
      obtain ⟨sl, -, h1⟩ := bind_eq_ok.mp h1
      cases h1; cases h; cases hr
  | flush => cases h; cases hr
  | exposeSlots =>
    obtain ⟨⟨s₁, v⟩, h1, h⟩ := bind_eq_ok.mp h
    obtain ⟨rfl, hs | ⟨slots, rfl⟩⟩ := hexp h1
    · rcases v with _ | _ <;> cases h <;> exact hs
    · cases h; cases hr
  | write ws => cases h; cases hr
  | consumeSlots k => cases h; cases hr
  | bulkConsume buf =>
    obtain ⟨⟨s₁, v⟩, h1, h⟩ := bind_eq_ok.mp h
    obtain ⟨⟨s₂, v₂⟩, h2, h1⟩ := bind_eq_ok.mp h1
    obtain ⟨rfl, hs | ⟨slots, rfl⟩⟩ := hexp h2
    · rcases v₂ with _ | _
      · cases h1; cases h; exact hs
      · cases h1; cases h; cases hr
    · cases h1; cases h; cases hr
  | close f => cases h; cases hr

/-- A slice with space for one item. -/
example : ∃ s, (IntoSlice.consumer Nat).call ⟨[7], 1⟩ [] (.consume 8) = ok (s, ⟨[], [], some (.failed () [8])⟩) ∧
    Refuses (IntoSlice.consumer Nat) s () :=
  ⟨_, rfl, into_slice_refuses (s := ⟨[7], 1⟩) (slots := []) (op := .consume 8) rfl rfl⟩

example : ∃ s, Offered (IntoSlice.consumer Nat).toConsumer ⟨[7], 1⟩ [8, 9] [.error (), .error ()] s ∧ Refuses (IntoSlice.consumer Nat) s () :=
  Refuses.offered [8, 9] ⟨_, IntoSlice.refuses, rfl⟩

/-- **C92, `IntoVec`.** Closing has no effect: after every history that has ended, it is still a consumer that accepts all items and
adds them to those it has consumed before. -/
theorem into_vec_after_close {T : Type} [Inhabited T] (v : List T) {taken slots : List T} {s : IntoVec T}
    {r : ConsumerEnd T Unit Empty} (h : ConsumerRuns (IntoVec.consumer T) (.fromVec v) taken s slots (some r)) :
    r = .closed () ∧ BulkCollects (IntoVec.consumer T) (fun s l _ => s.asRef = ok l ∧ s.intoVec = l) Policy.acceptAll s (v ++ taken) := by
  generalize he : some r = ended at h
  cases h with
  | start => cases he
  | @call taken s slots op s' r' hr hop hcall =>
    obtain ⟨-, ⟨sl, h1⟩, -⟩ := hr.after IntoVec.law (IntoVec.ready_fromVec v)
    cases op with
    | close f =>
      cases hcall
      cases he
      exact ⟨rfl, _, IntoVec.law, sl, by simpa using h1⟩
    | write ws => cases hcall; cases he
    | consume x =>
      obtain ⟨⟨s₁, _ | _⟩, -, h⟩ := bind_eq_ok.mp hcall
      · contradiction
      · cases h; cases he
    | flush => cases hcall; cases he
    | exposeSlots =>
      obtain ⟨⟨s₁, _ | _⟩, -, h⟩ := bind_eq_ok.mp hcall
      · contradiction
      · cases h; cases he
    | consumeSlots k => cases hcall; cases he
    | bulkConsume buf =>
      obtain ⟨⟨s₁, _ | _⟩, -, h⟩ := bind_eq_ok.mp hcall
      · contradiction
      · cases h; cases he

/-- Two items, then `close`. -/
example : ∃ s, ConsumerRuns (IntoVec.consumer Nat) (.fromVec []) [5, 6] s [] (some (.closed ())) ∧
    BulkCollects (IntoVec.consumer Nat) (fun s l _ => s.asRef = ok l ∧ s.intoVec = l) Policy.acceptAll s [5, 6] := by
  have h0 := ConsumerRuns.start (C := IntoVec.consumer Nat) (s₀ := .fromVec [])
  have h1 := h0.call (op := .consume 5) (s' := ⟨[5], 1⟩) (r := ⟨[5], [], none⟩) trivial rfl
  have h2 := h1.call (op := .consume 6) (s' := ⟨[5, 6, 0], 2⟩) (r := ⟨[6], [], none⟩) trivial rfl
  have h3 := h2.call (op := .close ()) (s' := ⟨[5, 6, 0], 2⟩) (r := ⟨[], [], some (.closed ())⟩) trivial rfl
  exact ⟨_, h3, (into_vec_after_close [] h3).2⟩

/-! ## Adaptors -/

/-- **C92, `Limit`.** When the limit has been reached, all items are refused for ever, with the error `None`. -/
theorem limit_consumer_refuses (C : BulkConsumer σ I F E) (s : σ) : Refuses (limitBulkConsumer C) ⟨s, 0⟩ none := by
  refine ⟨fun s => s.remaining = 0, .of_default rfl ?_ ?_ ?_ ?_, rfl⟩
  · rintro ⟨s, _⟩ x rfl
    exact ⟨⟨s, 0⟩, rfl, rfl⟩
  · rintro ⟨s, _⟩ rfl
    exact ⟨⟨s, 0⟩, by simp [limitBulkConsumer], rfl⟩
  · rintro ⟨s, _⟩ s' r rfl h
    obtain ⟨⟨s₁, v⟩, -, h⟩ := bind_eq_ok.mp h
    cases h; rfl
  · rintro ⟨s, _⟩ s' f r rfl h
    obtain ⟨⟨s₁, v⟩, -, h⟩ := bind_eq_ok.mp h
    cases h; rfl

/-- Around any consumer, for instance one that accepts everything. -/
example : Refuses (limitBulkConsumer Case.V) ⟨.fromVec [1, 2], 0⟩ none := limit_consumer_refuses _ _

/-- **C92, `Limit` does not refuse with the same error before the limit.** Every call of `consume` counts, also those after the end:
around a consumer that refuses everything with `e`, the error is `Some(e)` as often as items were still allowed, and `None` after
that. -/
theorem limit_consumer_again {C : BulkConsumer σ I F E} {e : E} (xs ys : List I) : ∀ {s : σ}, Refuses C s e →
    ∃ s', Offered (limitBulkConsumer C).toConsumer ⟨s, xs.length⟩ (xs ++ ys)
      ((xs.map fun _ => .error (some e)) ++ ys.map fun _ => .error none) s' := by
  induction xs with
  | nil =>
    intro s _
    obtain ⟨s', h, -⟩ := (limit_consumer_refuses C s).offered ys
    exact ⟨s', h⟩
  | cons x xs ih =>
    rintro s ⟨R, hR, hs⟩
    obtain ⟨s₁, h1, h2⟩ := hR.consume s x hs
    obtain ⟨s', h3⟩ := ih ⟨R, hR, h2⟩
    refine ⟨s', .cons (s₁ := ⟨s₁, xs.length⟩) ?_ h3⟩
    simp [limitBulkConsumer, limitBufferedConsumer, limitConsumer, h1, Except.mapError]

example : ∃ s', Offered (limitBulkConsumer (IntoSlice.consumer Nat)).toConsumer ⟨⟨[7], 1⟩, 1⟩ [8, 9]
    [.error (some ()), .error none] s' :=
  limit_consumer_again [8] [9] ⟨_, IntoSlice.refuses, rfl⟩

/-- **C92, `MapFinal`.** It refuses if the wrapped consumer does. -/
theorem map_final_consumer_refuses {B : Type} {C : BulkConsumer σ I F E} {s : σ} {e : E} (h : Refuses C s e) (g : Option (B → F)) :
    Refuses (mapFinalBulkConsumer C) ⟨s, g⟩ e := by
  obtain ⟨R, hR, hs⟩ := h
  refine ⟨fun s => R s.inner, .of_default rfl ?_ ?_ ?_ ?_, hs⟩
  · rintro ⟨s, g⟩ x hs
    obtain ⟨s', h1, h2⟩ := hR.consume s x hs
    exact ⟨⟨s', g⟩, by simp [mapFinalBulkConsumer, mapFinalBufferedConsumer, mapFinalConsumer, h1], h2⟩
  · rintro ⟨s, g⟩ hs
    obtain ⟨s', h1, h2⟩ := hR.expose s hs
    exact ⟨⟨s', g⟩, by simp [mapFinalBulkConsumer, h1], h2⟩
  · rintro ⟨s, g⟩ s' r hs h
    obtain ⟨⟨s₁, v⟩, h1, h⟩ := bind_eq_ok.mp h
    cases h; exact hR.flush _ _ _ hs h1
  · rintro ⟨s, g⟩ s' f r hs h
    obtain ⟨g', -, h⟩ := bind_eq_ok.mp h
    obtain ⟨⟨s₁, v⟩, h1, h⟩ := bind_eq_ok.mp h
    cases h; exact hR.close _ _ _ _ hs h1

example : Refuses (mapFinalBulkConsumer (IntoSlice.consumer Nat)) ⟨⟨[7], 1⟩, some fun (_ : Bool) => ()⟩ () :=
  map_final_consumer_refuses ⟨_, IntoSlice.refuses, rfl⟩ _

/-- **C92, `MapFinal` closed twice** panics, around every consumer. -/
theorem map_final_closed_twice {B : Type} {C : BulkConsumer σ I F E} {s s' : MapFinalSt σ B F} {f g : B} {r : Except E Unit}
    (h : (mapFinalBulkConsumer C).close s f = ok (s', r)) : (mapFinalBulkConsumer C).close s' g = .panic := by
  obtain ⟨g', -, h⟩ := bind_eq_ok.mp h
  obtain ⟨⟨s₁, v⟩, h1, h⟩ := bind_eq_ok.mp h
  cases h
  simp [mapFinalBulkConsumer, mapFinalBufferedConsumer, mapFinalConsumer, unwrap]

example : ∃ s r, (mapFinalBulkConsumer Case.V).close ⟨.fromVec [1], some fun (_ : Bool) => ()⟩ true = ok (s, r) ∧
    (mapFinalBulkConsumer Case.V).close s false = .panic :=
  ⟨⟨.fromVec [1], none⟩, .ok (), rfl,
    map_final_closed_twice (C := Case.V) (s := ⟨.fromVec [1], some fun (_ : Bool) => ()⟩) (f := true) (r := .ok ()) rfl⟩

/-- **C92, `MapItem`.** It refuses if the wrapped consumer does. -/
theorem map_item_consumer_refuses {φ B : Type} (f : φ → B → φ × I) {C : BulkConsumer σ I F E} {e : E} (xs : List B) :
    ∀ {s : σ} {a : φ}, Refuses C s e →
    ∃ s', Offered (mapItemConsumer f C.toConsumer) ⟨s, a⟩ xs (xs.map fun _ => .error e) s' ∧ Refuses C s'.inner e := by
  induction xs with
  | nil => exact fun {s a} h => ⟨⟨s, a⟩, .nil _, h⟩
  | cons x xs ih =>
    rintro s a ⟨R, hR, hs⟩
    obtain ⟨s₁, h1, h2⟩ := hR.consume s (f a x).2 hs
    obtain ⟨s', h3, h4⟩ := ih (a := (f a x).1) ⟨R, hR, h2⟩
    exact ⟨s', .cons (by simp [mapItemConsumer, h1]) h3, h4⟩

example : ∃ s', Offered (mapItemConsumer (fun (n : Nat) (x : Nat) => (n + 1, n + x)) (IntoSlice.consumer Nat).toConsumer)
    ⟨⟨[7], 1⟩, 3⟩ [8, 9] [.error (), .error ()] s' ∧ Refuses (IntoSlice.consumer Nat) s'.inner () :=
  map_item_consumer_refuses _ [8, 9] ⟨_, IntoSlice.refuses, rfl⟩

/-- **C92, `Invariant` outside of tests.** It refuses if the wrapped consumer does. (In tests, it panics: C26.) -/
theorem unused_invariant_refuses {C : BulkConsumer σ I F E} {s : InvariantSt σ} {e : E} (h : Refuses C s.inner e) :
    Refuses (unusedInvariantBulkConsumer C) s e := by
  obtain ⟨R, hR, hs⟩ := h
  refine ⟨fun s => R s.inner, .of_default rfl ?_ ?_ ?_ ?_, hs⟩
  · rintro s x hs
    obtain ⟨s', h1, h2⟩ := hR.consume s.inner x hs
    exact ⟨{ s with inner := s' }, by simp [unusedInvariantBulkConsumer, h1], h2⟩
  · rintro s hs
    obtain ⟨s', h1, h2⟩ := hR.expose s.inner hs
    exact ⟨{ s with inner := s' }, by simp [unusedInvariantBulkConsumer, h1], h2⟩
  · rintro s s' r hs h
    obtain ⟨⟨s₁, v⟩, h1, h⟩ := bind_eq_ok.mp h
    cases h; exact hR.flush _ _ _ hs h1
  · rintro s s' f r hs h
    obtain ⟨⟨s₁, v⟩, h1, h⟩ := bind_eq_ok.mp h
    cases h; exact hR.close _ _ _ _ hs h1

example : Refuses (publicConsumer false (IntoSlice.consumer Nat)) ⟨⟨[7], 1⟩, true, 0⟩ () :=
  unused_invariant_refuses ⟨_, IntoSlice.refuses, rfl⟩

/-- **C92, `MapError`** maps the error that it is given at first, and panics when it is called again, around every consumer that refuses everything. -/
theorem map_error_consumer_again {B : Type} {C : BulkConsumer σ I F E} {s : σ} {e : E} (h : Refuses C s e) (f : E → B) (x : I) :
    ∃ s', (mapErrorBulkConsumer C).consume ⟨s, some f⟩ x = ok (s', .error (f e)) ∧ Refuses C s'.inner e ∧
      (∀ y, (mapErrorBulkConsumer C).consume s' y = .panic) ∧ (mapErrorBulkConsumer C).exposeSlots s' = .panic := by
  obtain ⟨R, hR, hs⟩ := h
  obtain ⟨s₁, h1, hs₁⟩ := hR.consume s x hs
  obtain ⟨s₂, h2, -⟩ := hR.expose s₁ hs₁
  refine ⟨⟨s₁, none⟩, ?_, ⟨R, hR, hs₁⟩, fun y => ?_, ?_⟩
  · simp [mapErrorBulkConsumer, mapErrorBufferedConsumer, mapErrorConsumer, h1, mapErrTake, unwrap, Except.mapError]
  · obtain ⟨s₃, h3, -⟩ := hR.consume s₁ y hs₁
    simp [mapErrorBulkConsumer, mapErrorBufferedConsumer, mapErrorConsumer, h3, mapErrTake, unwrap]
  · simp [mapErrorBulkConsumer, h2, mapErrTake, unwrap]

/-- The error of a slice has been mapped. -/
example : ∃ s, (mapErrorBulkConsumer (IntoSlice.consumer Nat)).consume ⟨⟨[7], 1⟩, some fun _ => "full"⟩ 8 = ok (s, .error "full") ∧
    (mapErrorBulkConsumer (IntoSlice.consumer Nat)).consume s 9 = .panic :=
  have ⟨s', h1, _, h3, _⟩ := map_error_consumer_again ⟨_, IntoSlice.refuses, rfl⟩ (fun _ => "full") 8
  ⟨s', h1, h3 9⟩

/-! ## Encoders -/

/-- **C92, `bulk_consume_full_slice`** into a consumer that refuses everything fails at once. -/
theorem bulk_consume_full_slice_refused {C : BulkConsumer σ I F E} {s : σ} {e : E} (h : Refuses C s e) {buf : List I} (hbuf : buf ≠ []) :
    ∃ s', bulkConsumeFullSlice C s buf = ok (s', .error ⟨0, e⟩) ∧ Refuses C s' e := by
  obtain ⟨R, hR, hs⟩ := h
  obtain ⟨s', h1, h2⟩ := hR.bulkConsume s buf hs
  refine ⟨s', ?_, R, hR, h2⟩
  rw [bulkConsumeFullSlice, loop_unfold]
  have := List.length_pos_iff.mpr hbuf
  simp [bulkConsumeFullSliceBody, this, h1]

example : ∃ s', bulkConsumeFullSlice (IntoSlice.consumer Nat) ⟨[7], 1⟩ [8, 9] = ok (s', .error ⟨0, ()⟩) ∧
    Refuses (IntoSlice.consumer Nat) s' () :=
  bulk_consume_full_slice_refused ⟨_, IntoSlice.refuses, rfl⟩ (by simp)

/-- **C92, encoders of integers** into a consumer that refuses everything fail, and write nothing. -/
theorem fixed_encode_refused {T : Type} {N : Nat} (i : FixedInt T N) (o : ByteOrder) (hN : 0 < N) {C : BulkConsumer σ UInt8 F E} {s : σ}
    {e : E} (h : Refuses C s e) (x : T) : ∃ s', i.encode o C s x = ok (s', .error e) ∧ Refuses C s' e := by
  have hne : i.toBytes o x ≠ [] := by
    rw [← List.length_pos_iff, FixedInt.toBytes_length]; exact hN
  obtain ⟨s', h1, h2⟩ := bulk_consume_full_slice_refused h hne
  exact ⟨s', by simp [FixedInt.encode, h1], h2⟩

example : ∃ s', u16.encode .big (IntoSlice.consumer UInt8) ⟨[7], 1⟩ 8 = ok (s', .error ()) ∧ Refuses (IntoSlice.consumer UInt8) s' () :=
  fixed_encode_refused _ _ (by decide) ⟨_, IntoSlice.refuses, rfl⟩ _

/-- Whenever the encoding of an integer does not fit into a slice, the slice is full afterwards. -/
theorem fixed_encode_fills {T : Type} {N : Nat} (i : FixedInt T N) (o : ByteOrder) {s s' : IntoSlice UInt8} {x : T} {e : Unit}
    (h : i.encode o (IntoSlice.consumer UInt8) s x = ok (s', .error e)) : Refuses (IntoSlice.consumer UInt8) s' e := by
  obtain ⟨⟨s₁, v⟩, h1, h⟩ := bind_eq_ok.mp h
  rcases v with e' | _ <;> cases h
  refine loop_of_ok (body := bulkConsumeFullSliceBody (IntoSlice.consumer UInt8) (i.toBytes o x)) (fun _ => True)
    (fun r => ∀ e', r.2 = .error e' → Refuses (IntoSlice.consumer UInt8) r.1 ()) ?_ (fun _ _ _ _ => trivial) trivial h1 e' rfl
  rintro ⟨s, k⟩ ⟨s₂, r⟩ - hb e' rfl
  simp only [bulkConsumeFullSliceBody, bind_eq, pure_eq] at hb
  split at hb
  · obtain ⟨⟨s₃, w⟩, h2, h3⟩ := bind_eq_ok.mp hb
    rcases w with w | w <;> cases h3
    have h4 : (IntoSlice.consumer UInt8).call s [] (.bulkConsume ((i.toBytes o x).drop k)) = _ := bind_eq_ok.mpr ⟨_, h2, rfl⟩
    exact into_slice_refuses h4 rfl
  · cases hb

/-- **C92, shared encoders.** A task cannot know that another one has seen an error, so it may well use the shared consumer after
its end (finding 11). If that consumer refuses everything after an error, as `IntoSlice` does, every task sees the error. -/
theorem shared_encoder_refused {T ι : Type} [DecidableEq ι] (t : Encodable T) {C : BulkConsumer σ UInt8 F E}
    (hfail : ∀ s s' x e, t.encode C s x = ok (s', .error e) → Refuses C s' e)
    (henc : ∀ s x e, Refuses C s e → ∃ s', t.encode C s x = ok (s', .error e) ∧ Refuses C s' e)
    {m : Suspension σ Unit (SharedEncoderOp T F) (Except E Unit)} (hI : m.Implements (sharedEncoder t C))
    {s : σ} {b : ι → Unit} {st : Shared ι σ Unit (SharedEncoderOp T F) (Except E Unit) m.κ}
    (h : Shared.Reachable (sharedEncoder t C) m (Shared.init s b) st) {l₁ l₂ : List (ι × SharedEncoderOp T F × Except E Unit)} {i j : ι}
    {x y : T} {e : E} {r : Except E Unit} (hfin : st.finished = l₁ ++ (i, .consume x, .error e) :: l₂) (hj : (j, .consume y, r) ∈ l₂) :
    r = .error e := by
  have key : ∀ {l : List (ι × SharedEncoderOp T F × Except E Unit)} {b b' : ι → Unit} {s s' : σ}, Serial (sharedEncoder t C) b s l b' s' →
      ∀ l₁ l₂ i x, l = l₁ ++ (i, .consume x, .error e) :: l₂ →
        Refuses C s' e ∧ ∀ j y r, (j, SharedEncoderOp.consume y, r) ∈ l₂ → r = .error e := by
    intro l b b' s s' h
    induction h with
    | nil => intro l₁ l₂ i x h; simp at h
    | @locked l b₁ s₁ i' op run a s₂ _ hop hrun ih =>
      intro l₁ l₂ i x hl
      rcases List.eq_nil_or_concat l₂ with rfl | ⟨l₃, z, rfl⟩
      · obtain ⟨-, hx⟩ := List.append_inj' hl rfl
        simp only [List.cons.injEq, Prod.mk.injEq, and_true] at hx
        obtain ⟨-, rfl, rfl⟩ := hx
        cases hop
        exact ⟨hfail _ _ _ _ hrun, by simp⟩
      · rw [List.concat_eq_append, ← List.cons_append, ← List.append_assoc] at hl
        obtain ⟨hl, hx⟩ := List.append_inj' hl rfl
        obtain ⟨h3, h4⟩ := ih _ _ _ _ hl
        simp only [List.cons.injEq, and_true] at hx
        subst hx
        cases op with
        | consume y =>
          cases hop
          obtain ⟨s', h5, h6⟩ := henc s₁ y e h3
          cases h5.symm.trans hrun
          refine ⟨h6, fun j y r hj => ?_⟩
          rw [List.concat_eq_append] at hj
          rcases List.mem_append.mp hj with hj | hj
          · exact h4 _ _ _ hj
          · simp only [List.mem_singleton, Prod.mk.injEq] at hj; exact hj.2.2
        | close f => cases hop
        | flush =>
          cases hop
          obtain ⟨R, hR, hs⟩ := h3
          refine ⟨⟨R, hR, hR.flush _ _ _ hs hrun⟩, fun j y r hj => ?_⟩
          rw [List.concat_eq_append] at hj
          rcases List.mem_append.mp hj with hj | hj
          · exact h4 _ _ _ hj
          · simp at hj
    | @immediate l b₁ s₁ i' op z a _ hop ih =>
      intro l₁ l₂ i x hl
      rcases List.eq_nil_or_concat l₂ with rfl | ⟨l₃, z, rfl⟩
      · obtain ⟨-, hx⟩ := List.append_inj' hl rfl
        simp only [List.cons.injEq, Prod.mk.injEq, and_true] at hx
        obtain ⟨-, rfl, rfl⟩ := hx
        cases hop
      · rw [List.concat_eq_append, ← List.cons_append, ← List.append_assoc] at hl
        obtain ⟨hl, hx⟩ := List.append_inj' hl rfl
        obtain ⟨h3, h4⟩ := ih _ _ _ _ hl
        simp only [List.cons.injEq, and_true] at hx
        subst hx
        refine ⟨h3, fun j y r hj => ?_⟩
        rw [List.concat_eq_append] at hj
        rcases List.mem_append.mp hj with hj | hj
        · exact h4 _ _ _ hj
        · simp only [List.mem_singleton, Prod.mk.injEq] at hj
          obtain ⟨-, rfl, -⟩ := hj
          cases hop
  obtain ⟨_, h⟩ := h.inv hI
  exact (key h.serial _ _ _ _ hfin).2 _ _ _ hj

/-- Two tasks that share an encoder of `u16` into a slice of one byte: both have seen the error. -/
example : ∃ m, ∃ st : Shared Bool (IntoSlice UInt8) Unit (SharedEncoderOp UInt16 Unit) _ m.κ,
    Shared.Reachable (sharedEncoder U16BE.encodable.toEncodable (IntoSlice.consumer UInt8)) m (Shared.init (IntoSlice.new [0]) fun _ => ())
      st ∧
    st.finished = [(true, .consume 0x0102, .error ()), (false, .consume 0x0304, .error ())] ∧
    ∀ r : Except Unit Unit, (false, SharedEncoderOp.consume (F := Unit) (0x0304 : UInt16), r) ∈ [(false, .consume 0x0304, .error ())] →
      r = .error () := by
  have hcon : U16BE.encodable.encode (IntoSlice.consumer UInt8) (IntoSlice.new [0]) 0x0102 = ok (⟨[1], 1⟩, .error ()) := by
    have h : bulkConsumeFullSlice (IntoSlice.consumer UInt8) (IntoSlice.new [0]) [1, 2] = ok (⟨[1], 1⟩, .error ⟨1, ()⟩) :=
      loop_eq_of_fuel (n := 3) (fun h => by cases h)
    exact bind_eq_ok.mpr ⟨_, h, rfl⟩
  obtain ⟨s', h1, -⟩ := fixed_encode_refused u16 .big (by decide) (C := IntoSlice.consumer UInt8) (s := ⟨[1], 1⟩)
    ⟨_, IntoSlice.refuses, rfl⟩ 0x0304
  have h2 := (Serial.nil (method := sharedEncoder U16BE.encodable.toEncodable (IntoSlice.consumer UInt8)) (b := fun _ : Bool => ())
    (s := IntoSlice.new [0])).locked (i := true) (op := .consume 0x0102) rfl hcon
  have h3 := h2.locked (i := false) (op := .consume 0x0304) rfl h1
  obtain ⟨st, h4, _, _, h5, _⟩ := h3.reachable
  exact ⟨_, st, h4, h5, fun r hr => shared_encoder_refused _ (fun _ _ _ _ h => fixed_encode_fills u16 .big h)
    (fun s x e h => fixed_encode_refused u16 .big (by decide) h x) (Suspension.chaotic_implements _) h4 (l₁ := []) h5 hr⟩

/-- **C92, shared relative encoders**, whatever values the tasks encode relative to. -/
theorem shared_relative_encoder_refused {T Rel B ι : Type} [DecidableEq ι] (t : RelativeEncodable T Rel) (borrow : B → Rel)
    {C : BulkConsumer σ UInt8 F E}
    (hfail : ∀ rel s s' x e, t.relativeEncode rel C s x = ok (s', .error e) → Refuses C s' e)
    (henc : ∀ rel s x e, Refuses C s e → ∃ s', t.relativeEncode rel C s x = ok (s', .error e) ∧ Refuses C s' e)
    {m : Suspension σ B (SharedRelativeEncoderOp T F B) (Except E Unit)} (hI : m.Implements (sharedRelativeEncoder t borrow C))
    {s : σ} {b : ι → B} {st : Shared ι σ B (SharedRelativeEncoderOp T F B) (Except E Unit) m.κ}
    (h : Shared.Reachable (sharedRelativeEncoder t borrow C) m (Shared.init s b) st)
    {l₁ l₂ : List (ι × SharedRelativeEncoderOp T F B × Except E Unit)} {i j : ι}
    {x y : T} {e : E} {r : Except E Unit} (hfin : st.finished = l₁ ++ (i, .consume x, .error e) :: l₂) (hj : (j, .consume y, r) ∈ l₂) :
    r = .error e := by
  have key : ∀ {l : List (ι × SharedRelativeEncoderOp T F B × Except E Unit)} {b b' : ι → B} {s s' : σ},
      Serial (sharedRelativeEncoder t borrow C) b s l b' s' →
      ∀ l₁ l₂ i x, l = l₁ ++ (i, .consume x, .error e) :: l₂ →
        Refuses C s' e ∧ ∀ j y r, (j, SharedRelativeEncoderOp.consume y, r) ∈ l₂ → r = .error e := by
    intro l b b' s s' h
    induction h with
    | nil => intro l₁ l₂ i x h; simp at h
    | @locked l b₁ s₁ i' op run a s₂ _ hop hrun ih =>
      intro l₁ l₂ i x hl
      rcases List.eq_nil_or_concat l₂ with rfl | ⟨l₃, z, rfl⟩
      · obtain ⟨-, hx⟩ := List.append_inj' hl rfl
        simp only [List.cons.injEq, Prod.mk.injEq, and_true] at hx
        obtain ⟨-, rfl, rfl⟩ := hx
        cases hop
        exact ⟨hfail _ _ _ _ _ hrun, by simp⟩
      · rw [List.concat_eq_append, ← List.cons_append, ← List.append_assoc] at hl
        obtain ⟨hl, hx⟩ := List.append_inj' hl rfl
        obtain ⟨h3, h4⟩ := ih _ _ _ _ hl
        simp only [List.cons.injEq, and_true] at hx
        subst hx
        cases op with
        | consume y =>
          cases hop
          obtain ⟨s', h5, h6⟩ := henc _ s₁ y e h3
          cases h5.symm.trans hrun
          refine ⟨h6, fun j y r hj => ?_⟩
          rw [List.concat_eq_append] at hj
          rcases List.mem_append.mp hj with hj | hj
          · exact h4 _ _ _ hj
          · simp only [List.mem_singleton, Prod.mk.injEq] at hj; exact hj.2.2
        | close f => cases hop
        | setRelativeTo z => cases hop
        | flush =>
          cases hop
          obtain ⟨R, hR, hs⟩ := h3
          refine ⟨⟨R, hR, hR.flush _ _ _ hs hrun⟩, fun j y r hj => ?_⟩
          rw [List.concat_eq_append] at hj
          rcases List.mem_append.mp hj with hj | hj
          · exact h4 _ _ _ hj
          · simp at hj
    | @immediate l b₁ s₁ i' op z a _ hop ih =>
      intro l₁ l₂ i x hl
      rcases List.eq_nil_or_concat l₂ with rfl | ⟨l₃, z, rfl⟩
      · obtain ⟨-, hx⟩ := List.append_inj' hl rfl
        simp only [List.cons.injEq, Prod.mk.injEq, and_true] at hx
        obtain ⟨-, rfl, rfl⟩ := hx
        cases hop
      · rw [List.concat_eq_append, ← List.cons_append, ← List.append_assoc] at hl
        obtain ⟨hl, hx⟩ := List.append_inj' hl rfl
        obtain ⟨h3, h4⟩ := ih _ _ _ _ hl
        simp only [List.cons.injEq, and_true] at hx
        subst hx
        refine ⟨h3, fun j y r hj => ?_⟩
        rw [List.concat_eq_append] at hj
        rcases List.mem_append.mp hj with hj | hj
        · exact h4 _ _ _ hj
        · simp only [List.mem_singleton, Prod.mk.injEq] at hj
          obtain ⟨-, rfl, -⟩ := hj
          cases hop
  obtain ⟨_, h⟩ := h.inv hI
  exact (key h.serial _ _ _ _ hfin).2 _ _ _ hj

/-- Two tasks that share an encoder of `u16` relative to 1 into a slice of one byte: both have seen the error. -/
example : ∃ m, ∃ st : Shared Bool (IntoSlice UInt8) UInt16 (SharedRelativeEncoderOp UInt16 Unit UInt16) _ m.κ,
    Shared.Reachable (sharedRelativeEncoder ⟨fun r _ _ _ C s x => u16.encode .big C s (x - r)⟩ id (IntoSlice.consumer UInt8)) m
      (Shared.init (IntoSlice.new [0]) fun _ => 1) st ∧
    st.finished = [(true, .consume 0x0103, .error ()), (false, .consume 0x0304, .error ())] ∧
    ∀ r : Except Unit Unit, (false, SharedRelativeEncoderOp.consume (F := Unit) (B := UInt16) (0x0304 : UInt16), r) ∈
      [(false, .consume 0x0304, .error ())] → r = .error () := by
  have hcon : u16.encode .big (IntoSlice.consumer UInt8) (IntoSlice.new [0]) 0x0102 = ok (⟨[1], 1⟩, .error ()) := by
    have h : bulkConsumeFullSlice (IntoSlice.consumer UInt8) (IntoSlice.new [0]) [1, 2] = ok (⟨[1], 1⟩, .error ⟨1, ()⟩) :=
      loop_eq_of_fuel (n := 3) (fun h => by cases h)
    exact bind_eq_ok.mpr ⟨_, h, rfl⟩
  obtain ⟨s', h1, -⟩ := fixed_encode_refused u16 .big (by decide) (C := IntoSlice.consumer UInt8) (s := ⟨[1], 1⟩)
    ⟨_, IntoSlice.refuses, rfl⟩ 0x0303
  have h2 := (Serial.nil (method := sharedRelativeEncoder ⟨fun r _ _ _ C s x => u16.encode .big C s (x - r)⟩ id (IntoSlice.consumer UInt8))
    (b := fun _ : Bool => (1 : UInt16)) (s := IntoSlice.new [0])).locked (i := true) (op := .consume 0x0103) rfl hcon
  have h3 := h2.locked (i := false) (op := .consume 0x0304) rfl h1
  obtain ⟨st, h4, _, _, h5, _⟩ := h3.reachable
  exact ⟨_, st, h4, h5, fun r hr => shared_relative_encoder_refused _ _ (fun _ _ _ _ _ h => fixed_encode_fills u16 .big h)
    (fun _ s x e h => fixed_encode_refused u16 .big (by decide) h _) (Suspension.chaotic_implements _) h4 (l₁ := []) h5 hr⟩

/-! ## `BulkScrambler` -/

/-- **C92, `BulkScrambler` goes on after an error**: an item that could not be delivered is dropped, and the space that it took
in the buffer is free for another one. -/
theorem consumer_scrambler_after_error : Refuses (IntoSlice.consumer Nat) ⟨[], 0⟩ () ∧
    ∃ s, Offered (consumerScrambler false (IntoSlice.consumer Nat)).toConsumer
      (ConsumerScrambler.new ⟨[], 0⟩ [.consume] 1 (fun _ => 0)) [1, 2, 3, 4] [.ok (), .error (), .ok (), .error ()] s := by
  refine ⟨⟨_, IntoSlice.refuses, rfl⟩, ?_⟩
  have key : ∀ x y, (consumerScrambler false (IntoSlice.consumer Nat)).consume ⟨⟨[], 0⟩, ⟨[x], 0, 1⟩, [.consume], 0⟩ y =
      ok (⟨⟨[], 0⟩, ⟨[x], 0, 0⟩, [.consume], 0⟩, .error ()) := by
    intro x y
    have h : loopFuel (ConsumerScrambler.drainBody false (IntoSlice.consumer Nat)) 2
        ⟨⟨[], 0⟩, ⟨[x], 0, 1⟩, [.consume], 0⟩ = ok (⟨⟨[], 0⟩, ⟨[x], 0, 0⟩, [.consume], 0⟩, .error ()) := by
      simp [loopFuel, ConsumerScrambler.drainBody, ConsumerScrambler.performOperation, Fixed.len, Fixed.dequeue, Fixed.capacity,
        IntoSlice.consumer, IntoSlice.consume, Outcome.index, debugAssert, unwrap, mod, sub]
    have h' := loop_eq_of_fuel (n := 2) (body := ConsumerScrambler.drainBody false (IntoSlice.consumer Nat))
      (s := ⟨⟨[], 0⟩, ⟨[x], 0, 1⟩, [.consume], 0⟩) (by rw [h]; simp)
    rw [h] at h'
    have he : (⟨[x], 0, 1⟩ : Fixed Nat).enqueue y = ok (⟨[x], 0, 1⟩, some y) := rfl
    have hd : ConsumerScrambler.drain false (IntoSlice.consumer Nat)
      ⟨⟨[], 0⟩, ⟨[x], 0, 1⟩, [.consume], 0⟩ = ok (⟨⟨[], 0⟩, ⟨[x], 0, 0⟩, [.consume], 0⟩, .error ()) := h'
    simp only [consumerScrambler, ConsumerScrambler.consume, bind_eq, he, bind_ok, hd]
    rfl
  exact ⟨_, .cons (s₁ := ⟨⟨[], 0⟩, ⟨[1], 0, 1⟩, [.consume], 0⟩) rfl (.cons (key 1 2)
    (.cons (s₁ := ⟨⟨[], 0⟩, ⟨[3], 0, 1⟩, [.consume], 0⟩) rfl (.cons (key 3 4) (.nil _))))⟩

/-! ## `TestConsumer` -/

/-- The error has been reported. -/
def TestConsumer.Spent (s : TestConsumer I F E) : Prop := s.consumptionsUntilError = 0 ∧ s.error = none

theorem TestConsumer.enter_spent {s s' : TestConsumer I F E} {o : Option E} (h : s.enter = ok (s', o)) :
    maybeYield s.yielder = ok s'.yielder ∧ (o = none ∨ s'.Spent) := by
  simp only [TestConsumer.enter, bind_eq] at h
  obtain ⟨y, hy, h⟩ := bind_eq_ok.mp h
  simp only [TestConsumer.checkError, bind_eq] at h
  split at h
  case isTrue hz =>
    obtain ⟨e, -, h⟩ := bind_eq_ok.mp h
    cases h
    exact ⟨hy, .inr ⟨hz, rfl⟩⟩
  case isFalse =>
    cases h
    exact ⟨hy, .inl rfl⟩

/-- All methods that take items, and `flush` and `close`, begin with `enter` and fail only there. -/
theorem TestConsumer.enter_fails {A : Type} {s : TestConsumer I F E} {k : TestConsumer I F E → Outcome (TestConsumer I F E × Except E A)}
    (hk : ∀ s s' e, k s ≠ ok (s', .error e)) {s' : TestConsumer I F E} {e : E}
    (h : (s.enter.bind fun x => match x with
      | (s, some err) => ok (s, .error err)
      | (s, none) => k s) = ok (s', .error e)) : maybeYield s.yielder = ok s'.yielder ∧ s'.Spent := by
  obtain ⟨⟨s₁, o⟩, h1, h⟩ := bind_eq_ok.mp h
  obtain ⟨h2, h3⟩ := TestConsumer.enter_spent h1
  rcases o with _ | e'
  · exact absurd h (hk _ _ _)
  · cases h
    exact ⟨h2, h3.resolve_left (by simp)⟩

theorem TestConsumer.Spent.enter {s : TestConsumer I F E} (h : s.Spent) (hy : YielderLive s.yielder) : s.enter = .panic := by
  obtain ⟨y, h1, -⟩ := maybeYield_ok hy
  simp only [TestConsumer.enter, TestConsumer.checkError, h1, bind_eq, bind_ok, h.1, h.2, if_true, unwrap]
  rfl

section

variable [Inhabited I] {test : Bool} {s s' : TestConsumer I F E} {e : E}

theorem TestConsumer.consume_spent {x : I} (h : s.consume test x = ok (s', .error e)) :
    maybeYield s.yielder = ok s'.yielder ∧ s'.Spent := by
  refine TestConsumer.enter_fails (fun s s' e h => ?_) h
  obtain ⟨_, -, h⟩ := bind_eq_ok.mp h
  obtain ⟨_, -, h⟩ := bind_eq_ok.mp h
  obtain ⟨_, -, h⟩ := bind_eq_ok.mp h
  cases h

theorem TestConsumer.close_spent {f : F} (h : s.close test f = ok (s', .error e)) :
    maybeYield s.yielder = ok s'.yielder ∧ s'.Spent := by
  refine TestConsumer.enter_fails (fun s s' e h => ?_) h
  obtain ⟨_, -, h⟩ := bind_eq_ok.mp h
  obtain ⟨_, -, h⟩ := bind_eq_ok.mp h
  cases h

theorem TestConsumer.flush_spent (h : s.flush test = ok (s', .error e)) : maybeYield s.yielder = ok s'.yielder ∧ s'.Spent := by
  refine TestConsumer.enter_fails (fun s s' e h => ?_) h
  obtain ⟨_, -, h⟩ := bind_eq_ok.mp h
  obtain ⟨_, -, h⟩ := bind_eq_ok.mp h
  cases h

theorem TestConsumer.consumeSlots_spent {k : Nat} (h : s.consumeSlots test k = ok (s', .error e)) :
    maybeYield s.yielder = ok s'.yielder ∧ s'.Spent := by
  refine TestConsumer.enter_fails (fun s s' e h => ?_) h
  obtain ⟨_, -, h⟩ := bind_eq_ok.mp h
  obtain ⟨_, -, h⟩ := bind_eq_ok.mp h
  obtain ⟨_, -, h⟩ := bind_eq_ok.mp h
  cases h

theorem TestConsumer.expose_spent (h : s.exposeSlots test = ok (s', .error e)) :
    maybeYield s.yielder = ok s'.yielder ∧ s'.Spent := by
  refine TestConsumer.enter_fails (fun s s' e h => ?_) h
  obtain ⟨_, -, h⟩ := bind_eq_ok.mp h
  obtain ⟨_, -, h⟩ := bind_eq_ok.mp h
  obtain ⟨_, -, h⟩ := bind_eq_ok.mp h
  obtain ⟨_, -, h⟩ := bind_eq_ok.mp h
  obtain ⟨_, -, h⟩ := bind_eq_ok.mp h
  cases h

theorem TestConsumer.expose_yields {slots : List I} (h : s.exposeSlots test = ok (s', .ok slots)) :
    maybeYield s.yielder = ok s'.yielder := by
  obtain ⟨⟨s₁, o⟩, h1, h⟩ := bind_eq_ok.mp h
  obtain ⟨h2, h3⟩ := TestConsumer.enter_spent h1
  rcases o with _ | e'
  · obtain ⟨⟨s₂, m⟩, hs, h⟩ := bind_eq_ok.mp h
    obtain ⟨_, -, h⟩ := bind_eq_ok.mp h
    obtain ⟨_, -, h⟩ := bind_eq_ok.mp h
    obtain ⟨_, -, h⟩ := bind_eq_ok.mp h
    obtain ⟨_, -, h⟩ := bind_eq_ok.mp h
    cases h
    simp only [TestConsumer.nextSize] at hs
    split at hs
    · cases hs; exact h2
    · obtain ⟨_, -, hs⟩ := bind_eq_ok.mp hs
      cases hs; exact h2
  · cases h

end

theorem TestConsumer.call_spent [Inhabited I] {test : Bool} {s s' : TestConsumer I F E} {slots : List I} {op : ConsumerOp I F}
    {r : Receipt I F E} (hy : YielderLive s.yielder) (h : (TestConsumer.consumer test I F E).call s slots op = ok (s', r))
    {en : ConsumerEnd I F E} (hr : r.ended = some en) (hen : ∀ f, en ≠ .closed f) : YielderLive s'.yielder ∧ s'.Spent := by
  cases op with
  | write ws => cases h; cases hr
  | consume x =>
    obtain ⟨⟨s₁, e | _⟩, h1, h⟩ := bind_eq_ok.mp h
    · cases h
      obtain ⟨h2, h3⟩ := TestConsumer.consume_spent h1
      exact ⟨hy.next h2, h3⟩
    · cases h; cases hr
  | flush =>
    obtain ⟨⟨s₁, e | _⟩, h1, h⟩ := bind_eq_ok.mp h
    · cases h
      obtain ⟨h2, h3⟩ := TestConsumer.flush_spent h1
      exact ⟨hy.next h2, h3⟩
    · cases h; cases hr
  | exposeSlots =>
    obtain ⟨⟨s₁, e | _⟩, h1, h⟩ := bind_eq_ok.mp h
    · cases h
      obtain ⟨h2, h3⟩ := TestConsumer.expose_spent h1
      exact ⟨hy.next h2, h3⟩
    · cases h; cases hr
  | consumeSlots k =>
    obtain ⟨⟨s₁, e | _⟩, h1, h⟩ := bind_eq_ok.mp h
    · cases h
      obtain ⟨h2, h3⟩ := TestConsumer.consumeSlots_spent h1
      exact ⟨hy.next h2, h3⟩
    · cases h; cases hr
  | close f =>
    obtain ⟨⟨s₁, e | _⟩, h1, h⟩ := bind_eq_ok.mp h
    · cases h
      obtain ⟨h2, h3⟩ := TestConsumer.close_spent h1
      exact ⟨hy.next h2, h3⟩
    · cases h; cases hr; exact absurd rfl (hen f)
  | bulkConsume buf =>
    obtain ⟨⟨s₁, v⟩, h1, h⟩ := bind_eq_ok.mp h
    obtain ⟨⟨s₂, e | sl⟩, h2, h1⟩ := bind_eq_ok.mp h1
    · cases h1; cases h
      obtain ⟨h2, h3⟩ := TestConsumer.expose_spent h2
      exact ⟨hy.next h2, h3⟩
    · have h4 := hy.next (TestConsumer.expose_yields h2)
      obtain ⟨⟨s₃, e | _⟩, h3, h1⟩ := bind_eq_ok.mp h1
      · cases h1; cases h
        obtain ⟨h5, h6⟩ := TestConsumer.consumeSlots_spent h3
        exact ⟨YielderLive.next (y := s₂.yielder) h4 h5, h6⟩
      · cases h1; cases h; cases hr

/-- **C92, `TestConsumer`.** After its error, every further call panics, also outside of tests. -/
theorem test_consumer_again [Inhabited I] (test : Bool) (e : E) (n : Nat) (sizes : List NonZero) (pattern : Option (List Bool))
    {taken slots : List I} {s : TestConsumer I F E} {en : ConsumerEnd I F E}
    (h : ConsumerRuns (TestConsumer.consumer test I F E) (TestConsumer.new e n sizes pattern) taken s slots (some en))
    (hen : ∀ f, en ≠ .closed f) (op : ConsumerOp I F) (hop : ∀ ws, op ≠ .write ws) :
    (TestConsumer.consumer test I F E).call s [] op = .panic := by
  generalize he : some en = ended at h
  cases h with
  | start => cases he
  | @call _ s₀ _ _ _ _ hr hop' hcall =>
    obtain ⟨-, ⟨sl, hm⟩, -⟩ := hr.after (TestConsumer.law test n e) (TestConsumer.ready_new test e n sizes pattern)
    obtain ⟨h2, h3⟩ := TestConsumer.call_spent hm.yielder hcall he.symm hen
    have h4 := h3.enter h2
    cases op with
    | write ws => exact absurd rfl (hop ws)
    | consume x => simp [BulkConsumer.call, TestConsumer.consumer, TestConsumer.consume, h4, Outcome.bind]
    | flush => simp [BulkConsumer.call, TestConsumer.consumer, TestConsumer.flush, h4, Outcome.bind]
    | exposeSlots => simp [BulkConsumer.call, TestConsumer.consumer, TestConsumer.exposeSlots, h4, Outcome.bind]
    | consumeSlots k => simp [BulkConsumer.call, TestConsumer.consumer, TestConsumer.consumeSlots, h4, Outcome.bind]
    | close f => simp [BulkConsumer.call, TestConsumer.consumer, TestConsumer.close, h4, Outcome.bind]
    | bulkConsume buf =>
      simp [BulkConsumer.call, TestConsumer.consumer, bulkConsumeDefault, TestConsumer.exposeSlots, h4, Outcome.bind]

/-- A `TestConsumer` for no items, outside of tests. -/
example : ∃ s : TestConsumer Nat Unit String, ConsumerRuns (TestConsumer.consumer false Nat Unit String)
    (TestConsumer.new "e" 0 [] none) [] s [] (some (.failed "e" [7])) ∧
    (TestConsumer.consumer false Nat Unit String).call s [] .flush = .panic := by
  have h0 := ConsumerRuns.start (C := TestConsumer.consumer false Nat Unit String) (s₀ := TestConsumer.new "e" 0 [] none)
  have h1 := h0.call (op := .consume 7) (s' := ⟨.new .new, none, none, 0, none, none⟩) (r := ⟨[], [], some (.failed "e" [7])⟩) trivial rfl
  exact ⟨_, h1, test_consumer_again false _ _ _ _ h1 (by simp) _ (by simp)⟩

/-- **C92, `TestConsumer` outside of tests does not notice that it is used after being closed**: it consumes and records items, and
another final value. -/
theorem test_consumer_after_close [Inhabited I] (e : E) (f g : F) (x y : I) :
    ∃ s s₁ s₂ s₃ : TestConsumer I F E,
      (TestConsumer.consumer false I F E).consume (.new e 5 [] none) x = ok (s, .ok ()) ∧
      (TestConsumer.consumer false I F E).close s f = ok (s₁, .ok ()) ∧ s₁.finalConsumed = some f ∧
      (TestConsumer.consumer false I F E).consume s₁ y = ok (s₂, .ok ()) ∧
      (TestConsumer.consumer false I F E).close s₂ g = ok (s₃, .ok ()) ∧
      s₃.intoConsumed = ([x, y], some g) :=
  ⟨_, _, _, _, rfl, rfl, rfl, rfl, rfl, rfl⟩

end

end Verif
