import Verif.Lemmas.FuzzScramblers

/-!
# C55: the fuzz targets of slices, vectors, scramblers, and invariants
-/

namespace Verif

open Outcome

namespace Fuzz

section

variable {I F E : Type} [DecidableEq I] [DecidableEq F] [DecidableEq E] [Inhabited I]

omit [DecidableEq I] in
/-- Piping a finite sequence without errors into a vector. -/
theorem pipe_into_vec {σ : Type} {P : Producer σ I Unit Empty} {s : σ} {input : List I}
    (h : Plays P s (Script.ofList input (.ok ()))) :
    ∃ s' v, pipe P (publicConsumer false (IntoVec.consumer I)).toConsumer s (.new .new) = ok ((s', v), .ok ()) ∧
      v.inner.intoVec = input := by
  have hC : Collects (publicConsumer false (IntoVec.consumer I)).toConsumer (fun t l _ => t.inner.intoVec = l) .acceptAll
      (.new (IntoVec.new : IntoVec I)) [] := by
    obtain ⟨R, h1, slots, h2⟩ := into_vec_new_collects (T := I)
    have h3 := h1.unusedInvariant
    simp only [publicConsumer]
    exact ⟨fun s l => ∃ slots, R s.inner l slots, ⟨fun s l hs => (h3.base.observe s l hs).2, h3.base.consume_ok,
      fun s l x e hs he => by simp [Policy.answer, Policy.acceptAll] at he, fun s l f hs hf => by
        obtain ⟨s', h4, h5⟩ := h3.base.close_ok s l f hs hf
        exact ⟨s', h4, h5.2⟩, fun s l f e hs he => by simp [Policy.acceptAll] at he⟩, slots, h2⟩
  have hres : PipeResult (E₁ := Empty) (Script.ofList input (.ok ())) (.acceptAll : Policy I Unit Empty) [] input (some ()) (.ok ()) :=
    .closed (Script.ofList_startsWith _ _) (by simp) (Script.ofList_end _ _) rfl
  obtain ⟨s', v, h1, h2⟩ := pipe_spec h hC hres
  exact ⟨s', v, h1, by simpa using h2⟩

/-- **C55**, from_slice.rs. -/
theorem from_slice_passes (debug : Bool) (input : List I) (ops : List ScrambleProduce) : fromSliceTarget debug input ops = ok () := by
  have hP : BulkPlays (publicProducer false (FromSlice.producer I)) (.new (FromSlice.new input)) (Script.ofList input (.ok ())) := by
    obtain ⟨R, h1, n, h2⟩ := from_slice_plays input
    exact ⟨_, h1.unusedInvariant, n, h2⟩
  obtain ⟨s', v, h1, h2⟩ := pipe_into_vec (scrambled_plays debug hP ops)
  simp [fromSliceTarget, h1, h2, isOk]

example : fromSliceTarget true [1, 2, 3] [.slurp, .considerProduced ⟨2, by decide⟩, .produce] = ok () := from_slice_passes ..

/-- **C55**, from_boxed_slice.rs. -/
theorem from_boxed_slice_passes (debug : Bool) (input : List I) (ops : List ScrambleProduce) :
    fromBoxedSliceTarget debug input ops = ok () := by
  have hP : BulkPlays (publicProducer false (FromBoxedSlice.producer I)) (.new (FromBoxedSlice.new input))
      (Script.ofList input (.ok ())) := by
    obtain ⟨R, h1, n, h2⟩ := from_boxed_slice_plays input
    exact ⟨_, h1.unusedInvariant, n, h2⟩
  obtain ⟨s', v, h1, h2⟩ := pipe_into_vec (scrambled_plays debug hP ops)
  simp [fromBoxedSliceTarget, h1, h2, isOk]

example : fromBoxedSliceTarget true [1, 2, 3] [.slurp, .considerProduced ⟨2, by decide⟩, .produce] = ok () := from_boxed_slice_passes ..

/-- **C55**, producer_bulk_scrambler_is_transparent.rs. -/
theorem producer_scrambler_passes (debug : Bool) (items : List I) (last : Except E F) (sizes : List NonZero) (pattern : List Bool)
    (ops : List ScrambleProduce) : producerScramblerTarget debug (.arbitrary items last sizes pattern : Pro I F E) ops = ok () := by
  have hs := pro_new items last sizes pattern
  obtain ⟨_, h1, _⟩ := loop_ok (body := scramblerLoop (I := I) (F := F) (E := E) debug)
    (fun a _ (st : Pro I F E × InvariantSt (ProducerScrambler (Pro I F E) I F E)) =>
      (∃ k, k ≤ items.length ∧ a = items.length - k + 1 ∧ (∃ r, POf items last st.1 ((Script.ofList items last).drop k) r) ∧
        ∃ r, st.2.inner.Plays (POf items last) (PDone items) 2048 ((Script.ofList items last).drop k) r) ∨
      (a = 0 ∧ PDone items st.1))
    (fun _ => True) (by
      rintro a - ⟨control, scrambler⟩ (⟨k, hk, rfl, ⟨r, hc⟩, r', hp⟩ | ⟨rfl, hd⟩)
      · obtain ⟨c', h1, h2⟩ := (pro_law items last).base.produce control _ ⟨r, hc⟩
        have h1' : (pro I F E).produce control = ok (c', (Script.ofList items last).drop k 0) := h1
        obtain ⟨s', h3, h4⟩ := scrambled_produce debug (pro_law items last) (pro_ends items last) hp
        have hlast : control.inner.last = some last := hc.last
        refine .inr ⟨(c', s'), ?_⟩
        have hbody : scramblerLoop debug (control, scrambler) = ok (.continue (c', s')) := by
          simp [scramblerLoop, TestProducer.didAlreadyEmitLast, hlast, h1', h3]
        rcases h4 with ⟨x, m, hx, h5⟩ | ⟨hx, h5⟩
        · obtain ⟨m', h6⟩ := h2 x hx
          rw [Script.drop_drop] at h5 h6
          have hlt := (ofList_item (by simpa [Script.drop] using hx)).2
          exact ⟨items.length - (k + 1) + 1, 0, hbody, .inl (by omega), .inl ⟨k + 1, hlt, rfl, ⟨m', h6⟩, m, h5⟩⟩
        · exact ⟨0, 0, hbody, .inl (by omega), .inr ⟨rfl, (pro_ends items last).produce _ _ _ _ _ hc h1' hx⟩⟩
      · refine .inl ⟨(), ?_, trivial⟩
        have hl : control.inner.last = none := hd.last
        simp [scramblerLoop, TestProducer.didAlreadyEmitLast, hl])
    (s := (.arbitrary items last sizes pattern, scramblePro (.arbitrary items last sizes pattern) ops)) (b := 0)
    (.inl ⟨0, Nat.zero_le _, rfl, ⟨0, by simpa using hs⟩, 0, by simpa using scramble_plays hs ops⟩)
  exact h1

example : producerScramblerTarget true (.arbitrary [1, 2, 3] (.ok 7) [⟨2, by decide⟩, ⟨1, by decide⟩] [true] : Pro Nat Nat Nat)
    [.slurp, .considerProduced ⟨2, by decide⟩, .produce] = ok () := producer_scrambler_passes ..

/-- **C55**, producer_invariant_is_transparent.rs. -/
theorem producer_invariant_passes (debug : Bool) (items : List I) (last : Except E F) (sizes : List NonZero) (pattern : List Bool)
    (ops : List ScrambleProduce) : producerInvariantTarget debug (.arbitrary items last sizes pattern : Pro I F E) ops = ok () := by
  have hs := pro_new items last sizes pattern
  obtain ⟨_, h1, _⟩ := loop_ok (body := invariantLoop (I := I) (F := F) (E := E) debug)
    (fun a _ (st : InvariantSt (ProducerScrambler (Pro I F E) I F E) × InvariantSt (InvariantSt (ProducerScrambler (Pro I F E) I F E))) =>
      st.2.inner = st.1 ∧
      ((∃ k, k ≤ items.length ∧ a = items.length - k + 1 ∧
        ∃ r, st.1.inner.Plays (POf items last) (PDone items) 2048 ((Script.ofList items last).drop k) r) ∨
      (a = 0 ∧ PDone items st.1.inner.inner)))
    (fun _ => True) (by
      rintro a - ⟨control, invarianted⟩ ⟨heq, h⟩
      obtain rfl : invarianted.inner = control := heq
      rcases h with ⟨k, hk, rfl, r, hp⟩ | ⟨rfl, hd⟩
      · by_cases hdone : invarianted.inner.inner.inner.inner.didAlreadyEmitLast = true
        · exact .inl ⟨(), by simp [invariantLoop, hdone], trivial⟩
        obtain ⟨s', h3, h4⟩ := scrambled_produce debug (pro_law items last) (pro_ends items last) hp
        have h5 : (publicProducer false (scrambledPro debug (pro I F E))).produce invarianted =
            ok ({ invarianted with inner := s' }, (Script.ofList items last).drop k 0) := by
          simp [publicProducer, unusedInvariantBulkProducer] at h3 ⊢
          simp [h3]
        refine .inr ⟨(s', { invarianted with inner := s' }), ?_⟩
        have hbody : invariantLoop debug (invarianted.inner, invarianted) = ok (.continue (s', { invarianted with inner := s' })) := by
          simp [invariantLoop, hdone, h3, h5]
        rcases h4 with ⟨x, m, hx, h6⟩ | ⟨hx, h6⟩
        · rw [Script.drop_drop] at h6
          have hlt := (ofList_item (by simpa [Script.drop] using hx)).2
          exact ⟨items.length - (k + 1) + 1, 0, hbody, .inl (by omega), rfl, .inl ⟨k + 1, hlt, rfl, m, h6⟩⟩
        · exact ⟨0, 0, hbody, .inl (by omega), rfl, .inr ⟨rfl, h6⟩⟩
      · refine .inl ⟨(), ?_, trivial⟩
        have hl : invarianted.inner.inner.inner.inner.last = none := hd.last
        simp [invariantLoop, TestProducer.didAlreadyEmitLast, hl])
    (s := (scramblePro (.arbitrary items last sizes pattern) ops, .new (scramblePro (.arbitrary items last sizes pattern) ops))) (b := 0)
    ⟨rfl, .inl ⟨0, Nat.zero_le _, rfl, 0, by simpa using scramble_plays hs ops⟩⟩
  exact h1

example : producerInvariantTarget true (.arbitrary [1, 2, 3] (.ok 7) [⟨2, by decide⟩, ⟨1, by decide⟩] [true] : Pro Nat Nat Nat)
    [.slurp, .considerProduced ⟨2, by decide⟩, .produce] = ok () := producer_invariant_passes ..

theorem consumerScramblerFrom_passes (debug : Bool) {n : Nat} {e : E} (fin : F) : ∀ (input : List I) {c : Con I F E} {l sl : List I}
    {s : InvariantSt (ConsumerScrambler (Con I F E) I)}, COpen n e c l sl → SOpen n e s l →
    (debug = true → l.length + input.length ≤ 2048 ∨ n < 2048) → consumerScramblerFrom debug fin c s input = ok () := by
  intro input
  induction input with
  | nil =>
    intro c l sl s hc hs _
    have hle : l.length ≤ n := by have := TestConsumer.Ready.count hc; omega
    obtain ⟨s', ⟨h1, h2, h3⟩ | ⟨h1, h2, h3, h4⟩⟩ := s_close debug hs fin
    · obtain ⟨c', h4, h5⟩ := (con_law n e).base.close_ok c l fin ⟨sl, hc⟩ (by simp [Policy.failAfter, h3])
      have h4' : (con I F E).close c fin = ok (c', .ok ()) := h4
      have he := h5.2 (by simp)
      have he' := h2.2 (by simp)
      simp [consumerScramblerFrom, h1, h4', Con.same_of h5.1 h2.1 (by rw [he, he'])]
    · obtain ⟨c', h5, h6⟩ := (con_law n e).base.close_err c l fin e ⟨sl, hc⟩
        (by simp [Policy.failAfter, show ¬ l.length < n by omega])
      have h5' : (con I F E).close c fin = ok (c', .error e) := h5
      have hf : c'.inner.error = none := con_always_fails.close _ _ _ _ h5'
      rw [List.take_of_length_le hle] at h3
      simp [consumerScramblerFrom, h1, h5', Con.same_of h6.1 h3 (by rw [hf, h4])]
  | cons x input ih =>
    intro c l sl s hc hs hd
    have hle : l.length ≤ n := by have := TestConsumer.Ready.count hc; omega
    have hd' : debug = true → l.length < 2048 := by
      intro h; have := hd h; rw [List.length_cons] at this; omega
    rcases Nat.lt_or_ge l.length n with hlt | hge
    · obtain ⟨c', h1, sl', h2⟩ := (con_law n e).base.consume_ok c l x ⟨sl, hc⟩ (by rw [TestConsumer.answer_failAfter, if_pos hlt])
      have h1' : (con I F E).consume c x = ok (c', .ok ()) := h1
      obtain ⟨s', ⟨h3, h4⟩ | ⟨_, h4, _⟩⟩ := s_consume debug hs hd' x
      · simp only [consumerScramblerFrom, bind_eq, h1', h3, bind_ok, isOk, assert]
        exact ih h2 h4 (by intro h; have := hd h; simp at this ⊢; omega)
      · omega
    · obtain ⟨c', h1, h2⟩ := (con_law n e).base.consume_err c l x e ⟨sl, hc⟩
        (by rw [TestConsumer.answer_failAfter, if_neg (by omega)])
      have h1' : (con I F E).consume c x = ok (c', .error e) := h1
      have hf : c'.inner.error = none := con_always_fails.consume _ _ _ _ h1'
      obtain ⟨s', ⟨h3, h4⟩ | ⟨h3, h4, h5, h6⟩⟩ := s_consume debug hs hd' x
      · obtain ⟨s₂, ⟨_, _, h6⟩ | ⟨h5, h6, h7, h8⟩⟩ := s_flush debug h4
        · simp at h6; omega
        · rw [List.take_append_of_le_length hge, List.take_of_length_le hle] at h7
          simp [consumerScramblerFrom, h1', h3, h5, unwrapErr, Con.same_of h2.1 h7 (by rw [hf, h8])]
      · rw [List.take_of_length_le hle] at h5
        simp [consumerScramblerFrom, h1', h3, Con.same_of h2.1 h5 (by rw [hf, h6])]

/-- **C55**, consumer_bulk_scrambler_is_mostly_transparent.rs, in builds without debug assertions, or if the input or what the
test consumer accepts fits into the buffer of the scrambler. -/
theorem consumer_scrambler_passes (debug : Bool) (e : E) (n : Nat) (sizes : List NonZero) (pattern : List Bool)
    (ops : List ScrambleConsume) (input : List I) (fin : F) (h : debug = true → input.length ≤ 2048 ∨ n < 2048) :
    consumerScramblerTarget debug (.arbitrary e n sizes pattern : Con I F E) ops input fin = ok () :=
  consumerScramblerFrom_passes debug fin input (con_new e n sizes pattern) (s_new e n sizes pattern ops)
    (by intro hd; simpa using h hd)

example : consumerScramblerTarget true (.arbitrary 8 2 [⟨2, by decide⟩, ⟨1, by decide⟩] [false] : Con Nat Nat Nat)
    [.consumeSlots ⟨2, by decide⟩, .flush, .consume] [1, 2, 3] 9 = ok () :=
  consumer_scrambler_passes true _ _ _ _ _ _ _ (by decide)

theorem consumerScramblerFrom_panics {n : Nat} {e : E} (hn : 2048 ≤ n) (fin : F) : ∀ (input : List I) {c : Con I F E}
    {l sl : List I} {s : InvariantSt (ConsumerScrambler (Con I F E) I)}, COpen n e c l sl → SBuffered (SInner n e) s l →
    l.length ≤ 2048 → 2048 < l.length + input.length → consumerScramblerFrom true fin c s input = .panic := by
  intro input
  induction input with
  | nil => intro c l sl s _ _ h1 h2; simp at h2; omega
  | cons x input ih =>
    intro c l sl s hc hs h1 h2
    rcases Nat.lt_or_ge l.length 2048 with hlt | hge
    · obtain ⟨c', h3, sl', h4⟩ := (con_law n e).base.consume_ok c l x ⟨sl, hc⟩
        (by rw [TestConsumer.answer_failAfter, if_pos (by omega)])
      have h3' : (con I F E).consume c x = ok (c', .ok ()) := h3
      obtain ⟨s', h5, h6⟩ := hs.consume (C := con I F E) true hlt x
      simp only [consumerScramblerFrom, bind_eq, h3', h5, bind_ok, isOk, assert]
      exact ih h4 h6 (by simp; omega) (by simp at h2 ⊢; omega)
    · have h5 : (scrambledCon true (con I F E)).consume s x = .panic := by
        rcases s_consume_full ⟨[], l, rfl, hs⟩ (by rw [hs.1.len]; omega) x with ⟨_, h⟩ | ⟨h, _⟩
        · exact h
        · rw [List.nil_append] at h; omega
      cases hq : (Policy.failAfter n e : Policy I F E).answer l x with
      | none =>
        obtain ⟨c', h3, -⟩ := (con_law n e).base.consume_ok c l x ⟨sl, hc⟩ hq
        have h3' : (con I F E).consume c x = ok (c', .ok ()) := h3
        simp [consumerScramblerFrom, h3', h5]
      | some e' =>
        obtain ⟨c', h3, -⟩ := (con_law n e).base.consume_err c l x e' ⟨sl, hc⟩ hq
        have h3' : (con I F E).consume c x = ok (c', .error e') := h3
        simp [consumerScramblerFrom, h3', h5]

/-- **C55**, consumer_bulk_scrambler_is_mostly_transparent.rs with debug assertions (which `cargo fuzz` enables): the target fails
whenever the input is longer than the buffer of the scrambler and the test consumer accepts as much as fits into it. -/
theorem consumer_scrambler_target_panics (e : E) (n : Nat) (sizes : List NonZero) (pattern : List Bool)
    (ops : List ScrambleConsume) (input : List I) (fin : F) (hn : 2048 ≤ n) (h : 2048 < input.length) :
    consumerScramblerTarget true (.arbitrary e n sizes pattern : Con I F E) ops input fin = .panic :=
  consumerScramblerFrom_panics hn fin input (con_new e n sizes pattern)
    (sBuffered_new ⟨con_new e n sizes pattern, .refl _ _⟩ ops) (by simp) (by simpa using h)

example : consumerScramblerTarget true (.arbitrary 8 2048 [⟨2, by decide⟩, ⟨1, by decide⟩] [false] : Con Nat Nat Nat)
    [.consumeSlots ⟨2, by decide⟩, .flush, .consume] (List.replicate 2500 1) 9 = .panic :=
  consumer_scrambler_target_panics _ _ _ _ _ _ _ (by decide) (by rw [List.length_replicate]; decide)

/-- **C55**, the inputs on which consumer_bulk_scrambler_is_mostly_transparent.rs finds nothing. -/
theorem consumer_scrambler_target_iff (debug : Bool) (e : E) (n : Nat) (sizes : List NonZero) (pattern : List Bool)
    (ops : List ScrambleConsume) (input : List I) (fin : F) :
    consumerScramblerTarget debug (.arbitrary e n sizes pattern : Con I F E) ops input fin = ok () ↔
      (debug = true → input.length ≤ 2048 ∨ n < 2048) := by
  refine ⟨fun h hd => ?_, consumer_scrambler_passes debug e n sizes pattern ops input fin⟩
  subst hd
  rcases Nat.lt_or_ge n 2048 with hn | hn
  · exact .inr hn
  rcases Nat.lt_or_ge 2048 input.length with hi | hi
  · rw [consumer_scrambler_target_panics e n sizes pattern ops input fin hn hi] at h; cases h
  · exact .inl hi

omit [DecidableEq I] [DecidableEq F] in
theorem consumerInvariantLoop_spec (debug : Bool) {n : Nat} {e : E} : ∀ (input : List I) {l : List I}
    (v : InvariantSt (InvariantSt (ConsumerScrambler (Con I F E) I))), SOpen n e v.inner l →
    (debug = true → l.length + input.length ≤ 2048 ∨ n < 2048) → (debug = true → SBuffered (SInner n e) v.inner l) →
    ∃ v', consumerInvariantLoop debug v.inner v input = ok (v'.inner, v') ∧
      (SOpen n e v'.inner (l ++ input) ∨ ∃ l', SFailed n v'.inner l') := by
  intro input
  induction input with
  | nil => intro l v h _ _; exact ⟨v, rfl, .inl (by simpa using h)⟩
  | cons x input ih =>
    intro l v h hd hb
    have hd' : debug = true → l.length < 2048 ∨ n < 2048 := by
      intro h; have := hd h; rw [List.length_cons] at this; omega
    obtain ⟨s', ⟨h1, h2, hb'⟩ | ⟨h1, h2⟩⟩ := s_consume' debug h hd' hb x
    · have h3 : (publicConsumer false (scrambledCon debug (con I F E))).consume v x = ok ({ v with inner := s' }, .ok ()) := by
        simp [publicConsumer, unusedInvariantBulkConsumer] at h1 ⊢
        simp [h1]
      obtain ⟨v', h4, h5⟩ := ih (l := l ++ [x]) { v with inner := s' } h2
        (by intro h; have := hd h; simp at this ⊢; omega) hb'
      refine ⟨v', ?_, by simpa using h5⟩
      have he := h2.error
      simp [consumerInvariantLoop, h1, h3, TestConsumer.didError, he, h4]
    · have h3 : (publicConsumer false (scrambledCon debug (con I F E))).consume v x = ok ({ v with inner := s' }, .error e) := by
        simp [publicConsumer, unusedInvariantBulkConsumer] at h1 ⊢
        simp [h1]
      refine ⟨{ v with inner := s' }, ?_, .inr ⟨l, h2⟩⟩
      have he := h2.2.2
      simp [consumerInvariantLoop, h1, h3, TestConsumer.didError, he]

/-- **C55**, consumer_invariant_is_transparent.rs, with the same restriction. -/
theorem consumer_invariant_passes (debug : Bool) (e : E) (n : Nat) (sizes : List NonZero) (pattern : List Bool)
    (ops : List ScrambleConsume) (input : List I) (fin : F) (h : debug = true → input.length ≤ 2048 ∨ n < 2048) :
    consumerInvariantTarget debug (.arbitrary e n sizes pattern : Con I F E) ops input fin = ok () := by
  obtain ⟨v, h1, h2⟩ := consumerInvariantLoop_spec debug input
    (.new (scrambleCon (.arbitrary e n sizes pattern : Con I F E) ops)) (s_new e n sizes pattern ops) (by simpa using h)
    (fun _ => sBuffered_new ⟨con_new e n sizes pattern, .refl _ _⟩ ops)
  have h1' : consumerInvariantLoop debug (scrambleCon (.arbitrary e n sizes pattern : Con I F E) ops)
    (.new (scrambleCon (.arbitrary e n sizes pattern : Con I F E) ops)) input = ok (v.inner, v) := h1
  rcases h2 with h2 | ⟨l, h2⟩
  · have he := h2.error
    obtain ⟨s', ⟨h3, h4, _⟩ | ⟨h3, h4⟩⟩ := s_close debug h2 fin
    · have h5 : (publicConsumer false (scrambledCon debug (con I F E))).close v fin = ok ({ v with inner := s' }, .ok ()) := by
        simp [publicConsumer, unusedInvariantBulkConsumer] at h3 ⊢
        simp [h3]
      simp [consumerInvariantTarget, h1', TestConsumer.didError, he, h3, h5, Con.same_self h4.1]
    · have h5 : (publicConsumer false (scrambledCon debug (con I F E))).close v fin = ok ({ v with inner := s' }, .error e) := by
        simp [publicConsumer, unusedInvariantBulkConsumer] at h3 ⊢
        simp [h3]
      simp [consumerInvariantTarget, h1', TestConsumer.didError, he, h3, h5, Con.same_self h4.2.1]
  · have he := h2.2.2
    simp [consumerInvariantTarget, h1', TestConsumer.didError, he, Con.same_self h2.2.1]

example : consumerInvariantTarget true (.arbitrary 8 2 [⟨2, by decide⟩, ⟨1, by decide⟩] [false] : Con Nat Nat Nat)
    [.consumeSlots ⟨2, by decide⟩, .flush, .consume] [1, 2, 3] 9 = ok () :=
  consumer_invariant_passes true _ _ _ _ _ _ _ (by decide)

omit [DecidableEq I] [DecidableEq F] in
theorem consumerInvariantLoop_panics {n : Nat} {e : E} (hn : 2048 ≤ n) : ∀ (input : List I) {l : List I}
    (v : InvariantSt (InvariantSt (ConsumerScrambler (Con I F E) I))), SBuffered (SInner n e) v.inner l →
    l.length ≤ 2048 → 2048 < l.length + input.length → consumerInvariantLoop true v.inner v input = .panic := by
  intro input
  induction input with
  | nil => intro l v _ h1 h2; simp at h2; omega
  | cons x input ih =>
    intro l v hs h1 h2
    rcases Nat.lt_or_ge l.length 2048 with hlt | hge
    · obtain ⟨s', h5, h6⟩ := hs.consume (C := con I F E) true hlt x
      have h3 : (publicConsumer false (scrambledCon true (con I F E))).consume v x = ok ({ v with inner := s' }, .ok ()) := by
        simp [publicConsumer, unusedInvariantBulkConsumer] at h5 ⊢
        simp [h5]
      have he : s'.inner.inner.inner.error = some e := by
        obtain ⟨_, sl, h7, _⟩ := h6
        exact h7.error
      have := ih (l := l ++ [x]) { v with inner := s' } h6 (by simp; omega) (by simp at h2 ⊢; omega)
      simp [consumerInvariantLoop, h5, h3, TestConsumer.didError, he, this]
    · have h5 : (scrambledCon true (con I F E)).consume v.inner x = .panic := by
        rcases s_consume_full ⟨[], l, rfl, hs⟩ (by rw [hs.1.len]; omega) x with ⟨_, h⟩ | ⟨h, _⟩
        · exact h
        · rw [List.nil_append] at h; omega
      simp [consumerInvariantLoop, h5]

/-- **C55**, consumer_invariant_is_transparent.rs with debug assertions, on longer inputs. -/
theorem consumer_invariant_target_panics (e : E) (n : Nat) (sizes : List NonZero) (pattern : List Bool)
    (ops : List ScrambleConsume) (input : List I) (fin : F) (hn : 2048 ≤ n) (h : 2048 < input.length) :
    consumerInvariantTarget true (.arbitrary e n sizes pattern : Con I F E) ops input fin = .panic := by
  have := consumerInvariantLoop_panics hn input (.new (scrambleCon (.arbitrary e n sizes pattern : Con I F E) ops))
    (sBuffered_new ⟨con_new e n sizes pattern, .refl _ _⟩ ops) (by simp) (by simpa using h)
  have this' : consumerInvariantLoop true (scrambleCon (.arbitrary e n sizes pattern : Con I F E) ops)
    (.new (scrambleCon (.arbitrary e n sizes pattern : Con I F E) ops)) input = .panic := this
  simp [consumerInvariantTarget, this']

example : consumerInvariantTarget true (.arbitrary 8 2048 [⟨2, by decide⟩, ⟨1, by decide⟩] [false] : Con Nat Nat Nat)
    [.consumeSlots ⟨2, by decide⟩, .flush, .consume] (List.replicate 2500 1) 9 = .panic :=
  consumer_invariant_target_panics _ _ _ _ _ _ _ (by decide) (by rw [List.length_replicate]; decide)

/-- **C55**, the inputs on which consumer_invariant_is_transparent.rs finds nothing. -/
theorem consumer_invariant_target_iff (debug : Bool) (e : E) (n : Nat) (sizes : List NonZero) (pattern : List Bool)
    (ops : List ScrambleConsume) (input : List I) (fin : F) :
    consumerInvariantTarget debug (.arbitrary e n sizes pattern : Con I F E) ops input fin = ok () ↔
      (debug = true → input.length ≤ 2048 ∨ n < 2048) := by
  refine ⟨fun h hd => ?_, consumer_invariant_passes debug e n sizes pattern ops input fin⟩
  subst hd
  rcases Nat.lt_or_ge n 2048 with hn | hn
  · exact .inr hn
  rcases Nat.lt_or_ge 2048 input.length with hi | hi
  · rw [consumer_invariant_target_panics e n sizes pattern ops input fin hn hi] at h; cases h
  · exact .inl hi


/-! ## Vectors -/

omit [DecidableEq I] [DecidableEq F] [DecidableEq E] [Inhabited I] in
/-- Consuming everything with a scrambler around a consumer that reports no errors. -/
theorem consumeAll_passes {σ : Type} {C : BulkConsumer σ I F E} {D : σ → List I → Option F → Prop} {X : Faults I F E}
    {S : σ → List I → List I → Prop} (hX : X.Regular) (hC : BulkDefersLaw C D X S) (hno : ∀ l d e, ¬ X.during l d e) (debug : Bool) :
    ∀ (input : List I) {l : List I} {s : InvariantSt (ConsumerScrambler σ I)}, (∃ slots, s.inner.Defers S 2048 l slots) →
    (debug = true → l.length + input.length ≤ 2048) →
    ∃ s', consumeAll (scrambledCon debug C).toConsumer s input = ok s' ∧ ∃ slots, s'.inner.Defers S 2048 (l ++ input) slots := by
  intro input
  induction input with
  | nil => intro l s hs _; exact ⟨s, rfl, by simpa using hs⟩
  | cons x input ih =>
    intro l s hs hd
    have hb : debug = true → s.inner.buffer.len < 2048 := by
      intro h
      obtain ⟨slots, d, b, rfl, hok, _⟩ := hs
      have := hd h
      rw [hok.len]
      simp at this
      omega
    obtain ⟨s₁, ⟨h1, h2⟩ | ⟨e', d, h1, h2, h3⟩⟩ := ConsumerScrambler.defers_consume debug hX hC s.inner l x hs hb
    · obtain ⟨s', h3, h4⟩ := ih (l := l ++ [x]) (s := { s with inner := s₁ }) h2
        (by intro h; have := hd h; simp at this ⊢; omega)
      refine ⟨s', ?_, by simpa using h4⟩
      have h5 : (scrambledCon debug C).consume s x = ok ({ s with inner := s₁ }, .ok ()) := by
        rw [scrambledCon_eq]; simp [unusedInvariantBulkConsumer, h1]
      simp [consumeAll, h5, isOk, h3]
    · exact absurd h2 (hno _ _ _)

omit [DecidableEq I] [DecidableEq F] [DecidableEq E] [Inhabited I] in
theorem consumeAll_panics {σ : Type} {C : BulkConsumer σ I F E} {D : σ → List I → Option F → Prop} {X : Faults I F E}
    {S : σ → List I → List I → Prop} (hX : X.Regular) (hC : BulkDefersLaw C D X S) (hno : ∀ l d e, ¬ X.during l d e) :
    ∀ (input : List I) {l : List I} {s : InvariantSt (ConsumerScrambler σ I)}, SBuffered S s l →
    l.length ≤ 2048 → 2048 < l.length + input.length → consumeAll (scrambledCon true C).toConsumer s input = .panic := by
  intro input
  induction input with
  | nil => intro l s _ h1 h2; simp at h2; omega
  | cons x input ih =>
    intro l s hs h1 h2
    rcases Nat.lt_or_ge l.length 2048 with hlt | hge
    · obtain ⟨s', h5, h6⟩ := hs.consume (C := C) true hlt x
      have := ih h6 (by simp; omega) (by simp at h2 ⊢; omega)
      simp [consumeAll, h5, isOk, this]
    · have h5 := hs.panic hX hC (by omega) (hno _) x
      simp [consumeAll, h5]

omit [DecidableEq I] in
/-- The vector of into_vec.rs. -/
theorem vec_law : ∃ S, BulkDefersLaw (publicConsumer false (IntoVec.consumer I))
    (fun t l _ => t.inner.asRef = ok l ∧ t.inner.intoVec = l) (Policy.acceptAll : Policy I Unit Empty).faults S ∧
    ∃ sl, S (.new IntoVec.new) [] sl := by
  obtain ⟨R, h1, sl, h2⟩ := into_vec_new_collects (T := I)
  exact ⟨fun t => R t.inner, h1.unusedInvariant.toDefers, sl, h2⟩

/-- **C55**, into_vec.rs: without debug assertions the target passes on all inputs, with them on those that fit into the buffer
of the scrambler. -/
theorem into_vec_passes (debug : Bool) (input : List I) (ops : List ScrambleConsume) (h : debug = true → input.length ≤ 2048) :
    intoVecTarget debug input ops = ok () := by
  obtain ⟨S, hC, sl, hS⟩ := vec_law (I := I)
  obtain ⟨s₁, h1, h2⟩ := consumeAll_passes (Policy.regular_faults _) hC (fun _ _ e _ => nomatch e) debug input
    (s := scrambleCon (InvariantSt.new IntoVec.new) ops) (l := [])
    ⟨[], [], [], rfl, ConsumerScrambler.ok_new (by decide), sl, hS⟩ (by simpa using h)
  obtain ⟨t, ⟨h3, _, _, h4⟩ | ⟨e, _⟩⟩ := ConsumerScrambler.defers_flush debug (Policy.regular_faults _) hC s₁.inner _ h2
  · have h5 : (scrambledCon debug (publicConsumer false (IntoVec.consumer I))).flush s₁ = ok ({ s₁ with inner := t }, .ok ()) := by
      rw [scrambledCon_eq]; simp [unusedInvariantBulkConsumer, h3]
    have h4' : t.inner.inner.intoVec = input := h4
    simp [intoVecTarget, h1, h5, isOk, assertEq, h4']
  · exact nomatch e

example : intoVecTarget true [1, 2, 3] [.consumeSlots ⟨2, by decide⟩, .flush, .consume] = ok () :=
  into_vec_passes true _ _ (by decide)

example : intoVecTarget false (List.replicate 5000 1) [.consumeSlots ⟨2, by decide⟩, .flush, .consume] = ok () :=
  into_vec_passes false _ _ (fun h => nomatch h)

/-- **C55**, into_vec.rs with debug assertions: the target fails on every longer input. -/
theorem into_vec_target_panics (input : List I) (ops : List ScrambleConsume) (h : 2048 < input.length) :
    intoVecTarget true input ops = .panic := by
  obtain ⟨S, hC, sl, hS⟩ := vec_law (I := I)
  have := consumeAll_panics (Policy.regular_faults _) hC (fun _ _ e _ => nomatch e) input
    (s := scrambleCon (InvariantSt.new IntoVec.new) ops) (l := []) (sBuffered_new hS ops) (by simp) (by simpa using h)
  simp [intoVecTarget, this]

example : intoVecTarget true (List.replicate 2049 1) [.consumeSlots ⟨2, by decide⟩, .flush, .consume] = .panic :=
  into_vec_target_panics _ _ (by rw [List.length_replicate]; decide)

end

end Fuzz

end Verif
