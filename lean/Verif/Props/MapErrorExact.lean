import Verif.Props.Maps

/-!
# Exactly when `MapError` works (C24)

Producers and consumers around which `MapError` does what it should: those that cannot do anything but end.
-/

namespace Verif

open Outcome

section

variable {σ I F E B : Type}

/-! ## Producers -/

/-- **C24, exactly (`Producer`).** Around a lawful producer, `MapError` emits any sequence at all iff the wrapped producer has no
more items; then it emits what it should. -/
theorem map_error_plays_iff (f : E → B) {P : Producer σ I F E} {s : σ} {c : Script I F E} (h : Plays P s c) :
    ((∃ c', Plays (mapErrorProducer P) ⟨s, some f⟩ c') ↔ ∀ x, c 0 ≠ .ok (.inl x)) ∧
    ((∃ c', Plays (mapErrorProducer P) ⟨s, some f⟩ c') → Plays (mapErrorProducer P) ⟨s, some f⟩ (c.mapError f)) := by
  have h1 : (∃ c', Plays (mapErrorProducer P) ⟨s, some f⟩ c') → ∀ x, c 0 ≠ .ok (.inl x) :=
    fun ⟨c', h'⟩ x hx => (map_error_never_plays f h hx).2 c' h'
  exact ⟨⟨h1, fun hc => ⟨_, map_error_plays_partial f h hc⟩⟩, fun h' => map_error_plays_partial f h (h1 h')⟩

example : ¬ ∃ c', Plays (mapErrorProducer Case.P.toProducer) ⟨Case.pro (.ok ()), some String.length⟩ c' := fun h =>
  ((map_error_plays_iff _ (Case.plays (.ok ())).toPlays).1.mp h) 1 rfl

example : ∃ c', Plays (mapErrorProducer (failingProducer Nat Unit 3).toProducer) ⟨(), some fun (e : Nat) => e + 1⟩ c' :=
  (map_error_plays_iff _ (failing_producer_plays 3).toPlays).1.mpr (by simp)

/-- **C24, exactly (`BufferedProducer`).** With `slurp`, `MapError` works iff the wrapped `slurp` fails. -/
theorem map_error_buf_plays_iff (f : E → B) {P : BufferedProducer σ I F E} {s : σ} {c : Script I F E} (h : BufPlays P s c) :
    ((∃ c', BufPlays (mapErrorBufferedProducer P) ⟨s, some f⟩ c') ↔ ∃ s' e, P.slurp s = ok (s', .error e)) ∧
    ((∃ s' e, P.slurp s = ok (s', .error e)) → BufPlays (mapErrorBufferedProducer P) ⟨s, some f⟩ (c.mapError f)) := by
  obtain ⟨R, hR, hs⟩ := h
  have h1 : (∃ s' e, P.slurp s = ok (s', .error e)) →
      BufPlays (mapErrorBufferedProducer P) ⟨s, some f⟩ (c.mapError f) := by
    rintro ⟨s', e, hsl⟩
    obtain ⟨_, ⟨h2, _⟩ | ⟨e', h2, h3⟩⟩ := hR.slurp s c hs
    · rw [hsl] at h2; injection h2 with h2; injection h2 with _ h2; cases h2
    · obtain ⟨s₁, h4, _⟩ := hR.produce s c hs
      rw [h2] at h4
      have hc : c.mapError f 0 = .error (f e') := by simp [Script.mapError, h2]
      refine ⟨fun t c' => t = ⟨s, some f⟩ ∧ c' = c.mapError f, ⟨⟨?_⟩, ?_⟩, rfl, rfl⟩
      · rintro _ _ ⟨rfl, rfl⟩
        exact ⟨⟨s₁, none⟩, by
          simp [mapErrorBufferedProducer, mapErrorProducer, h4, mapErrTake, hc, Except.mapError], by simp [hc]⟩
      · rintro _ _ ⟨rfl, rfl⟩
        exact ⟨_, .inr ⟨f e', hc, by simp only [mapErrorBufferedProducer, bind_eq, h3, bind_ok, mapErrTake]; rfl⟩⟩
  refine ⟨⟨?_, fun h' => ⟨_, h1 h'⟩⟩, h1⟩
  rintro ⟨c', R', hR', hs'⟩
  obtain ⟨s₁, ⟨h2, h3⟩ | ⟨e, _, h2⟩⟩ := hR.slurp s c hs
  · have h4 : (mapErrorBufferedProducer P).slurp ⟨s, some f⟩ = ok (⟨s₁, none⟩, .ok ()) := by
      simp [mapErrorBufferedProducer, h2, mapErrTake, Except.mapError]
    obtain ⟨t, ⟨h5, h6⟩ | ⟨e, _, h5⟩⟩ := hR'.slurp _ _ hs'
    · rw [h4] at h5; injection h5 with h5; injection h5 with h5 _; subst h5
      obtain ⟨t', h7, _⟩ := hR'.produce _ _ h6
      obtain ⟨s₂, h8, _⟩ := hR.produce _ _ h3
      simp [mapErrorBufferedProducer, mapErrorProducer, h8, mapErrTake] at h7
    · rw [h4] at h5; injection h5 with h5; injection h5 with _ h5; cases h5
  · exact ⟨_, _, h2⟩

example : BufPlays (mapErrorBufferedProducer (failingProducer Nat Unit 3).toBufferedProducer) ⟨(), some fun (e : Nat) => e + 1⟩
    (Script.mapError (fun e => e + 1) fun _ => .error 3) :=
  (map_error_buf_plays_iff _ (failing_producer_plays 3).toBufPlays).2 ⟨(), 3, rfl⟩

/-- **C24, exactly (`BulkProducer`).** Likewise. -/
theorem map_error_bulk_plays_iff (f : E → B) {P : BulkProducer σ I F E} {s : σ} {c : Script I F E} (h : BulkPlays P s c) :
    ((∃ c', BulkPlays (mapErrorBulkProducer P) ⟨s, some f⟩ c') ↔ ∃ s' e, P.slurp s = ok (s', .error e)) ∧
    ((∃ s' e, P.slurp s = ok (s', .error e)) → BulkPlays (mapErrorBulkProducer P) ⟨s, some f⟩ (c.mapError f)) := by
  have h1 : (∃ s' e, P.slurp s = ok (s', .error e)) →
      BulkPlays (mapErrorBulkProducer P) ⟨s, some f⟩ (c.mapError f) := by
    rintro ⟨s', e, hsl⟩
    obtain ⟨R, hR, n, hn⟩ := h
    obtain ⟨_, ⟨h2, _⟩ | ⟨e', h2, h3⟩⟩ := hR.base.slurp s c ⟨n, hn⟩
    · rw [hsl] at h2; injection h2 with h2; injection h2 with _ h2; cases h2
    · obtain ⟨s₁, h4, _⟩ := hR.base.produce s c ⟨n, hn⟩
      rw [h2] at h4
      have hc : c.mapError f 0 = .error (f e') := by simp [Script.mapError, h2]
      obtain ⟨s₂, h5⟩ : ∃ s₂, P.exposeItems s = ok (s₂, .error e') := by
        obtain ⟨s₂, ⟨xs, h6, h7, _⟩ | ⟨_, h6, _⟩ | ⟨e'', h6, h7⟩⟩ := hR.expose s c n hn
        · obtain ⟨x, xs, rfl⟩ := List.exists_cons_of_ne_nil h6
          have := h7 0 x rfl
          rw [h2] at this; cases this
        · rw [h2] at h6; cases h6
        · rw [h2] at h6; cases h6; exact ⟨s₂, h7⟩
      refine ⟨fun t c' n => t = ⟨s, some f⟩ ∧ c' = c.mapError f ∧ n = 0, ⟨⟨⟨?_⟩, ?_⟩, ?_, ?_, ?_⟩, 0, rfl, rfl, rfl⟩
      · rintro _ _ ⟨_, rfl, rfl, rfl⟩
        exact ⟨⟨s₁, none⟩, by
          simp [mapErrorBulkProducer, mapErrorBufferedProducer, mapErrorProducer, h4, mapErrTake, hc, Except.mapError],
          by simp [hc]⟩
      · rintro _ _ ⟨_, rfl, rfl, rfl⟩
        exact ⟨_, .inr ⟨f e', hc, by
          simp only [mapErrorBulkProducer, mapErrorBufferedProducer, bind_eq, h3, bind_ok, mapErrTake]; rfl⟩⟩
      · rintro _ _ _ ⟨rfl, rfl, rfl⟩
        exact ⟨_, .inr (.inr ⟨f e', hc, by simp only [mapErrorBulkProducer, bind_eq, h5, bind_ok, mapErrTake]; rfl⟩)⟩
      · rintro _ _ _ k ⟨rfl, rfl, rfl⟩ h0; omega
      · rintro _ _ _ buf ⟨rfl, rfl, rfl⟩ _
        exact ⟨⟨s₂, none⟩, buf, rfl, .inr (.inr ⟨f e', hc, by
          simp [mapErrorBulkProducer, bulkProduceDefault, h5, mapErrTake, Except.mapError]⟩)⟩
  exact ⟨⟨fun ⟨c', h'⟩ => (map_error_buf_plays_iff f h.toBufPlays).1.mp ⟨c', h'.toBufPlays⟩, fun h' => ⟨_, h1 h'⟩⟩, h1⟩

example : ¬ ∃ c', BulkPlays (mapErrorBulkProducer Case.P) ⟨Case.pro (.ok ()), some String.length⟩ c' := by
  rw [(map_error_bulk_plays_iff _ (Case.plays (.ok ()))).1]
  rintro ⟨s', e, h⟩
  cases h

example : BulkPlays (mapErrorBulkProducer (failingProducer Nat Unit 3)) ⟨(), some fun (e : Nat) => e + 1⟩
    (Script.mapError (fun e => e + 1) fun _ => .error 3) :=
  (map_error_bulk_plays_iff _ (failing_producer_plays 3)).2 ⟨(), 3, rfl⟩

/-! ## Consumers -/

/-- The same refusals with mapped errors. -/
def Policy.mapErr (q : Policy I F E) (f : E → B) : Policy I F B where
  refuse l := (q.refuse l).map f
  reject l x := (q.reject l x).map f
  refuseFlush l := (q.refuseFlush l).map f
  refuseClose l fin := (q.refuseClose l fin).map f

theorem Policy.mapErr_answer (q : Policy I F E) (f : E → B) (l : List I) (x : I) :
    (q.mapErr f).answer l x = (q.answer l x).map f := by
  simp only [Policy.mapErr, Policy.answer]
  cases q.refuse l <;> simp

/-- **C24, exactly (`Consumer`).** Around a lawful consumer, `MapError` collects anything at all (according to any policy, for any
observer) iff the wrapped consumer accepts no further item; then it does what it should. -/
theorem map_error_collects_iff (f : E → B) {C : Consumer σ I F E} {D : σ → List I → Option F → Prop} {q : Policy I F E} {s : σ}
    {l : List I} (h : Collects C D q s l) :
    ((∃ D' q' l', Collects (mapErrorConsumer C) D' q' ⟨s, some f⟩ l') ↔ ∀ x, q.answer l x ≠ none) ∧
    ((∀ x, q.answer l x ≠ none) → Collects (mapErrorConsumer C) (fun t => D t.inner) (q.mapErr f) ⟨s, some f⟩ l) := by
  obtain ⟨R, hR, hs⟩ := h
  have h1 : (∀ x, q.answer l x ≠ none) → Collects (mapErrorConsumer C) (fun t => D t.inner) (q.mapErr f) ⟨s, some f⟩ l := by
    intro hq
    refine ⟨fun t l' => t = ⟨s, some f⟩ ∧ l' = l, ⟨?_, ?_, ?_, ?_, ?_⟩, rfl, rfl⟩
    · rintro _ _ ⟨rfl, rfl⟩; exact hR.observe _ _ hs
    · rintro _ _ x ⟨rfl, rfl⟩ h2
      rw [Policy.mapErr_answer, Option.map_eq_none_iff] at h2
      exact absurd h2 (hq x)
    · rintro _ _ x e ⟨rfl, rfl⟩ h2
      rw [Policy.mapErr_answer, Option.map_eq_some_iff] at h2
      obtain ⟨e', h2, rfl⟩ := h2
      obtain ⟨s', h3, h4⟩ := hR.consume_err _ _ _ _ hs h2
      exact ⟨⟨s', none⟩, by simp [mapErrorConsumer, h3, mapErrTake, Except.mapError], h4⟩
    · rintro _ _ fin ⟨rfl, rfl⟩ h2
      simp only [Policy.mapErr, Option.map_eq_none_iff] at h2
      obtain ⟨s', h3, h4⟩ := hR.close_ok _ _ _ hs h2
      exact ⟨⟨s', none⟩, by simp [mapErrorConsumer, h3, mapErrTake, Except.mapError], h4⟩
    · rintro _ _ fin e ⟨rfl, rfl⟩ h2
      simp only [Policy.mapErr, Option.map_eq_some_iff] at h2
      obtain ⟨e', h2, rfl⟩ := h2
      obtain ⟨s', h3, h4⟩ := hR.close_err _ _ _ _ hs h2
      exact ⟨⟨s', none⟩, by simp [mapErrorConsumer, h3, mapErrTake, Except.mapError], h4⟩
  refine ⟨⟨?_, fun hq => ⟨_, _, _, h1 hq⟩⟩, h1⟩
  rintro ⟨D', q', l', h'⟩ x hx
  obtain ⟨t, h2, h3, _⟩ := map_error_consumer_second_panics f ⟨R, hR, hs⟩ hx
  rcases hq : q'.answer l' x with _ | e
  · obtain ⟨t', h4, h5⟩ := h'.consume_ok x hq
    rw [h2] at h4; injection h4 with h4; injection h4 with h4 _; subst h4
    rcases hq' : q'.answer (l' ++ [x]) x with _ | e
    · obtain ⟨_, h6, _⟩ := h5.consume_ok x hq'
      rw [h3] at h6; cases h6
    · obtain ⟨_, h6, _⟩ := h5.consume_err x hq'
      rw [h3] at h6; cases h6
  · obtain ⟨t', h4, _⟩ := h'.consume_err x hq
    rw [h2] at h4; injection h4 with h4; injection h4 with _ h4; cases h4

example : ¬ ∃ D' q' l', Collects (mapErrorConsumer Case.C.toConsumer) D' q' ⟨Case.con 4, some String.length⟩ l' := fun h =>
  (map_error_collects_iff _ (Case.collects 4).toCollects).1.mp h 5 rfl

/-- **C24, exactly (`BufferedConsumer`).** With `flush`, also the wrapped `flush` must fail. -/
theorem map_error_buf_collects_iff (f : E → B) {C : BufferedConsumer σ I F E} {D : σ → List I → Option F → Prop}
    {q : Policy I F E} {s : σ} {l : List I} (h : BufCollects C D q s l) :
    ((∃ D' q' l', BufCollects (mapErrorBufferedConsumer C) D' q' ⟨s, some f⟩ l') ↔
      (∀ x, q.answer l x ≠ none) ∧ ∃ s' e, C.flush s = ok (s', .error e)) ∧
    ((∀ x, q.answer l x ≠ none) → (∃ s' e, C.flush s = ok (s', .error e)) →
      BufCollects (mapErrorBufferedConsumer C) (fun t => D t.inner) (q.mapErr f) ⟨s, some f⟩ l) := by
  obtain ⟨R, hR, hs⟩ := h
  have h1 : (∀ x, q.answer l x ≠ none) → (∃ s' e, C.flush s = ok (s', .error e)) →
      BufCollects (mapErrorBufferedConsumer C) (fun t => D t.inner) (q.mapErr f) ⟨s, some f⟩ l := by
    rintro hq ⟨s', e, hf⟩
    obtain ⟨_, ⟨h2, _⟩ | ⟨e', h2, h3, hD⟩⟩ := hR.flush s l hs
    · rw [hf] at h2; injection h2 with h2; injection h2 with _ h2; cases h2
    · refine ⟨fun t l' => t = ⟨s, some f⟩ ∧ l' = l, ⟨⟨?_, ?_, ?_, ?_, ?_⟩, ?_⟩, rfl, rfl⟩
      · rintro _ _ ⟨rfl, rfl⟩; exact hR.observe _ _ hs
      · rintro _ _ x ⟨rfl, rfl⟩ h2
        rw [Policy.mapErr_answer, Option.map_eq_none_iff] at h2
        exact absurd h2 (hq x)
      · rintro _ _ x e ⟨rfl, rfl⟩ h2
        rw [Policy.mapErr_answer, Option.map_eq_some_iff] at h2
        obtain ⟨e', h2, rfl⟩ := h2
        obtain ⟨s', h3, h4⟩ := hR.consume_err _ _ _ _ hs h2
        exact ⟨⟨s', none⟩, by simp [mapErrorBufferedConsumer, mapErrorConsumer, h3, mapErrTake, Except.mapError], h4⟩
      · rintro _ _ fin ⟨rfl, rfl⟩ h2
        simp only [Policy.mapErr, Option.map_eq_none_iff] at h2
        obtain ⟨s', h3, h4⟩ := hR.close_ok _ _ _ hs h2
        exact ⟨⟨s', none⟩, by simp [mapErrorBufferedConsumer, mapErrorConsumer, h3, mapErrTake, Except.mapError], h4⟩
      · rintro _ _ fin e ⟨rfl, rfl⟩ h2
        simp only [Policy.mapErr, Option.map_eq_some_iff] at h2
        obtain ⟨e', h2, rfl⟩ := h2
        obtain ⟨s', h3, h4⟩ := hR.close_err _ _ _ _ hs h2
        exact ⟨⟨s', none⟩, by simp [mapErrorBufferedConsumer, mapErrorConsumer, h3, mapErrTake, Except.mapError], h4⟩
      · rintro _ _ ⟨rfl, rfl⟩
        exact ⟨⟨_, none⟩, .inr ⟨f e', by simp [Policy.mapErr, h2], by
          simp only [mapErrorBufferedConsumer, bind_eq, h3, bind_ok, mapErrTake]; rfl, hD⟩⟩
  refine ⟨⟨?_, fun ⟨hq, hf⟩ => ⟨_, _, _, h1 hq hf⟩⟩, h1⟩
  rintro ⟨D', q', l', R', hR', hs'⟩
  refine ⟨(map_error_collects_iff f ⟨R, hR.toCollectsLaw, hs⟩).1.mp ⟨D', q', l', R', hR'.toCollectsLaw, hs'⟩, ?_⟩
  obtain ⟨s₁, ⟨h2, h3⟩ | ⟨e, _, h2, _⟩⟩ := hR.flush s l hs
  · have h4 : (mapErrorBufferedConsumer C).flush ⟨s, some f⟩ = ok (⟨s₁, none⟩, .ok ()) := by
      simp [mapErrorBufferedConsumer, h2, mapErrTake, Except.mapError]
    have h7 : (mapErrorBufferedConsumer C).flush (⟨s₁, none⟩ : MapErrorSt σ E B) = .panic := by
      obtain ⟨s₂, ⟨h8, _⟩ | ⟨_, _, h8, _⟩⟩ := hR.flush _ _ h3 <;> simp [mapErrorBufferedConsumer, h8, mapErrTake]
    obtain ⟨t, ⟨h5, h6⟩ | ⟨e, _, h5, _⟩⟩ := hR'.flush _ _ hs'
    · rw [h4] at h5; injection h5 with h5; injection h5 with h5 _; subst h5
      obtain ⟨t', ⟨h9, _⟩ | ⟨_, _, h9, _⟩⟩ := hR'.flush _ _ h6 <;> rw [h7] at h9 <;> cases h9
    · rw [h4] at h5; injection h5 with h5; injection h5 with _ h5; cases h5
  · exact ⟨_, _, h2⟩

example : ¬ ∃ D' q' l', BufCollects (mapErrorBufferedConsumer Case.C.toBufferedConsumer) D' q'
    ⟨Case.con 4, some String.length⟩ l' := fun h =>
  ((map_error_buf_collects_iff _ (Case.collects 4).toBufCollects).1.mp h).1 5 rfl

/-- **C24, exactly (`BulkConsumer`).** With slots, the wrapped consumer must moreover refuse to expose slots. (Writing nothing is
assumed to do nothing.) -/
theorem map_error_bulk_collects_iff (f : E → B) {C : BulkConsumer σ I F E} (hw : ∀ s, C.writeSlots s [] = s)
    {D : σ → List I → Option F → Prop} {q : Policy I F E} {s : σ} {l : List I} (h : BulkCollects C D q s l) :
    ((∃ D' q' l', BulkCollects (mapErrorBulkConsumer C) D' q' ⟨s, some f⟩ l') ↔
      q.refuse l ≠ none ∧ ∃ s' e, C.flush s = ok (s', .error e)) ∧
    (q.refuse l ≠ none → (∃ s' e, C.flush s = ok (s', .error e)) →
      BulkCollects (mapErrorBulkConsumer C) (fun t => D t.inner) (q.mapErr f) ⟨s, some f⟩ l) := by
  have hbuf := h.toBufCollects
  obtain ⟨R, hR, slots, hs⟩ := h
  have h1 : q.refuse l ≠ none → (∃ s' e, C.flush s = ok (s', .error e)) →
      BulkCollects (mapErrorBulkConsumer C) (fun t => D t.inner) (q.mapErr f) ⟨s, some f⟩ l := by
    rintro hq ⟨s', e, hf⟩
    obtain ⟨e₀, hq⟩ := Option.ne_none_iff_exists'.mp hq
    have hans : ∀ x, q.answer l x = some e₀ := fun x => by simp [Policy.answer, hq]
    obtain ⟨_, ⟨h2, _⟩ | ⟨e', h2, h3, hD⟩⟩ := hR.base.flush s l ⟨_, hs⟩
    · rw [hf] at h2; injection h2 with h2; injection h2 with _ h2; cases h2
    · obtain ⟨s₁, h4, h5⟩ := hR.expose_err s l slots e₀ hs hq
      have h4' : (mapErrorBulkConsumer C).exposeSlots ⟨s, some f⟩ = ok (⟨s₁, none⟩, .error (f e₀)) := by
        simp [mapErrorBulkConsumer, h4, mapErrTake, Except.mapError]
      refine ⟨fun t l' slots => t = ⟨s, some f⟩ ∧ l' = l ∧ slots = [],
        ⟨⟨⟨?_, ?_, ?_, ?_, ?_⟩, ?_⟩, ?_, ?_, ?_, ?_, ?_, ?_⟩, [], rfl, rfl, rfl⟩
      · rintro _ _ ⟨_, rfl, rfl, rfl⟩; exact hR.base.observe _ _ ⟨_, hs⟩
      · rintro _ _ x ⟨_, rfl, rfl, rfl⟩ h2
        rw [Policy.mapErr_answer, hans] at h2; cases h2
      · rintro _ _ x e ⟨_, rfl, rfl, rfl⟩ h2
        rw [Policy.mapErr_answer, hans] at h2
        injection h2 with h2; subst h2
        obtain ⟨s', h3, h4⟩ := hR.base.consume_err _ _ _ _ ⟨_, hs⟩ (hans x)
        exact ⟨⟨s', none⟩, by
          simp [mapErrorBulkConsumer, mapErrorBufferedConsumer, mapErrorConsumer, h3, mapErrTake, Except.mapError], h4⟩
      · rintro _ _ fin ⟨_, rfl, rfl, rfl⟩ h2
        simp only [Policy.mapErr, Option.map_eq_none_iff] at h2
        obtain ⟨s', h3, h4⟩ := hR.base.close_ok _ _ _ ⟨_, hs⟩ h2
        exact ⟨⟨s', none⟩, by
          simp [mapErrorBulkConsumer, mapErrorBufferedConsumer, mapErrorConsumer, h3, mapErrTake, Except.mapError], h4⟩
      · rintro _ _ fin e ⟨_, rfl, rfl, rfl⟩ h2
        simp only [Policy.mapErr, Option.map_eq_some_iff] at h2
        obtain ⟨e', h2, rfl⟩ := h2
        obtain ⟨s', h3, h4⟩ := hR.base.close_err _ _ _ _ ⟨_, hs⟩ h2
        exact ⟨⟨s', none⟩, by
          simp [mapErrorBulkConsumer, mapErrorBufferedConsumer, mapErrorConsumer, h3, mapErrTake, Except.mapError], h4⟩
      · rintro _ _ ⟨_, rfl, rfl, rfl⟩
        exact ⟨⟨_, none⟩, .inr ⟨f e', by simp [Policy.mapErr, h2], by
          simp only [mapErrorBulkConsumer, mapErrorBufferedConsumer, bind_eq, h3, bind_ok, mapErrTake]; rfl, hD⟩⟩
      · rintro _ _ _ ⟨rfl, rfl, rfl⟩ h2
        simp only [Policy.mapErr, hq] at h2; cases h2
      · rintro _ _ _ e ⟨rfl, rfl, rfl⟩ h2
        simp only [Policy.mapErr, hq, Option.map_some, Option.some.injEq] at h2
        subst h2
        exact ⟨_, h4', h5⟩
      · rintro _ _ _ ws ⟨rfl, rfl, rfl⟩ h2
        simp only [List.length_nil, Nat.le_zero, List.length_eq_zero_iff] at h2
        subst h2
        exact ⟨by simp [mapErrorBulkConsumer, hw], rfl, rfl⟩
      · rintro _ _ _ k ⟨rfl, rfl, rfl⟩ h2; exact absurd rfl h2
      · rintro _ _ _ k i e ⟨rfl, rfl, rfl⟩ h2; exact absurd rfl h2
      · rintro _ _ _ buf ⟨rfl, rfl, rfl⟩ h2
        obtain ⟨x, xs, rfl⟩ := List.exists_cons_of_ne_nil h2
        refine ⟨⟨s₁, none⟩, .inr ⟨0, f e₀, ⟨fun i y hy => by simp at hy, x, rfl, ?_⟩, ?_, ?_⟩⟩
        · rw [Policy.mapErr_answer]; simp [hans]
        · have hd : (mapErrorBulkConsumer (B := B) C).bulkConsume = bulkConsumeDefault (mapErrorBulkConsumer C).exposeSlots
            (mapErrorBulkConsumer C).writeSlots (mapErrorBulkConsumer C).consumeSlots := rfl
          rw [hd]; simp [bulkConsumeDefault, h4']
        · simpa using h5
  refine ⟨⟨?_, fun ⟨hq, hf⟩ => ⟨_, _, _, h1 hq hf⟩⟩, h1⟩
  rintro ⟨D', q', l', h'⟩
  obtain ⟨_, hf⟩ := (map_error_buf_collects_iff f hbuf).1.mp ⟨D', q', l', h'.toBufCollects⟩
  refine ⟨fun hq => ?_, hf⟩
  obtain ⟨R', hR', slots', hs'⟩ := h'
  obtain ⟨s₁, sl, _, h2, h3⟩ := hR.expose_ok s l slots hs hq
  have h4 : (mapErrorBulkConsumer C).exposeSlots ⟨s, some f⟩ = ok (⟨s₁, none⟩, .ok sl) := by
    simp [mapErrorBulkConsumer, h2, mapErrTake, Except.mapError]
  have h7 : (mapErrorBulkConsumer C).flush (⟨s₁, none⟩ : MapErrorSt σ E B) = .panic := by
    obtain ⟨s₂, ⟨h8, _⟩ | ⟨_, _, h8, _⟩⟩ := hR.base.flush _ _ ⟨_, h3⟩ <;>
      simp [mapErrorBulkConsumer, mapErrorBufferedConsumer, h8, mapErrTake]
  rcases hq' : q'.refuse l' with _ | e
  · obtain ⟨t, sl', _, h5, h6⟩ := hR'.expose_ok _ _ _ hs' hq'
    rw [h4] at h5; injection h5 with h5; injection h5 with h5 _; subst h5
    obtain ⟨t', ⟨h9, _⟩ | ⟨_, _, h9, _⟩⟩ := hR'.base.flush _ _ ⟨_, h6⟩ <;> rw [h7] at h9 <;> cases h9
  · obtain ⟨t, h5, _⟩ := hR'.expose_err _ _ _ _ hs' hq'
    rw [h4] at h5; injection h5 with h5; injection h5 with _ h5; cases h5

/-- `Case.C` satisfies the assumption. -/
theorem Case.writes_nothing (s : TestConsumer Nat Unit String) : Case.C.writeSlots s [] = s := by
  simp [Case.C, TestConsumer.consumer, TestConsumer.vec, publicConsumer, invariantBulkConsumer, IntoVec.consumer,
    IntoVec.writeSlots]

example : ¬ ∃ D' q' l', BulkCollects (mapErrorBulkConsumer Case.C) D' q' ⟨Case.con 4, some String.length⟩ l' := fun h =>
  ((map_error_bulk_collects_iff _ Case.writes_nothing (Case.collects 4)).1.mp h).1 rfl

/-- A consumer that is full from the start. -/
example : BulkCollects (mapErrorBulkConsumer Case.C) (fun t => TestConsumer.Seen t.inner) ((Case.policy 0).mapErr String.length)
    ⟨Case.con 0, some String.length⟩ [] :=
  (map_error_bulk_collects_iff _ Case.writes_nothing (Case.collects 0)).2 (by simp [Policy.failAfter]) ⟨_, "full", rfl⟩

end

end Verif
