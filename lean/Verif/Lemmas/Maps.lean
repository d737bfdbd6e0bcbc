import Verif.Lemmas.Adaptors

/-!
# Helper lemmas about the mapping adaptors, and about adaptors of consumers that delay
-/

namespace Verif

open Outcome

section

variable {σ I F E : Type}

/-! ### `MapItem` -/

theorem BufPlaysLaw.mapItem {φ B : Type} (f : φ → I → φ × B) {P : BufferedProducer σ I F E} {R : σ → Script I F E → Prop}
    (h : BufPlaysLaw P R) :
    BufPlaysLaw (mapItemBufferedProducer f P) (fun s c' => ∃ c, R s.inner c ∧ c' = c.mapItem f s.captured) := by
  refine ⟨⟨?_⟩, ?_⟩
  · rintro ⟨s, a⟩ c' ⟨c, hR, rfl⟩
    obtain ⟨s', h1, h2⟩ := h.produce s c hR
    rcases hc : c 0 with e | x | fin <;> rw [hc] at h1
    · exact ⟨⟨s', a⟩, by simp [mapItemBufferedProducer, mapItemProducer, h1, Script.mapItem, hc],
        by simp [Script.mapItem, hc]⟩
    · refine ⟨⟨s', (f a x).1⟩, by simp [mapItemBufferedProducer, mapItemProducer, h1, Script.mapItem, hc], ?_⟩
      intro y _
      exact ⟨c.drop 1, h2 x hc, Script.mapItem_drop_one f a c hc⟩
    · exact ⟨⟨s', a⟩, by simp [mapItemBufferedProducer, mapItemProducer, h1, Script.mapItem, hc],
        by simp [Script.mapItem, hc]⟩
  · rintro ⟨s, a⟩ c' ⟨c, hR, rfl⟩
    obtain ⟨s', ⟨h1, h2⟩ | ⟨e, h1, h2⟩⟩ := h.slurp s c hR
    · exact ⟨⟨s', a⟩, .inl ⟨by simp [mapItemBufferedProducer, h1], c, h2, rfl⟩⟩
    · exact ⟨⟨s', a⟩, .inr ⟨e, by simp [Script.mapItem, h1], by simp [mapItemBufferedProducer, h2]⟩⟩

theorem PlaysLaw.mapItem {φ B : Type} (f : φ → I → φ × B) {P : Producer σ I F E} {R : σ → Script I F E → Prop}
    (h : PlaysLaw P R) :
    PlaysLaw (mapItemProducer f P) (fun s c' => ∃ c, R s.inner c ∧ c' = c.mapItem f s.captured) := by
  refine ⟨?_⟩
  rintro ⟨s, a⟩ c' ⟨c, hR, rfl⟩
  obtain ⟨s', h1, h2⟩ := h.produce s c hR
  rcases hc : c 0 with e | x | fin <;> rw [hc] at h1
  · exact ⟨⟨s', a⟩, by simp [mapItemProducer, h1, Script.mapItem, hc], by simp [Script.mapItem, hc]⟩
  · refine ⟨⟨s', (f a x).1⟩, by simp [mapItemProducer, h1, Script.mapItem, hc], ?_⟩
    intro y _
    exact ⟨c.drop 1, h2 x hc, Script.mapItem_drop_one f a c hc⟩
  · exact ⟨⟨s', a⟩, by simp [mapItemProducer, h1, Script.mapItem, hc], by simp [Script.mapItem, hc]⟩

theorem results_snoc {φ A B : Type} (f : φ → A → φ × B) (a : φ) (xs : List A) (x : A) :
    results f a (xs ++ [x]) = results f a xs ++ [(f (stateAfter f a xs) x).2] := by
  rw [results_append]; rfl

theorem stateAfter_snoc {φ A B : Type} (f : φ → A → φ × B) (a : φ) (xs : List A) (x : A) :
    stateAfter f a (xs ++ [x]) = (f (stateAfter f a xs) x).1 := by
  rw [stateAfter_append]; rfl

theorem CollectsLaw.mapItem {φ A : Type} (f : φ → A → φ × I) (a₀ : φ) (l₀ : List I) {C : Consumer σ I F E}
    {D : σ → List I → Option F → Prop} {q : Policy I F E} {R : σ → List I → Prop} (h : CollectsLaw C D q R) :
    CollectsLaw (mapItemConsumer f C) (fun s l => D s.inner (l₀ ++ results f a₀ l)) (q.mapItem f a₀ l₀)
      (fun s l => R s.inner (l₀ ++ results f a₀ l) ∧ s.captured = stateAfter f a₀ l) := by
  refine ⟨?_, ?_, ?_, ?_, ?_⟩
  · rintro ⟨s, a⟩ l ⟨hR, _⟩; exact h.observe _ _ hR
  · rintro ⟨s, a⟩ l x ⟨hR, rfl⟩ hq
    obtain ⟨s', h1, h2⟩ := h.consume_ok s _ (f (stateAfter f a₀ l) x).2 hR hq
    exact ⟨⟨s', (f (stateAfter f a₀ l) x).1⟩, by simp [mapItemConsumer, h1],
      by rw [results_snoc, ← List.append_assoc]; exact h2, (stateAfter_snoc _ _ _ _).symm⟩
  · rintro ⟨s, a⟩ l x e ⟨hR, rfl⟩ hq
    obtain ⟨s', h1, h2⟩ := h.consume_err s _ (f (stateAfter f a₀ l) x).2 e hR hq
    exact ⟨⟨s', (f (stateAfter f a₀ l) x).1⟩, by simp [mapItemConsumer, h1], h2⟩
  · rintro ⟨s, a⟩ l fin ⟨hR, rfl⟩ hq
    obtain ⟨s', h1, h2⟩ := h.close_ok s _ fin hR hq
    exact ⟨⟨s', _⟩, by simp [mapItemConsumer, h1]; rfl, h2⟩
  · rintro ⟨s, a⟩ l fin e ⟨hR, rfl⟩ hq
    obtain ⟨s', h1, h2⟩ := h.close_err s _ fin e hR hq
    exact ⟨⟨s', _⟩, by simp [mapItemConsumer, h1]; rfl, h2⟩

theorem BufCollectsLaw.mapItem {φ A : Type} (f : φ → A → φ × I) (a₀ : φ) (l₀ : List I) {C : BufferedConsumer σ I F E}
    {D : σ → List I → Option F → Prop} {q : Policy I F E} {R : σ → List I → Prop} (h : BufCollectsLaw C D q R) :
    BufCollectsLaw (mapItemBufferedConsumer f C) (fun s l => D s.inner (l₀ ++ results f a₀ l)) (q.mapItem f a₀ l₀)
      (fun s l => R s.inner (l₀ ++ results f a₀ l) ∧ s.captured = stateAfter f a₀ l) := by
  refine ⟨h.toCollectsLaw.mapItem f a₀ l₀, ?_⟩
  rintro ⟨s, a⟩ l ⟨hR, hc⟩
  obtain ⟨s', ⟨h1, h2⟩ | ⟨e, h1, h2, h3⟩⟩ := h.flush s _ hR
  · exact ⟨⟨s', a⟩, .inl ⟨by simp [mapItemBufferedConsumer, h1], h2, hc⟩⟩
  · exact ⟨⟨s', a⟩, .inr ⟨e, h1, by simp [mapItemBufferedConsumer, h2], h3⟩⟩

theorem results_prefix {φ A B : Type} (f : φ → A → φ × B) (a : φ) {l : List A} {d : List B}
    (h : d <+: results f a l) : ∃ d', d' <+: l ∧ d = results f a d' := by
  obtain ⟨t, ht⟩ := h
  refine ⟨l.take d.length, List.take_prefix _ _, ?_⟩
  rw [← List.take_append_drop d.length l, results_append] at ht
  have hl : d.length ≤ l.length := by
    have := congrArg List.length ht
    simp at this; omega
  exact (List.append_inj ht (by simp; omega)).1

theorem BufDelaysLaw.mapItem {φ A : Type} (f : φ → A → φ × I) (a₀ : φ) {C : BufferedConsumer σ I F E}
    {D : σ → List I → Option F → Prop} {R : σ → List I → Prop} (h : BufDelaysLaw C D R) :
    BufDelaysLaw (mapItemBufferedConsumer f C) (fun s l => D s.inner (results f a₀ l))
      (fun s l => R s.inner (results f a₀ l) ∧ s.captured = stateAfter f a₀ l) := by
  refine ⟨⟨?_, ?_, ?_⟩, ?_⟩
  · rintro ⟨s, a⟩ l ⟨hR, _⟩
    obtain ⟨d, h1, h2⟩ := h.observe _ _ hR
    obtain ⟨d', h3, rfl⟩ := results_prefix f a₀ h1
    exact ⟨d', h3, h2⟩
  · rintro ⟨s, a⟩ l x ⟨hR, rfl⟩
    obtain ⟨s', ⟨h1, h2⟩ | ⟨e, d, h1, h2, h3⟩⟩ := h.consume s _ (f (stateAfter f a₀ l) x).2 hR
    · exact ⟨⟨s', (f (stateAfter f a₀ l) x).1⟩, .inl ⟨by simp [mapItemBufferedConsumer, mapItemConsumer, h1],
        by rw [results_snoc]; exact h2, (stateAfter_snoc _ _ _ _).symm⟩⟩
    · rw [← results_snoc] at h2
      obtain ⟨d', h4, rfl⟩ := results_prefix f a₀ h2
      exact ⟨⟨s', (f (stateAfter f a₀ l) x).1⟩, .inr ⟨e, d', by simp [mapItemBufferedConsumer, mapItemConsumer, h1],
        h4, h3⟩⟩
  · rintro ⟨s, a⟩ l fin ⟨hR, rfl⟩
    obtain ⟨s', ⟨h1, h2⟩ | ⟨e, d, h1, h2, h3⟩⟩ := h.close s _ fin hR
    · exact ⟨⟨s', _⟩, .inl ⟨by simp [mapItemBufferedConsumer, mapItemConsumer, h1]; rfl, h2⟩⟩
    · obtain ⟨d', h4, rfl⟩ := results_prefix f a₀ h2
      exact ⟨⟨s', _⟩, .inr ⟨e, d', by simp [mapItemBufferedConsumer, mapItemConsumer, h1]; rfl, h4, h3⟩⟩
  · rintro ⟨s, a⟩ l ⟨hR, rfl⟩
    obtain ⟨s', ⟨h1, h2, h3⟩ | ⟨e, d, h1, h2, h3⟩⟩ := h.flush s _ hR
    · exact ⟨⟨s', _⟩, .inl ⟨by simp [mapItemBufferedConsumer, h1], ⟨h2, rfl⟩, h3⟩⟩
    · obtain ⟨d', h4, rfl⟩ := results_prefix f a₀ h2
      exact ⟨⟨s', _⟩, .inr ⟨e, d', by simp [mapItemBufferedConsumer, h1]; rfl, h4, h3⟩⟩

/-! ### `MapFinal` -/

theorem BulkPlaysLaw.mapFinal {B : Type} (f : F → B) {P : BulkProducer σ I F E} {R : σ → Script I F E → Nat → Prop}
    (h : BulkPlaysLaw P R) :
    BulkPlaysLaw (mapFinalBulkProducer P) (fun s c' n => ∃ c, R s.inner c n ∧ s.fn = some f ∧ c' = c.mapFinal f) := by
  refine .of_default rfl ⟨⟨?_⟩, ?_⟩ ?_ ?_
  · rintro ⟨s, _⟩ c' ⟨n, c, hR, rfl, rfl⟩
    obtain ⟨s', h1, h2⟩ := h.base.produce s c ⟨n, hR⟩
    rcases hc : c 0 with e | x | fin <;> rw [hc] at h1
    · exact ⟨⟨s', some f⟩, by simp [mapFinalBulkProducer, mapFinalBufferedProducer, mapFinalProducer, h1, Script.mapFinal, hc],
        by simp [Script.mapFinal, hc]⟩
    · obtain ⟨n', h3⟩ := h2 x hc
      exact ⟨⟨s', some f⟩, by simp [mapFinalBulkProducer, mapFinalBufferedProducer, mapFinalProducer, h1, Script.mapFinal, hc],
        fun _ _ => ⟨n', c.drop 1, h3, rfl, rfl⟩⟩
    · exact ⟨⟨s', none⟩, by simp [mapFinalBulkProducer, mapFinalBufferedProducer, mapFinalProducer, h1, Script.mapFinal, hc],
        by simp [Script.mapFinal, hc]⟩
  · rintro ⟨s, _⟩ c' ⟨n, c, hR, rfl, rfl⟩
    obtain ⟨s', ⟨h1, n', h2⟩ | ⟨e, h1, h2⟩⟩ := h.base.slurp s c ⟨n, hR⟩
    · exact ⟨⟨s', some f⟩, .inl ⟨by simp [mapFinalBulkProducer, mapFinalBufferedProducer, h1], n', c, h2, rfl, rfl⟩⟩
    · exact ⟨⟨s', some f⟩, .inr ⟨e, by simp [Script.mapFinal, h1], by simp [mapFinalBulkProducer, mapFinalBufferedProducer, h2]⟩⟩
  · rintro ⟨s, _⟩ c' n ⟨c, hR, rfl, rfl⟩
    obtain ⟨s', ⟨xs, h1, h2, h3, h4⟩ | ⟨fin, h1, h2⟩ | ⟨e, h1, h2⟩⟩ := h.expose s c n hR
    · exact ⟨⟨s', some f⟩, .inl ⟨xs, h1, h2.mapFinal, by simp [mapFinalBulkProducer, h3], c, h4, rfl, rfl⟩⟩
    · exact ⟨⟨s', none⟩, .inr (.inl ⟨f fin, by simp [Script.mapFinal, h1], by simp [mapFinalBulkProducer, h2]⟩)⟩
    · exact ⟨⟨s', some f⟩, .inr (.inr ⟨e, by simp [Script.mapFinal, h1], by simp [mapFinalBulkProducer, h2]⟩)⟩
  · rintro ⟨s, _⟩ c' n k ⟨c, hR, rfl, rfl⟩ h0 hk
    obtain ⟨s', h1, h2⟩ := h.consider s c n k hR h0 hk
    exact ⟨⟨s', some f⟩, by simp [mapFinalBulkProducer, h1], c.drop k, h2, rfl, rfl⟩

theorem mapFinal_answer {B : Type} (f : B → F) (q : Policy I F E) : (q.mapFinal f).answer = q.answer := rfl

theorem BulkCollectsLaw.mapFinal {B : Type} (f : B → F) {C : BulkConsumer σ I F E} {D : σ → List I → Option F → Prop}
    {q : Policy I F E} {R : σ → List I → List I → Prop} (h : BulkCollectsLaw C D q R) :
    BulkCollectsLaw (mapFinalBulkConsumer C) (fun s l fin => D s.inner l (fin.map f)) (q.mapFinal f)
      (fun s l slots => R s.inner l slots ∧ s.fn = some f) := by
  refine .of_default rfl ⟨⟨?_, ?_, ?_, ?_, ?_⟩, ?_⟩ ?_ ?_ ?_ ?_ ?_
  · rintro ⟨s, _⟩ l ⟨sl, hR, rfl⟩; exact h.base.observe _ _ ⟨sl, hR⟩
  · rintro ⟨s, _⟩ l x ⟨sl, hR, rfl⟩ hq
    obtain ⟨s', h1, sl', h2⟩ := h.base.consume_ok s l x ⟨sl, hR⟩ hq
    exact ⟨⟨s', some f⟩, by simp [mapFinalBulkConsumer, mapFinalBufferedConsumer, mapFinalConsumer, h1], sl', h2, rfl⟩
  · rintro ⟨s, _⟩ l x e ⟨sl, hR, rfl⟩ hq
    obtain ⟨s', h1, h2⟩ := h.base.consume_err s l x e ⟨sl, hR⟩ hq
    exact ⟨⟨s', some f⟩, by simp [mapFinalBulkConsumer, mapFinalBufferedConsumer, mapFinalConsumer, h1], h2⟩
  · rintro ⟨s, _⟩ l fin ⟨sl, hR, rfl⟩ hq
    obtain ⟨s', h1, h2⟩ := h.base.close_ok s l (f fin) ⟨sl, hR⟩ hq
    exact ⟨⟨s', none⟩, by simp [mapFinalBulkConsumer, mapFinalBufferedConsumer, mapFinalConsumer, h1], h2⟩
  · rintro ⟨s, _⟩ l fin e ⟨sl, hR, rfl⟩ hq
    obtain ⟨s', h1, h2⟩ := h.base.close_err s l (f fin) e ⟨sl, hR⟩ hq
    exact ⟨⟨s', none⟩, by simp [mapFinalBulkConsumer, mapFinalBufferedConsumer, mapFinalConsumer, h1], h2⟩
  · rintro ⟨s, _⟩ l ⟨sl, hR, rfl⟩
    obtain ⟨s', ⟨h1, sl', h2⟩ | ⟨e, h1, h2, h3⟩⟩ := h.base.flush s l ⟨sl, hR⟩
    · exact ⟨⟨s', some f⟩, .inl ⟨by simp [mapFinalBulkConsumer, mapFinalBufferedConsumer, h1], sl', h2, rfl⟩⟩
    · exact ⟨⟨s', some f⟩, .inr ⟨e, h1, by simp [mapFinalBulkConsumer, mapFinalBufferedConsumer, h2], h3⟩⟩
  · rintro ⟨s, _⟩ l sl ⟨hR, rfl⟩ hq
    obtain ⟨s', sl', h1, h2, h3⟩ := h.expose_ok s l sl hR hq
    exact ⟨⟨s', some f⟩, sl', h1, by simp [mapFinalBulkConsumer, h2], h3, rfl⟩
  · rintro ⟨s, _⟩ l sl e ⟨hR, rfl⟩ hq
    obtain ⟨s', h1, h2⟩ := h.expose_err s l sl e hR hq
    exact ⟨⟨s', some f⟩, by simp [mapFinalBulkConsumer, h1], h2⟩
  · rintro ⟨s, _⟩ l sl ws ⟨hR, rfl⟩ hw
    exact ⟨h.write s l sl ws hR hw, rfl⟩
  · rintro ⟨s, _⟩ l sl k ⟨hR, rfl⟩ hne hk ha
    obtain ⟨s', h1, h2⟩ := h.consumeSlots_ok s l sl k hR hne hk ha
    exact ⟨⟨s', some f⟩, by simp [mapFinalBulkConsumer, h1], h2, rfl⟩
  · rintro ⟨s, _⟩ l sl k i e ⟨hR, rfl⟩ hne hk ha
    obtain ⟨s', h1, h2⟩ := h.consumeSlots_err s l sl k i e hR hne hk ha
    exact ⟨⟨s', some f⟩, by simp [mapFinalBulkConsumer, h1], h2⟩

theorem BulkDelaysLaw.mapFinal {B : Type} (f : B → F) {C : BulkConsumer σ I F E} {D : σ → List I → Option F → Prop}
    {R : σ → List I → List I → Prop} (h : BulkDelaysLaw C D R) :
    BulkDelaysLaw (mapFinalBulkConsumer C) (fun s l fin => D s.inner l (fin.map f))
      (fun s l slots => R s.inner l slots ∧ s.fn = some f) := by
  refine BulkDefersLaw.of_default Faults.regular_any rfl ⟨⟨?_, ?_, ?_⟩, ?_⟩ ?_ ?_ ?_
  · rintro ⟨s, _⟩ l ⟨sl, hR, rfl⟩; exact h.base.observe _ _ ⟨sl, hR⟩
  · rintro ⟨s, _⟩ l x ⟨sl, hR, rfl⟩
    obtain ⟨s', ⟨h1, sl', h2⟩ | ⟨e, d, h1, h2, h3⟩⟩ := h.base.consume s l x ⟨sl, hR⟩
    · exact ⟨⟨s', some f⟩, .inl ⟨by simp [mapFinalBulkConsumer, mapFinalBufferedConsumer, mapFinalConsumer, h1], sl', h2, rfl⟩⟩
    · exact ⟨⟨s', some f⟩, .inr ⟨e, d, by simp [mapFinalBulkConsumer, mapFinalBufferedConsumer, mapFinalConsumer, h1], h2, h3⟩⟩
  · rintro ⟨s, _⟩ l fin ⟨sl, hR, rfl⟩
    obtain ⟨s', ⟨h1, h2⟩ | ⟨e, d, h1, h2, h3⟩⟩ := h.base.close s l (f fin) ⟨sl, hR⟩
    · exact ⟨⟨s', none⟩, .inl ⟨by simp [mapFinalBulkConsumer, mapFinalBufferedConsumer, mapFinalConsumer, h1], h2⟩⟩
    · exact ⟨⟨s', none⟩, .inr ⟨e, d, by simp [mapFinalBulkConsumer, mapFinalBufferedConsumer, mapFinalConsumer, h1], h2, h3⟩⟩
  · rintro ⟨s, _⟩ l ⟨sl, hR, rfl⟩
    obtain ⟨s', ⟨h1, ⟨sl', h2⟩, h3⟩ | ⟨e, d, h1, h2, h3⟩⟩ := h.base.flush s l ⟨sl, hR⟩
    · exact ⟨⟨s', some f⟩, .inl ⟨by simp [mapFinalBulkConsumer, mapFinalBufferedConsumer, h1], ⟨sl', h2, rfl⟩, h3⟩⟩
    · exact ⟨⟨s', some f⟩, .inr ⟨e, d, by simp [mapFinalBulkConsumer, mapFinalBufferedConsumer, h1], h2, h3⟩⟩
  · rintro ⟨s, _⟩ l sl ⟨hR, rfl⟩
    obtain ⟨s', ⟨sl', h1, h2, h3⟩ | ⟨e, d, h1, h2, h3⟩⟩ := h.expose s l sl hR
    · exact ⟨⟨s', some f⟩, .inl ⟨sl', h1, by simp [mapFinalBulkConsumer, h2], h3, rfl⟩⟩
    · exact ⟨⟨s', some f⟩, .inr ⟨e, d, by simp [mapFinalBulkConsumer, h1], h2, h3⟩⟩
  · rintro ⟨s, _⟩ l sl ws ⟨hR, rfl⟩ hw
    exact ⟨h.write s l sl ws hR hw, rfl⟩
  · rintro ⟨s, _⟩ l sl k ⟨hR, rfl⟩ hne hk
    obtain ⟨s', ⟨h1, h2⟩ | ⟨e, d, h1, h2, h3⟩⟩ := h.consumeSlots s l sl k hR hne hk
    · exact ⟨⟨s', some f⟩, .inl ⟨by simp [mapFinalBulkConsumer, h1], h2, rfl⟩⟩
    · exact ⟨⟨s', some f⟩, .inr ⟨e, d, by simp [mapFinalBulkConsumer, h1], h2, h3⟩⟩

/-! ### Consumer `Limit` around consumers that delay -/

theorem BulkDelaysLaw.limit {C : BulkConsumer σ I F E} {D : σ → List I → Option F → Prop}
    {R : σ → List I → List I → Prop} (h : BulkDelaysLaw C D R) (N : Nat) :
    BulkDelaysLaw (limitBulkConsumer C) (fun s => D s.inner) (LimitSt.Collects N R) := by
  refine BulkDefersLaw.of_default Faults.regular_any rfl ⟨⟨?_, ?_, ?_⟩, ?_⟩ ?_ ?_ ?_
  · rintro ⟨s, m⟩ l ⟨slots, hN, islots, hR, _⟩
    exact h.base.observe _ _ ⟨_, hR⟩
  · rintro ⟨s, m⟩ l x ⟨slots, hN, islots, hR, _⟩
    simp only at hN hR
    cases m with
    | zero =>
      obtain ⟨d, h1, h2⟩ := h.base.observe _ _ ⟨_, hR⟩
      exact ⟨⟨s, 0⟩, .inr ⟨none, d, by simp [limitBulkConsumer, limitBufferedConsumer, limitConsumer],
        h1.trans (List.prefix_append _ _), h2⟩⟩
    | succ m =>
      obtain ⟨s', ⟨h1, islots', h2⟩ | ⟨e, d, h1, h2, h3⟩⟩ := h.base.consume s l x ⟨_, hR⟩
      · exact ⟨⟨s', m⟩, .inl ⟨by simp [limitBulkConsumer, limitBufferedConsumer, limitConsumer, h1, Except.mapError], [],
          by simp; omega, islots', h2, by simp, by simp⟩⟩
      · exact ⟨⟨s', m⟩, .inr ⟨some e, d, by simp [limitBulkConsumer, limitBufferedConsumer, limitConsumer, h1, Except.mapError],
          h2, h3⟩⟩
  · rintro ⟨s, m⟩ l f ⟨slots, hN, islots, hR, _⟩
    obtain ⟨s', ⟨h1, h2⟩ | ⟨e, d, h1, h2, h3⟩⟩ := h.base.close s l f ⟨_, hR⟩
    · exact ⟨⟨s', m⟩, .inl ⟨by simp [limitBulkConsumer, limitBufferedConsumer, limitConsumer, h1, Except.mapError], h2⟩⟩
    · exact ⟨⟨s', m⟩, .inr ⟨some e, d, by simp [limitBulkConsumer, limitBufferedConsumer, limitConsumer, h1, Except.mapError],
        h2, h3⟩⟩
  · rintro ⟨s, m⟩ l ⟨slots, hN, islots, hR, _⟩
    obtain ⟨s', ⟨h1, ⟨islots', h2⟩, h3⟩ | ⟨e, d, h1, h2, h3⟩⟩ := h.base.flush s l ⟨_, hR⟩
    · exact ⟨⟨s', m⟩, .inl ⟨by simp [limitBulkConsumer, limitBufferedConsumer, h1, Except.mapError], ⟨[], hN,
        islots', h2, by simp, by simp⟩, h3⟩⟩
    · exact ⟨⟨s', m⟩, .inr ⟨some e, d, by simp [limitBulkConsumer, limitBufferedConsumer, h1, Except.mapError], h2, h3⟩⟩
  · rintro ⟨s, m⟩ l slots ⟨hN, islots, hR, _⟩
    simp only at hN hR
    by_cases h0 : m = 0
    · obtain ⟨d, h1, h2⟩ := h.base.observe _ _ ⟨_, hR⟩
      exact ⟨⟨s, m⟩, .inr ⟨none, d, by simp [limitBulkConsumer, h0], h1, h2⟩⟩
    · obtain ⟨s', ⟨sl, h1, h2, h3⟩ | ⟨e, d, h1, h2, h3⟩⟩ := h.expose s l islots hR
      · have hl : 0 < sl.length := List.length_pos_iff.mpr h1
        refine ⟨⟨s', m⟩, .inl ⟨sl.take (min m sl.length), ?_, ?_, hN, sl, h3, ?_, ?_⟩⟩
        · intro h0
          have := congrArg List.length h0
          simp only [List.length_take, List.length_nil] at this; omega
        · simp [limitBulkConsumer, h2, h0, slice_of_le (Nat.zero_le _) (Nat.min_le_right m sl.length)]
        · rw [List.length_take, Nat.min_eq_left (Nat.min_le_right _ _)]
        · simp; omega
      · exact ⟨⟨s', m⟩, .inr ⟨some e, d, by simp [limitBulkConsumer, h1, h0], h2, h3⟩⟩
  · rintro ⟨s, m⟩ l slots ws ⟨hN, islots, hR, h1, h2⟩ hw
    have hle : slots.length ≤ islots.length := by
      have := congrArg List.length h1
      simp at this; omega
    refine ⟨hN, _, h.write s l islots ws hR (by omega), ?_, ?_⟩
    · rw [List.length_append, List.take_length_add_append]
      congr 1
      conv => lhs; rw [h1]
      rw [List.length_drop, List.drop_take]
    · simp only [List.length_append, List.length_drop, limitBulkConsumer] at h2 ⊢; omega
  · rintro ⟨s, m⟩ l slots k ⟨hN, islots, hR, h1, h2⟩ hne hk
    simp only at hN hR h2
    have hle : slots.length ≤ islots.length := by
      have := congrArg List.length h1
      simp at this; omega
    have htk : slots.take k = islots.take k := by rw [h1, List.take_take, Nat.min_eq_left hk]
    have hne' : islots ≠ [] := by rintro rfl; simp at h1; exact hne h1
    obtain ⟨s', ⟨h3, h4⟩ | ⟨e, d, h3, h4, h5⟩⟩ := h.consumeSlots s l islots k hR hne' (by omega)
    · refine ⟨⟨s', m - k⟩, .inl ⟨?_, ?_, _, by rw [htk]; exact h4, ?_, ?_⟩⟩
      · simp [limitBulkConsumer, sub_of_le (show k ≤ m by omega), h3, Except.mapError]
      · simp; omega
      · rw [List.length_drop, ← List.drop_take, ← h1]
      · simp; omega
    · exact ⟨⟨s', m - k⟩, .inr ⟨some e, d,
        by simp [limitBulkConsumer, sub_of_le (show k ≤ m by omega), h3, Except.mapError], by rw [htk]; exact h4, h5⟩⟩

end

end Verif
