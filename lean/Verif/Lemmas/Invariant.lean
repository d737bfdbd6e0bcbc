import Verif.Lemmas.Slices

/-!
# Helper lemmas about the `Invariant` wrappers
-/

namespace Verif

open Outcome

section

variable {σ I F E : Type}

/-- A producer that uses the default `bulk_produce` is not changed by the no-op wrapper. -/
theorem invariantNoopBulkProducer_eq {P : BulkProducer σ I F E}
    (h : P.bulkProduce = bulkProduceDefault P.exposeItems P.considerProduced) : invariantNoopBulkProducer P = P := by
  cases P; simp_all [invariantNoopBulkProducer]

theorem invariantNoopBulkConsumer_eq {C : BulkConsumer σ I F E}
    (h : C.bulkConsume = bulkConsumeDefault C.exposeSlots C.writeSlots C.consumeSlots) :
    invariantNoopBulkConsumer C = C := by
  cases C; simp_all [invariantNoopBulkConsumer]

/-- The no-op wrapper preserves lawfulness. -/
theorem BulkPlaysLaw.invariantNoop {P : BulkProducer σ I F E} {R : σ → Script I F E → Nat → Prop}
    (h : BulkPlaysLaw P R) : BulkPlaysLaw (invariantNoopBulkProducer P) R :=
  .of_default rfl h.base h.expose h.consider

theorem BulkCollectsLaw.invariantNoop {C : BulkConsumer σ I F E} {D : σ → List I → Option F → Prop} {q : Policy I F E}
    {R : σ → List I → List I → Prop} (h : BulkCollectsLaw C D q R) :
    BulkCollectsLaw (invariantNoopBulkConsumer C) D q R :=
  .of_default rfl h.base h.expose_ok h.expose_err h.write h.consumeSlots_ok h.consumeSlots_err

theorem BulkDefersLaw.invariantNoop {C : BulkConsumer σ I F E} {D : σ → List I → Option F → Prop} {X : Faults I F E}
    (hX : X.Regular) {R : σ → List I → List I → Prop} (h : BulkDefersLaw C D X R) :
    BulkDefersLaw (invariantNoopBulkConsumer C) D X R :=
  .of_default hX rfl h.base h.expose h.write h.consumeSlots

/-- The relation of the wrapped producer, for active states whose counter allows everything that is exposed. -/
def InvariantSt.Plays (R : σ → Script I F E → Nat → Prop) (s : InvariantSt σ) (c : Script I F E) (n : Nat) : Prop :=
  s.active = true ∧ (n = 0 ∧ (∃ m, R s.inner c m) ∨ n ≤ s.exposedSlots ∧ R s.inner c n)

theorem InvariantSt.Plays.inner {R : σ → Script I F E → Nat → Prop} {s : InvariantSt σ} {c : Script I F E} {n : Nat}
    (h : s.Plays R c n) : ∃ m, R s.inner c m := by
  obtain ⟨_, ⟨_, h⟩ | ⟨_, h⟩⟩ := h
  · exact h
  · exact ⟨_, h⟩

theorem BulkPlaysLaw.invariant {P : BulkProducer σ I F E} {R : σ → Script I F E → Nat → Prop} (h : BulkPlaysLaw P R) :
    BulkPlaysLaw (invariantBulkProducer P) (InvariantSt.Plays R) := by
  refine .of_default rfl ⟨⟨?_⟩, ?_⟩ ?_ ?_
  · rintro ⟨s, act, e⟩ c ⟨n, hn⟩
    obtain ⟨m, hm⟩ := hn.inner
    obtain ⟨rfl, _⟩ := hn
    obtain ⟨s', h3, h4⟩ := h.base.produce s c ⟨m, hm⟩
    rcases hc : c 0 with e' | x | f
    · exact ⟨⟨s', false, e⟩, by simp [invariantBulkProducer, invariantBufferedProducer, invariantProducer,
        InvariantSt.checkInactive, h3, hc], by simp⟩
    · exact ⟨⟨s', true, e⟩, by simp [invariantBulkProducer, invariantBufferedProducer, invariantProducer,
        InvariantSt.checkInactive, h3, hc], fun y hy => ⟨0, rfl, .inl ⟨rfl, h4 x hc⟩⟩⟩
    · exact ⟨⟨s', false, e⟩, by simp [invariantBulkProducer, invariantBufferedProducer, invariantProducer,
        InvariantSt.checkInactive, h3, hc], by simp⟩
  · rintro ⟨s, act, e⟩ c ⟨n, hn⟩
    obtain ⟨m, hm⟩ := hn.inner
    obtain ⟨rfl, _⟩ := hn
    obtain ⟨s', ⟨h3, h4⟩ | ⟨e', h3, h4⟩⟩ := h.base.slurp s c ⟨m, hm⟩
    · exact ⟨⟨s', true, e⟩, .inl ⟨by simp [invariantBulkProducer, invariantBufferedProducer,
        InvariantSt.checkInactive, h3], 0, rfl, .inl ⟨rfl, h4⟩⟩⟩
    · exact ⟨⟨s', false, e⟩, .inr ⟨e', h3, by simp [invariantBulkProducer, invariantBufferedProducer,
        InvariantSt.checkInactive, h4]⟩⟩
  · rintro ⟨s, act, e⟩ c n hn
    obtain ⟨m, hm⟩ := hn.inner
    obtain ⟨rfl, _⟩ := hn
    obtain ⟨s', ⟨xs, h1, h2, h3, h4⟩ | ⟨f, h1, h2⟩ | ⟨e', h1, h2⟩⟩ := h.expose s c m hm
    · exact ⟨⟨s', true, xs.length⟩, .inl ⟨xs, h1, h2, by simp [invariantBulkProducer,
        InvariantSt.checkInactive, h3], rfl, .inr ⟨Nat.le_refl _, h4⟩⟩⟩
    · exact ⟨⟨s', false, e⟩, .inr (.inl ⟨f, h1, by simp [invariantBulkProducer, InvariantSt.checkInactive, h2]⟩)⟩
    · exact ⟨⟨s', false, e⟩, .inr (.inr ⟨e', h1, by simp [invariantBulkProducer, InvariantSt.checkInactive, h2]⟩)⟩
  · rintro ⟨s, act, e⟩ c n k ⟨rfl, ⟨rfl, _⟩ | ⟨hn, hR⟩⟩ h0 hk
    · omega
    · obtain ⟨s', h1, h2⟩ := h.consider s c n k hR h0 hk
      simp only at hn
      refine ⟨⟨s', true, e - k⟩, ?_, rfl, .inr ⟨by simp only; omega, h2⟩⟩
      simp [invariantBulkProducer, InvariantSt.checkInactive, sub_of_le (show k ≤ e by omega), h1,
        show ¬ e < k by omega]

/-- The relation of the wrapped consumer, for active states whose counter allows everything that is exposed. -/
def InvariantSt.Collects (R : σ → List I → List I → Prop) (s : InvariantSt σ) (l slots : List I) : Prop :=
  s.active = true ∧ (slots = [] ∧ (∃ sl, R s.inner l sl) ∨ slots.length ≤ s.exposedSlots ∧ R s.inner l slots)

theorem InvariantSt.Collects.inner {R : σ → List I → List I → Prop} {s : InvariantSt σ} {l slots : List I}
    (h : s.Collects R l slots) : ∃ sl, R s.inner l sl := by
  obtain ⟨_, ⟨_, h⟩ | ⟨_, h⟩⟩ := h
  · exact h
  · exact ⟨_, h⟩

theorem BulkCollectsLaw.invariant {C : BulkConsumer σ I F E} {D : σ → List I → Option F → Prop} {q : Policy I F E}
    {R : σ → List I → List I → Prop} (h : BulkCollectsLaw C D q R) :
    BulkCollectsLaw (invariantBulkConsumer C) (fun s => D s.inner) q (InvariantSt.Collects R) := by
  refine .of_default rfl ⟨⟨?_, ?_, ?_, ?_, ?_⟩, ?_⟩ ?_ ?_ ?_ ?_ ?_
  · rintro ⟨s, act, e⟩ l ⟨slots, hs⟩
    exact h.base.observe _ _ hs.inner
  · rintro ⟨s, act, e⟩ l x ⟨slots, hs⟩ hq
    have hi := hs.inner
    obtain ⟨rfl, _⟩ := hs
    obtain ⟨s', h1, h2⟩ := h.base.consume_ok s l x hi hq
    exact ⟨⟨s', true, e⟩, by simp [invariantBulkConsumer, invariantBufferedConsumer, invariantConsumer,
      InvariantSt.checkInactive, h1], [], rfl, .inl ⟨rfl, h2⟩⟩
  · rintro ⟨s, act, e⟩ l x e' ⟨slots, hs⟩ hq
    have hi := hs.inner
    obtain ⟨rfl, _⟩ := hs
    obtain ⟨s', h1, h2⟩ := h.base.consume_err s l x e' hi hq
    exact ⟨⟨s', false, e⟩, by simp [invariantBulkConsumer, invariantBufferedConsumer, invariantConsumer,
      InvariantSt.checkInactive, h1], h2⟩
  · rintro ⟨s, act, e⟩ l f ⟨slots, hs⟩ hq
    have hi := hs.inner
    obtain ⟨rfl, _⟩ := hs
    obtain ⟨s', h1, h2⟩ := h.base.close_ok s l f hi hq
    exact ⟨⟨s', false, e⟩, by simp [invariantBulkConsumer, invariantBufferedConsumer, invariantConsumer,
      InvariantSt.checkInactive, h1], h2⟩
  · rintro ⟨s, act, e⟩ l f e' ⟨slots, hs⟩ hq
    have hi := hs.inner
    obtain ⟨rfl, _⟩ := hs
    obtain ⟨s', h1, h2⟩ := h.base.close_err s l f e' hi hq
    exact ⟨⟨s', false, e⟩, by simp [invariantBulkConsumer, invariantBufferedConsumer, invariantConsumer,
      InvariantSt.checkInactive, h1], h2⟩
  · rintro ⟨s, act, e⟩ l ⟨slots, hs⟩
    have hi := hs.inner
    obtain ⟨rfl, _⟩ := hs
    obtain ⟨s', ⟨h1, h2⟩ | ⟨e', h1, h2, h3⟩⟩ := h.base.flush s l hi
    · exact ⟨⟨s', true, e⟩, .inl ⟨by simp [invariantBulkConsumer, invariantBufferedConsumer,
        InvariantSt.checkInactive, h1], [], rfl, .inl ⟨rfl, h2⟩⟩⟩
    · exact ⟨⟨s', false, e⟩, .inr ⟨e', h1, by simp [invariantBulkConsumer, invariantBufferedConsumer,
        InvariantSt.checkInactive, h2], h3⟩⟩
  · rintro ⟨s, act, e⟩ l slots hs hq
    obtain ⟨sl, hi⟩ := hs.inner
    obtain ⟨rfl, _⟩ := hs
    obtain ⟨s', slots', h1, h2, h3⟩ := h.expose_ok s l sl hi hq
    exact ⟨⟨s', true, slots'.length⟩, slots', h1, by simp [invariantBulkConsumer, InvariantSt.checkInactive, h2],
      rfl, .inr ⟨Nat.le_refl _, h3⟩⟩
  · rintro ⟨s, act, e⟩ l slots e' hs hq
    obtain ⟨sl, hi⟩ := hs.inner
    obtain ⟨rfl, _⟩ := hs
    obtain ⟨s', h1, h2⟩ := h.expose_err s l sl e' hi hq
    exact ⟨⟨s', false, e⟩, by simp [invariantBulkConsumer, InvariantSt.checkInactive, h1], h2⟩
  · rintro ⟨s, act, e⟩ l slots ws ⟨rfl, ⟨rfl, sl, hi⟩ | ⟨hn, hR⟩⟩ hw
    · have : ws = [] := by simpa using hw
      subst this
      exact ⟨rfl, .inl ⟨by simp, _, h.write s l sl [] hi (by simp)⟩⟩
    · refine ⟨rfl, .inr ⟨?_, h.write s l slots ws hR hw⟩⟩
      simp only at hn
      simp only [List.length_append, List.length_drop, invariantBulkConsumer]; omega
  · rintro ⟨s, act, e⟩ l slots k ⟨rfl, ⟨rfl, _⟩ | ⟨hn, hR⟩⟩ hne hk ha
    · simp at hne
    · obtain ⟨s', h1, h2⟩ := h.consumeSlots_ok s l slots k hR hne hk ha
      simp only at hn
      refine ⟨⟨s', true, e - k⟩, ?_, rfl, .inr ⟨by simp only [List.length_drop]; omega, h2⟩⟩
      simp [invariantBulkConsumer, InvariantSt.checkInactive, sub_of_le (show k ≤ e by omega), h1,
        show ¬ e < k by omega]
  · rintro ⟨s, act, e⟩ l slots k i e' ⟨rfl, ⟨rfl, _⟩ | ⟨hn, hR⟩⟩ hne hk ha
    · simp at hne
    · obtain ⟨s', h1, h2⟩ := h.consumeSlots_err s l slots k i e' hR hne hk ha
      simp only at hn
      refine ⟨⟨s', true, e - k⟩, ?_, h2⟩
      simp [invariantBulkConsumer, InvariantSt.checkInactive, sub_of_le (show k ≤ e by omega), h1,
        show ¬ e < k by omega]

theorem BulkDefersLaw.invariant {C : BulkConsumer σ I F E} {D : σ → List I → Option F → Prop} {X : Faults I F E}
    (hX : X.Regular) {R : σ → List I → List I → Prop} (h : BulkDefersLaw C D X R) :
    BulkDefersLaw (invariantBulkConsumer C) (fun s => D s.inner) X (InvariantSt.Collects R) := by
  refine .of_default hX rfl ⟨⟨?_, ?_, ?_⟩, ?_⟩ ?_ ?_ ?_
  · rintro ⟨s, act, e⟩ l ⟨slots, hs⟩
    exact h.base.observe _ _ hs.inner
  · rintro ⟨s, act, e⟩ l x ⟨slots, hs⟩
    have hi := hs.inner
    obtain ⟨rfl, _⟩ := hs
    obtain ⟨s', ⟨h1, h2⟩ | ⟨e', d, h1, h2⟩⟩ := h.base.consume s l x hi
    · exact ⟨⟨s', true, e⟩, .inl ⟨by simp [invariantBulkConsumer, invariantBufferedConsumer, invariantConsumer,
        InvariantSt.checkInactive, h1], [], rfl, .inl ⟨rfl, h2⟩⟩⟩
    · exact ⟨⟨s', false, e⟩, .inr ⟨e', d, by simp [invariantBulkConsumer, invariantBufferedConsumer,
        invariantConsumer, InvariantSt.checkInactive, h1], h2⟩⟩
  · rintro ⟨s, act, e⟩ l f ⟨slots, hs⟩
    have hi := hs.inner
    obtain ⟨rfl, _⟩ := hs
    obtain ⟨s', ⟨h1, h2⟩ | ⟨e', d, h1, h2⟩⟩ := h.base.close s l f hi
    · exact ⟨⟨s', false, e⟩, .inl ⟨by simp [invariantBulkConsumer, invariantBufferedConsumer, invariantConsumer,
        InvariantSt.checkInactive, h1], h2⟩⟩
    · exact ⟨⟨s', false, e⟩, .inr ⟨e', d, by simp [invariantBulkConsumer, invariantBufferedConsumer,
        invariantConsumer, InvariantSt.checkInactive, h1], h2⟩⟩
  · rintro ⟨s, act, e⟩ l ⟨slots, hs⟩
    have hi := hs.inner
    obtain ⟨rfl, _⟩ := hs
    obtain ⟨s', ⟨h1, h2, h3⟩ | ⟨e', d, h1, h2⟩⟩ := h.base.flush s l hi
    · exact ⟨⟨s', true, e⟩, .inl ⟨by simp [invariantBulkConsumer, invariantBufferedConsumer,
        InvariantSt.checkInactive, h1], ⟨[], rfl, .inl ⟨rfl, h2⟩⟩, h3⟩⟩
    · exact ⟨⟨s', false, e⟩, .inr ⟨e', d, by simp [invariantBulkConsumer, invariantBufferedConsumer,
        InvariantSt.checkInactive, h1], h2⟩⟩
  · rintro ⟨s, act, e⟩ l slots hs
    obtain ⟨sl, hi⟩ := hs.inner
    obtain ⟨rfl, _⟩ := hs
    obtain ⟨s', ⟨slots', h1, h2, h3⟩ | ⟨e', d, h1, h2⟩⟩ := h.expose s l sl hi
    · exact ⟨⟨s', true, slots'.length⟩, .inl ⟨slots', h1, by simp [invariantBulkConsumer,
        InvariantSt.checkInactive, h2], rfl, .inr ⟨Nat.le_refl _, h3⟩⟩⟩
    · exact ⟨⟨s', false, e⟩, .inr ⟨e', d, by simp [invariantBulkConsumer, InvariantSt.checkInactive, h1], h2⟩⟩
  · rintro ⟨s, act, e⟩ l slots ws ⟨rfl, ⟨rfl, sl, hi⟩ | ⟨hn, hR⟩⟩ hw
    · have : ws = [] := by simpa using hw
      subst this
      exact ⟨rfl, .inl ⟨by simp, _, h.write s l sl [] hi (by simp)⟩⟩
    · refine ⟨rfl, .inr ⟨?_, h.write s l slots ws hR hw⟩⟩
      simp only at hn
      simp only [List.length_append, List.length_drop, invariantBulkConsumer]; omega
  · rintro ⟨s, act, e⟩ l slots k ⟨rfl, ⟨rfl, _⟩ | ⟨hn, hR⟩⟩ hne hk
    · simp at hne
    · simp only at hn
      obtain ⟨s', ⟨h1, h2⟩ | ⟨e', d, h1, h2⟩⟩ := h.consumeSlots s l slots k hR hne hk
      · refine ⟨⟨s', true, e - k⟩, .inl ⟨?_, rfl, .inr ⟨by simp only [List.length_drop]; omega, h2⟩⟩⟩
        simp [invariantBulkConsumer, InvariantSt.checkInactive, sub_of_le (show k ≤ e by omega), h1,
          show ¬ e < k by omega]
      · refine ⟨⟨s', true, e - k⟩, .inr ⟨e', d, ?_, h2⟩⟩
        simp [invariantBulkConsumer, InvariantSt.checkInactive, sub_of_le (show k ≤ e by omega), h1,
          show ¬ e < k by omega]

/-! ### The wrapper and the wrapped value answer every allowed call in the same way, lawful or not -/

/-- The calls end in the same way, with the same answer. -/
def SameHandout : Outcome (σ × Handout I F E) → Outcome (InvariantSt σ × Handout I F E) → Prop
  | ok (s, r), ok (t, r') => t.inner = s ∧ r' = r ∧ (r.ended = none → t.active = true) ∧ r.shown.length ≤ t.exposedSlots
  | .panic, .panic => True
  | diverge, diverge => True
  | _, _ => False

theorem invariantBulkProducer_call (P : BulkProducer σ I F E) (s : σ) (shown : List I) (e : Nat)
    (he : shown.length ≤ e) {op : ProducerOp I} (hop : op.Allowed shown) :
    SameHandout ((invariantNoopBulkProducer P).call s shown op) ((invariantBulkProducer P).call ⟨s, true, e⟩ shown op) := by
  cases op with
  | produce =>
    simp only [BulkProducer.call, invariantNoopBulkProducer, invariantBulkProducer, invariantBufferedProducer,
      invariantProducer, InvariantSt.checkInactive]
    rcases h : P.produce s with ⟨s', e' | x | f⟩ | _ | _ <;> simp [SameHandout]
  | slurp =>
    simp only [BulkProducer.call, invariantNoopBulkProducer, invariantBulkProducer, invariantBufferedProducer,
      invariantProducer, InvariantSt.checkInactive]
    rcases h : P.slurp s with ⟨s', e' | _⟩ | _ | _ <;> simp [SameHandout]
  | exposeItems =>
    simp only [BulkProducer.call, invariantNoopBulkProducer, invariantBulkProducer, InvariantSt.checkInactive]
    rcases h : P.exposeItems s with ⟨s', e' | x | f⟩ | _ | _ <;> simp [SameHandout]
  | considerProduced k =>
    obtain ⟨_, hk⟩ := hop
    simp only [BulkProducer.call, invariantNoopBulkProducer, invariantBulkProducer, InvariantSt.checkInactive]
    rcases h : P.considerProduced s k with ⟨s', e' | _⟩ | _ | _ <;>
      simp [SameHandout, sub_of_le (show k ≤ e by omega), show ¬ e < k by omega, h]
    omega
  | bulkProduce buf =>
    simp only [BulkProducer.call, invariantNoopBulkProducer, invariantBulkProducer, InvariantSt.checkInactive,
      bulkProduceDefault]
    rcases h : P.exposeItems s with ⟨s', e' | xs | f⟩ | _ | _
    · simp [SameHandout]
    · have hk : min xs.length buf.length ≤ xs.length := Nat.min_le_left _ _
      rcases h : P.considerProduced s' (min xs.length buf.length) with ⟨s'', e' | _⟩ | _ | _ <;>
        simp [SameHandout, sub_of_le hk, show ¬ xs.length < min xs.length buf.length by omega, h]
    · simp [SameHandout]
    · simp [SameHandout]
    · simp [SameHandout]

/-- As `SameHandout`, for consumers. -/
def SameReceipt : Outcome (σ × Receipt I F E) → Outcome (InvariantSt σ × Receipt I F E) → Prop
  | ok (s, r), ok (t, r') => t.inner = s ∧ r' = r ∧ (r.ended = none → t.active = true) ∧ r.slots.length ≤ t.exposedSlots
  | .panic, .panic => True
  | diverge, diverge => True
  | _, _ => False

theorem invariantBulkConsumer_call (C : BulkConsumer σ I F E) (s : σ) (slots : List I) (e : Nat)
    (he : slots.length ≤ e) {op : ConsumerOp I F} (hop : op.Allowed slots) :
    SameReceipt ((invariantNoopBulkConsumer C).call s slots op) ((invariantBulkConsumer C).call ⟨s, true, e⟩ slots op) := by
  cases op with
  | consume x =>
    simp only [BulkConsumer.call, invariantNoopBulkConsumer, invariantBulkConsumer, invariantBufferedConsumer,
      invariantConsumer, InvariantSt.checkInactive]
    rcases h : C.consume s x with ⟨s', e' | _⟩ | _ | _ <;> simp [SameReceipt]
  | flush =>
    simp only [BulkConsumer.call, invariantNoopBulkConsumer, invariantBulkConsumer, invariantBufferedConsumer,
      invariantConsumer, InvariantSt.checkInactive]
    rcases h : C.flush s with ⟨s', e' | _⟩ | _ | _ <;> simp [SameReceipt]
  | close f =>
    simp only [BulkConsumer.call, invariantNoopBulkConsumer, invariantBulkConsumer, invariantBufferedConsumer,
      invariantConsumer, InvariantSt.checkInactive]
    rcases h : C.close s f with ⟨s', e' | _⟩ | _ | _ <;> simp [SameReceipt]
  | exposeSlots =>
    simp only [BulkConsumer.call, invariantNoopBulkConsumer, invariantBulkConsumer, InvariantSt.checkInactive]
    rcases h : C.exposeSlots s with ⟨s', e' | x⟩ | _ | _ <;> simp [SameReceipt]
  | write ws =>
    simp only [ConsumerOp.Allowed] at hop
    simp [BulkConsumer.call, invariantNoopBulkConsumer, invariantBulkConsumer, SameReceipt]
    omega
  | consumeSlots k =>
    obtain ⟨_, hk⟩ := hop
    simp only [BulkConsumer.call, invariantNoopBulkConsumer, invariantBulkConsumer, InvariantSt.checkInactive]
    rcases h : C.consumeSlots s k with ⟨s', e' | _⟩ | _ | _ <;>
      simp [SameReceipt, sub_of_le (show k ≤ e by omega), show ¬ e < k by omega, h]
    omega
  | bulkConsume buf =>
    simp only [BulkConsumer.call, invariantNoopBulkConsumer, invariantBulkConsumer, InvariantSt.checkInactive,
      bulkConsumeDefault]
    rcases h : C.exposeSlots s with ⟨s', e' | xs⟩ | _ | _
    · simp [SameReceipt]
    · have hk : min xs.length buf.length ≤ xs.length := Nat.min_le_left _ _
      rcases h : C.consumeSlots (C.writeSlots s' (buf.take (min xs.length buf.length))) (min xs.length buf.length) with
        ⟨s'', e' | _⟩ | _ | _ <;>
        simp [SameReceipt, sub_of_le hk, show ¬ xs.length < min xs.length buf.length by omega, h]
    · simp [SameReceipt]
    · simp [SameReceipt]

end

end Verif
