import Verif.InvariantDropSpec
import Verif.Props.ResumeScramblers
import Verif.Props.Invariant

/-!
# Dropped calls of `Invariant` (C107)

It is forbidden to call a method after a call was dropped (lib.rs:33), but `Invariant` does not check it: apart from `close`, a dropped
call leaves it active, and, if the wrapped producer or consumer tolerates dropped calls, then so does the `Invariant`. What it has
checked before is not forgotten: a dropped `consider_produced` or `consume_slots` has used up the items that it was about, so that the same
call again can panic; and a dropped `close` was a `close`. All checks come before the first `await`: no misuse gets as far as a pending
future.
-/

namespace Verif.Async

open Outcome

variable {σ τ I F E : Type}

/-! ## What is left -/

/-- `consider_produced` of an `Invariant` is pending only where that of the wrapped producer is. -/
theorem invariant_considering {P : BulkProducer σ I F E} {d : ProducerDrops P} {s s' : InvariantSt σ} {a : Nat} {k}
    (hk : ((invariantBulkProducer P).considerProduced s a).Pending k) (h : (invariantDrops d).considerProduced s a k s') :
    s.active = true ∧ a ≤ s.exposedSlots ∧ s' = ⟨s'.inner, true, s.exposedSlots - a⟩ ∧
      ∃ kp, (P.considerProduced s.inner a).Pending kp ∧ d.considerProduced s.inner a kp s'.inner := by
  obtain ⟨he, hd⟩ := h
  obtain ⟨hc, hk⟩ := Fut.pending_right hk
  have hc : s.checkInactive = ok () := (Fut.run_lift _).symm.trans hc
  have ha : s.active = true := by
    rcases hs : s.active with _ | _
    · rw [InvariantSt.checkInactive, hs] at hc
      cases hc
    · rfl
  rcases Fut.pending_branch hk with ⟨_, k', _, hp⟩ | ⟨hlt, k', heq, hp⟩
  · exact absurd hp ((by exact Fut.quiet_lift _ : Fut.Quiet _) _)
  · cases eq_of_heq (heq.symm.trans he)
    have hle : a ≤ s.exposedSlots := Nat.le_of_not_lt hlt
    obtain ⟨hs, hp⟩ := Fut.pending_right hp
    have hs : sub s.exposedSlots a = ok _ := (Fut.run_lift _).symm.trans hs
    rw [sub_of_le hle] at hs
    cases hs
    exact ⟨ha, hle, by rw [ha], _, Fut.pending_left hp, hd⟩

/-- The same for `consume_slots`. -/
theorem invariant_consuming {C : BulkConsumer τ I F E} {d : SlotDrops C} {t t' : InvariantSt τ} {a : Nat} {k}
    (hk : ((invariantBulkConsumer C).consumeSlots t a).Pending k) (h : (invariantSlotDrops d).consumeSlots t a k t') :
    t.active = true ∧ a ≤ t.exposedSlots ∧ t' = ⟨t'.inner, true, t.exposedSlots - a⟩ ∧
      ∃ kc, (C.consumeSlots t.inner a).Pending kc ∧ d.consumeSlots t.inner a kc t'.inner := by
  obtain ⟨he, hd⟩ := h
  obtain ⟨hc, hk⟩ := Fut.pending_right hk
  have hc : t.checkInactive = ok () := (Fut.run_lift _).symm.trans hc
  have ha : t.active = true := by
    rcases hs : t.active with _ | _
    · rw [InvariantSt.checkInactive, hs] at hc
      cases hc
    · rfl
  rcases Fut.pending_branch hk with ⟨_, k', _, hp⟩ | ⟨hlt, k', heq, hp⟩
  · exact absurd hp ((by exact Fut.quiet_lift _ : Fut.Quiet _) _)
  · cases eq_of_heq (heq.symm.trans he)
    have hle : a ≤ t.exposedSlots := Nat.le_of_not_lt hlt
    obtain ⟨hs, hp⟩ := Fut.pending_right hp
    have hs : sub t.exposedSlots a = ok _ := (Fut.run_lift _).symm.trans hs
    rw [sub_of_le hle] at hs
    cases hs
    exact ⟨ha, hle, by rw [ha], _, Fut.pending_left hp, hd⟩

/-! ## Going on after a dropped call is not noticed -/

/-- **C107.** If the wrapped producer tolerates dropped calls, then so does the `Invariant`: there is no panic, whatever (that is allowed
otherwise) is called next. -/
theorem invariant_drops {P : BulkProducer σ I F E} {d : ProducerDrops P} {R : σ → Script I F E → Nat → Prop} (h : d.Tolerated R) :
    (invariantDrops d).Tolerated (InvariantSt.Plays R) where
  exposeItems := by
    rintro s c n k s' hR hk ⟨hd⟩
    obtain ⟨m, hm⟩ := hR.inner
    exact ⟨0, hR.1, .inl ⟨rfl, h.exposeItems hm (Fut.pending_left (Fut.pending_right hk).2) hd⟩⟩

/-- **C107.** After a dropped call of `consider_produced` too. -/
theorem invariant_drops_consider {P : BulkProducer σ I F E} {d : ProducerDrops P} {R : σ → Script I F E → Nat → Prop}
    (h : d.Unconsidered R) : (invariantDrops d).Unconsidered (InvariantSt.Plays R) where
  considerProduced := by
    intro s c n a k s' hR hk hd
    obtain ⟨m, hm⟩ := hR.inner
    obtain ⟨_, _, he, kp, hp, hd⟩ := invariant_considering hk hd
    exact ⟨0, by rw [he], .inl ⟨rfl, h.considerProduced hm hp hd⟩⟩

/-- **C107.** `produce` -/
theorem invariant_item_drops {P : BulkProducer σ I F E} {d : ItemDrops P.toProducer} {R : σ → Script I F E → Nat → Prop}
    (h : d.Tolerated fun s c => ∃ n, R s c n) : (invariantItemDrops d).Tolerated fun s c => ∃ n, InvariantSt.Plays R s c n where
  produce := by
    rintro s c k s' ⟨n, hR⟩ hk ⟨hd⟩
    exact ⟨0, hR.1, .inl ⟨rfl, h.produce hR.inner (Fut.pending_left (Fut.pending_right hk).2) hd⟩⟩

/-- **C107.** `slurp` -/
theorem invariant_slurp_drops {P : BulkProducer σ I F E} {d : SlurpDrops P.toBufferedProducer} {R : σ → Script I F E → Nat → Prop}
    (h : d.Tolerated fun s c => ∃ n, R s c n) : (invariantSlurpDrops d).Tolerated fun s c => ∃ n, InvariantSt.Plays R s c n where
  slurp := by
    rintro s c k s' ⟨n, hR⟩ hk ⟨hd⟩
    exact ⟨0, hR.1, .inl ⟨rfl, h.slurp hR.inner (Fut.pending_left (Fut.pending_right hk).2) hd⟩⟩

/-- **C107.** If the wrapped consumer tolerates dropped calls, then so does the `Invariant`. -/
theorem invariant_slot_drops {C : BulkConsumer τ I F E} {d : SlotDrops C} {S : τ → List I → List I → Prop} (h : d.Tolerated S) :
    (invariantSlotDrops d).Tolerated (InvariantSt.Collects S) where
  exposeSlots := by
    rintro t l sl k t' hS hk ⟨hd⟩
    obtain ⟨sl', hs⟩ := hS.inner
    exact ⟨[], hS.1, .inl ⟨rfl, h.exposeSlots hs (Fut.pending_left (Fut.pending_right hk).2) hd⟩⟩
  consumeSlots := by
    intro t l sl a k t' hS hk hd
    obtain ⟨sl', hs⟩ := hS.inner
    obtain ⟨_, _, he, kc, hp, hd⟩ := invariant_consuming hk hd
    exact ⟨[], by rw [he], .inl ⟨rfl, h.consumeSlots hs hp hd⟩⟩

/-- **C107.** `bulk_consume` -/
theorem invariant_consumer_drops {C : BulkConsumer τ I F E} {D : τ → List I → Option F → Prop} {q : Policy I F E} {d : SlotDrops C}
    {S : τ → List I → List I → Prop} (hC : BulkCollectsLaw C.seq D q S) (h : d.Tolerated S) :
    (invariantConsumerDrops d).Tolerated (InvariantSt.Collects S) where
  bulkConsume := by
    intro t l sl ys k t' hS hne hk hd
    have hI := hC.invariant
    rw [← invariantBulkConsumer_seq] at hI
    cases hd with
    | exposing hd => exact (invariant_slot_drops h).exposeSlots hS (Fut.pending_left hk) hd
    | @consuming t₁ slots k t' hd =>
      obtain ⟨hr, hk⟩ := Fut.pending_right hk
      have hr : (invariantBulkConsumer C).seq.exposeSlots t = _ := hr
      rcases hq : q.refuse l with _ | e
      · obtain ⟨t₂, slots₂, _, h2, h3⟩ := hI.expose_ok _ _ _ hS hq
        cases h2.symm.trans hr
        exact (invariant_slot_drops h).consumeSlots (hI.write _ _ _ _ h3 (by simp; omega)) (Fut.pending_left hk) hd
      · obtain ⟨t₂, h1, _⟩ := hI.expose_err _ _ _ _ hS hq
        cases h1.symm.trans hr

/-- **C107.** `consume` -/
theorem invariant_consume_drops {C : BulkConsumer τ I F E} {d : ConsumeDrops C.toConsumer} {S : τ → List I → List I → Prop}
    (h : d.Tolerated fun t l => ∃ sl, S t l sl) : (invariantConsumeDrops d).Tolerated fun t l => ∃ sl, InvariantSt.Collects S t l sl where
  consume := by
    rintro t l x k t' ⟨sl, hS⟩ hk ⟨hd⟩
    exact ⟨[], hS.1, .inl ⟨rfl, h.consume hS.inner (Fut.pending_left (Fut.pending_right hk).2) hd⟩⟩

/-- **C107.** `flush` -/
theorem invariant_flush_drops {C : BulkConsumer τ I F E} {d : FlushDrops C.toBufferedConsumer} {S : τ → List I → List I → Prop}
    (h : d.Tolerated fun t l => ∃ sl, S t l sl) : (invariantFlushDrops d).Tolerated fun t l => ∃ sl, InvariantSt.Collects S t l sl where
  flush := by
    rintro t l k t' ⟨sl, hS⟩ hk ⟨hd⟩
    exact ⟨[], hS.1, .inl ⟨rfl, h.flush hS.inner (Fut.pending_left (Fut.pending_right hk).2) hd⟩⟩

/-! ## What is noticed -/

/-- A call that panics when it is polled first. -/
def Panics {A : Type} (f : Fut A) : Prop := f.poll f.start = panic

theorem panics_left {A B : Type} {f : Fut A} {g : A → Fut B} (h : Panics f) : Panics (f >>= g) := by
  show Fut.andThenPoll f g (.inl f.start) = _
  simp only [Panics] at h
  simp [Fut.andThenPoll, Fut.pollIn, h]
  rfl

theorem panics_right {A B : Type} {f : Fut A} {g : A → Fut B} {a : A} (hf : f.poll f.start = ok (.ready a)) (h : Panics (g a)) :
    Panics (f >>= g) := by
  show Fut.andThenPoll f g (.inl f.start) = _
  simp only [Panics] at h
  simp [Fut.andThenPoll, Fut.pollIn, hf, h]
  rfl

theorem panics_if {A : Type} {p : Prop} [Decidable p] {f g : Fut A} (hp : p) (h : Panics f) : Panics (if p then f else g) := by
  rw [if_pos hp]
  exact h

/-- **C107.** An `Invariant` that is not active, because its producer has ended or failed, panics as soon as one of its methods is
polled: the wrapped producer is not called. -/
theorem invariant_producer_inactive {P : BulkProducer σ I F E} {s : InvariantSt σ} (h : s.active = false) :
    Panics ((invariantBulkProducer P).produce s) ∧ Panics ((invariantBulkProducer P).slurp s) ∧
    Panics ((invariantBulkProducer P).exposeItems s) ∧ (∀ n, Panics ((invariantBulkProducer P).considerProduced s n)) ∧
    ∀ buf, Panics ((invariantBulkProducer P).bulkProduce s buf) := by
  obtain ⟨s, _, n⟩ := s
  cases h
  exact ⟨panics_left rfl, panics_left rfl, panics_left rfl, fun _ => panics_left rfl, fun _ => panics_left (panics_left rfl)⟩

/-- **C107.** The same for consumers. -/
theorem invariant_consumer_inactive {C : BulkConsumer τ I F E} {t : InvariantSt τ} (h : t.active = false) :
    (∀ f, Panics ((invariantBulkConsumer C).close t f)) ∧ (∀ x, Panics ((invariantBulkConsumer C).consume t x)) ∧
    Panics ((invariantBulkConsumer C).flush t) ∧ Panics ((invariantBulkConsumer C).exposeSlots t) ∧
    (∀ n, Panics ((invariantBulkConsumer C).consumeSlots t n)) ∧ ∀ ys, Panics ((invariantBulkConsumer C).bulkConsume t ys) := by
  obtain ⟨t, _, n⟩ := t
  cases h
  exact ⟨fun _ => panics_left rfl, fun _ => panics_left rfl, panics_left rfl, panics_left rfl, fun _ => panics_left rfl,
    fun _ => panics_left (panics_left rfl)⟩

/-- **C107.** After a dropped call of `consider_produced` of `a` items, a call for `b` panics if these are, together, more than were
exposed, though the wrapped producer may have forgotten the call. In particular the same call panics if `a` are all that were exposed. -/
theorem invariant_consider_again {P : BulkProducer σ I F E} {d : ProducerDrops P} {s s' : InvariantSt σ} {a b : Nat} {k}
    (hk : ((invariantBulkProducer P).considerProduced s a).Pending k) (h : (invariantDrops d).considerProduced s a k s')
    (hb : s.exposedSlots < a + b) : Panics ((invariantBulkProducer P).considerProduced s' b) := by
  obtain ⟨_, _, he, _⟩ := invariant_considering hk h
  rw [he]
  exact panics_right rfl (panics_if (show b > s.exposedSlots - a by omega) rfl)

/-- **C107.** And after a dropped call of `consume_slots`. -/
theorem invariant_consume_slots_again {C : BulkConsumer τ I F E} {d : SlotDrops C} {t t' : InvariantSt τ} {a b : Nat} {k}
    (hk : ((invariantBulkConsumer C).consumeSlots t a).Pending k) (h : (invariantSlotDrops d).consumeSlots t a k t')
    (hb : t.exposedSlots < a + b) : Panics ((invariantBulkConsumer C).consumeSlots t' b) := by
  obtain ⟨_, _, he, _⟩ := invariant_consuming hk h
  rw [he]
  exact panics_right rfl (panics_if (show b > t.exposedSlots - a by omega) rfl)

/-- **C107.** Every call of a consumer panics after a dropped call of `close`, and so does `close` itself. -/
theorem invariant_close_again {C : BulkConsumer τ I F E} {d : CloseDrops C.toConsumer} {t t' : InvariantSt τ} {fin : F} {k}
    (h : (invariantCloseDrops d).close t fin k t') :
    (∀ f, Panics ((invariantBulkConsumer C).close t' f)) ∧ (∀ x, Panics ((invariantBulkConsumer C).consume t' x)) ∧
    Panics ((invariantBulkConsumer C).flush t') ∧ Panics ((invariantBulkConsumer C).exposeSlots t') ∧
    (∀ n, Panics ((invariantBulkConsumer C).consumeSlots t' n)) ∧ ∀ ys, Panics ((invariantBulkConsumer C).bulkConsume t' ys) := by
  obtain ⟨_⟩ := h
  exact invariant_consumer_inactive rfl

/-! ## Every pending call can be dropped -/

theorem invariant_produce_total {P : BulkProducer σ I F E} {d : ItemDrops P.toProducer}
    (hd : ∀ {s k}, (P.produce s).Pending k → ∃ s', d.produce s k s') {s : InvariantSt σ} {k}
    (h : ((invariantBulkProducer P).produce s).Pending k) : ∃ s', (invariantItemDrops d).produce s k s' := by
  rcases Fut.pending_bind h with ⟨k, rfl, h'⟩ | ⟨_, k, rfl, _, h'⟩
  · exact absurd h' ((by exact Fut.quiet_lift _ : Fut.Quiet _) _)
  rcases Fut.pending_bind h' with ⟨k, rfl, h''⟩ | ⟨⟨_, _ | _ | _⟩, k, rfl, _, h''⟩
  · obtain ⟨s', hs⟩ := hd h''
    exact ⟨_, .mk hs⟩
  all_goals exact absurd h'' ((by quiet : Fut.Quiet _) _)

theorem invariant_slurp_total {P : BulkProducer σ I F E} {d : SlurpDrops P.toBufferedProducer}
    (hd : ∀ {s k}, (P.slurp s).Pending k → ∃ s', d.slurp s k s') {s : InvariantSt σ} {k}
    (h : ((invariantBulkProducer P).slurp s).Pending k) : ∃ s', (invariantSlurpDrops d).slurp s k s' := by
  rcases Fut.pending_bind h with ⟨k, rfl, h'⟩ | ⟨_, k, rfl, _, h'⟩
  · exact absurd h' ((by exact Fut.quiet_lift _ : Fut.Quiet _) _)
  rcases Fut.pending_bind h' with ⟨k, rfl, h''⟩ | ⟨⟨_, _ | _⟩, k, rfl, _, h''⟩
  · obtain ⟨s', hs⟩ := hd h''
    exact ⟨_, .mk hs⟩
  all_goals exact absurd h'' ((by quiet : Fut.Quiet _) _)

theorem invariant_expose_total {P : BulkProducer σ I F E} {d : ProducerDrops P}
    (hd : ∀ {s k}, (P.exposeItems s).Pending k → ∃ s', d.exposeItems s k s') {s : InvariantSt σ} {k}
    (h : ((invariantBulkProducer P).exposeItems s).Pending k) : ∃ s', (invariantDrops d).exposeItems s k s' := by
  rcases Fut.pending_bind h with ⟨k, rfl, h'⟩ | ⟨_, k, rfl, _, h'⟩
  · exact absurd h' ((by exact Fut.quiet_lift _ : Fut.Quiet _) _)
  rcases Fut.pending_bind h' with ⟨k, rfl, h''⟩ | ⟨⟨_, _ | _ | _⟩, k, rfl, _, h''⟩
  · obtain ⟨s', hs⟩ := hd h''
    exact ⟨_, .mk hs⟩
  all_goals exact absurd h'' ((by quiet : Fut.Quiet _) _)

theorem invariant_consider_total {P : BulkProducer σ I F E} {d : ProducerDrops P}
    (hd : ∀ {s a k}, (P.considerProduced s a).Pending k → ∃ s', d.considerProduced s a k s') {s : InvariantSt σ} {a : Nat} {k}
    (h : ((invariantBulkProducer P).considerProduced s a).Pending k) : ∃ s', (invariantDrops d).considerProduced s a k s' := by
  rcases Fut.pending_bind h with ⟨k, rfl, h'⟩ | ⟨_, k, rfl, _, h'⟩
  · exact absurd h' ((by exact Fut.quiet_lift _ : Fut.Quiet _) _)
  rcases Fut.pending_branch h' with ⟨_, k', _, hp⟩ | ⟨_, k', heq, hp⟩
  · exact absurd hp ((by exact Fut.quiet_lift _ : Fut.Quiet _) _)
  rcases Fut.pending_bind hp with ⟨k, rfl, h''⟩ | ⟨_, k, rfl, _, h''⟩
  · exact absurd h'' ((by exact Fut.quiet_lift _ : Fut.Quiet _) _)
  rcases Fut.pending_bind h'' with ⟨k, rfl, h3⟩ | ⟨_, k, rfl, _, h3⟩
  · obtain ⟨s', hs⟩ := hd h3
    exact ⟨_, .mk heq hs⟩
  · exact absurd h3 ((by quiet : Fut.Quiet _) _)

theorem invariant_consume_total {C : BulkConsumer τ I F E} {d : ConsumeDrops C.toConsumer}
    (hd : ∀ {t x k}, (C.consume t x).Pending k → ∃ t', d.consume t x k t') {t : InvariantSt τ} {x : I} {k}
    (h : ((invariantBulkConsumer C).consume t x).Pending k) : ∃ t', (invariantConsumeDrops d).consume t x k t' := by
  rcases Fut.pending_bind h with ⟨k, rfl, h'⟩ | ⟨_, k, rfl, _, h'⟩
  · exact absurd h' ((by exact Fut.quiet_lift _ : Fut.Quiet _) _)
  rcases Fut.pending_bind h' with ⟨k, rfl, h''⟩ | ⟨⟨_, _ | _⟩, k, rfl, _, h''⟩
  · obtain ⟨s', hs⟩ := hd h''
    exact ⟨_, .mk hs⟩
  all_goals exact absurd h'' ((by quiet : Fut.Quiet _) _)

theorem invariant_close_total {C : BulkConsumer τ I F E} {d : CloseDrops C.toConsumer}
    (hd : ∀ {t f k}, (C.close t f).Pending k → ∃ t', d.close t f k t') {t : InvariantSt τ} {f : F} {k}
    (h : ((invariantBulkConsumer C).close t f).Pending k) : ∃ t', (invariantCloseDrops d).close t f k t' := by
  rcases Fut.pending_bind h with ⟨k, rfl, h'⟩ | ⟨_, k, rfl, _, h'⟩
  · exact absurd h' ((by exact Fut.quiet_lift _ : Fut.Quiet _) _)
  rcases Fut.pending_bind h' with ⟨k, rfl, h''⟩ | ⟨_, k, rfl, _, h''⟩
  · obtain ⟨s', hs⟩ := hd h''
    exact ⟨_, .mk hs⟩
  · exact absurd h'' ((by quiet : Fut.Quiet _) _)

theorem invariant_flush_total {C : BulkConsumer τ I F E} {d : FlushDrops C.toBufferedConsumer}
    (hd : ∀ {t k}, (C.flush t).Pending k → ∃ t', d.flush t k t') {t : InvariantSt τ} {k}
    (h : ((invariantBulkConsumer C).flush t).Pending k) : ∃ t', (invariantFlushDrops d).flush t k t' := by
  rcases Fut.pending_bind h with ⟨k, rfl, h'⟩ | ⟨_, k, rfl, _, h'⟩
  · exact absurd h' ((by exact Fut.quiet_lift _ : Fut.Quiet _) _)
  rcases Fut.pending_bind h' with ⟨k, rfl, h''⟩ | ⟨⟨_, _ | _⟩, k, rfl, _, h''⟩
  · obtain ⟨s', hs⟩ := hd h''
    exact ⟨_, .mk hs⟩
  all_goals exact absurd h'' ((by quiet : Fut.Quiet _) _)

theorem invariant_expose_slots_total {C : BulkConsumer τ I F E} {d : SlotDrops C}
    (hd : ∀ {t k}, (C.exposeSlots t).Pending k → ∃ t', d.exposeSlots t k t') {t : InvariantSt τ} {k}
    (h : ((invariantBulkConsumer C).exposeSlots t).Pending k) : ∃ t', (invariantSlotDrops d).exposeSlots t k t' := by
  rcases Fut.pending_bind h with ⟨k, rfl, h'⟩ | ⟨_, k, rfl, _, h'⟩
  · exact absurd h' ((by exact Fut.quiet_lift _ : Fut.Quiet _) _)
  rcases Fut.pending_bind h' with ⟨k, rfl, h''⟩ | ⟨⟨_, _ | _⟩, k, rfl, _, h''⟩
  · obtain ⟨s', hs⟩ := hd h''
    exact ⟨_, .mk hs⟩
  all_goals exact absurd h'' ((by quiet : Fut.Quiet _) _)

theorem invariant_consume_slots_total {C : BulkConsumer τ I F E} {d : SlotDrops C}
    (hd : ∀ {t a k}, (C.consumeSlots t a).Pending k → ∃ t', d.consumeSlots t a k t') {t : InvariantSt τ} {a : Nat} {k}
    (h : ((invariantBulkConsumer C).consumeSlots t a).Pending k) : ∃ t', (invariantSlotDrops d).consumeSlots t a k t' := by
  rcases Fut.pending_bind h with ⟨k, rfl, h'⟩ | ⟨_, k, rfl, _, h'⟩
  · exact absurd h' ((by exact Fut.quiet_lift _ : Fut.Quiet _) _)
  rcases Fut.pending_branch h' with ⟨_, k', _, hp⟩ | ⟨_, k', heq, hp⟩
  · exact absurd hp ((by exact Fut.quiet_lift _ : Fut.Quiet _) _)
  rcases Fut.pending_bind hp with ⟨k, rfl, h''⟩ | ⟨_, k, rfl, _, h''⟩
  · exact absurd h'' ((by exact Fut.quiet_lift _ : Fut.Quiet _) _)
  rcases Fut.pending_bind h'' with ⟨k, rfl, h3⟩ | ⟨_, k, rfl, _, h3⟩
  · obtain ⟨s', hs⟩ := hd h3
    exact ⟨_, .mk heq hs⟩
  · exact absurd h3 ((by quiet : Fut.Quiet _) _)

/-- Whenever `bulk_pipe` into an `Invariant` is pending in `consume_slots`, it can be dropped there. -/
theorem invariant_consuming_dropped {E₁ : Type} {P : BulkProducer σ I F E₁} {C : BulkConsumer τ I F E} {dp : ProducerDrops P}
    {d : SlotDrops C} (hd : ∀ {t a k}, (C.consumeSlots t a).Pending k → ∃ t', d.consumeSlots t a k t') {s s₁ s₂ : σ}
    {t t₁ t₂ : InvariantSt τ} {zs slots : List I} {k} (h : (bulkPipe P (invariantBulkConsumer C) s t).Pending
      ⟨(s₁, t₁), .inr ⟨(s₂, .ok (.inl zs)), .inl (Sum.inr ⟨(t₂, .ok slots), Sum.inl k⟩)⟩⟩) :
    ∃ t', BulkPipeDropped dp (invariantConsumerDrops d) s t
      ⟨(s₁, t₁), .inr ⟨(s₂, .ok (.inl zs)), .inl (Sum.inr ⟨(t₂, .ok slots), Sum.inl k⟩)⟩⟩ s₂ t' := by
  have h1 := Fut.pending_left (Fut.pending_right (Fut.pending_loop h).2).2
  obtain ⟨t', h3⟩ := invariant_consume_slots_total hd (Fut.pending_left (Fut.pending_right h1).2)
  exact ⟨t', .consuming (.consuming h3)⟩

/-! ## Cases -/

/-- `produce` of an `Invariant` around a `TestProducer` is dropped: it has still the same to emit, and is still active. -/
example : ∃ k s', ((invariantBulkProducer Case.TP).produce (.new slowProducer)).Pending k ∧
    (invariantItemDrops (TestProducer.itemDrops false Nat Unit String)).produce (.new slowProducer) k s' ∧
    ∃ n, InvariantSt.Plays (Verif.TestProducer.Ready false) s' (Script.ofList [1, 2, 3] (.ok ())) n := by
  have h : ((invariantBulkProducer Case.TP).produce (.new slowProducer)).poll
      ((invariantBulkProducer Case.TP).produce (.new slowProducer)).start = ok (.pending (Sum.inr ⟨(), Sum.inl _⟩)) := rfl
  obtain ⟨s', hd⟩ := invariant_produce_total (P := Case.TP) (test_producer_drops_produce_total false) (.first h)
  exact ⟨_, _, .first h, hd, (invariant_item_drops (P := Case.TP) (test_producer_item_drops false)).produce
    ⟨0, rfl, .inl ⟨rfl, 0, Case.slow_ready⟩⟩ (.first h) hd⟩

/-- The other methods of producers. -/
example : (invariantDrops (TestProducer.drops false Nat Unit String)).Tolerated (InvariantSt.Plays (Verif.TestProducer.Ready false)) ∧
    (invariantDrops (TestProducer.drops false Nat Unit String)).Unconsidered (InvariantSt.Plays (Verif.TestProducer.Ready false)) ∧
    (invariantSlurpDrops Case.slowSliceSlurpDrops).Tolerated fun s c => ∃ n, InvariantSt.Plays FromSlice.Ready s c n :=
  ⟨invariant_drops (test_producer_drops false), invariant_drops_consider (test_producer_drops_consider false),
    invariant_slurp_drops (P := Case.slowSlice) Case.slowSlice_slurp_tolerated⟩

/-- The methods of consumers. -/
example : (invariantSlotDrops Case.slowVecDrops).Tolerated (InvariantSt.Collects IntoVec.Ready) ∧
    (invariantConsumerDrops Case.slowVecDrops).Tolerated (InvariantSt.Collects IntoVec.Ready) ∧
    ((invariantConsumeDrops (TestConsumer.consumeDrops false Nat Unit String)).Tolerated fun t l =>
      ∃ sl, InvariantSt.Collects (Verif.TestConsumer.Ready false 5 "full") t l sl) ∧
    (invariantFlushDrops Case.slowConsumeVecFlushDrops).Tolerated fun t l => ∃ sl, InvariantSt.Collects IntoVec.Ready t l sl :=
  ⟨invariant_slot_drops Case.slowVec_tolerated,
    invariant_consumer_drops (by rw [Case.slowVec_seq]; exact IntoVec.law) Case.slowVec_tolerated,
    invariant_consume_drops (C := Case.TC) (test_consumer_consume_drops false 5 "full"),
    invariant_flush_drops (C := Case.slowConsumeVec) Case.slowConsumeVec_flush_tolerated⟩

/-- **C107**, a witness: `bulk_pipe` between an `Invariant` producer and an `Invariant` consumer is dropped while `consume_slots` is pending,
and started again. The rule on dropped calls is broken, and no check notices: all items arrive. -/
theorem invariant_pipe_unnoticed : ∃ k s' t' s₁ t₁,
    (bulkPipe (invariantBulkProducer Case.TP) (invariantBulkConsumer Case.slowVec) (.new readyProducer) (.new .new)).Pending k ∧
    BulkPipeDropped (invariantDrops (TestProducer.drops false Nat Unit String)) (invariantConsumerDrops Case.slowVecDrops)
      (.new readyProducer) (.new .new) k s' t' ∧
    (bulkPipe (invariantBulkProducer Case.TP) (invariantBulkConsumer Case.slowVec) s' t').run = ok ((s₁, t₁), .ok ()) ∧
    t₁.inner.intoVec = [1, 2, 3] := by
  have h : (bulkPipe (invariantBulkProducer Case.TP) (invariantBulkConsumer Case.slowVec) (.new readyProducer) (.new .new)).poll
      (bulkPipe (invariantBulkProducer Case.TP) (invariantBulkConsumer Case.slowVec) (.new readyProducer) (.new .new)).start =
      ok (.pending ⟨(_, _), .inr ⟨(_, .ok (.inl _)), .inl (Sum.inr ⟨(_, .ok _), Sum.inl _⟩)⟩⟩) := loop_eq_of_fuel (n := 1) nofun
  obtain ⟨t', hd'⟩ := invariant_consuming_dropped (dp := invariantDrops (TestProducer.drops false Nat Unit String))
    (d := Case.slowVecDrops) (fun _ => ⟨_, rfl⟩) (.first h)
  obtain ⟨_, s₁, t₁, h1, h2⟩ := bulk_pipe_resumed (by rw [invariantBulkProducer_seq]; exact Case.TP_law.invariant)
    (by rw [invariantBulkConsumer_seq, Case.slowVec_seq]; exact IntoVec.law.invariant)
    (invariant_drops (test_producer_drops false))
    (invariant_consumer_drops (by rw [Case.slowVec_seq]; exact IntoVec.law) Case.slowVec_tolerated)
    (s := .new readyProducer) (t := .new .new)
    ⟨rfl, .inl ⟨rfl, 0, Case.ready_ready⟩⟩ ⟨rfl, .inl ⟨rfl, [], IntoVec.ready_fromVec []⟩⟩ (.drop (.first h) hd' .refl) (xs := [1, 2, 3])
    (.closed (Script.ofList_startsWith [1, 2, 3] _) Policy.accepts_acceptAll (by rfl) rfl)
  exact ⟨_, _, t', s₁, t₁, .first h, hd', h1, h2.2⟩

/-- Two items were exposed, and `consider_produced(2)` is dropped. The same call again panics. -/
example : ∃ k s', ((invariantBulkProducer Case.TP).considerProduced ⟨slowProducer, true, 2⟩ 2).Pending k ∧
    (invariantDrops (TestProducer.drops false Nat Unit String)).considerProduced ⟨slowProducer, true, 2⟩ 2 k s' ∧
    Panics ((invariantBulkProducer Case.TP).considerProduced s' 2) := by
  have h : ((invariantBulkProducer Case.TP).considerProduced ⟨slowProducer, true, 2⟩ 2).poll
      ((invariantBulkProducer Case.TP).considerProduced ⟨slowProducer, true, 2⟩ 2).start = ok (.pending _) := rfl
  obtain ⟨s', hd⟩ := invariant_consider_total (test_producer_drops_consider_total false) (.first h)
  exact ⟨_, s', .first h, hd, invariant_consider_again (.first h) hd (by decide)⟩

/-- The same for `consume_slots`. -/
example : ∃ k t', ((invariantBulkConsumer Case.slowVec).consumeSlots ⟨.new, true, 2⟩ 2).Pending k ∧
    (invariantSlotDrops Case.slowVecDrops).consumeSlots ⟨.new, true, 2⟩ 2 k t' ∧
    Panics ((invariantBulkConsumer Case.slowVec).consumeSlots t' 2) := by
  have h : ((invariantBulkConsumer Case.slowVec).consumeSlots ⟨.new, true, 2⟩ 2).poll
      ((invariantBulkConsumer Case.slowVec).consumeSlots ⟨.new, true, 2⟩ 2).start = ok (.pending _) := rfl
  obtain ⟨t', hd⟩ := invariant_consume_slots_total (d := Case.slowVecDrops) (fun _ => ⟨_, rfl⟩) (.first h)
  exact ⟨_, t', .first h, hd, invariant_consume_slots_again (.first h) hd (by decide)⟩

namespace Case

/-- An `IntoVec` whose `close` is pending once. -/
def slowClose : BulkConsumer (IntoVec Nat) Nat Unit Empty :=
  { V with close := fun s f => do pause; V.close s f }

/-- While it is pending, nothing has happened. -/
def slowCloseDrops : CloseDrops slowClose.toConsumer where
  close t _ _ t' := t' = t

end Case

/-- `close` is dropped: the wrapped consumer has not been closed, but the `Invariant` cannot be closed any more. -/
example : ∃ k t', ((invariantBulkConsumer Case.slowClose).close (.new .new) ()).Pending k ∧
    (invariantCloseDrops Case.slowCloseDrops).close (.new .new) () k t' ∧ t'.inner = .new ∧
    Panics ((invariantBulkConsumer Case.slowClose).close t' ()) := by
  have h : ((invariantBulkConsumer Case.slowClose).close (.new .new) ()).poll
      ((invariantBulkConsumer Case.slowClose).close (.new .new) ()).start = ok (.pending (Sum.inr ⟨(), Sum.inl _⟩)) := rfl
  obtain ⟨t', hd⟩ := invariant_close_total (d := Case.slowCloseDrops) (fun _ => ⟨_, rfl⟩) (.first h)
  exact ⟨_, t', .first h, hd, by cases hd with | mk hd => exact hd, (invariant_close_again hd).1 ()⟩

/-- An empty slice: after its final value has been produced, no method of the `Invariant` can be called. -/
example : ∃ s, ((invariantBulkProducer Case.slowSlice).produce (.new (.new []))).run = ok (s, .ok (.inr ())) ∧
    Panics ((invariantBulkProducer Case.slowSlice).produce s) ∧ Panics ((invariantBulkProducer Case.slowSlice).exposeItems s) := by
  have h : (invariantBulkProducer Case.slowSlice).seq.produce (.new (.new [])) = ok (⟨.new [], false, 0⟩, .ok (.inr ())) := by
    rw [invariantBulkProducer_seq, Case.slowSlice_seq]
    rfl
  have hi := invariant_producer_inactive (P := Case.slowSlice) (s := ⟨.new [], false, 0⟩) rfl
  exact ⟨_, h, hi.1, hi.2.2.1⟩

/-- A closed consumer. -/
example : ∃ t, ((invariantBulkConsumer Case.slowClose).close (.new .new) ()).run = ok (t, .ok ()) ∧
    Panics ((invariantBulkConsumer Case.slowClose).flush t) ∧ Panics ((invariantBulkConsumer Case.slowClose).exposeSlots t) := by
  have hc : Case.slowClose.seq.close .new () = ok (.new, .ok ()) :=
    (Fut.run_bind Case.pause fun _ => Case.V.close .new ()).trans (by rw [Case.pause_run]; exact Fut.run_lift _)
  have h : ((invariantBulkConsumer Case.slowClose).close (.new .new) ()).run = ok (⟨.new, false, 0⟩, .ok ()) := by
    show (invariantBulkConsumer Case.slowClose).seq.close (.new .new) () = _
    rw [invariantBulkConsumer_seq]
    simp [Verif.invariantBulkConsumer, Verif.invariantBufferedConsumer, Verif.invariantConsumer, InvariantSt.new,
      InvariantSt.checkInactive, hc]
  have hi := invariant_consumer_inactive (C := Case.slowClose) (t := ⟨.new, false, 0⟩) rfl
  exact ⟨_, h, hi.2.2.1, hi.2.2.2.1⟩

end Verif.Async
