import Verif.History
import Verif.Lemmas.History
import Verif.Model.Producers
import Verif.Model.Consumers

/-!
# Helper lemmas for C68: what the wrapped value has gone through
-/

namespace Verif

open Outcome

section

variable {σ τ I F F' E E' : Type}

/-! ## Producers -/

theorem BulkPlays.afterRun {P : BulkProducer σ I F E} {s s' : σ} {c : Script I F E} (h : BulkPlays P s c)
    {handed shown : List I} (hr : ProducerRuns P s handed s' shown none) :
    c.StartsWith handed ∧ BulkPlays P s' (c.drop handed.length) := by
  obtain ⟨R, hR, n, hn⟩ := h
  obtain ⟨h1, h2, -⟩ := hr.after hR hn
  obtain ⟨-, ⟨m, hm⟩, -⟩ := h2 rfl
  exact ⟨h1, R, hR, m, hm⟩

theorem BulkPlays.never_empty {P : BulkProducer σ I F E} {s : σ} {c : Script I F E} (h : BulkPlays P s c)
    {handed shown : List I} {u u' : σ} (hr : ProducerRuns P s handed u shown none) :
    P.exposeItems u ≠ ok (u', .ok (.inl [])) := by
  obtain ⟨-, R, hR, m, hm⟩ := h.afterRun hr
  intro he
  obtain ⟨s', ⟨xs, h1, h2, h3, h4⟩ | ⟨fin, h1, h2⟩ | ⟨e, h1, h2⟩⟩ := hR.expose _ _ _ hm
  · rw [he] at h3; cases h3; exact h1 rfl
  · rw [he] at h2; cases h2
  · rw [he] at h2; cases h2

theorem BufPlays.afterRun {P : BufferedProducer σ I F E} {s s' : σ} {c : Script I F E} (h : BufPlays P s c)
    {handed shown : List I} (hr : ProducerRuns P.asBulk s handed s' shown none) :
    c.StartsWith handed ∧ BufPlays P s' (c.drop handed.length) := by
  obtain ⟨R, hR, hs⟩ := h
  have : ∀ {handed s' shown ended}, ProducerRuns P.asBulk s handed s' shown ended → ended = none →
      c.StartsWith handed ∧ R s' (c.drop handed.length) := by
    intro handed s' shown ended hr
    induction hr with
    | start => exact fun _ => ⟨by simp, by simpa using hs⟩
    | @call handed t shown op t' r _ hop hcall ih =>
      intro he
      obtain ⟨h1, h2⟩ := ih rfl
      cases op with
      | produce =>
        obtain ⟨t'', h3, h4⟩ := hR.produce _ _ h2
        simp only [BulkProducer.call, BufferedProducer.asBulk, h3, bind_ok] at hcall
        rcases hc : c.drop handed.length 0 with e | x | f <;> rw [hc] at hcall <;> injection hcall with hcall <;>
          injection hcall with hc1 hc2 <;> subst hc1 hc2
        · cases he
        · refine ⟨h1.append (by simpa [Script.startsWith_cons] using hc), ?_⟩
          simpa using h4 x hc
        · cases he
      | slurp =>
        simp only [BulkProducer.call, BufferedProducer.asBulk] at hcall
        obtain ⟨t'', ⟨h3, h4⟩ | ⟨e, h3, h4⟩⟩ := hR.slurp _ _ h2
        · simp [h3] at hcall; obtain ⟨rfl, rfl⟩ := hcall
          simpa using ⟨h1, h4⟩
        · simp [h4] at hcall; obtain ⟨rfl, rfl⟩ := hcall
          cases he
      | exposeItems => cases hcall
      | considerProduced k => cases hcall
      | bulkProduce buf => cases hcall
  exact ⟨(this hr rfl).1, R, hR, (this hr rfl).2⟩

/-- The default `bulk_produce` is a call of `expose_items`, followed by one of `consider_produced` if that gave items. -/
theorem BulkProducer.call_bulkProduce {A : BulkProducer σ I F E}
    (hA : A.bulkProduce = bulkProduceDefault A.exposeItems A.considerProduced) {t t' : σ} {shown buf : List I}
    {r : Handout I F E} (h : A.call t shown (.bulkProduce buf) = ok (t', r)) :
    (A.call t shown .exposeItems = ok (t', r) ∧ r.items = [] ∧ r.shown = [] ∧ r.ended ≠ none) ∨
    ∃ t₁ xs r₂, A.exposeItems t = ok (t₁, .ok (.inl xs)) ∧ A.call t shown .exposeItems = ok (t₁, ⟨[], xs, none⟩) ∧
      A.call t₁ xs (.considerProduced (min xs.length buf.length)) = ok (t', r₂) ∧
      r.items = r₂.items ∧ r.shown = [] ∧ r.ended = r₂.ended := by
  simp only [BulkProducer.call, hA, bulkProduceDefault] at h
  rcases hp : A.exposeItems t with ⟨u, e | xs | f⟩ | _ | _ <;> simp [hp] at h
  · obtain ⟨rfl, rfl⟩ := h
    exact .inl ⟨by simp [BulkProducer.call, hp], rfl, rfl, by simp⟩
  · refine .inr ⟨u, xs, ?_⟩
    rcases hc : A.considerProduced u (min xs.length buf.length) with ⟨u', e | _⟩ | _ | _ <;> simp [hc] at h <;>
      obtain ⟨rfl, rfl⟩ := h
    · exact ⟨⟨[], [], some (.error e)⟩, rfl, by simp [BulkProducer.call, hp], by simp [BulkProducer.call, hc], rfl, rfl, rfl⟩
    · refine ⟨⟨xs.take (min xs.length buf.length), xs.drop (min xs.length buf.length), none⟩, rfl,
        by simp [BulkProducer.call, hp], by simp [BulkProducer.call, hc], rfl, rfl, rfl⟩
  · obtain ⟨rfl, rfl⟩ := h
    exact .inl ⟨by simp [BulkProducer.call, hp], rfl, rfl, by simp⟩

/-- `A` passes every call on to the producer `P` in it, and the items back; `bulk_produce` is the default. -/
structure ForwardsCalls (A : BulkProducer τ I F' E') (P : BulkProducer σ I F E) (inner : τ → σ) : Prop where
  call : ∀ {t shown op t' r}, (∀ buf, op ≠ .bulkProduce buf) → A.call t shown op = ok (t', r) →
    ∃ e, P.call (inner t) shown op = ok (inner t', ⟨r.items, r.shown, e⟩) ∧ (e = none ↔ r.ended = none)
  bulk : A.bulkProduce = bulkProduceDefault A.exposeItems A.considerProduced

theorem ForwardsCalls.histories {A : BulkProducer τ I F' E'} {P : BulkProducer σ I F E} {inner : τ → σ}
    (hA : ForwardsCalls A P inner) {t₀ : τ}
    (hP : ∀ {handed u shown u'}, ProducerRuns P (inner t₀) handed u shown none → P.exposeItems u ≠ ok (u', .ok (.inl [])))
    {handed : List I} {t : τ} {shown : List I} {ended : Option (Except E' F')} (h : ProducerRuns A t₀ handed t shown ended) :
    ∃ shown' ended', ProducerRuns P (inner t₀) handed (inner t) shown' ended' ∧ (shown = [] ∨ shown' = shown) ∧
      (ended' = none ↔ ended = none) := by
  induction h with
  | start => exact ⟨[], none, .start, .inl rfl, by simp⟩
  | @call handed t shown op t' r _ hop hcall ih =>
    obtain ⟨shown', ended', h1, h2, h3⟩ := ih
    obtain rfl : ended' = none := h3.mpr rfl
    by_cases hb : ∃ buf, op = .bulkProduce buf
    · obtain ⟨buf, rfl⟩ := hb
      rcases BulkProducer.call_bulkProduce hA.bulk hcall with ⟨h4, h5, h6, h7⟩ | ⟨t₁, xs, r₂, -, h5, h6, h7, h8, h9⟩
      · obtain ⟨e, h8, h9⟩ := hA.call (by simp) h4
        have := h1.call (op := .exposeItems) (s' := inner t') (r := ⟨r.items, r.shown, e⟩) trivial h8
        exact ⟨_, e, this, .inr rfl, h9⟩
      · obtain ⟨e, h10, h11⟩ := hA.call (by simp) h5
        obtain rfl : e = none := h11.mpr rfl
        obtain ⟨e₂, h12, h13⟩ := hA.call (by simp) h6
        have h14 := h1.call (op := .exposeItems) (s' := inner t₁) (r := ⟨[], xs, none⟩) trivial h10
        have hx : xs ≠ [] := by
          rintro rfl
          simp only [BulkProducer.call] at h10
          rcases hp : P.exposeItems (inner t) with ⟨u, e | ys | f⟩ | _ | _ <;> simp [hp] at h10
          obtain ⟨-, rfl⟩ := h10
          exact hP h1 hp
        have h15 := h14.call (op := .considerProduced (min xs.length buf.length)) (s' := inner t')
          (r := ⟨r₂.items, r₂.shown, e₂⟩) ⟨hx, Nat.min_le_left _ _⟩ h12
        refine ⟨r₂.shown, e₂, ?_, .inl h8, by rw [h9]; exact h13⟩
        simpa [h7] using h15
    · have hb : ∀ buf, op ≠ .bulkProduce buf := fun buf h => hb ⟨buf, h⟩
      by_cases hs : shown' = shown
      · subst hs
        obtain ⟨e, h8, h9⟩ := hA.call hb hcall
        exact ⟨_, e, h1.call (s' := inner t') (r := ⟨r.items, r.shown, e⟩) hop h8, .inr rfl, h9⟩
      · obtain rfl : shown = [] := h2.resolve_right hs
        obtain ⟨e, h8, h9⟩ := hA.call hb hcall
        refine ⟨_, e, h1.call (op := op) (s' := inner t') (r := ⟨r.items, r.shown, e⟩) ?_ ?_, .inr rfl, h9⟩
        · cases op <;> simp_all [ProducerOp.Allowed]
        · cases op <;> simp_all [ProducerOp.Allowed, BulkProducer.call]

theorem forwards_mapFinal {B : Type} (P : BulkProducer σ I F E) :
    ForwardsCalls (mapFinalBulkProducer (B := B) P) P MapFinalSt.intoInner where
  bulk := rfl
  call := by
    rintro ⟨u, fn⟩ shown op t' r hop h
    cases op with
    | produce =>
      simp only [BulkProducer.call, mapFinalBulkProducer, mapFinalBufferedProducer, mapFinalProducer] at h
      rcases hp : P.produce u with ⟨u', e | x | fin⟩ | _ | _ <;> cases fn <;> simp [hp, unwrap] at h <;>
        obtain ⟨rfl, rfl⟩ := h <;> simp [BulkProducer.call, MapFinalSt.intoInner, hp]
    | slurp =>
      simp only [BulkProducer.call, mapFinalBulkProducer, mapFinalBufferedProducer] at h
      rcases hp : P.slurp u with ⟨u', e | _⟩ | _ | _ <;> simp [hp] at h <;>
        obtain ⟨rfl, rfl⟩ := h <;> simp [BulkProducer.call, MapFinalSt.intoInner, hp]
    | exposeItems =>
      simp only [BulkProducer.call, mapFinalBulkProducer] at h
      rcases hp : P.exposeItems u with ⟨u', e | x | fin⟩ | _ | _ <;> cases fn <;> simp [hp, unwrap] at h <;>
        obtain ⟨rfl, rfl⟩ := h <;> simp [BulkProducer.call, MapFinalSt.intoInner, hp]
    | considerProduced k =>
      simp only [BulkProducer.call, mapFinalBulkProducer] at h
      rcases hp : P.considerProduced u k with ⟨u', e | _⟩ | _ | _ <;> simp [hp] at h <;>
        obtain ⟨rfl, rfl⟩ := h <;> simp [BulkProducer.call, MapFinalSt.intoInner, hp]
    | bulkProduce buf => exact absurd rfl (hop buf)

theorem forwards_mapError {B : Type} (P : BulkProducer σ I F E) :
    ForwardsCalls (mapErrorBulkProducer (B := B) P) P MapErrorSt.intoInner where
  bulk := rfl
  call := by
    rintro ⟨u, fn⟩ shown op t' r hop h
    cases op with
    | produce =>
      simp only [BulkProducer.call, mapErrorBulkProducer, mapErrorBufferedProducer, mapErrorProducer] at h
      rcases hp : P.produce u with ⟨u', e | x | fin⟩ | _ | _ <;> cases fn <;>
        simp [hp, unwrap, mapErrTake, Except.mapError] at h <;>
        obtain ⟨rfl, rfl⟩ := h <;> simp [BulkProducer.call, MapErrorSt.intoInner, hp]
    | slurp =>
      simp only [BulkProducer.call, mapErrorBulkProducer, mapErrorBufferedProducer] at h
      rcases hp : P.slurp u with ⟨u', e | _⟩ | _ | _ <;> cases fn <;>
        simp [hp, unwrap, mapErrTake, Except.mapError] at h <;>
        obtain ⟨rfl, rfl⟩ := h <;> simp [BulkProducer.call, MapErrorSt.intoInner, hp]
    | exposeItems =>
      simp only [BulkProducer.call, mapErrorBulkProducer] at h
      rcases hp : P.exposeItems u with ⟨u', e | x | fin⟩ | _ | _ <;> cases fn <;>
        simp [hp, unwrap, mapErrTake, Except.mapError] at h <;>
        obtain ⟨rfl, rfl⟩ := h <;> simp [BulkProducer.call, MapErrorSt.intoInner, hp]
    | considerProduced k =>
      simp only [BulkProducer.call, mapErrorBulkProducer] at h
      rcases hp : P.considerProduced u k with ⟨u', e | _⟩ | _ | _ <;> cases fn <;>
        simp [hp, unwrap, mapErrTake, Except.mapError] at h <;>
        obtain ⟨rfl, rfl⟩ := h <;> simp [BulkProducer.call, MapErrorSt.intoInner, hp]
    | bulkProduce buf => exact absurd rfl (hop buf)

theorem forwards_invariant (P : BulkProducer σ I F E) :
    ForwardsCalls (invariantBulkProducer P) P InvariantSt.intoInner where
  bulk := rfl
  call := by
    rintro ⟨u, active, n⟩ shown op t' r hop h
    cases active with
    | false =>
      cases op <;> simp [BulkProducer.call, invariantBulkProducer, invariantBufferedProducer, invariantProducer,
        InvariantSt.checkInactive, assert] at h
      exact absurd rfl (hop _)
    | true =>
      cases op with
      | produce =>
        simp only [BulkProducer.call, invariantBulkProducer, invariantBufferedProducer, invariantProducer] at h
        rcases hp : P.produce u with ⟨u', e | x | fin⟩ | _ | _ <;>
          simp [hp, InvariantSt.checkInactive, assert] at h <;>
          obtain ⟨rfl, rfl⟩ := h <;> simp [BulkProducer.call, InvariantSt.intoInner, hp]
      | slurp =>
        simp only [BulkProducer.call, invariantBulkProducer, invariantBufferedProducer] at h
        rcases hp : P.slurp u with ⟨u', e | _⟩ | _ | _ <;>
          simp [hp, InvariantSt.checkInactive, assert] at h <;>
          obtain ⟨rfl, rfl⟩ := h <;> simp [BulkProducer.call, InvariantSt.intoInner, hp]
      | exposeItems =>
        simp only [BulkProducer.call, invariantBulkProducer] at h
        rcases hp : P.exposeItems u with ⟨u', e | x | fin⟩ | _ | _ <;>
          simp [hp, InvariantSt.checkInactive, assert] at h <;>
          obtain ⟨rfl, rfl⟩ := h <;> simp [BulkProducer.call, InvariantSt.intoInner, hp]
      | considerProduced k =>
        simp only [BulkProducer.call, invariantBulkProducer] at h
        by_cases hk : k > n
        · simp [hk, InvariantSt.checkInactive, assert] at h
        · rcases hp : P.considerProduced u k with ⟨u', e | _⟩ | _ | _ <;>
            simp [hp, hk, InvariantSt.checkInactive, assert, sub_of_le (Nat.le_of_not_lt hk)] at h <;>
            obtain ⟨rfl, rfl⟩ := h <;> simp [BulkProducer.call, InvariantSt.intoInner, hp]
      | bulkProduce buf => exact absurd rfl (hop buf)

theorem forwards_noop (P : BulkProducer σ I F E) : ForwardsCalls (invariantNoopBulkProducer P) P id where
  bulk := rfl
  call := by
    rintro u shown op t' r hop h
    refine ⟨r.ended, ?_, Iff.rfl⟩
    cases op with
    | bulkProduce buf => exact absurd rfl (hop buf)
    | _ => exact h

/-! ## Consumers -/

theorem BulkCollects.afterRun {C : BulkConsumer σ I F E} {D : σ → List I → Option F → Prop} {q : Policy I F E} {s s' : σ}
    {l : List I} (h : BulkCollects C D q s l) {taken slots : List I} (hr : ConsumerRuns C s taken s' slots none) :
    q.Accepts l taken ∧ BulkCollects C D q s' (l ++ taken) := by
  obtain ⟨R, hR, sl, hs⟩ := h
  obtain ⟨h1, ⟨sl', h2⟩, -⟩ := hr.after hR hs
  exact ⟨h1, R, hR, sl', h2⟩

theorem BulkCollects.never_empty {C : BulkConsumer σ I F E} {D : σ → List I → Option F → Prop} {q : Policy I F E} {s : σ}
    {l : List I} (h : BulkCollects C D q s l) {taken slots : List I} {u u' : σ} (hr : ConsumerRuns C s taken u slots none) :
    C.exposeSlots u ≠ ok (u', .ok []) := by
  obtain ⟨-, R, hR, sl, hs⟩ := h.afterRun hr
  intro he
  rcases hq : q.refuse (l ++ taken) with _ | e
  · obtain ⟨s', slots', h1, h2, -⟩ := hR.expose_ok _ _ _ hs hq
    rw [he] at h2; cases h2; exact h1 rfl
  · obtain ⟨s', h1, -⟩ := hR.expose_err _ _ _ e hs hq
    rw [he] at h1; cases h1

theorem BufCollects.afterRun {C : BufferedConsumer σ I F E} {D : σ → List I → Option F → Prop} {q : Policy I F E} {s s' : σ}
    {l : List I} (h : BufCollects C D q s l) {taken slots : List I} (hr : ConsumerRuns C.asBulk s taken s' slots none) :
    q.Accepts l taken ∧ BufCollects C D q s' (l ++ taken) := by
  obtain ⟨R, hR, hs⟩ := h
  have : ∀ {taken s' slots ended}, ConsumerRuns C.asBulk s taken s' slots ended → ended = none →
      q.Accepts l taken ∧ R s' (l ++ taken) := by
    intro taken s' slots ended hr
    induction hr with
    | start => exact fun _ => ⟨by simp, by simpa using hs⟩
    | @call taken t slots op t' r _ hop hcall ih =>
      intro he
      obtain ⟨h1, h2⟩ := ih rfl
      cases op with
      | consume x =>
        simp only [BulkConsumer.call, BufferedConsumer.asBulk] at hcall
        rcases hq : q.answer (l ++ taken) x with _ | e
        · obtain ⟨t'', h3, h4⟩ := hR.consume_ok _ _ x h2 hq
          simp [h3] at hcall; obtain ⟨rfl, rfl⟩ := hcall
          exact ⟨Policy.accepts_append.mpr ⟨h1, by simpa [Policy.accepts_cons] using hq⟩, by simpa using h4⟩
        · obtain ⟨t'', h3, h4⟩ := hR.consume_err _ _ x e h2 hq
          simp [h3] at hcall; obtain ⟨rfl, rfl⟩ := hcall
          cases he
      | flush =>
        simp only [BulkConsumer.call, BufferedConsumer.asBulk] at hcall
        obtain ⟨t'', ⟨h3, h4⟩ | ⟨e, h3, h4, h5⟩⟩ := hR.flush _ _ h2
        · simp [h3] at hcall; obtain ⟨rfl, rfl⟩ := hcall
          simpa using ⟨h1, h4⟩
        · simp [h4] at hcall; obtain ⟨rfl, rfl⟩ := hcall
          cases he
      | exposeSlots => cases hcall
      | write ws =>
        simp only [BulkConsumer.call, BufferedConsumer.asBulk] at hcall
        injection hcall with hcall; injection hcall with hc1 hc2; subst hc1 hc2
        simpa using ⟨h1, h2⟩
      | consumeSlots k => cases hcall
      | bulkConsume buf => cases hcall
      | close f =>
        simp only [BulkConsumer.call, BufferedConsumer.asBulk] at hcall
        rcases hp : C.close t f with ⟨u', e | _⟩ | _ | _ <;> simp [hp] at hcall <;> obtain ⟨rfl, rfl⟩ := hcall <;> cases he
  exact ⟨(this hr rfl).1, R, hR, (this hr rfl).2⟩

/-- The default `bulk_consume` is a call of `expose_slots`, followed by writing and `consume_slots` if that gave slots. -/
theorem BulkConsumer.call_bulkConsume {A : BulkConsumer σ I F E}
    (hA : A.bulkConsume = bulkConsumeDefault A.exposeSlots A.writeSlots A.consumeSlots) {t t' : σ} {slots buf : List I}
    {r : Receipt I F E} (h : A.call t slots (.bulkConsume buf) = ok (t', r)) :
    (∃ r₁, A.call t slots .exposeSlots = ok (t', r₁) ∧ r₁.items = [] ∧ r₁.ended ≠ none ∧ r.items = [] ∧ r.slots = [] ∧
      r.ended ≠ none) ∨
    ∃ t₁ xs r₂, A.exposeSlots t = ok (t₁, .ok xs) ∧ A.call t slots .exposeSlots = ok (t₁, ⟨[], xs, none⟩) ∧
      A.call (A.writeSlots t₁ (buf.take (min xs.length buf.length)))
        (buf.take (min xs.length buf.length) ++ xs.drop (buf.take (min xs.length buf.length)).length)
        (.consumeSlots (min xs.length buf.length)) = ok (t', r₂) ∧
      r.items = r₂.items ∧ r.slots = [] ∧ (r.ended = none ↔ r₂.ended = none) := by
  simp only [BulkConsumer.call, hA, bulkConsumeDefault] at h
  rcases hp : A.exposeSlots t with ⟨u, e | xs⟩ | _ | _ <;> simp only [hp, bind_eq, bind_ok, pure_eq] at h
  · injection h with h; injection h with h1 h2; subst h1 h2
    exact .inl ⟨⟨[], [], some (.failed e [])⟩, by simp [BulkConsumer.call, hp], rfl, by simp, rfl, rfl, by simp⟩
  · refine .inr ⟨u, xs, ?_⟩
    have hk : (buf.take (min xs.length buf.length)).length = min xs.length buf.length := by simp
    generalize hm : min xs.length buf.length = k at *
    rcases hc : A.consumeSlots (A.writeSlots u (buf.take k)) k with ⟨u', e | _⟩ | _ | _ <;>
      simp only [hc, bind_ok] at h
    · injection h with h; injection h with h1 h2; subst h1 h2
      exact ⟨⟨[], [], some (.failed e (buf.take k))⟩, rfl, by simp [BulkConsumer.call, hp],
        by simp only [BulkConsumer.call, hc, bind_ok, List.take_left' hk], rfl, rfl, by simp⟩
    · injection h with h; injection h with h1 h2; subst h1 h2
      exact ⟨⟨buf.take k, xs.drop k, none⟩, rfl, by simp [BulkConsumer.call, hp],
        by simp only [BulkConsumer.call, hc, bind_ok, List.take_left' hk, List.drop_left' hk, hk], rfl, rfl, by simp⟩
    · cases h
    · cases h
  · cases h
  · cases h

/-- The same method, with the same arguments, except for final values. -/
def ConsumerOp.Like : ConsumerOp I F' → ConsumerOp I F → Prop
  | .consume x, .consume y => x = y
  | .flush, .flush => True
  | .exposeSlots, .exposeSlots => True
  | .write ws, .write ws' => ws = ws'
  | .consumeSlots k, .consumeSlots k' => k = k'
  | .close _, .close _ => True
  | _, _ => False

/-- `A` passes every call on to the consumer `C` in it; `bulk_consume` is the default. -/
structure ForwardsConsumerCalls (A : BulkConsumer τ I F' E') (C : BulkConsumer σ I F E) (inner : τ → σ) : Prop where
  call : ∀ {t slots op t' r}, (∀ buf, op ≠ .bulkConsume buf) → A.call t slots op = ok (t', r) →
    ∃ op' e, op.Like op' ∧ C.call (inner t) slots op' = ok (inner t', ⟨r.items, r.slots, e⟩) ∧ (e = none ↔ r.ended = none)
  bulk : A.bulkConsume = bulkConsumeDefault A.exposeSlots A.writeSlots A.consumeSlots

theorem ForwardsConsumerCalls.histories {A : BulkConsumer τ I F' E'} {C : BulkConsumer σ I F E} {inner : τ → σ}
    (hA : ForwardsConsumerCalls A C inner) {t₀ : τ}
    (hC : ∀ {taken u slots u'}, ConsumerRuns C (inner t₀) taken u slots none → C.exposeSlots u ≠ ok (u', .ok []))
    {taken : List I} {t : τ} {slots : List I} {ended : Option (ConsumerEnd I F' E')} (h : ConsumerRuns A t₀ taken t slots ended) :
    ∃ slots' ended', ConsumerRuns C (inner t₀) taken (inner t) slots' ended' ∧ (slots = [] ∨ slots' = slots) ∧
      (ended' = none ↔ ended = none) := by
  induction h with
  | start => exact ⟨[], none, .start, .inl rfl, by simp⟩
  | @call taken t slots op t' r _ hop hcall ih =>
    obtain ⟨slots', ended', h1, h2, h3⟩ := ih
    obtain rfl : ended' = none := h3.mpr rfl
    by_cases hb : ∃ buf, op = .bulkConsume buf
    · obtain ⟨buf, rfl⟩ := hb
      have hbuf : 0 < buf.length := List.length_pos_iff.mpr hop
      rcases BulkConsumer.call_bulkConsume hA.bulk hcall with
        ⟨r₁, h4, h5, h6, h7, h8, h9⟩ | ⟨t₁, xs, r₂, -, h5, h6, h7, h8, h9⟩
      · obtain ⟨op', e, hl, h10, h11⟩ := hA.call (by simp) h4
        obtain rfl : op' = .exposeSlots := by cases op' <;> simp_all [ConsumerOp.Like]
        have := h1.call (op := .exposeSlots) (s' := inner t') (r := ⟨r₁.items, r₁.slots, e⟩) trivial h10
        refine ⟨_, e, by simpa [h7, h5] using this, .inl h8, ?_⟩
        rw [h11]; exact ⟨fun h => absurd h h6, fun h => absurd h h9⟩
      · obtain ⟨op', e, hl, h10, h11⟩ := hA.call (by simp) h5
        obtain rfl : op' = .exposeSlots := by cases op' <;> simp_all [ConsumerOp.Like]
        obtain rfl : e = none := h11.mpr rfl
        have h12 := h1.call (op := .exposeSlots) (s' := inner t₁) (r := ⟨[], xs, none⟩) trivial h10
        have hx : xs ≠ [] := by
          rintro rfl
          simp only [BulkConsumer.call] at h10
          rcases hp : C.exposeSlots (inner t) with ⟨u, e | ys⟩ | _ | _ <;> simp [hp] at h10
          obtain ⟨-, rfl⟩ := h10
          exact hC h1 hp
        have hx' : 0 < xs.length := List.length_pos_iff.mpr hx
        have hlen : (buf.take (min xs.length buf.length)).length = min xs.length buf.length := by simp
        have hkx : min xs.length buf.length ≤ xs.length := Nat.min_le_left _ _
        have hk0 : 0 < min xs.length buf.length := by omega
        generalize min xs.length buf.length = k at *
        obtain ⟨op', e, hl, h13, h14⟩ := hA.call (t := t₁) (slots := xs) (op := .write (buf.take k))
          (r := ⟨[], buf.take k ++ xs.drop (buf.take k).length, none⟩) (by simp) rfl
        obtain rfl : op' = .write (buf.take k) := by cases op' <;> simp_all [ConsumerOp.Like]
        obtain rfl : e = none := h14.mpr rfl
        have h15 := h12.call (op := .write (buf.take k)) (by simp only [ConsumerOp.Allowed]; omega) h13
        obtain ⟨op', e, hl, h16, h17⟩ := hA.call (by simp) h6
        obtain rfl : op' = .consumeSlots k := by cases op' <;> simp_all [ConsumerOp.Like]
        have hal : ConsumerOp.Allowed (F := F) (buf.take k ++ xs.drop (buf.take k).length) (.consumeSlots k) := by
          refine ⟨fun h0 => ?_, ?_⟩
          · have := congrArg List.length h0
            rw [List.length_append, hlen, List.length_nil] at this; omega
          · rw [List.length_append, hlen]; omega
        have h18 := h15.call (op := .consumeSlots k) hal h16
        refine ⟨r₂.slots, e, by simpa [h7] using h18, .inl h8, by rw [h17, h9]⟩
    · have hb : ∀ buf, op ≠ .bulkConsume buf := fun buf h => hb ⟨buf, h⟩
      obtain ⟨op', e, hl, h8, h9⟩ := hA.call hb hcall
      by_cases hs : slots' = slots
      · subst hs
        refine ⟨_, e, h1.call (s' := inner t') (r := ⟨r.items, r.slots, e⟩) (op := op') ?_ h8, .inr rfl, h9⟩
        cases op <;> cases op' <;> simp_all [ConsumerOp.Like, ConsumerOp.Allowed]
      · obtain rfl : slots = [] := h2.resolve_right hs
        by_cases hw : ∃ ws, op = .write ws
        · obtain ⟨ws, rfl⟩ := hw
          obtain rfl : ws = [] := by simpa [ConsumerOp.Allowed] using hop
          obtain rfl : op' = .write [] := by cases op' <;> simp_all [ConsumerOp.Like]
          simp only [BulkConsumer.call] at h8 hcall
          injection hcall with hcall; injection hcall with hc1 hc2
          injection h8 with h8; injection h8 with h81 h82
          subst hc2
          injection h82 with _ _ h83
          refine ⟨slots', none, ?_, .inl rfl, by simp⟩
          rw [← h81]
          exact h1.call (op := .write []) (r := ⟨[], slots', none⟩) (by simp [ConsumerOp.Allowed]) (by simp [BulkConsumer.call])
        · refine ⟨_, e, h1.call (op := op') (s' := inner t') (r := ⟨r.items, r.slots, e⟩) ?_ ?_, .inr rfl, h9⟩
          · cases op <;> cases op' <;> simp_all [ConsumerOp.Like, ConsumerOp.Allowed]
          · cases op <;> cases op' <;> simp_all [ConsumerOp.Like, ConsumerOp.Allowed, BulkConsumer.call]

theorem forwards_mapFinal_consumer {B : Type} (C : BulkConsumer σ I F E) :
    ForwardsConsumerCalls (mapFinalBulkConsumer (B := B) C) C MapFinalSt.intoInner where
  bulk := rfl
  call := by
    rintro ⟨u, fn⟩ slots op t' r hop h
    cases op with
    | consume x =>
      refine ⟨.consume x, ?_⟩
      simp only [BulkConsumer.call, mapFinalBulkConsumer, mapFinalBufferedConsumer, mapFinalConsumer] at h
      rcases hp : C.consume u x with ⟨u', e | _⟩ | _ | _ <;> simp [hp] at h <;>
        obtain ⟨rfl, rfl⟩ := h <;> simp [ConsumerOp.Like, BulkConsumer.call, MapFinalSt.intoInner, hp]
    | flush =>
      refine ⟨.flush, ?_⟩
      simp only [BulkConsumer.call, mapFinalBulkConsumer, mapFinalBufferedConsumer] at h
      rcases hp : C.flush u with ⟨u', e | _⟩ | _ | _ <;> simp [hp] at h <;>
        obtain ⟨rfl, rfl⟩ := h <;> simp [ConsumerOp.Like, BulkConsumer.call, MapFinalSt.intoInner, hp]
    | exposeSlots =>
      refine ⟨.exposeSlots, ?_⟩
      simp only [BulkConsumer.call, mapFinalBulkConsumer] at h
      rcases hp : C.exposeSlots u with ⟨u', e | xs⟩ | _ | _ <;> simp [hp] at h <;>
        obtain ⟨rfl, rfl⟩ := h <;> simp [ConsumerOp.Like, BulkConsumer.call, MapFinalSt.intoInner, hp]
    | write ws =>
      simp only [BulkConsumer.call, mapFinalBulkConsumer] at h
      injection h with h; injection h with h1 h2; subst h1 h2
      exact ⟨.write ws, none, rfl, rfl, by simp⟩
    | consumeSlots k =>
      refine ⟨.consumeSlots k, ?_⟩
      simp only [BulkConsumer.call, mapFinalBulkConsumer] at h
      rcases hp : C.consumeSlots u k with ⟨u', e | _⟩ | _ | _ <;> simp [hp] at h <;>
        obtain ⟨rfl, rfl⟩ := h <;> simp [ConsumerOp.Like, BulkConsumer.call, MapFinalSt.intoInner, hp]
    | bulkConsume buf => exact absurd rfl (hop buf)
    | close f =>
      simp only [BulkConsumer.call, mapFinalBulkConsumer, mapFinalBufferedConsumer, mapFinalConsumer] at h
      cases fn with
      | none => simp [unwrap] at h
      | some g =>
        refine ⟨.close (g f), ?_⟩
        rcases hp : C.close u (g f) with ⟨u', e | _⟩ | _ | _ <;> simp [hp, unwrap] at h <;>
          obtain ⟨rfl, rfl⟩ := h <;> simp [ConsumerOp.Like, BulkConsumer.call, MapFinalSt.intoInner, hp]

theorem forwards_mapError_consumer {B : Type} (C : BulkConsumer σ I F E) :
    ForwardsConsumerCalls (mapErrorBulkConsumer (B := B) C) C MapErrorSt.intoInner where
  bulk := rfl
  call := by
    rintro ⟨u, fn⟩ slots op t' r hop h
    cases op with
    | consume x =>
      refine ⟨.consume x, ?_⟩
      simp only [BulkConsumer.call, mapErrorBulkConsumer, mapErrorBufferedConsumer, mapErrorConsumer] at h
      rcases hp : C.consume u x with ⟨u', e | _⟩ | _ | _ <;> cases fn <;>
        simp [hp, unwrap, mapErrTake, Except.mapError] at h <;>
        obtain ⟨rfl, rfl⟩ := h <;> simp [ConsumerOp.Like, BulkConsumer.call, MapErrorSt.intoInner, hp]
    | flush =>
      refine ⟨.flush, ?_⟩
      simp only [BulkConsumer.call, mapErrorBulkConsumer, mapErrorBufferedConsumer] at h
      rcases hp : C.flush u with ⟨u', e | _⟩ | _ | _ <;> cases fn <;>
        simp [hp, unwrap, mapErrTake, Except.mapError] at h <;>
        obtain ⟨rfl, rfl⟩ := h <;> simp [ConsumerOp.Like, BulkConsumer.call, MapErrorSt.intoInner, hp]
    | exposeSlots =>
      refine ⟨.exposeSlots, ?_⟩
      simp only [BulkConsumer.call, mapErrorBulkConsumer] at h
      rcases hp : C.exposeSlots u with ⟨u', e | xs⟩ | _ | _ <;> cases fn <;>
        simp [hp, unwrap, mapErrTake, Except.mapError] at h <;>
        obtain ⟨rfl, rfl⟩ := h <;> simp [ConsumerOp.Like, BulkConsumer.call, MapErrorSt.intoInner, hp]
    | write ws =>
      simp only [BulkConsumer.call, mapErrorBulkConsumer] at h
      injection h with h; injection h with h1 h2; subst h1 h2
      exact ⟨.write ws, none, rfl, rfl, by simp⟩
    | consumeSlots k =>
      refine ⟨.consumeSlots k, ?_⟩
      simp only [BulkConsumer.call, mapErrorBulkConsumer] at h
      rcases hp : C.consumeSlots u k with ⟨u', e | _⟩ | _ | _ <;> cases fn <;>
        simp [hp, unwrap, mapErrTake, Except.mapError] at h <;>
        obtain ⟨rfl, rfl⟩ := h <;> simp [ConsumerOp.Like, BulkConsumer.call, MapErrorSt.intoInner, hp]
    | bulkConsume buf => exact absurd rfl (hop buf)
    | close f =>
      refine ⟨.close f, ?_⟩
      simp only [BulkConsumer.call, mapErrorBulkConsumer, mapErrorBufferedConsumer, mapErrorConsumer] at h
      rcases hp : C.close u f with ⟨u', e | _⟩ | _ | _ <;> cases fn <;>
        simp [hp, unwrap, mapErrTake, Except.mapError] at h <;>
        obtain ⟨rfl, rfl⟩ := h <;> simp [ConsumerOp.Like, BulkConsumer.call, MapErrorSt.intoInner, hp]

theorem forwards_invariant_consumer (C : BulkConsumer σ I F E) :
    ForwardsConsumerCalls (invariantBulkConsumer C) C InvariantSt.intoInner where
  bulk := rfl
  call := by
    rintro ⟨u, active, n⟩ slots op t' r hop h
    cases active with
    | false =>
      cases op with
      | bulkConsume buf => exact absurd rfl (hop buf)
      | write ws =>
        simp only [BulkConsumer.call, invariantBulkConsumer] at h
        injection h with h; injection h with h1 h2; subst h1 h2
        exact ⟨.write ws, none, rfl, rfl, by simp⟩
      | _ =>
        simp [BulkConsumer.call, invariantBulkConsumer, invariantBufferedConsumer, invariantConsumer,
          InvariantSt.checkInactive, assert] at h
    | true =>
      cases op with
      | consume x =>
        refine ⟨.consume x, ?_⟩
        simp only [BulkConsumer.call, invariantBulkConsumer, invariantBufferedConsumer, invariantConsumer] at h
        rcases hp : C.consume u x with ⟨u', e | _⟩ | _ | _ <;> simp [hp, InvariantSt.checkInactive, assert] at h <;>
          obtain ⟨rfl, rfl⟩ := h <;> simp [ConsumerOp.Like, BulkConsumer.call, InvariantSt.intoInner, hp]
      | flush =>
        refine ⟨.flush, ?_⟩
        simp only [BulkConsumer.call, invariantBulkConsumer, invariantBufferedConsumer] at h
        rcases hp : C.flush u with ⟨u', e | _⟩ | _ | _ <;> simp [hp, InvariantSt.checkInactive, assert] at h <;>
          obtain ⟨rfl, rfl⟩ := h <;> simp [ConsumerOp.Like, BulkConsumer.call, InvariantSt.intoInner, hp]
      | exposeSlots =>
        refine ⟨.exposeSlots, ?_⟩
        simp only [BulkConsumer.call, invariantBulkConsumer] at h
        rcases hp : C.exposeSlots u with ⟨u', e | xs⟩ | _ | _ <;> simp [hp, InvariantSt.checkInactive, assert] at h <;>
          obtain ⟨rfl, rfl⟩ := h <;> simp [ConsumerOp.Like, BulkConsumer.call, InvariantSt.intoInner, hp]
      | write ws =>
        simp only [BulkConsumer.call, invariantBulkConsumer] at h
        injection h with h; injection h with h1 h2; subst h1 h2
        exact ⟨.write ws, none, rfl, rfl, by simp⟩
      | consumeSlots k =>
        refine ⟨.consumeSlots k, ?_⟩
        simp only [BulkConsumer.call, invariantBulkConsumer] at h
        by_cases hk : k > n
        · simp [hk, InvariantSt.checkInactive, assert] at h
        · rcases hp : C.consumeSlots u k with ⟨u', e | _⟩ | _ | _ <;>
            simp [hp, hk, InvariantSt.checkInactive, assert, sub_of_le (Nat.le_of_not_lt hk)] at h <;>
            obtain ⟨rfl, rfl⟩ := h <;> simp [ConsumerOp.Like, BulkConsumer.call, InvariantSt.intoInner, hp]
      | bulkConsume buf => exact absurd rfl (hop buf)
      | close f =>
        refine ⟨.close f, ?_⟩
        simp only [BulkConsumer.call, invariantBulkConsumer, invariantBufferedConsumer, invariantConsumer] at h
        rcases hp : C.close u f with ⟨u', e | _⟩ | _ | _ <;> simp [hp, InvariantSt.checkInactive, assert] at h <;>
          obtain ⟨rfl, rfl⟩ := h <;> simp [ConsumerOp.Like, BulkConsumer.call, InvariantSt.intoInner, hp]

theorem forwards_noop_consumer (C : BulkConsumer σ I F E) : ForwardsConsumerCalls (invariantNoopBulkConsumer C) C id where
  bulk := rfl
  call := by
    rintro u slots op t' r hop h
    refine ⟨op, r.ended, ?_, ?_, Iff.rfl⟩
    · cases op with
      | bulkConsume buf => exact absurd rfl (hop buf)
      | _ => simp [ConsumerOp.Like]
    · cases op with
      | bulkConsume buf => exact absurd rfl (hop buf)
      | _ => exact h

end

end Verif
