import Verif.History
import Verif.Lemmas.Traces

/-!
# Helper lemmas about histories of method calls
-/

namespace Verif

open Outcome

section

variable {σ I F E : Type}

/-- What is known about a lawful producer after a history. -/
def AfterRun (R : σ → Script I F E → Nat → Prop) (c : Script I F E) (handed : List I) (s : σ) (shown : List I)
    (ended : Option (Except E F)) : Prop :=
  c.StartsWith handed ∧
  (ended = none → (c.drop handed.length).StartsWith shown ∧ (∃ n, R s (c.drop handed.length) n) ∧
    (shown ≠ [] → R s (c.drop handed.length) shown.length)) ∧
  ∀ r, ended = some r → c handed.length = r.map .inr

theorem BulkPlaysLaw.call {P : BulkProducer σ I F E} {R : σ → Script I F E → Nat → Prop} (hP : BulkPlaysLaw P R)
    {s : σ} {c : Script I F E} {shown : List I} {n : Nat} (hR : R s c n) (hs : c.StartsWith shown)
    (hsR : shown ≠ [] → R s c shown.length) {op : ProducerOp I} (hop : op.Allowed shown) :
    ∃ s' r, P.call s shown op = ok (s', r) ∧ AfterRun R c r.items s' r.shown r.ended := by
  cases op with
  | produce =>
    obtain ⟨s', h1, h2⟩ := hP.base.produce s c ⟨n, hR⟩
    rcases hc : c 0 with e | x | f
    · exact ⟨s', ⟨[], [], some (.error e)⟩, by simp [BulkProducer.call, h1, hc],
        by simp, by simp, by rintro r ⟨⟩; simp [hc, Except.map]⟩
    · obtain ⟨m, hm⟩ := h2 x hc
      refine ⟨s', ⟨[x], [], none⟩, by simp [BulkProducer.call, h1, hc], ?_, ?_, by simp⟩
      · simp [Script.startsWith_cons, hc]
      · intro _; exact ⟨by simp, ⟨m, hm⟩, by simp⟩
    · exact ⟨s', ⟨[], [], some (.ok f)⟩, by simp [BulkProducer.call, h1, hc],
        by simp, by simp, by rintro r ⟨⟩; simp [hc, Except.map]⟩
  | slurp =>
    obtain ⟨s', ⟨h1, m, h2⟩ | ⟨e, h1, h2⟩⟩ := hP.base.slurp s c ⟨n, hR⟩
    · exact ⟨s', ⟨[], [], none⟩, by simp [BulkProducer.call, h1], by simp, fun _ => ⟨by simp, ⟨m, by simpa using h2⟩,
        by simp⟩, by simp⟩
    · exact ⟨s', ⟨[], [], some (.error e)⟩, by simp [BulkProducer.call, h2],
        by simp, by simp, by rintro r ⟨⟩; simp [h1, Except.map]⟩
  | exposeItems =>
    obtain ⟨s', ⟨xs, hne, hsw, h1, h2⟩ | ⟨f, h1, h2⟩ | ⟨e, h1, h2⟩⟩ := hP.expose s c n hR
    · exact ⟨s', ⟨[], xs, none⟩, by simp [BulkProducer.call, h1], by simp,
        fun _ => ⟨by simpa using hsw, ⟨_, by simpa using h2⟩, fun _ => by simpa using h2⟩, by simp⟩
    · exact ⟨s', ⟨[], [], some (.ok f)⟩, by simp [BulkProducer.call, h2],
        by simp, by simp, by rintro r ⟨⟩; simp [h1, Except.map]⟩
    · exact ⟨s', ⟨[], [], some (.error e)⟩, by simp [BulkProducer.call, h2],
        by simp, by simp, by rintro r ⟨⟩; simp [h1, Except.map]⟩
  | considerProduced k =>
    obtain ⟨hne, hk⟩ := hop
    obtain ⟨s', h1, h2⟩ := hP.consider s c shown.length k (hsR hne) (List.length_pos_iff.mpr hne) hk
    have hlen : (shown.take k).length = k := by simp; omega
    refine ⟨s', ⟨shown.take k, shown.drop k, none⟩, by simp [BulkProducer.call, h1], hs.take k, fun _ => ?_, by simp⟩
    simp only [hlen]
    refine ⟨hs.drop hk, ⟨_, h2⟩, fun _ => ?_⟩
    rw [List.length_drop]; exact h2
  | bulkProduce buf =>
    obtain ⟨s', buf', hlen, ⟨k, hk0, hk, h1, h2, m, h3⟩ | ⟨f, h1, h2⟩ | ⟨e, h1, h2⟩⟩ := hP.bulkProduce s c n buf hR hop
    · have hl : (buf'.take k).length = k := by simp; omega
      refine ⟨s', ⟨buf'.take k, [], none⟩, by simp [BulkProducer.call, h1], h2, fun _ => ?_, by simp⟩
      simp only [hl]
      exact ⟨by simp, ⟨m, h3⟩, by simp⟩
    · exact ⟨s', ⟨[], [], some (.ok f)⟩, by simp [BulkProducer.call, h2],
        by simp, by simp, by rintro r ⟨⟩; simp [h1, Except.map]⟩
    · exact ⟨s', ⟨[], [], some (.error e)⟩, by simp [BulkProducer.call, h2],
        by simp, by simp, by rintro r ⟨⟩; simp [h1, Except.map]⟩

theorem ProducerRuns.after {P : BulkProducer σ I F E} {R : σ → Script I F E → Nat → Prop} (hP : BulkPlaysLaw P R)
    {s₀ s : σ} {c : Script I F E} {n : Nat} (h₀ : R s₀ c n) {handed shown : List I} {ended : Option (Except E F)}
    (h : ProducerRuns P s₀ handed s shown ended) : AfterRun R c handed s shown ended := by
  induction h with
  | start => exact ⟨by simp, fun _ => ⟨by simp, ⟨n, by simpa using h₀⟩, by simp⟩, by simp⟩
  | call _ hop hcall ih =>
    obtain ⟨h1, h2, _⟩ := ih
    obtain ⟨h4, ⟨m, h5⟩, h6⟩ := h2 rfl
    obtain ⟨s'', r', hcall', h7, h8, h9⟩ := hP.call h5 h4 h6 hop
    rw [hcall] at hcall'
    injection hcall' with hcall'
    injection hcall' with e1 e2
    subst e1 e2
    refine ⟨h1.append h7, fun hn => ?_, fun r hr => ?_⟩
    · simpa using h8 hn
    · simpa using h9 r hr

/-- What is known about a lawful consumer after a history that started when it had consumed `l`. -/
def AfterConsuming (D : σ → List I → Option F → Prop) (q : Policy I F E) (R : σ → List I → List I → Prop) (l : List I)
    (taken : List I) (s : σ) (slots : List I) : Option (ConsumerEnd I F E) → Prop
  | none => q.Accepts l taken ∧ (∃ sl, R s (l ++ taken) sl) ∧ (slots ≠ [] → R s (l ++ taken) slots)
  | some (.closed f) => q.Accepts l taken ∧ q.refuseClose (l ++ taken) f = none ∧ D s (l ++ taken) (some f)
  | some (.failed e offered) => q.Accepts l taken ∧
      (q.refuse (l ++ taken) = some e ∧ D s (l ++ taken) none ∨
        ∃ i, q.FailsAt (l ++ taken) offered i e ∧ D s (l ++ taken ++ offered.take i) none)
  | some (.closeFailed e f) => q.Accepts l taken ∧ q.refuseClose (l ++ taken) f = some e ∧ D s (l ++ taken) none
  | some (.flushFailed e) => q.Accepts l taken ∧ q.refuseFlush (l ++ taken) = some e ∧ D s (l ++ taken) none

theorem BulkCollectsLaw.call {C : BulkConsumer σ I F E} {D : σ → List I → Option F → Prop} {q : Policy I F E}
    {R : σ → List I → List I → Prop} (hC : BulkCollectsLaw C D q R) {s : σ} {l slots sl : List I} (hR : R s l sl)
    (hsR : slots ≠ [] → R s l slots) {op : ConsumerOp I F} (hop : op.Allowed slots) :
    ∃ s' r, C.call s slots op = ok (s', r) ∧ AfterConsuming D q R l r.items s' r.slots r.ended := by
  cases op with
  | consume x =>
    rcases hq : q.answer l x with _ | e
    · obtain ⟨s', h1, sl', h2⟩ := hC.base.consume_ok s l x ⟨sl, hR⟩ hq
      exact ⟨s', ⟨[x], [], none⟩, by simp [BulkConsumer.call, h1],
        by simpa [Policy.accepts_cons] using hq, ⟨sl', h2⟩, by simp⟩
    · obtain ⟨s', h1, h2⟩ := hC.base.consume_err s l x e ⟨sl, hR⟩ hq
      exact ⟨s', ⟨[], [], some (.failed e [x])⟩, by simp [BulkConsumer.call, h1], by simp,
        .inr ⟨0, by simpa [Policy.failsAt_zero_cons] using hq, by simpa using h2⟩⟩
  | flush =>
    obtain ⟨s', ⟨h1, sl', h2⟩ | ⟨e, h1, h2, h3⟩⟩ := hC.base.flush s l ⟨sl, hR⟩
    · exact ⟨s', ⟨[], [], none⟩, by simp [BulkConsumer.call, h1], by simp, ⟨sl', by simpa using h2⟩,
        by simp⟩
    · exact ⟨s', ⟨[], [], some (.flushFailed e)⟩, by simp [BulkConsumer.call, h2], by simp,
        by simpa using h1, by simpa using h3⟩
  | exposeSlots =>
    rcases hq : q.refuse l with _ | e
    · obtain ⟨s', slots', hne, h1, h2⟩ := hC.expose_ok s l sl hR hq
      exact ⟨s', ⟨[], slots', none⟩, by simp [BulkConsumer.call, h1], by simp,
        ⟨slots', by simpa using h2⟩, fun _ => by simpa using h2⟩
    · obtain ⟨s', h1, h2⟩ := hC.expose_err s l sl e hR hq
      exact ⟨s', ⟨[], [], some (.failed e [])⟩, by simp [BulkConsumer.call, h1], by simp,
        .inl ⟨by simpa using hq, by simpa using h2⟩⟩
  | write ws =>
    simp only [ConsumerOp.Allowed] at hop
    refine ⟨C.writeSlots s ws, ⟨[], ws ++ slots.drop ws.length, none⟩, rfl, by simp, ?_, ?_⟩
    · by_cases hw : slots = []
      · have : ws = [] := by subst hw; simpa using hop
        subst this
        exact ⟨_, by simpa using hC.write s l sl [] hR (by simp)⟩
      · exact ⟨_, by simpa using hC.write s l slots ws (hsR hw) hop⟩
    · intro hne
      have hw : slots ≠ [] := by
        rintro rfl
        have : ws = [] := by simpa using hop
        subst this; simp at hne
      simpa using hC.write s l slots ws (hsR hw) hop
  | consumeSlots k =>
    obtain ⟨hne, hk⟩ := hop
    rcases q.accepts_or_failsAt l (slots.take k) with ha | ⟨i, e, hf⟩
    · obtain ⟨s', h1, h2⟩ := hC.consumeSlots_ok s l slots k (hsR hne) hne hk ha
      exact ⟨s', ⟨slots.take k, slots.drop k, none⟩, by simp [BulkConsumer.call, h1], ha, ⟨_, h2⟩, fun _ => h2⟩
    · obtain ⟨s', h1, h2⟩ := hC.consumeSlots_err s l slots k i e (hsR hne) hne hk hf
      refine ⟨s', ⟨[], [], some (.failed e (slots.take k))⟩, by simp [BulkConsumer.call, h1], by simp,
        .inr ⟨i, by simpa using hf, ?_⟩⟩
      have := hf.lt
      rw [List.take_take, Nat.min_eq_left (by simp at this; omega)]
      simpa using h2
  | bulkConsume buf =>
    obtain ⟨s', ⟨k, hk0, hk, ha, h1, sl', h2⟩ | ⟨i, e, hf, h1, h2⟩⟩ := hC.bulkConsume s l sl buf hR hop
    · exact ⟨s', ⟨buf.take k, [], none⟩, by simp [BulkConsumer.call, h1], ha, ⟨sl', h2⟩, by simp⟩
    · exact ⟨s', ⟨[], [], some (.failed e buf)⟩, by simp [BulkConsumer.call, h1], by simp,
        .inr ⟨i, by simpa using hf, by simpa using h2⟩⟩
  | close f =>
    rcases hq : q.refuseClose l f with _ | e
    · obtain ⟨s', h1, h2⟩ := hC.base.close_ok s l f ⟨sl, hR⟩ hq
      exact ⟨s', ⟨[], [], some (.closed f)⟩, by simp [BulkConsumer.call, h1], by simp,
        by simpa using hq, by simpa using h2⟩
    · obtain ⟨s', h1, h2⟩ := hC.base.close_err s l f e ⟨sl, hR⟩ hq
      exact ⟨s', ⟨[], [], some (.closeFailed e f)⟩, by simp [BulkConsumer.call, h1], by simp,
        by simpa using hq, by simpa using h2⟩

theorem ConsumerRuns.after {C : BulkConsumer σ I F E} {D : σ → List I → Option F → Prop} {q : Policy I F E}
    {R : σ → List I → List I → Prop} (hC : BulkCollectsLaw C D q R) {s₀ s : σ} {l sl : List I} (h₀ : R s₀ l sl)
    {taken slots : List I} {ended : Option (ConsumerEnd I F E)} (h : ConsumerRuns C s₀ taken s slots ended) :
    AfterConsuming D q R l taken s slots ended := by
  induction h with
  | start => exact ⟨by simp, ⟨sl, by simpa using h₀⟩, by simp⟩
  | @call taken s slots op s' r _ hop hcall ih =>
    obtain ⟨h1, ⟨sl', h2⟩, h3⟩ := ih
    obtain ⟨s'', r', hcall', h4⟩ := hC.call h2 h3 hop
    rw [hcall] at hcall'
    injection hcall' with hcall'
    injection hcall' with e1 e2
    subst e1 e2
    obtain ⟨items, slots', _ | ⟨f | ⟨e, off⟩ | ⟨e, f⟩ | e⟩⟩ := r
    · obtain ⟨h5, h6, h7⟩ := h4
      exact ⟨Policy.accepts_append.mpr ⟨h1, h5⟩, by simpa using h6, by simpa using h7⟩
    · obtain ⟨h5, h6⟩ := h4
      exact ⟨Policy.accepts_append.mpr ⟨h1, h5⟩, by simpa using h6⟩
    · obtain ⟨h5, h6⟩ := h4
      exact ⟨Policy.accepts_append.mpr ⟨h1, h5⟩, by simpa using h6⟩
    · obtain ⟨h5, h6⟩ := h4
      exact ⟨Policy.accepts_append.mpr ⟨h1, h5⟩, by simpa using h6⟩
    · obtain ⟨h5, h6⟩ := h4
      exact ⟨Policy.accepts_append.mpr ⟨h1, h5⟩, by simpa using h6⟩

/-- What is known about a delaying consumer after a history that started when `l` had been passed to it. -/
def AfterDeferring (D : σ → List I → Option F → Prop) (X : Faults I F E) (R : σ → List I → List I → Prop) (l : List I)
    (taken : List I) (s : σ) (slots : List I) : Option (ConsumerEnd I F E) → Prop
  | none => (∃ sl, R s (l ++ taken) sl) ∧ (slots ≠ [] → R s (l ++ taken) slots)
  | some (.closed f) => D s (l ++ taken) (some f)
  | some (.failed e offered) => ∃ d, (offered = [] → X.exposing (l ++ taken) d e) ∧
      (offered ≠ [] → X.during (l ++ taken ++ offered) d e) ∧ D s d none
  | some (.closeFailed e f) => ∃ d, X.closing (l ++ taken) f d e ∧ D s d none
  | some (.flushFailed e) => ∃ d, X.during (l ++ taken) d e ∧ D s d none

theorem BulkDefersLaw.call {C : BulkConsumer σ I F E} {D : σ → List I → Option F → Prop}
    {X : Faults I F E} (hX : X.Regular) {R : σ → List I → List I → Prop} (hC : BulkDefersLaw C D X R) {s : σ} {l slots sl : List I} (hR : R s l sl)
    (hsR : slots ≠ [] → R s l slots) {op : ConsumerOp I F} (hop : op.Allowed slots) :
    ∃ s' r, C.call s slots op = ok (s', r) ∧ AfterDeferring D X R l r.items s' r.slots r.ended ∧
      (op = .flush → r.ended = none → D s' l none) := by
  cases op with
  | consume x =>
    obtain ⟨s', ⟨h1, sl', h2⟩ | ⟨e, d, h1, h2, h3⟩⟩ := hC.base.consume s l x ⟨sl, hR⟩
    · exact ⟨s', ⟨[x], [], none⟩, by simp [BulkConsumer.call, h1], ⟨⟨sl', h2⟩, by simp⟩, by simp⟩
    · exact ⟨s', ⟨[], [], some (.failed e [x])⟩, by simp [BulkConsumer.call, h1], ⟨d, by simp, by simpa using h2, h3⟩, by simp⟩
  | flush =>
    obtain ⟨s', ⟨h1, ⟨sl', h2⟩, h3⟩ | ⟨e, d, h1, h2, h3⟩⟩ := hC.base.flush s l ⟨sl, hR⟩
    · exact ⟨s', ⟨[], [], none⟩, by simp [BulkConsumer.call, h1], ⟨⟨sl', by simpa using h2⟩, by simp⟩, fun _ _ => h3⟩
    · exact ⟨s', ⟨[], [], some (.flushFailed e)⟩, by simp [BulkConsumer.call, h1], ⟨d, by simpa using h2, h3⟩, by simp⟩
  | exposeSlots =>
    obtain ⟨s', ⟨slots', hne, h1, h2⟩ | ⟨e, d, h1, h2, h3⟩⟩ := hC.expose s l sl hR
    · exact ⟨s', ⟨[], slots', none⟩, by simp [BulkConsumer.call, h1], ⟨⟨slots', by simpa using h2⟩,
        fun _ => by simpa using h2⟩, by simp⟩
    · exact ⟨s', ⟨[], [], some (.failed e [])⟩, by simp [BulkConsumer.call, h1], ⟨d, by simpa using h2, by simp, h3⟩, by simp⟩
  | write ws =>
    simp only [ConsumerOp.Allowed] at hop
    refine ⟨C.writeSlots s ws, ⟨[], ws ++ slots.drop ws.length, none⟩, rfl, ⟨?_, ?_⟩, by simp⟩
    · by_cases hw : slots = []
      · have : ws = [] := by subst hw; simpa using hop
        subst this
        exact ⟨_, by simpa using hC.write s l sl [] hR (by simp)⟩
      · exact ⟨_, by simpa using hC.write s l slots ws (hsR hw) hop⟩
    · intro hne
      have hw : slots ≠ [] := by
        rintro rfl
        have : ws = [] := by simpa using hop
        subst this; simp at hne
      simpa using hC.write s l slots ws (hsR hw) hop
  | consumeSlots k =>
    obtain ⟨hne, hk⟩ := hop
    obtain ⟨s', ⟨h1, h2⟩ | ⟨e, d, h1, h2, h3⟩⟩ := hC.consumeSlots s l slots k (hsR hne) hne hk
    · exact ⟨s', ⟨slots.take k, slots.drop k, none⟩, by simp [BulkConsumer.call, h1], ⟨⟨_, h2⟩, fun _ => h2⟩, by simp⟩
    · exact ⟨s', ⟨[], [], some (.failed e (slots.take k))⟩, by simp [BulkConsumer.call, h1],
        ⟨d, fun h0 => by rw [h0] at h2; simpa using hX.during_exposing _ _ _ h2, fun _ => by simpa using h2, h3⟩, by simp⟩
  | bulkConsume buf =>
    obtain ⟨s', ⟨k, hk0, hk, h1, sl', h2⟩ | ⟨e, d, h1, h2, h3⟩⟩ := hC.bulkConsume s l sl buf hR hop
    · exact ⟨s', ⟨buf.take k, [], none⟩, by simp [BulkConsumer.call, h1], ⟨⟨sl', h2⟩, by simp⟩, by simp⟩
    · exact ⟨s', ⟨[], [], some (.failed e buf)⟩, by simp [BulkConsumer.call, h1], ⟨d, fun h0 => absurd h0 hop, fun _ => by simpa using h2, h3⟩, by simp⟩
  | close f =>
    obtain ⟨s', ⟨h1, h2⟩ | ⟨e, d, h1, h2, h3⟩⟩ := hC.base.close s l f ⟨sl, hR⟩
    · exact ⟨s', ⟨[], [], some (.closed f)⟩, by simp [BulkConsumer.call, h1], by simpa [AfterDeferring] using h2, by simp⟩
    · exact ⟨s', ⟨[], [], some (.closeFailed e f)⟩, by simp [BulkConsumer.call, h1], ⟨d, by simpa using h2, h3⟩, by simp⟩

theorem ConsumerRuns.afterDeferring {C : BulkConsumer σ I F E} {D : σ → List I → Option F → Prop}
    {X : Faults I F E} (hX : X.Regular) {R : σ → List I → List I → Prop} (hC : BulkDefersLaw C D X R) {s₀ s : σ} {l sl : List I} (h₀ : R s₀ l sl)
    {taken slots : List I} {ended : Option (ConsumerEnd I F E)} (h : ConsumerRuns C s₀ taken s slots ended) :
    AfterDeferring D X R l taken s slots ended := by
  induction h with
  | start => exact ⟨⟨sl, by simpa using h₀⟩, by simp⟩
  | @call taken s slots op s' r _ hop hcall ih =>
    obtain ⟨⟨sl', h2⟩, h3⟩ := ih
    obtain ⟨s'', r', hcall', h4, _⟩ := hC.call hX h2 h3 hop
    rw [hcall] at hcall'
    injection hcall' with hcall'
    injection hcall' with e1 e2
    subst e1 e2
    obtain ⟨items, slots', _ | ⟨f | ⟨e, off⟩ | ⟨e, f⟩ | e⟩⟩ := r <;>
      simpa [AfterDeferring] using h4

end

end Verif
