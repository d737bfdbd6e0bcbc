import Verif.WordSpec
import Verif.Lemmas.History
import Verif.Lemmas.WordQueue
import Verif.Model.WordTraits

/-!
# Lemmas about implementations that cannot be told apart
-/

namespace Verif

open Outcome

theorem Word.mul_ok {w : Word} {a b : Nat} (h : a * b < w.size) : w.mul a b = ok (a * b) := by simp [Word.mul, h]

/-- Two loops whose bodies agree wherever the loop gets. -/
theorem loop_agree {σ ρ : Type} {body body' : σ → Outcome (Step σ ρ)} (Inv : σ → Prop)
    (h : ∀ x, Inv x → body x = body' x ∧ ∀ y, body' x = ok (.continue y) → Inv y) {x : σ} (hx : Inv x) :
    loop body x = loop body' x := by
  have hf : ∀ n x, Inv x → loopFuel body n x = loopFuel body' n x := by
    intro n
    induction n with
    | zero => intro x _; rfl
    | succ n ih =>
      intro x hx
      obtain ⟨h1, h2⟩ := h x hx
      rw [loopFuel, loopFuel, h1]
      cases hb : body' x with
      | ok st =>
        cases st with
        | «continue» y => exact ih y (h2 y hb)
        | done r => rfl
      | panic => rfl
      | diverge => rfl
  by_cases hex : ∃ n, loopFuel body' n x ≠ diverge
  · obtain ⟨n, hn⟩ := hex
    rw [loop_eq_of_fuel hn, loop_eq_of_fuel (n := n) (by rw [hf n x hx]; exact hn), hf n x hx]
  · unfold loop
    rw [dif_neg hex, dif_neg fun ⟨n, hn⟩ => hex ⟨n, by rw [← hf n x hx]; exact hn⟩]

section

variable {σ I F E : Type}

/-! ## Producers -/

theorem BulkProducer.SameAt.call {P' P : BulkProducer σ I F E} {s : σ} {shown : List I} (h : P'.SameAt P s shown)
    {op : ProducerOp I} (hop : op.Allowed shown) : P'.call s shown op = P.call s shown op := by
  cases op with
  | produce => simp only [BulkProducer.call, h.produce]
  | slurp => simp only [BulkProducer.call, h.slurp]
  | exposeItems => simp only [BulkProducer.call, h.expose]
  | considerProduced k => simp only [BulkProducer.call, h.consider k hop.2]
  | bulkProduce buf => simp only [BulkProducer.call, h.bulkProduce buf hop]

theorem BulkProducer.Same.runs {P' P : BulkProducer σ I F E} {s₀ s : σ} {handed shown : List I}
    {ended : Option (Except E F)} (h : P'.Same P s₀) :
    ProducerRuns P' s₀ handed s shown ended ↔ ProducerRuns P s₀ handed s shown ended := by
  constructor
  · intro hr
    induction hr with
    | start => exact .start
    | call _ hop hc ih =>
      rw [(h _ _ _ ih).call hop] at hc
      exact ih.call hop hc
  · intro hr
    induction hr with
    | start => exact .start
    | call hr hop hc ih =>
      rw [← (h _ _ _ hr).call hop] at hc
      exact ih.call hop hc

theorem BulkProducer.Same.refl (P : BulkProducer σ I F E) (s₀ : σ) : P.Same P s₀ := fun _ _ _ _ =>
  ⟨rfl, rfl, rfl, fun _ _ => rfl, fun _ _ => rfl⟩

/-- All methods agree except possibly `bulk_produce`. -/
def BulkProducer.AgreeAt (P' P : BulkProducer σ I F E) (s : σ) (shown : List I) : Prop :=
  P'.produce s = P.produce s ∧ P'.slurp s = P.slurp s ∧ P'.exposeItems s = P.exposeItems s ∧
    ∀ k, k ≤ shown.length → P'.considerProduced s k = P.considerProduced s k

/-- The default `bulk_produce` agrees if the other methods do. -/
theorem BulkProducer.same_of_default {P' P : BulkProducer σ I F E} {s₀ : σ}
    (hP' : P'.bulkProduce = bulkProduceDefault P'.exposeItems P'.considerProduced)
    (hP : P.bulkProduce = bulkProduceDefault P.exposeItems P.considerProduced)
    (h : ∀ handed s shown, ProducerRuns P s₀ handed s shown none → P'.AgreeAt P s shown) : P'.Same P s₀ := by
  intro handed s shown hr
  obtain ⟨h1, h2, h3, h4⟩ := h _ _ _ hr
  refine ⟨h1, h2, h3, h4, fun buf _ => ?_⟩
  rw [hP', hP]
  simp only [bulkProduceDefault, h3]
  rcases he : P.exposeItems s with ⟨s', e | xs | f⟩ | _ | _
  · rfl
  · have := hr.call (op := .exposeItems) (s' := s') (r := ⟨[], xs, none⟩) trivial (by simp [BulkProducer.call, he])
    simp only [bind_eq, bind_ok, (h _ _ _ this).2.2.2 _ (Nat.min_le_left _ _)]
  · rfl
  · rfl
  · rfl

/-- It is enough to look at the states that some law speaks about. -/
theorem BulkProducer.same_of_law {P' P : BulkProducer σ I F E} {R : σ → Script I F E → Nat → Prop}
    (hP' : P'.bulkProduce = bulkProduceDefault P'.exposeItems P'.considerProduced)
    (hdef : P.bulkProduce = bulkProduceDefault P.exposeItems P.considerProduced) (hP : BulkPlaysLaw P R)
    {s₀ : σ} {c : Script I F E} {n : Nat} (h₀ : R s₀ c n)
    (h : ∀ s c n, R s c n → P'.produce s = P.produce s ∧ P'.slurp s = P.slurp s ∧ P'.exposeItems s = P.exposeItems s ∧
      ∀ k, k ≤ n → P'.considerProduced s k = P.considerProduced s k) : P'.Same P s₀ := by
  refine same_of_default hP' hdef fun handed s shown hr => ?_
  obtain ⟨_, h2, _⟩ := hr.after hP h₀
  obtain ⟨_, ⟨m, hm⟩, h3⟩ := h2 rfl
  obtain ⟨e1, e2, e3, e4⟩ := h s _ m hm
  refine ⟨e1, e2, e3, fun k hk => ?_⟩
  rcases shown with _ | ⟨x, xs⟩
  · exact e4 k (by simp at hk; omega)
  · exact (h s _ _ (h3 (by simp))).2.2.2 k hk

/-- What holds of a producer holds of one that cannot be told apart from it. -/
theorem BulkProducer.Same.plays {P' P : BulkProducer σ I F E} {s₀ : σ} {c : Script I F E} (h : P'.Same P s₀)
    (hP : BulkPlays P s₀ c) : BulkPlays P' s₀ c := by
  obtain ⟨R, hL, n₀, h₀⟩ := hP
  refine ⟨fun s c' n => ∃ handed shown, ProducerRuns P s₀ handed s shown none ∧ c' = c.drop handed.length ∧
    n = shown.length, ⟨⟨⟨?_⟩, ?_⟩, ?_, ?_, ?_⟩, 0, [], [], .start, by simp, rfl⟩
  · rintro s c' ⟨n, handed, shown, hr, rfl, rfl⟩
    obtain ⟨_, h2, _⟩ := hr.after hL h₀
    obtain ⟨_, ⟨m, hm⟩, _⟩ := h2 rfl
    obtain ⟨s', h4, _⟩ := hL.base.produce s _ ⟨m, hm⟩
    refine ⟨s', by rw [(h _ _ _ hr).produce, h4], fun x hx => ?_⟩
    rw [hx] at h4
    have := hr.call (op := .produce) (s' := s') (r := ⟨[x], [], none⟩) trivial (by simp [BulkProducer.call, h4])
    exact ⟨0, _, _, this, by simp, rfl⟩
  · rintro s c' ⟨n, handed, shown, hr, rfl, rfl⟩
    obtain ⟨_, h2, _⟩ := hr.after hL h₀
    obtain ⟨_, ⟨m, hm⟩, _⟩ := h2 rfl
    obtain ⟨s', ⟨h4, _⟩ | ⟨e, h4, h5⟩⟩ := hL.base.slurp s _ ⟨m, hm⟩
    · have := hr.call (op := .slurp) (s' := s') (r := ⟨[], [], none⟩) trivial (by simp [BulkProducer.call, h4])
      exact ⟨s', .inl ⟨by rw [(h _ _ _ hr).slurp, h4], 0, _, _, this, by simp, rfl⟩⟩
    · exact ⟨s', .inr ⟨e, h4, by rw [(h _ _ _ hr).slurp, h5]⟩⟩
  · rintro s c' n ⟨handed, shown, hr, rfl, rfl⟩
    obtain ⟨_, h2, _⟩ := hr.after hL h₀
    obtain ⟨_, ⟨m, hm⟩, _⟩ := h2 rfl
    rw [(h _ _ _ hr).expose]
    obtain ⟨s', ⟨xs, hne, hsw, h4, _⟩ | h4 | h4⟩ := hL.expose s _ m hm
    · have := hr.call (op := .exposeItems) (s' := s') (r := ⟨[], xs, none⟩) trivial (by simp [BulkProducer.call, h4])
      exact ⟨s', .inl ⟨xs, hne, hsw, h4, _, _, this, by simp, rfl⟩⟩
    · exact ⟨s', .inr (.inl h4)⟩
    · exact ⟨s', .inr (.inr h4)⟩
  · rintro s c' n k ⟨handed, shown, hr, rfl, rfl⟩ h0 hk
    obtain ⟨_, h2, _⟩ := hr.after hL h₀
    obtain ⟨_, _, h3⟩ := h2 rfl
    have hne := List.length_pos_iff.mp h0
    obtain ⟨s', h4, _⟩ := hL.consider s _ _ k (h3 hne) h0 hk
    have := hr.call (op := .considerProduced k) (s' := s') (r := ⟨shown.take k, shown.drop k, none⟩) ⟨hne, hk⟩
      (by simp [BulkProducer.call, h4])
    refine ⟨s', by rw [(h _ _ _ hr).consider k hk, h4], _, _, this, ?_, by simp⟩
    simp [Nat.min_eq_left hk]
  · rintro s c' n buf ⟨handed, shown, hr, rfl, rfl⟩ hb
    obtain ⟨_, h2, _⟩ := hr.after hL h₀
    obtain ⟨_, ⟨m, hm⟩, _⟩ := h2 rfl
    rw [(h _ _ _ hr).bulkProduce buf hb]
    obtain ⟨s', buf', hlen, ⟨k, h0, hk, h4, h5, _⟩ | h4⟩ := hL.bulkProduce s _ m buf hm hb
    · have := hr.call (op := .bulkProduce buf) (s' := s') (r := ⟨buf'.take k, [], none⟩) hb
        (by simp [BulkProducer.call, h4])
      refine ⟨s', buf', hlen, .inl ⟨k, h0, hk, h4, h5, 0, _, _, this, ?_, rfl⟩⟩
      simp [hlen, Nat.min_eq_left hk]
    · exact ⟨s', buf', hlen, .inr h4⟩

/-- Lawful producers do not claim to have written more items than fit. -/
theorem BulkPlays.claimsAtMost {P : BulkProducer σ I F E} {s₀ : σ} {c : Script I F E} (hP : BulkPlays P s₀ c) :
    P.ClaimsAtMost s₀ := by
  obtain ⟨R, hL, n₀, h₀⟩ := hP
  intro handed s shown buf s' k buf' hr hb he
  obtain ⟨_, h2, _⟩ := hr.after hL h₀
  obtain ⟨_, ⟨m, hm⟩, _⟩ := h2 rfl
  obtain ⟨s'', buf'', hlen, ⟨j, h0, hj, h4, _⟩ | ⟨f, _, h4⟩ | ⟨e, _, h4⟩⟩ := hL.bulkProduce s _ m buf hm hb
  · rw [he] at h4; simp at h4; obtain ⟨_, rfl, rfl⟩ := h4; exact ⟨hj, hlen⟩
  · rw [he] at h4; simp at h4
  · rw [he] at h4; simp at h4

theorem BulkPlays.showsSome {P : BulkProducer σ I F E} {s₀ : σ} {c : Script I F E} (hP : BulkPlays P s₀ c) :
    P.ShowsSome s₀ := by
  obtain ⟨R, hL, n₀, h₀⟩ := hP
  intro handed s shown s' hr he
  obtain ⟨_, h2, _⟩ := hr.after hL h₀
  obtain ⟨_, ⟨m, hm⟩, _⟩ := h2 rfl
  obtain ⟨s'', ⟨xs, hne, _, h4, _⟩ | ⟨f, _, h4⟩ | ⟨e, _, h4⟩⟩ := hL.expose s _ m hm
  · rw [he] at h4; simp at h4; exact hne h4.2
  · rw [he] at h4; simp at h4
  · rw [he] at h4; simp at h4

/-- A producer of a finite sequence hands out no more items than that. -/
theorem BulkPlays.handed_le {P : BulkProducer σ I F E} {s₀ : σ} {xs : List I} {last : Except E F}
    (hP : BulkPlays P s₀ (Script.ofList xs last)) {handed shown : List I} {s : σ} {ended : Option (Except E F)}
    (hr : ProducerRuns P s₀ handed s shown ended) : handed.length ≤ xs.length := by
  obtain ⟨R, hL, n₀, h₀⟩ := hP
  obtain ⟨h1, _⟩ := hr.after hL h₀
  rcases Nat.lt_or_ge xs.length handed.length with h | h
  · have := h1 xs.length _ (List.getElem?_eq_getElem h)
    simp [Script.ofList] at this
    rcases last with e | f <;> simp [Except.map] at this
  · exact h

/-! ## Consumers -/

theorem BulkConsumer.SameAt.call {C' C : BulkConsumer σ I F E} {s : σ} {slots : List I} (h : C'.SameAt C s slots)
    {op : ConsumerOp I F} (hop : op.Allowed slots) : C'.call s slots op = C.call s slots op := by
  cases op with
  | consume x => simp only [BulkConsumer.call, h.consume]
  | flush => simp only [BulkConsumer.call, h.flush]
  | exposeSlots => simp only [BulkConsumer.call, h.expose]
  | write ws => simp only [BulkConsumer.call, h.write ws hop]
  | consumeSlots k => simp only [BulkConsumer.call, h.consumeSlots k hop.2]
  | bulkConsume buf => simp only [BulkConsumer.call, h.bulkConsume buf hop]
  | close f => simp only [BulkConsumer.call, h.close]

theorem BulkConsumer.SameUntil.runs {C' C : BulkConsumer σ I F E} {s₀ s : σ} {N : Nat} {taken slots : List I}
    {ended : Option (ConsumerEnd I F E)} (h : C'.SameUntil C s₀ N) (hN : taken.length ≤ N) :
    ConsumerRuns C' s₀ taken s slots ended ↔ ConsumerRuns C s₀ taken s slots ended := by
  constructor
  · intro hr
    induction hr with
    | start => exact .start
    | call _ hop hc ih =>
      rw [List.length_append] at hN
      have hr := ih (by omega)
      rw [(h _ _ _ hr (by omega)).call hop] at hc
      exact hr.call hop hc
  · intro hr
    induction hr with
    | start => exact .start
    | call hr hop hc ih =>
      rw [List.length_append] at hN
      rw [← (h _ _ _ hr (by omega)).call hop] at hc
      exact (ih (by omega)).call hop hc

theorem BulkConsumer.Same.until {C' C : BulkConsumer σ I F E} {s₀ : σ} (h : C'.Same C s₀) (N : Nat) : C'.SameUntil C s₀ N :=
  fun taken s slots hr _ => h taken s slots hr

theorem BulkConsumer.Same.refl (C : BulkConsumer σ I F E) (s₀ : σ) : C.Same C s₀ := fun _ _ _ _ =>
  ⟨fun _ => rfl, fun _ => rfl, rfl, rfl, fun _ _ => rfl, fun _ _ => rfl, fun _ _ => rfl⟩

/-- All methods agree except possibly `bulk_consume`. -/
def BulkConsumer.AgreeAt (C' C : BulkConsumer σ I F E) (s : σ) (slots : List I) : Prop :=
  (∀ x, C'.consume s x = C.consume s x) ∧ (∀ f, C'.close s f = C.close s f) ∧ C'.flush s = C.flush s ∧
    C'.exposeSlots s = C.exposeSlots s ∧
    (∀ ws, ws.length ≤ slots.length → C'.writeSlots s ws = C.writeSlots s ws) ∧
    ∀ k, k ≤ slots.length → C'.consumeSlots s k = C.consumeSlots s k

theorem BulkConsumer.AgreeAt.of_slots {C' C : BulkConsumer σ I F E} {s : σ} {slots sl : List I} (h : C'.AgreeAt C s sl)
    (hs : slots ≠ [] → C'.AgreeAt C s slots) : C'.AgreeAt C s slots := by
  obtain ⟨h1, h2, h3, h4, h5, h6⟩ := h
  rcases slots with _ | ⟨x, xs⟩
  · refine ⟨h1, h2, h3, h4, fun ws hws => ?_, fun k hk => h6 k (by simp at hk; omega)⟩
    exact h5 ws (by simp at hws; simp [hws])
  · exact hs (by simp)

/-- The default `bulk_consume` agrees if the other methods do. -/
theorem BulkConsumer.sameUntil_of_default {C' C : BulkConsumer σ I F E} {s₀ : σ} {N : Nat}
    (hC' : C'.bulkConsume = bulkConsumeDefault C'.exposeSlots C'.writeSlots C'.consumeSlots)
    (hC : C.bulkConsume = bulkConsumeDefault C.exposeSlots C.writeSlots C.consumeSlots)
    (h : ∀ taken s slots, ConsumerRuns C s₀ taken s slots none → taken.length ≤ N → C'.AgreeAt C s slots) :
    C'.SameUntil C s₀ N := by
  intro taken s slots hr hN
  obtain ⟨h1, h2, h3, h4, h5, h6⟩ := h _ _ _ hr hN
  refine ⟨h1, h2, h3, h4, h5, h6, fun buf _ => ?_⟩
  rw [hC', hC]
  simp only [bulkConsumeDefault, h4]
  rcases he : C.exposeSlots s with ⟨s', e | xs⟩ | _ | _
  · rfl
  · have h7 := hr.call (op := .exposeSlots) (s' := s') (r := ⟨[], xs, none⟩) trivial (by simp [BulkConsumer.call, he])
    have hle : (buf.take (min xs.length buf.length)).length ≤ xs.length := by simp; omega
    simp only [List.append_nil] at h7
    have h8 := h7.call (op := .write (buf.take (min xs.length buf.length))) hle rfl
    simp only [List.append_nil] at h8
    simp only [bind_eq, bind_ok, (h _ _ _ h7 hN).2.2.2.2.1 _ hle]
    rw [(h _ _ _ h8 hN).2.2.2.2.2 _ (by simp)]
  · rfl
  · rfl

theorem BulkConsumer.same_of_default {C' C : BulkConsumer σ I F E} {s₀ : σ}
    (hC' : C'.bulkConsume = bulkConsumeDefault C'.exposeSlots C'.writeSlots C'.consumeSlots)
    (hC : C.bulkConsume = bulkConsumeDefault C.exposeSlots C.writeSlots C.consumeSlots)
    (h : ∀ taken s slots, ConsumerRuns C s₀ taken s slots none → C'.AgreeAt C s slots) :
    C'.Same C s₀ := fun taken s slots hr =>
  sameUntil_of_default hC' hC (fun taken s slots hr _ => h taken s slots hr) taken s slots hr (Nat.le_refl _)

/-- It is enough to look at the states that some law speaks about. -/
theorem BulkConsumer.sameUntil_of_law {C' C : BulkConsumer σ I F E} {D : σ → List I → Option F → Prop} {q : Policy I F E}
    {R : σ → List I → List I → Prop}
    (hC' : C'.bulkConsume = bulkConsumeDefault C'.exposeSlots C'.writeSlots C'.consumeSlots)
    (hdef : C.bulkConsume = bulkConsumeDefault C.exposeSlots C.writeSlots C.consumeSlots)
    (hC : BulkCollectsLaw C D q R) {s₀ : σ} {l sl : List I} (h₀ : R s₀ l sl) {N : Nat}
    (h : ∀ s l' slots, R s l' slots → l'.length ≤ l.length + N → C'.AgreeAt C s slots) : C'.SameUntil C s₀ N := by
  refine sameUntil_of_default hC' hdef fun taken s slots hr hN => ?_
  obtain ⟨_, ⟨sl', h2⟩, h3⟩ := hr.after hC h₀
  have hl : (l ++ taken).length ≤ l.length + N := by simp; omega
  exact (h s _ sl' h2 hl).of_slots fun hne => h s _ slots (h3 hne) hl

theorem BulkConsumer.same_of_law {C' C : BulkConsumer σ I F E} {D : σ → List I → Option F → Prop} {q : Policy I F E}
    {R : σ → List I → List I → Prop}
    (hC' : C'.bulkConsume = bulkConsumeDefault C'.exposeSlots C'.writeSlots C'.consumeSlots)
    (hdef : C.bulkConsume = bulkConsumeDefault C.exposeSlots C.writeSlots C.consumeSlots)
    (hC : BulkCollectsLaw C D q R) {s₀ : σ} {l sl : List I} (h₀ : R s₀ l sl)
    (h : ∀ s l' slots, R s l' slots → C'.AgreeAt C s slots) : C'.Same C s₀ := by
  refine same_of_default hC' hdef fun taken s slots hr => ?_
  obtain ⟨_, ⟨sl', h2⟩, h3⟩ := hr.after hC h₀
  exact (h s _ sl' h2).of_slots fun hne => h s _ slots (h3 hne)

theorem BulkConsumer.same_of_defers {C' C : BulkConsumer σ I F E} {D : σ → List I → Option F → Prop} {X : Faults I F E}
    {R : σ → List I → List I → Prop}
    (hC' : C'.bulkConsume = bulkConsumeDefault C'.exposeSlots C'.writeSlots C'.consumeSlots)
    (hdef : C.bulkConsume = bulkConsumeDefault C.exposeSlots C.writeSlots C.consumeSlots)
    (hX : X.Regular) (hC : BulkDefersLaw C D X R) {s₀ : σ} {l sl : List I} (h₀ : R s₀ l sl)
    (h : ∀ s l' slots, R s l' slots → C'.AgreeAt C s slots) : C'.Same C s₀ := by
  refine same_of_default hC' hdef fun taken s slots hr => ?_
  obtain ⟨⟨sl', h2⟩, h3⟩ := hr.afterDeferring hX hC h₀
  exact (h s _ sl' h2).of_slots fun hne => h s _ slots (h3 hne)

/-- What holds of a consumer holds of one that cannot be told apart from it. -/
theorem BulkConsumer.Same.collects {C' C : BulkConsumer σ I F E} {D : σ → List I → Option F → Prop} {q : Policy I F E}
    {s₀ : σ} {l : List I} (h : C'.Same C s₀) (hC : BulkCollects C D q s₀ l) : BulkCollects C' D q s₀ l := by
  obtain ⟨R, hL, sl₀, h₀⟩ := hC
  have key : ∀ {taken s slots}, ConsumerRuns C s₀ taken s slots none →
      (∃ sl, R s (l ++ taken) sl) ∧ (slots ≠ [] → R s (l ++ taken) slots) := fun hr => (hr.after hL h₀).2
  refine ⟨fun s l' slots => ∃ taken, ConsumerRuns C s₀ taken s slots none ∧ l' = l ++ taken,
    ⟨⟨⟨?_, ?_, ?_, ?_, ?_⟩, ?_⟩, ?_, ?_, ?_, ?_, ?_, ?_⟩, [], [], .start, by simp⟩
  · rintro s _ ⟨slots, taken, hr, rfl⟩
    exact hL.base.observe s _ (key hr).1
  · rintro s _ x ⟨slots, taken, hr, rfl⟩ hq
    obtain ⟨s', h1, _⟩ := hL.base.consume_ok s _ x (key hr).1 hq
    have := hr.call (op := .consume x) (s' := s') (r := ⟨[x], [], none⟩) trivial (by simp [BulkConsumer.call, h1])
    exact ⟨s', by rw [(h _ _ _ hr).consume, h1], [], _, this, by simp⟩
  · rintro s _ x e ⟨slots, taken, hr, rfl⟩ hq
    obtain ⟨s', h1, h2⟩ := hL.base.consume_err s _ x e (key hr).1 hq
    exact ⟨s', by rw [(h _ _ _ hr).consume, h1], h2⟩
  · rintro s _ f ⟨slots, taken, hr, rfl⟩ hq
    obtain ⟨s', h1, h2⟩ := hL.base.close_ok s _ f (key hr).1 hq
    exact ⟨s', by rw [(h _ _ _ hr).close, h1], h2⟩
  · rintro s _ f e ⟨slots, taken, hr, rfl⟩ hq
    obtain ⟨s', h1, h2⟩ := hL.base.close_err s _ f e (key hr).1 hq
    exact ⟨s', by rw [(h _ _ _ hr).close, h1], h2⟩
  · rintro s _ ⟨slots, taken, hr, rfl⟩
    rw [(h _ _ _ hr).flush]
    obtain ⟨s', ⟨h1, _⟩ | h1⟩ := hL.base.flush s _ (key hr).1
    · have := hr.call (op := .flush) (s' := s') (r := ⟨[], [], none⟩) trivial (by simp [BulkConsumer.call, h1])
      exact ⟨s', .inl ⟨h1, [], _, this, by simp⟩⟩
    · exact ⟨s', .inr h1⟩
  · rintro s _ slots ⟨taken, hr, rfl⟩ hq
    obtain ⟨sl, hsl⟩ := (key hr).1
    obtain ⟨s', slots', hne, h1, _⟩ := hL.expose_ok s _ sl hsl hq
    have := hr.call (op := .exposeSlots) (s' := s') (r := ⟨[], slots', none⟩) trivial (by simp [BulkConsumer.call, h1])
    exact ⟨s', slots', hne, by rw [(h _ _ _ hr).expose, h1], _, this, by simp⟩
  · rintro s _ slots e ⟨taken, hr, rfl⟩ hq
    obtain ⟨sl, hsl⟩ := (key hr).1
    obtain ⟨s', h1, h2⟩ := hL.expose_err s _ sl e hsl hq
    exact ⟨s', by rw [(h _ _ _ hr).expose, h1], h2⟩
  · rintro s _ slots ws ⟨taken, hr, rfl⟩ hws
    rw [(h _ _ _ hr).write ws hws]
    have := hr.call (op := .write ws) hws rfl
    exact ⟨_, this, by simp⟩
  · rintro s _ slots k ⟨taken, hr, rfl⟩ hne hk hq
    obtain ⟨s', h1, _⟩ := hL.consumeSlots_ok s _ slots k ((key hr).2 hne) hne hk hq
    have := hr.call (op := .consumeSlots k) (s' := s') (r := ⟨slots.take k, slots.drop k, none⟩) ⟨hne, hk⟩
      (by simp [BulkConsumer.call, h1])
    exact ⟨s', by rw [(h _ _ _ hr).consumeSlots k hk, h1], _, this, by simp⟩
  · rintro s _ slots k i e ⟨taken, hr, rfl⟩ hne hk hq
    obtain ⟨s', h1, h2⟩ := hL.consumeSlots_err s _ slots k i e ((key hr).2 hne) hne hk hq
    exact ⟨s', by rw [(h _ _ _ hr).consumeSlots k hk, h1], h2⟩
  · rintro s _ slots buf ⟨taken, hr, rfl⟩ hne
    rw [(h _ _ _ hr).bulkConsume buf hne]
    obtain ⟨sl, hsl⟩ := (key hr).1
    obtain ⟨s', ⟨k, h0, hk, hq, h1, _⟩ | h1⟩ := hL.bulkConsume s _ sl buf hsl hne
    · have := hr.call (op := .bulkConsume buf) (s' := s') (r := ⟨buf.take k, [], none⟩) hne (by simp [BulkConsumer.call, h1])
      exact ⟨s', .inl ⟨k, h0, hk, hq, h1, [], _, this, by simp⟩⟩
    · exact ⟨s', .inr h1⟩

theorem BulkConsumer.Same.defers {C' C : BulkConsumer σ I F E} {D : σ → List I → Option F → Prop} {X : Faults I F E}
    {s₀ : σ} {l : List I} (hX : X.Regular) (h : C'.Same C s₀) (hC : BulkDefers C D X s₀ l) : BulkDefers C' D X s₀ l := by
  obtain ⟨R, hL, sl₀, h₀⟩ := hC
  have key : ∀ {taken s slots}, ConsumerRuns C s₀ taken s slots none →
      (∃ sl, R s (l ++ taken) sl) ∧ (slots ≠ [] → R s (l ++ taken) slots) := fun hr => hr.afterDeferring hX hL h₀
  refine ⟨fun s l' slots => ∃ taken, ConsumerRuns C s₀ taken s slots none ∧ l' = l ++ taken,
    ⟨⟨⟨?_, ?_, ?_⟩, ?_⟩, ?_, ?_, ?_, ?_⟩, [], [], .start, by simp⟩
  · rintro s _ ⟨slots, taken, hr, rfl⟩
    exact hL.base.observe s _ (key hr).1
  · rintro s _ x ⟨slots, taken, hr, rfl⟩
    rw [(h _ _ _ hr).consume]
    obtain ⟨s', ⟨h1, _⟩ | h1⟩ := hL.base.consume s _ x (key hr).1
    · have := hr.call (op := .consume x) (s' := s') (r := ⟨[x], [], none⟩) trivial (by simp [BulkConsumer.call, h1])
      exact ⟨s', .inl ⟨h1, [], _, this, by simp⟩⟩
    · exact ⟨s', .inr h1⟩
  · rintro s _ f ⟨slots, taken, hr, rfl⟩
    rw [(h _ _ _ hr).close]
    exact hL.base.close s _ f (key hr).1
  · rintro s _ ⟨slots, taken, hr, rfl⟩
    rw [(h _ _ _ hr).flush]
    obtain ⟨s', ⟨h1, _, h2⟩ | h1⟩ := hL.base.flush s _ (key hr).1
    · have := hr.call (op := .flush) (s' := s') (r := ⟨[], [], none⟩) trivial (by simp [BulkConsumer.call, h1])
      exact ⟨s', .inl ⟨h1, ⟨[], _, this, by simp⟩, h2⟩⟩
    · exact ⟨s', .inr h1⟩
  · rintro s _ slots ⟨taken, hr, rfl⟩
    rw [(h _ _ _ hr).expose]
    obtain ⟨sl, hsl⟩ := (key hr).1
    obtain ⟨s', ⟨slots', hne, h1, _⟩ | h1⟩ := hL.expose s _ sl hsl
    · have := hr.call (op := .exposeSlots) (s' := s') (r := ⟨[], slots', none⟩) trivial (by simp [BulkConsumer.call, h1])
      exact ⟨s', .inl ⟨slots', hne, h1, _, this, by simp⟩⟩
    · exact ⟨s', .inr h1⟩
  · rintro s _ slots ws ⟨taken, hr, rfl⟩ hws
    rw [(h _ _ _ hr).write ws hws]
    have := hr.call (op := .write ws) hws rfl
    exact ⟨_, this, by simp⟩
  · rintro s _ slots k ⟨taken, hr, rfl⟩ hne hk
    rw [(h _ _ _ hr).consumeSlots k hk]
    obtain ⟨s', ⟨h1, _⟩ | h1⟩ := hL.consumeSlots s _ slots k ((key hr).2 hne) hne hk
    · have := hr.call (op := .consumeSlots k) (s' := s') (r := ⟨slots.take k, slots.drop k, none⟩) ⟨hne, hk⟩
        (by simp [BulkConsumer.call, h1])
      exact ⟨s', .inl ⟨h1, _, this, by simp⟩⟩
    · exact ⟨s', .inr h1⟩
  · rintro s _ slots buf ⟨taken, hr, rfl⟩ hne
    rw [(h _ _ _ hr).bulkConsume buf hne]
    obtain ⟨sl, hsl⟩ := (key hr).1
    obtain ⟨s', ⟨k, h0, hk, h1, _⟩ | h1⟩ := hL.bulkConsume s _ sl buf hsl hne
    · have := hr.call (op := .bulkConsume buf) (s' := s') (r := ⟨buf.take k, [], none⟩) hne (by simp [BulkConsumer.call, h1])
      exact ⟨s', .inl ⟨k, h0, hk, h1, [], _, this, by simp⟩⟩
    · exact ⟨s', .inr h1⟩

/-- Lawful consumers do not claim to have consumed more items than they were given. -/
theorem BulkCollects.claimsAtMost {C : BulkConsumer σ I F E} {D : σ → List I → Option F → Prop} {q : Policy I F E} {s₀ : σ}
    {l : List I} (hC : BulkCollects C D q s₀ l) : C.ClaimsAtMost s₀ := by
  obtain ⟨R, hL, sl₀, h₀⟩ := hC
  intro taken s slots buf s' k hr hb he
  obtain ⟨_, ⟨sl', h2⟩, _⟩ := hr.after hL h₀
  obtain ⟨s'', ⟨j, h0, hj, _, h4, _⟩ | ⟨i, e, _, h4, _⟩⟩ := hL.bulkConsume s _ sl' buf h2 hb
  · rw [he] at h4; simp at h4; obtain ⟨_, rfl⟩ := h4; exact hj
  · rw [he] at h4; simp at h4

theorem BulkDefers.claimsAtMost {C : BulkConsumer σ I F E} {D : σ → List I → Option F → Prop} {X : Faults I F E} {s₀ : σ}
    {l : List I} (hX : X.Regular) (hC : BulkDefers C D X s₀ l) : C.ClaimsAtMost s₀ := by
  obtain ⟨R, hL, sl₀, h₀⟩ := hC
  intro taken s slots buf s' k hr hb he
  obtain ⟨⟨sl', h2⟩, _⟩ := hr.afterDeferring hX hL h₀
  obtain ⟨s'', ⟨j, h0, hj, h4, _⟩ | ⟨e, _, h4, _⟩⟩ := hL.bulkConsume s _ sl' buf h2 hb
  · rw [he] at h4; simp at h4; obtain ⟨_, rfl⟩ := h4; exact hj
  · rw [he] at h4; simp at h4

end

end Verif
