import Verif.Lemmas.WordSame
import Verif.Lemmas.WordQueue
import Verif.Lemmas.Slices
import Verif.Model.WordAdaptors

/-!
# Helper lemmas for `Props/WordAdaptors.lean`
-/

namespace Verif

open Outcome

section

variable {σ I F E : Type}

/-- `Limit` never exposes more items than remain. -/
theorem ProducerRuns.limit_shown {P : BulkProducer σ I F E} {t₀ t : LimitSt σ} {handed shown : List I}
    {ended : Option (Except E (Option F))} (h : ProducerRuns (limitBulkProducer P) t₀ handed t shown ended) :
    shown.length ≤ t.remaining := by
  induction h with
  | start => simp
  | @call handed t shown op t' r h hop hcall hle =>
    obtain ⟨u, m'⟩ := t
    simp only at hle
    cases op with
    | produce =>
      simp only [BulkProducer.call, limitBulkProducer, limitBufferedProducer, limitProducer] at hcall
      cases m' with
      | zero => simp at hcall; obtain ⟨rfl, rfl⟩ := hcall; simp
      | succ m =>
        rcases hp : P.produce u with ⟨u', e | x | f⟩ | _ | _ <;> simp [hp] at hcall <;> obtain ⟨rfl, rfl⟩ := hcall <;> simp
    | slurp =>
      simp only [BulkProducer.call, limitBulkProducer, limitBufferedProducer] at hcall
      rcases hp : P.slurp u with ⟨u', e | _⟩ | _ | _ <;> simp [hp] at hcall <;> obtain ⟨rfl, rfl⟩ := hcall <;> simp
    | exposeItems =>
      simp only [BulkProducer.call, limitBulkProducer] at hcall
      split at hcall
      · simp at hcall; obtain ⟨rfl, rfl⟩ := hcall; simp
      · rcases hp : P.exposeItems u with ⟨u', e | xs | f⟩ | _ | _
        · simp [hp] at hcall; obtain ⟨rfl, rfl⟩ := hcall; simp
        · simp [hp, slice_of_le (Nat.zero_le _) (Nat.min_le_right m' xs.length)] at hcall
          obtain ⟨rfl, rfl⟩ := hcall
          simp; omega
        · simp [hp] at hcall; obtain ⟨rfl, rfl⟩ := hcall; simp
        · simp [hp] at hcall
        · simp [hp] at hcall
    | considerProduced k =>
      simp only [BulkProducer.call, limitBulkProducer, sub_of_le (show k ≤ m' by have := hop.2; omega)] at hcall
      rcases hp : P.considerProduced u k with ⟨u', e | _⟩ | _ | _ <;> simp [hp] at hcall <;> obtain ⟨rfl, rfl⟩ := hcall
      · simp
      · simp; omega
    | bulkProduce buf =>
      simp only [BulkProducer.call] at hcall
      rcases hb : (limitBulkProducer P).bulkProduce ⟨u, m'⟩ buf with ⟨t'', e | k | f, b⟩ | _ | _ <;> simp [hb] at hcall <;>
        obtain ⟨rfl, rfl⟩ := hcall <;> simp

/-- `Limit` never exposes more slots than remain. -/
theorem ConsumerRuns.limit_slots {C : BulkConsumer σ I F E} {t₀ t : LimitSt σ} {taken slots : List I}
    {ended : Option (ConsumerEnd I F (Option E))} (h : ConsumerRuns (limitBulkConsumer C) t₀ taken t slots ended) :
    slots.length ≤ t.remaining := by
  induction h with
  | start => simp
  | @call taken t slots op t' r h hop hcall hle =>
    obtain ⟨u, m'⟩ := t
    simp only at hle
    cases op with
    | consume x =>
      simp only [BulkConsumer.call] at hcall
      rcases hb : (limitBulkConsumer C).consume ⟨u, m'⟩ x with ⟨t'', e | _⟩ | _ | _ <;> simp [hb] at hcall <;>
        obtain ⟨rfl, rfl⟩ := hcall <;> simp
    | flush =>
      simp only [BulkConsumer.call] at hcall
      rcases hb : (limitBulkConsumer C).flush ⟨u, m'⟩ with ⟨t'', e | _⟩ | _ | _ <;> simp [hb] at hcall <;>
        obtain ⟨rfl, rfl⟩ := hcall <;> simp
    | close f =>
      simp only [BulkConsumer.call] at hcall
      rcases hb : (limitBulkConsumer C).close ⟨u, m'⟩ f with ⟨t'', e | _⟩ | _ | _ <;> simp [hb] at hcall <;>
        obtain ⟨rfl, rfl⟩ := hcall <;> simp
    | exposeSlots =>
      simp only [BulkConsumer.call, limitBulkConsumer] at hcall
      split at hcall
      · simp at hcall; obtain ⟨rfl, rfl⟩ := hcall; simp
      · rcases hp : C.exposeSlots u with ⟨u', e | xs⟩ | _ | _
        · simp [hp] at hcall; obtain ⟨rfl, rfl⟩ := hcall; simp
        · simp [hp, slice_of_le (Nat.zero_le _) (Nat.min_le_right m' xs.length)] at hcall
          obtain ⟨rfl, rfl⟩ := hcall
          simp; omega
        · simp [hp] at hcall
        · simp [hp] at hcall
    | write ws =>
      simp only [ConsumerOp.Allowed] at hop
      simp [BulkConsumer.call, limitBulkConsumer] at hcall
      obtain ⟨rfl, rfl⟩ := hcall
      simp; omega
    | consumeSlots k =>
      simp only [BulkConsumer.call, limitBulkConsumer, sub_of_le (show k ≤ m' by have := hop.2; omega)] at hcall
      rcases hp : C.consumeSlots u k with ⟨u', e | _⟩ | _ | _ <;> simp [hp, Except.mapError] at hcall <;>
        obtain ⟨rfl, rfl⟩ := hcall
      · simp
      · simp; omega
    | bulkConsume buf =>
      simp only [BulkConsumer.call] at hcall
      rcases hb : (limitBulkConsumer C).bulkConsume ⟨u, m'⟩ buf with ⟨t'', e | k⟩ | _ | _ <;> simp [hb] at hcall <;>
        obtain ⟨rfl, rfl⟩ := hcall <;> simp

end

namespace FromSlice

variable {T : Type}

/-- The items stay the same. -/
theorem runs_data {s₀ s : FromSlice T} {handed shown : List T} {ended : Option (Except Empty Unit)}
    (h : ProducerRuns (producer T) s₀ handed s shown ended) : s.data = s₀.data := by
  have hexp : ∀ {s s' : FromSlice T} {r}, s.exposeItems = ok (s', r) → s' = s := by
    intro s s' r h
    simp only [exposeItems] at h
    rcases hs : slice s.data s.pos s.data.length with xs | _ | _ <;> simp only [hs, bind_eq, bind_ok] at h
    · split at h <;> · cases h; rfl
    · cases h
    · cases h
  induction h with
  | start => rfl
  | @call handed s shown op s' r h hop hcall ih =>
    rw [← ih]
    cases op with
    | produce =>
      simp only [BulkProducer.call, producer, produce] at hcall
      by_cases h0 : s.data.length = s.pos
      · simp [h0] at hcall; rw [← hcall.1]
      · rcases hi : index s.data s.pos with x | _ | _ <;> simp [h0, hi] at hcall
        rw [← hcall.1]
    | slurp => simp [BulkProducer.call, producer, slurp] at hcall; rw [hcall.1]
    | exposeItems =>
      simp only [BulkProducer.call, producer] at hcall
      rcases he : s.exposeItems with ⟨s'', e | x | f⟩ | _ | _ <;> simp [he] at hcall <;> rw [← hcall.1, hexp he]
    | considerProduced k => simp [BulkProducer.call, producer, considerProduced] at hcall; rw [← hcall.1]
    | bulkProduce buf =>
      simp only [BulkProducer.call, producer, bulkProduceDefault] at hcall
      rcases he : s.exposeItems with ⟨s'', e | x | f⟩ | _ | _ <;> simp [he, considerProduced] at hcall <;>
        rw [← hcall.1, hexp he]

theorem runs_pos {xs handed shown : List T} {s : FromSlice T} (h : ProducerRuns (producer T) (new xs) handed s shown none) :
    s.data = xs ∧ s.pos + shown.length ≤ xs.length := by
  have hd : s.data = xs := runs_data h
  obtain ⟨_, h2, _⟩ := h.after law (ready_new xs)
  obtain ⟨_, ⟨m, hm⟩, h3⟩ := h2 rfl
  refine ⟨hd, ?_⟩
  rcases shown with _ | ⟨y, ys⟩
  · have := hm.1
    rw [hd] at this
    simp; omega
  · have := (h3 (by simp)).1
    rwa [hd] at this

end FromSlice

namespace FromBoxedSlice

variable {T : Type}

/-- The items stay the same. -/
theorem runs_data {s₀ s : FromBoxedSlice T} {handed shown : List T} {ended : Option (Except Empty Unit)}
    (h : ProducerRuns (producer T) s₀ handed s shown ended) : s.data = s₀.data := by
  have hexp : ∀ {s s' : FromBoxedSlice T} {r}, s.exposeItems = ok (s', r) → s' = s := by
    intro s s' r h
    simp only [exposeItems] at h
    rcases hs : slice s.data s.pos s.data.length with xs | _ | _ <;> simp only [hs, bind_eq, bind_ok] at h
    · split at h <;> · cases h; rfl
    · cases h
    · cases h
  induction h with
  | start => rfl
  | @call handed s shown op s' r h hop hcall ih =>
    rw [← ih]
    cases op with
    | produce =>
      simp only [BulkProducer.call, producer, produce] at hcall
      by_cases h0 : s.data.length = s.pos
      · simp [h0] at hcall; rw [← hcall.1]
      · rcases hi : index s.data s.pos with x | _ | _ <;> simp [h0, hi] at hcall
        rw [← hcall.1]
    | slurp => simp [BulkProducer.call, producer, slurp] at hcall; rw [hcall.1]
    | exposeItems =>
      simp only [BulkProducer.call, producer] at hcall
      rcases he : s.exposeItems with ⟨s'', e | x | f⟩ | _ | _ <;> simp [he] at hcall <;> rw [← hcall.1, hexp he]
    | considerProduced k => simp [BulkProducer.call, producer, considerProduced] at hcall; rw [← hcall.1]
    | bulkProduce buf =>
      simp only [BulkProducer.call, producer, bulkProduceDefault] at hcall
      rcases he : s.exposeItems with ⟨s'', e | x | f⟩ | _ | _ <;> simp [he, considerProduced] at hcall <;>
        rw [← hcall.1, hexp he]

theorem runs_pos {xs handed shown : List T} {s : FromBoxedSlice T} (h : ProducerRuns (producer T) (new xs) handed s shown none) :
    s.data = xs ∧ s.pos + shown.length ≤ xs.length := by
  have hd : s.data = xs := runs_data h
  obtain ⟨_, h2, _⟩ := h.after law (ready_new xs)
  obtain ⟨_, ⟨m, hm⟩, h3⟩ := h2 rfl
  refine ⟨hd, ?_⟩
  rcases shown with _ | ⟨y, ys⟩
  · have := hm.1
    rw [hd] at this
    simp; omega
  · have := (h3 (by simp)).1
    rwa [hd] at this

end FromBoxedSlice

namespace IntoVec

variable {T : Type} [Inhabited T]

/-- The vector at most doubles when it is full, and its length stays of a given form if doubling keeps that form. -/
theorem runs_length {G : Nat → Prop} (hG : ∀ n, G n → G (2 * n + 1)) {v taken slots : List T} {s : IntoVec T}
    {ended : Option (ConsumerEnd T Unit Empty)} (h : ConsumerRuns (consumer T) (fromVec v) taken s slots ended) (hv : G v.length) :
    ended = none → s.consumed = v.length + taken.length ∧ s.consumed ≤ s.v.length ∧ slots.length ≤ s.v.length - s.consumed ∧
      s.v.length ≤ 2 * s.consumed + 1 ∧ G s.v.length := by
  have key : ∀ s : IntoVec T, s.consumed ≤ s.v.length → s.v.length ≤ 2 * s.consumed + 1 → G s.v.length →
      s.makeSpaceIfNeeded.v.length ≤ 2 * s.consumed + 1 ∧ G s.makeSpaceIfNeeded.v.length := by
    intro s h1 h2 h3
    unfold makeSpaceIfNeeded
    split
    · rename_i hc
      have : (resizeWith s.v (s.consumed * 2 + 1)).length = 2 * s.v.length + 1 := by simp [resizeWith]; omega
      simp only [this]
      exact ⟨by omega, hG _ h3⟩
    · exact ⟨h2, h3⟩
  induction h with
  | start => intro _; simp [fromVec, hv]; omega
  | @call taken s slots op s' r h hop hcall ih =>
    intro he
    obtain ⟨h1, h2, h3, h4, h5⟩ := ih rfl
    obtain ⟨g1, g2, _⟩ := s.makeSpaceIfNeeded_spec h2
    obtain ⟨g4, g5⟩ := key s h2 h4 h5
    cases op with
    | consume x =>
      simp only [BulkConsumer.call, consumer, consume] at hcall
      rw [setIndex_of_lt g2] at hcall
      simp at hcall
      obtain ⟨rfl, rfl⟩ := hcall
      simp [h1, g1] at *
      exact ⟨by omega, by omega, by omega, g5⟩
    | flush => simp [BulkConsumer.call, consumer, flush] at hcall; obtain ⟨rfl, rfl⟩ := hcall; simp; exact ⟨h1, h2, h4, h5⟩
    | close f => simp [BulkConsumer.call, consumer, close] at hcall; obtain ⟨rfl, rfl⟩ := hcall; cases he
    | exposeSlots =>
      simp only [BulkConsumer.call, consumer, exposeSlots] at hcall
      rw [slice_of_le (by omega) (Nat.le_refl _)] at hcall
      simp at hcall
      obtain ⟨rfl, rfl⟩ := hcall
      simp [g1]
      exact ⟨h1, by omega, g4, g5⟩
    | write ws =>
      simp only [ConsumerOp.Allowed] at hop
      simp [BulkConsumer.call, consumer, writeSlots] at hcall
      obtain ⟨rfl, rfl⟩ := hcall
      have hl : (s.v.take s.consumed ++ (ws ++ s.v.drop (s.consumed + ws.length))).length = s.v.length := by
        simp; omega
      dsimp only
      rw [hl]
      simp
      exact ⟨h1, h2, by omega, h4, h5⟩
    | consumeSlots k =>
      have := hop.2
      simp [BulkConsumer.call, consumer, consumeSlots] at hcall
      obtain ⟨rfl, rfl⟩ := hcall
      simp
      exact ⟨by omega, by omega, by omega, by omega, h5⟩
    | bulkConsume buf =>
      simp only [BulkConsumer.call, consumer, bulkConsumeDefault, exposeSlots] at hcall
      rw [slice_of_le (by omega) (Nat.le_refl _)] at hcall
      simp only [bind_eq, bind_ok, pure_eq, List.take_length, consumeSlots, writeSlots, List.length_drop] at hcall
      simp at hcall
      rw [g1] at hcall
      obtain ⟨rfl, rfl⟩ := hcall
      have hl : (s.makeSpaceIfNeeded.v.take s.consumed ++ (buf.take (min (s.makeSpaceIfNeeded.v.length - s.consumed) buf.length) ++
          s.makeSpaceIfNeeded.v.drop (s.consumed + min (s.makeSpaceIfNeeded.v.length - s.consumed) buf.length))).length = s.makeSpaceIfNeeded.v.length := by
        simp; omega
      simp only [g1] at *
      rw [hl]
      simp
      refine ⟨by omega, by omega, by omega, g5⟩

end IntoVec

end Verif
