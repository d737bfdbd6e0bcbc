import Verif.Model.Scramblers
import Verif.Lemmas.Proptest

/-! Lemmas about the scramblers with and without debug assertions. -/

namespace Verif

open Outcome

section

variable {σ I F E : Type}

theorem ProducerScrambler.performOperation_debug (P : BulkProducer σ I F E) {s : ProducerScrambler σ I F E}
    (h : s.buffer.len < s.buffer.capacity) : s.performOperation true P = s.performOperation false P := by
  have hne : ¬ s.buffer.amount = s.buffer.data.length := by simp only [Fixed.len, Fixed.capacity] at h; omega
  have he : ∀ x, s.buffer.enqueue x = (mod (s.buffer.read + s.buffer.amount) s.buffer.data.length).bind fun i =>
      (setIndex s.buffer.data i x).bind fun data => ok ({ s.buffer with data := data, amount := s.buffer.amount + 1 }, none) := by
    intro x
    simp [Fixed.enqueue, Fixed.writeTo, Fixed.capacity, hne]
  unfold ProducerScrambler.performOperation
  simp only [debugAssert, h, decide_true, if_true, assert, bind_eq, bind_ok, Bool.false_eq_true, if_false, he]
  congr 1
  funext op
  cases op with
  | produce =>
    dsimp only
    congr 1
    funext x
    rcases x with ⟨inner, e | item | fin⟩
    · rfl
    · dsimp only
      cases mod (s.buffer.read + s.buffer.amount) s.buffer.data.length with
      | ok i => cases hs : setIndex s.buffer.data i item <;> simp [hs]
      | panic => simp
      | diverge => simp
    · rfl
  | considerProduced n => rfl
  | slurp => rfl

theorem ProducerScrambler.fillBody_debug (P : BulkProducer σ I F E) : fillBody true P = fillBody false P := by
  funext s
  unfold ProducerScrambler.fillBody
  by_cases h : s.buffer.len < s.buffer.capacity
  · simp only [ProducerScrambler.performOperation_debug P h]
  · simp [h]

theorem ConsumerScrambler.drainBody_debug (C : BulkConsumer σ I F E) : drainBody true C = drainBody false C := by
  funext s
  unfold ConsumerScrambler.drainBody ConsumerScrambler.performOperation
  by_cases h : s.buffer.len > 0
  · simp only [debugAssert, h, decide_true, if_true, assert, bind_eq, bind_ok, Bool.false_eq_true, if_false]
  · simp [h]

theorem Fixed.dequeue_capacity {q q' : Fixed I} {x} (h : q.dequeue = ok (q', x)) : q'.capacity = q.capacity := by
  simp only [Fixed.dequeue] at h
  split at h
  · simp at h; rw [h.1]
  · simp only [bind_eq, bind_eq_ok, pure_eq] at h
    obtain ⟨_, _, _, _, _, _, h⟩ := h
    injection h with h; injection h with h; rw [← h]; rfl

theorem Fixed.considerDequeued_capacity {q q' : Fixed I} {n : Nat} (h : q.considerDequeued n = ok q') :
    q'.capacity = q.capacity := by
  simp only [Fixed.considerDequeued, bind_eq, bind_eq_ok, pure_eq] at h
  obtain ⟨_, _, _, _, h⟩ := h
  injection h with h; rw [← h]; rfl

theorem Fixed.bulkDequeue_capacity {q q' : Fixed I} {buf buf' : List I} {n}
    (h : (Fixed.queue I).bulkDequeue q buf = ok (q', n, buf')) : q'.capacity = q.capacity := by
  simp only [Fixed.queue, bulkDequeueDefault, bind_eq, bind_eq_ok] at h
  obtain ⟨⟨q₁, r⟩, h1, h2⟩ := h
  have h3 : q₁ = q := by
    simp only [Fixed.exposeItems] at h1
    split at h1
    · simp at h1; exact h1.1.symm
    · simp only [bind_eq, bind_eq_ok, pure_eq] at h1
      obtain ⟨_, _, h1⟩ := h1
      injection h1 with h1; injection h1 with h1; exact h1.symm
  subst h3
  cases r with
  | none => simp at h2; rw [h2.1]
  | some slots =>
    simp only [bind_eq_ok, pure_eq] at h2
    obtain ⟨q₂, h4, h5⟩ := h2
    injection h5 with h5; injection h5 with h5
    rw [← h5, Fixed.considerDequeued_capacity h4]

theorem ConsumerScrambler.advance_buffer {s s' : ConsumerScrambler σ I} (h : s.advance = ok s') : s'.buffer = s.buffer := by
  simp only [ConsumerScrambler.advance, bind_eq, bind_eq_ok, pure_eq] at h
  obtain ⟨_, _, h⟩ := h
  injection h with h; rw [← h]

theorem ConsumerScrambler.perform_capacity {debug : Bool} {C : BulkConsumer σ I F E} {s s' : ConsumerScrambler σ I} {r}
    (h : s.performOperation debug C = ok (s', r)) : s'.buffer.capacity = s.buffer.capacity := by
  simp only [ConsumerScrambler.performOperation, bind_eq, bind_eq_ok] at h
  obtain ⟨_, _, op, _, h⟩ := h
  cases op with
  | consume =>
    simp only [bind_eq_ok] at h
    obtain ⟨⟨q, x⟩, h1, y, _, ⟨inner, r'⟩, _, h2⟩ := h
    have h3 := Fixed.dequeue_capacity h1
    cases r' with
    | error e => simp at h2; rw [← h2.1]; exact h3
    | ok _ =>
      simp only [bind_eq_ok, pure_eq] at h2
      obtain ⟨t, h4, h5⟩ := h2
      injection h5 with h5; injection h5 with h5
      rw [← h5, ConsumerScrambler.advance_buffer h4]; exact h3
  | consumeSlots n =>
    simp only [bind_eq_ok] at h
    obtain ⟨⟨inner, r'⟩, _, h2⟩ := h
    cases r' with
    | error e => simp at h2; rw [← h2.1]
    | ok slots =>
      simp only [bind_eq_ok] at h2
      obtain ⟨available, _, ⟨q, amount, written⟩, h1, ⟨inner', r''⟩, _, h2⟩ := h2
      have h3 := Fixed.bulkDequeue_capacity h1
      cases r'' with
      | error e => simp at h2; rw [← h2.1]; exact h3
      | ok _ =>
        simp only [bind_eq_ok, pure_eq] at h2
        obtain ⟨t, h4, h5⟩ := h2
        injection h5 with h5; injection h5 with h5
        rw [← h5, ConsumerScrambler.advance_buffer h4]; exact h3
  | flush =>
    simp only [bind_eq_ok] at h
    obtain ⟨⟨inner, r'⟩, _, h2⟩ := h
    cases r' with
    | error e => simp at h2; rw [← h2.1]
    | ok _ =>
      simp only [bind_eq_ok, pure_eq] at h2
      obtain ⟨t, h4, h5⟩ := h2
      injection h5 with h5; injection h5 with h5
      rw [← h5, ConsumerScrambler.advance_buffer h4]

/-- After a successful drain the buffer is empty. -/
theorem ConsumerScrambler.drain_empty {debug : Bool} {C : BulkConsumer σ I F E} {s s' : ConsumerScrambler σ I}
    (h : s.drain debug C = ok (s', .ok ())) : s'.buffer.len = 0 ∧ s'.buffer.capacity = s.buffer.capacity := by
  refine loop_keeps (Inv := fun t => t.buffer.capacity = s.buffer.capacity)
    (Post := fun r => r.2 = .ok () → r.1.buffer.len = 0 ∧ r.1.buffer.capacity = s.buffer.capacity) ?_ ?_ rfl h rfl
  · intro t t' ht hb
    simp only [ConsumerScrambler.drainBody] at hb
    split at hb
    · simp only [bind_eq, bind_eq_ok] at hb
      obtain ⟨⟨u, r⟩, h1, h2⟩ := hb
      cases r with
      | error e => simp at h2
      | ok _ =>
        simp at h2
        subst h2
        rw [ConsumerScrambler.perform_capacity h1, ht]
    · simp at hb
  · intro t r ht hb hr
    simp only [ConsumerScrambler.drainBody] at hb
    split at hb
    · simp only [bind_eq, bind_eq_ok] at hb
      obtain ⟨⟨u, r'⟩, h1, h2⟩ := hb
      cases r' with
      | error e => simp at h2; subst h2; cases hr
      | ok _ => simp at h2
    · rename_i h0
      simp at hb
      subst hb
      exact ⟨Nat.le_zero.mp (Nat.not_lt.mp h0), ht⟩

end

end Verif
