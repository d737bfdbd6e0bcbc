import Verif.Lemmas.WordAdaptors
import Verif.Lemmas.Proptest
import Verif.CallsSpec

/-!
# C83: `bulk_pipe` into a vector takes few rounds

`/repo/ufotofu/src/lib.rs:579-613` and `/repo/ufotofu/src/consumer/into_vec.rs:150-155`. A round of `bulk_pipe` is a call of
`expose_items`, of `bulk_consume`, and of `consider_produced` (C79).
-/

namespace Verif

open Outcome

/-- The rounds that took only part of the items that were exposed. -/
def cutShort {I : Type} (rounds : List (List I × Nat)) : Nat := (rounds.filter fun r => r.2 < r.1.length).length

namespace IntoVec

variable {T : Type} [Inhabited T]

/-- There is room for `2 * a - 1` items, or the vector is full and has `a - 1` at least. -/
private def Room (a : Nat) (t : IntoVec T) : Prop :=
  t.consumed ≤ t.v.length ∧ a ≤ t.consumed + 1 ∧ (t.consumed < t.v.length → 2 * a ≤ t.v.length + 1)

private theorem bulkConsume_room {a : Nat} {t : IntoVec T} (buf : List T) (h : Room a t) :
    ∃ t' k, (consumer T).bulkConsume t buf = ok (t', .ok k) ∧ k ≤ buf.length ∧ t'.consumed = t.consumed + k ∧
      Room a t' ∧ (k < buf.length → Room (2 * a) t') ∧ (0 < buf.length → 0 < k) := by
  obtain ⟨h1, h2, h3⟩ := h
  obtain ⟨g1, g2, _⟩ := t.makeSpaceIfNeeded_spec h1
  have g3 : 2 * a ≤ t.makeSpaceIfNeeded.v.length + 1 := by
    unfold makeSpaceIfNeeded
    split
    · simp [resizeWith]; omega
    · exact h3 (by omega)
  simp only [consumer, bulkConsumeDefault, exposeSlots, consumeSlots]
  rw [slice_of_le (by omega) (Nat.le_refl _)]
  simp only [bind_eq, pure_eq, bind_ok]
  generalize t.makeSpaceIfNeeded = u at *
  refine ⟨_, _, rfl, Nat.min_le_right _ _, ?_, ⟨?_, ?_, ?_⟩, fun hk => ⟨?_, ?_, ?_⟩, ?_⟩ <;>
    simp only [writeSlots, List.length_append, List.length_take, List.length_drop, g1] at * <;> omega

end IntoVec

section

variable {σ T E : Type} [Inhabited T]

private theorem producerRounds_snoc {I : Type} (rounds : List (List I × Nat)) (r) :
    producerRounds (rounds ++ [r]) = producerRounds rounds ++ [.exposeItems] ++ [.considerProduced r.2] := by
  simp [producerRounds]

private theorem consumerRounds_snoc {I F : Type} (rounds : List (List I × Nat)) (r) :
    (consumerRounds (rounds ++ [r]) : List (ConsumerOp I F)) = consumerRounds rounds ++ [.bulkConsume r.1] := by
  simp [consumerRounds]

private theorem consumedIn_snoc {I : Type} (rounds : List (List I × Nat)) (r) :
    consumedIn (rounds ++ [r]) = consumedIn rounds + r.2 := by
  simp [consumedIn]

private theorem cutShort_snoc {I : Type} (rounds : List (List I × Nat)) (r) :
    cutShort (rounds ++ [r]) = cutShort rounds + if r.2 < r.1.length then 1 else 0 := by
  unfold cutShort
  rw [List.filter_append, List.length_append]
  congr 1
  by_cases h : r.2 < r.1.length <;> simp [h]

/-- What holds between two rounds. -/
private structure Between (v : List T) (t : Recorded (IntoVec T) (ConsumerOp T Unit)) (rounds : List (List T × Nat)) : Prop where
  calls : t.calls = consumerRounds rounds
  room : IntoVec.Room (2 ^ cutShort rounds * (v.length + 1)) t.inner
  consumed : t.inner.consumed = v.length + consumedIn rounds

omit [Inhabited T] in
private theorem Between.start (v : List T) : Between v ⟨.fromVec v, []⟩ [] := by
  refine ⟨rfl, ⟨?_, ?_, ?_⟩, rfl⟩ <;> simp [IntoVec.fromVec, cutShort]

private theorem Between.round {v : List T} {t : Recorded (IntoVec T) (ConsumerOp T Unit)} {rounds : List (List T × Nat)}
    (h : Between v t rounds) (xs : List T) : ∃ t' k, (recordedConsumer (IntoVec.consumer T)).bulkConsume t xs = ok (t', .ok k) ∧
      k ≤ xs.length ∧ (0 < xs.length → 0 < k) ∧ Between v t' (rounds ++ [(xs, k)]) := by
  obtain ⟨u, k, hu, h1, h2, h3, h4, h5⟩ := IntoVec.bulkConsume_room xs h.room
  refine ⟨t.note (.bulkConsume xs) u, k, ?_, h1, h5, ?_, ?_, ?_⟩
  · simp only [recordedConsumer]; rw [hu]; rfl
  · rw [consumerRounds_snoc, ← h.calls]; rfl
  · rw [cutShort_snoc]
    by_cases hk : k < xs.length
    · rw [if_pos hk, Nat.pow_succ, Nat.mul_comm (2 ^ _) 2, Nat.mul_assoc]; exact h4 hk
    · rw [if_neg hk]; exact h3
  · rw [consumedIn_snoc, ← Nat.add_assoc, ← h.consumed]; exact h2

omit [Inhabited T] in
private theorem Between.bound {v : List T} {t : Recorded (IntoVec T) (ConsumerOp T Unit)} {rounds : List (List T × Nat)}
    (h : Between v t rounds) : cutShort rounds ≤ (consumedIn rounds + 1).log2 := by
  have h1 := h.room.2.1
  rw [h.consumed] at h1
  refine (Nat.le_log2 (by omega)).2 (Nat.le_of_mul_le_mul_right (c := v.length + 1) ?_ (by omega))
  have : v.length ≤ (consumedIn rounds + 1) * v.length := Nat.le_mul_of_pos_left _ (by omega)
  have h2 : consumedIn rounds * v.length + v.length = (consumedIn rounds + 1) * v.length := by rw [Nat.add_mul, Nat.one_mul]
  have h3 : (consumedIn rounds + 1) * (v.length + 1) = (consumedIn rounds + 1) * v.length + (consumedIn rounds + 1) := Nat.mul_succ _ _
  omega

/-- **C83.** Whatever the producer exposes: when `m` items were piped, at most `log2 (m + 1)` rounds took less than everything
that was exposed. -/
theorem bulk_pipe_into_vec_rounds (P : BulkProducer σ T Unit E) (s : σ) (v : List T) {s' : Recorded σ (ProducerOp T)}
    {t' : Recorded (IntoVec T) (ConsumerOp T Unit)} {r}
    (h : bulkPipe (recordedProducer P) (recordedConsumer (IntoVec.consumer T)) ⟨s, []⟩ ⟨.fromVec v, []⟩ = ok ((s', t'), r)) :
    ∃ rounds, (s'.calls = producerRounds rounds ∨ s'.calls = producerRounds rounds ++ [.exposeItems]) ∧
      (t'.calls = consumerRounds rounds ∨ t'.calls = consumerRounds rounds ++ [.close ()]) ∧
      t'.inner.consumed = v.length + consumedIn rounds ∧ cutShort rounds ≤ (consumedIn rounds + 1).log2 := by
  refine loop_keeps (fun (q : Recorded σ (ProducerOp T) × Recorded (IntoVec T) (ConsumerOp T Unit)) => ∃ rounds,
      q.1.calls = producerRounds rounds ∧ Between v q.2 rounds)
    (fun q => ∃ rounds, (q.1.1.calls = producerRounds rounds ∨ q.1.1.calls = producerRounds rounds ++ [.exposeItems]) ∧
      (q.1.2.calls = consumerRounds rounds ∨ q.1.2.calls = consumerRounds rounds ++ [.close ()]) ∧
      q.1.2.inner.consumed = v.length + consumedIn rounds ∧ cutShort rounds ≤ (consumedIn rounds + 1).log2) ?_ ?_
    (s := (⟨s, []⟩, ⟨.fromVec v, []⟩)) ⟨[], rfl, .start v⟩ h
  · rintro ⟨s, t⟩ ⟨s', t'⟩ ⟨rounds, h1, h2⟩ h
    simp only [bulkPipeBody, bind_eq, recordedProducer] at h
    rcases hp : P.exposeItems s.inner with ⟨s₁, e | xs | f⟩ | _ | _ <;> rw [hp] at h <;>
      simp only [Outcome.onState, bind_ok] at h
    · cases h
    · obtain ⟨t₁, k, hc, -, -, h3⟩ := h2.round xs
      rw [hc] at h
      simp only [bind_ok] at h
      rcases hk : P.considerProduced s₁ k with ⟨s₂, e | ⟨⟩⟩ | _ | _ <;> simp only [Recorded.note] at h <;> rw [hk] at h <;> cases h
      exact ⟨rounds ++ [(xs, k)], by rw [producerRounds_snoc, ← h1], h3⟩
    · simp only [recordedConsumer, IntoVec.consumer, IntoVec.close] at h
      cases h
    · cases h
    · cases h
  · rintro ⟨s, t⟩ ⟨⟨s', t'⟩, r⟩ ⟨rounds, h1, h2⟩ h
    simp only at h1 h2
    simp only [bulkPipeBody, bind_eq, recordedProducer] at h
    rcases hp : P.exposeItems s.inner with ⟨s₁, e | xs | f⟩ | _ | _ <;> rw [hp] at h <;>
      simp only [Outcome.onState, bind_ok] at h
    · cases h
      exact ⟨rounds, .inr (by simp only [Recorded.note, h1]), .inl h2.calls, h2.consumed, h2.bound⟩
    · obtain ⟨t₁, k, hc, -, -, h3⟩ := h2.round xs
      rw [hc] at h
      simp only [bind_ok] at h
      rcases hk : P.considerProduced s₁ k with ⟨s₂, e | ⟨⟩⟩ | _ | _ <;> simp only [Recorded.note] at h <;> rw [hk] at h <;> cases h
      exact ⟨rounds ++ [(xs, k)], .inl (by rw [producerRounds_snoc, ← h1]), .inl h3.calls, h3.consumed, h3.bound⟩
    · simp only [recordedConsumer, IntoVec.consumer, IntoVec.close] at h
      cases h
      exact ⟨rounds, .inr (by simp only [Recorded.note, h1]), .inr (by simp only [Recorded.note, h2.calls]), h2.consumed, h2.bound⟩
    · cases h
    · cases h

/-- **C83, a slice.** Piping `m` items from a slice takes at most `log2 (m + 1) + 1` rounds. -/
theorem bulk_pipe_slice_into_vec_rounds (xs v : List T) :
    ∃ (s' : Recorded (FromSlice T) (ProducerOp T)) (t' : Recorded (IntoVec T) (ConsumerOp T Unit)) (rounds : List (List T × Nat)),
      bulkPipe (recordedProducer (FromSlice.producer T)) (recordedConsumer (IntoVec.consumer T)) ⟨.new xs, []⟩ ⟨.fromVec v, []⟩ =
        ok ((s', t'), .ok ()) ∧
      s'.calls = producerRounds rounds ++ [.exposeItems] ∧ t'.calls = consumerRounds rounds ++ [.close ()] ∧
      consumedIn rounds = xs.length ∧ rounds.length ≤ (xs.length + 1).log2 + 1 := by
  have key := loop_ok (body := bulkPipeBody (recordedProducer (FromSlice.producer T)) (recordedConsumer (IntoVec.consumer T)))
    (fun a _ q => ∃ rounds, q.1.calls = producerRounds rounds ∧ Between v q.2 rounds ∧
      q.1.inner = ⟨xs, consumedIn rounds⟩ ∧ consumedIn rounds + a = xs.length ∧
      (if a = 0 then rounds.length ≤ cutShort rounds + 1 else rounds.length = cutShort rounds))
    (fun q => q.2 = .ok () ∧ ∃ rounds, q.1.1.calls = producerRounds rounds ++ [.exposeItems] ∧
      q.1.2.calls = consumerRounds rounds ++ [.close ()] ∧ consumedIn rounds = xs.length ∧
      rounds.length ≤ (xs.length + 1).log2 + 1) ?_ (a := xs.length) (b := 0) (s := (⟨.new xs, []⟩, ⟨.fromVec v, []⟩)) ?_
  · obtain ⟨⟨⟨s', t'⟩, r⟩, h, hr, rounds, h1, h2, h3, h4⟩ := key
    simp only at hr
    subst hr
    exact ⟨s', t', rounds, h, h1, h2, h3, h4⟩
  · rintro a _ ⟨s, t⟩ ⟨rounds, h1, h2, h3, h4, h5⟩
    simp only at h1 h2 h3
    have he : (recordedProducer (FromSlice.producer T)).exposeItems s = ok (s.note .exposeItems s.inner,
        .ok (if a = 0 then .inr () else .inl (xs.drop (consumedIn rounds)))) := by
      simp only [recordedProducer, FromSlice.producer, FromSlice.exposeItems, h3]
      rw [slice_of_le (by omega) (Nat.le_refl _)]
      by_cases ha : a = 0
      · have : consumedIn rounds = xs.length := by omega
        simp [ha, this, Outcome.onState]
      · have : ¬ xs.length ≤ consumedIn rounds := by omega
        simp [ha, this, Outcome.onState]
    simp only [bulkPipeBody, bind_eq]
    rw [he]
    simp only [bind_ok]
    by_cases ha : a = 0
    · subst ha
      left
      simp only [if_pos] at h5 ⊢
      refine ⟨_, rfl, rfl, rounds, by simp only [Recorded.note, h1], by simp only [Recorded.note, h2.calls], by omega, ?_⟩
      have := h2.bound
      rw [show consumedIn rounds = xs.length by omega] at this
      omega
    · right
      simp only [if_neg ha] at h5 ⊢
      obtain ⟨t₁, k, hc, hk, hk', h6⟩ := h2.round (xs.drop (consumedIn rounds))
      rw [List.length_drop] at hk hk'
      rw [hc]
      simp only [bind_ok]
      refine ⟨_, a - k, 0, rfl, .inl (by omega), rounds ++ [(_, k)], ?_, h6, ?_, ?_, ?_⟩
      · simp only [Recorded.note]; rw [producerRounds_snoc, ← h1]
      · simp only [Recorded.note, consumedIn_snoc, h3]
      · rw [consumedIn_snoc]; simp only; omega
      · rw [cutShort_snoc, List.length_append, List.length_drop, List.length_singleton]
        split <;> split <;> simp only at * <;> omega
  · exact ⟨[], rfl, .start v, rfl, by simp [consumedIn], by split <;> simp [cutShort]⟩

/-- A concrete case: eight items in four rounds, of which three are cut short. -/
example : ∃ s' t', bulkPipe (recordedProducer (FromSlice.producer Nat)) (recordedConsumer (IntoVec.consumer Nat))
    ⟨.new [1, 2, 3, 4, 5, 6, 7, 8], []⟩ ⟨.fromVec [], []⟩ = ok ((s', t'), .ok ()) ∧
    s'.calls = producerRounds [([1, 2, 3, 4, 5, 6, 7, 8], 1), ([2, 3, 4, 5, 6, 7, 8], 2), ([4, 5, 6, 7, 8], 4), ([8], 1)] ++
      [.exposeItems] ∧ (8 + 1).log2 + 1 = 4 := by
  unfold bulkPipe
  rw [loop_eq_of_fuel (n := 5) (by intro h; cases h)]
  exact ⟨_, _, rfl, rfl, by decide⟩

end

end Verif
