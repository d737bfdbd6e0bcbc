import Verif.Lemmas.WordAdaptors

/-!
# C82: `IntoVec` grows geometrically

`/repo/ufotofu/src/consumer/into_vec.rs:150-155`. `Vec::resize_with` may move all items to a larger allocation, and it fills the
new slots with default values. So what growing costs is bounded by the number of enlargements and by the lengths after them.
-/

namespace Verif

open Outcome

/-- As `ConsumerRuns`, adding up what the calls of the history cost, given by the states before and after them. -/
inductive ConsumerRunsCosting {σ I F E : Type} (C : BulkConsumer σ I F E) (cost : σ → σ → Nat) (s₀ : σ) :
    Nat → List I → σ → List I → Option (ConsumerEnd I F E) → Prop where
  | start : ConsumerRunsCosting C cost s₀ 0 [] s₀ [] none
  | call {n taken s slots op s' r} : ConsumerRunsCosting C cost s₀ n taken s slots none → op.Allowed slots →
      C.call s slots op = ok (s', r) → ConsumerRunsCosting C cost s₀ (n + cost s s') (taken ++ r.items) s' r.slots r.ended

theorem ConsumerRunsCosting.runs {σ I F E : Type} {C : BulkConsumer σ I F E} {cost : σ → σ → Nat} {s₀ s : σ} {n : Nat}
    {taken slots : List I} {ended : Option (ConsumerEnd I F E)} (h : ConsumerRunsCosting C cost s₀ n taken s slots ended) :
    ConsumerRuns C s₀ taken s slots ended := by
  induction h with
  | start => exact .start
  | call _ h1 h2 ih => exact .call ih h1 h2

/-- Every history costs something (possibly 0). -/
theorem ConsumerRuns.costing {σ I F E : Type} {C : BulkConsumer σ I F E} (cost : σ → σ → Nat) {s₀ s : σ}
    {taken slots : List I} {ended : Option (ConsumerEnd I F E)} (h : ConsumerRuns C s₀ taken s slots ended) :
    ∃ n, ConsumerRunsCosting C cost s₀ n taken s slots ended := by
  induction h with
  | start => exact ⟨0, .start⟩
  | call _ h1 h2 ih =>
    obtain ⟨n, ih⟩ := ih
    exact ⟨_, .call ih h1 h2⟩

namespace IntoVec

variable {T : Type} [Inhabited T]

omit [Inhabited T] in
/-- A call that enlarges the vector. -/
def enlargements (s s' : IntoVec T) : Nat := if s'.v.length = s.v.length then 0 else 1

omit [Inhabited T] in
/-- An enlargement moves all items at most once, and creates one value for each new slot: as many as there are slots then. -/
def moves (s s' : IntoVec T) : Nat := if s'.v.length = s.v.length then 0 else s'.v.length

private theorem makeSpace_length (s : IntoVec T) :
    s.makeSpaceIfNeeded.v.length = s.v.length ∨ s.v.length = s.consumed ∧ s.makeSpaceIfNeeded.v.length = 2 * s.v.length + 1 := by
  unfold makeSpaceIfNeeded
  split
  · right
    simp [resizeWith]; omega
  · exact .inl rfl

omit [Inhabited T] in
private theorem writeSlots_length {s : IntoVec T} {ws : List T} (h : ws.length ≤ s.v.length - s.consumed)
    (h' : s.consumed ≤ s.v.length) :
    (s.writeSlots ws).v.length = s.v.length := by
  simp [writeSlots]; omega

private theorem call_length {s s' : IntoVec T} {slots : List T} {op r} (h1 : s.consumed ≤ s.v.length)
    (h2 : slots.length ≤ s.v.length - s.consumed) (hop : op.Allowed slots) (h : (consumer T).call s slots op = ok (s', r)) :
    s.consumed ≤ s'.consumed ∧ (s'.v.length = s.v.length ∨ s.v.length = s.consumed ∧ s'.v.length = 2 * s.v.length + 1) := by
  obtain ⟨g1, g2, _⟩ := s.makeSpaceIfNeeded_spec h1
  have g3 := makeSpace_length s
  cases op with
  | consume x =>
    simp only [BulkConsumer.call, consumer, consume] at h
    rw [setIndex_of_lt g2] at h
    simp at h
    obtain ⟨rfl, rfl⟩ := h
    simp [g1] at *
    exact g3
  | flush => simp [BulkConsumer.call, consumer, flush] at h; obtain ⟨rfl, rfl⟩ := h; exact ⟨Nat.le_refl _, .inl rfl⟩
  | close f => simp [BulkConsumer.call, consumer, close] at h; obtain ⟨rfl, rfl⟩ := h; exact ⟨Nat.le_refl _, .inl rfl⟩
  | exposeSlots =>
    simp only [BulkConsumer.call, consumer, exposeSlots] at h
    rw [slice_of_le (by omega) (Nat.le_refl _)] at h
    simp at h
    obtain ⟨rfl, rfl⟩ := h
    exact ⟨by omega, g3⟩
  | write ws =>
    simp only [ConsumerOp.Allowed] at hop
    simp only [BulkConsumer.call, ok.injEq, Prod.mk.injEq] at h
    obtain ⟨rfl, rfl⟩ := h
    exact ⟨Nat.le_refl _, .inl (writeSlots_length (by omega) h1)⟩
  | consumeSlots k =>
    simp [BulkConsumer.call, consumer, consumeSlots] at h
    obtain ⟨rfl, rfl⟩ := h
    exact ⟨by simp, .inl rfl⟩
  | bulkConsume buf =>
    simp only [BulkConsumer.call, consumer, bulkConsumeDefault, exposeSlots, consumeSlots] at h
    rw [slice_of_le (by omega) (Nat.le_refl _)] at h
    simp at h
    obtain ⟨rfl, rfl⟩ := h
    simp only
    rw [writeSlots_length (by simp; omega) (by omega)]
    refine ⟨?_, g3⟩
    simp [writeSlots, g1]

end IntoVec

section

variable {T : Type} [Inhabited T]

/-- **C82.** A call enlarges the vector only if it is full, and then to twice its length and one more. -/
theorem into_vec_enlarged_when_full {v taken slots : List T} {s s' : IntoVec T} {op r}
    (h : ConsumerRuns (IntoVec.consumer T) (IntoVec.fromVec v) taken s slots none) (hop : op.Allowed slots)
    (hc : (IntoVec.consumer T).call s slots op = ok (s', r)) :
    s'.v.length = s.v.length ∨ s.v.length = v.length + taken.length ∧ s'.v.length = 2 * s.v.length + 1 := by
  obtain ⟨h1, h2, h3, _⟩ := IntoVec.runs_length (G := fun _ => True) (fun _ _ => trivial) h trivial rfl
  rw [← h1]
  exact (IntoVec.call_length h2 h3 hop hc).2

/-- Concrete cases: the first item that is consumed, and the second one. -/
example :
    (IntoVec.consumer Nat).call .new [] (.consume 7) = ok (⟨[7], 1⟩, ⟨[7], [], none⟩) ∧
    (IntoVec.consumer Nat).call ⟨[7], 1⟩ [] (.consume 8) = ok (⟨[7, 8, 0], 2⟩, ⟨[8], [], none⟩) ∧
    (IntoVec.consumer Nat).call ⟨[7, 8, 0], 2⟩ [] (.consume 9) = ok (⟨[7, 8, 9], 3⟩, ⟨[9], [], none⟩) := ⟨rfl, rfl, rfl⟩

/-- **C82, the number of enlargements.** After `k` of them there are `2 ^ k * (initial + 1) - 1` slots; and there are never
more slots than twice the number of items and one more. -/
theorem into_vec_growth {v taken slots : List T} {s : IntoVec T} {k : Nat} {ended : Option (ConsumerEnd T Unit Empty)}
    (h : ConsumerRunsCosting (IntoVec.consumer T) IntoVec.enlargements (IntoVec.fromVec v) k taken s slots ended) :
    s.v.length + 1 = 2 ^ k * (v.length + 1) ∧ s.v.length ≤ 2 * (v.length + taken.length) + 1 ∧ k ≤ (taken.length + 1).log2 + 1 := by
  have key : s.v.length + 1 = 2 ^ k * (v.length + 1) ∧ s.v.length ≤ 2 * (v.length + taken.length) + 1 := by
    induction h with
    | start => simp [IntoVec.fromVec]; omega
    | @call k taken s slots op s' r h hop hc ih =>
      obtain ⟨ih1, ih2⟩ := ih
      obtain ⟨h1, h2, h3, _⟩ := IntoVec.runs_length (G := fun _ => True) (fun _ _ => trivial) h.runs trivial rfl
      obtain ⟨h4, h5 | ⟨h5, h6⟩⟩ := IntoVec.call_length h2 h3 hop hc
      · rw [IntoVec.enlargements, if_pos h5, h5, Nat.add_zero]
        simp
        exact ⟨ih1, by omega⟩
      · rw [IntoVec.enlargements, if_neg (by omega), h6, Nat.pow_succ]
        simp
        refine ⟨?_, by omega⟩
        rw [Nat.mul_comm (2 ^ k) 2, Nat.mul_assoc, ← ih1]; omega
  refine ⟨key.1, key.2, ?_⟩
  obtain ⟨k1, k2⟩ := key
  have h1 : 2 ^ k * (v.length + 1) ≤ 2 * (taken.length + 1) * (v.length + 1) := by
    rw [← k1, Nat.mul_add _ v.length 1]
    have : 2 * v.length ≤ 2 * (taken.length + 1) * v.length := Nat.mul_le_mul_right _ (by omega)
    omega
  have h2 : 2 ^ k ≤ 2 * (taken.length + 1) := Nat.le_of_mul_le_mul_right h1 (by omega)
  rcases k with _ | k
  · omega
  · rw [Nat.pow_succ] at h2
    have := (Nat.le_log2 (n := taken.length + 1) (by omega)).2 (show 2 ^ k ≤ taken.length + 1 by omega)
    omega

/-- A concrete case: three items, two enlargements. -/
example : ∃ s : IntoVec Nat,
    ConsumerRunsCosting (IntoVec.consumer Nat) IntoVec.enlargements (IntoVec.fromVec []) 2 [7, 8, 9] s [] none ∧ s.v.length = 3 := by
  have h := ((ConsumerRunsCosting.start (C := IntoVec.consumer Nat) (cost := IntoVec.enlargements) (s₀ := .fromVec [])).call
    (op := .consume 7) (s' := ⟨[7], 1⟩) (r := ⟨[7], [], none⟩) trivial rfl).call
    (op := .consume 8) (s' := ⟨[7, 8, 0], 2⟩) (r := ⟨[8], [], none⟩) trivial rfl
  have h := h.call (op := .consume 9) (s' := ⟨[7, 8, 9], 3⟩) (r := ⟨[9], [], none⟩) trivial rfl
  exact ⟨⟨[7, 8, 9], 3⟩, h, rfl⟩

/-- **C82, the cost.** Altogether, a number of values are moved or created by enlargements that is linear in the number of
items. -/
theorem into_vec_moves {v taken slots : List T} {s : IntoVec T} {n : Nat} {ended : Option (ConsumerEnd T Unit Empty)}
    (h : ConsumerRunsCosting (IntoVec.consumer T) IntoVec.moves (IntoVec.fromVec v) n taken s slots ended) :
    n ≤ 4 * taken.length + 2 * v.length + 2 := by
  have key : n + 2 * (v.length + 1) ≤ 2 * (s.v.length + 1) ∧ (n = 0 ∨ s.v.length ≤ 2 * (v.length + taken.length) + 1) := by
    induction h with
    | start => simp [IntoVec.fromVec]
    | @call n taken s slots op s' r h hop hc ih =>
      obtain ⟨ih1, ih2⟩ := ih
      obtain ⟨h1, h2, h3, _⟩ := IntoVec.runs_length (G := fun _ => True) (fun _ _ => trivial) h.runs trivial rfl
      obtain ⟨h4, h5 | ⟨h5, h6⟩⟩ := IntoVec.call_length h2 h3 hop hc
      · rw [IntoVec.moves, if_pos h5, h5, Nat.add_zero]
        simp
        exact ⟨ih1, by omega⟩
      · rw [IntoVec.moves, if_neg (by omega), h6]
        simp
        omega
  omega

/-- A concrete case: three items, with room for one and then for three. -/
example : ∃ s : IntoVec Nat,
    ConsumerRunsCosting (IntoVec.consumer Nat) IntoVec.moves (IntoVec.fromVec []) 4 [7, 8, 9] s [] none := by
  have h := ((ConsumerRunsCosting.start (C := IntoVec.consumer Nat) (cost := IntoVec.moves) (s₀ := .fromVec [])).call
    (op := .consume 7) (s' := ⟨[7], 1⟩) (r := ⟨[7], [], none⟩) trivial rfl).call
    (op := .consume 8) (s' := ⟨[7, 8, 0], 2⟩) (r := ⟨[8], [], none⟩) trivial rfl
  have h := h.call (op := .consume 9) (s' := ⟨[7, 8, 9], 3⟩) (r := ⟨[9], [], none⟩) trivial rfl
  exact ⟨⟨[7, 8, 9], 3⟩, h⟩

end

end Verif
