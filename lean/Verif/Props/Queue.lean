import Verif.Lemmas.QueueRing

/-!
# C01–C05: the queues of `ufotofu_queues`
-/

namespace Verif

open Outcome

/-- All answers to a sequence of calls (used for the examples only). -/
def Queue.answers {κ I : Type} (Q : Queue κ I) : κ → List (QueueOp I) → Outcome (List (QueueAns I))
  | _, [] => ok []
  | q, op :: ops => (Q.call q op).bind fun (q, a) => (Q.answers q ops).bind fun as => ok (a :: as)

/-! ## C01, C02: bounded first-in-first-out lists under every history of calls -/

/-- C01 for every capacity except 0, where the statement fails (see `fixed_capacity_zero_panics`): every sequence of calls
that respects the documented invariants is answered as by an ideal bounded first-in-first-out list, and without a panic. For
capacity 0, this holds for sequences without `consider_dequeued`. -/
theorem fixed_fifo_partial {T : Type} (capacity : Nat) (tmp : Nat → T) (ops : List (QueueOp T))
    (h : 0 < capacity ∨ ∀ k, QueueOp.considerDequeued k ∉ ops) :
    (Fixed.queue T).ActsAsFifo capacity (Fixed.new capacity tmp) [] .start ops :=
  (Fixed.fifoLaw T capacity).actsAsFifo ops h ⟨[], Fixed.holds_new capacity tmp, rfl, by simp [Ledger.start]⟩

example : (Fixed.queue Nat).ActsAsFifo 3 (Fixed.new 3 fun _ => 0) [] .start
    [.enqueue 1, .bulkEnqueue [2, 3, 4], .exposeItems, .considerDequeued 2, .dequeue] :=
  fixed_fifo_partial 3 _ _ (.inl (by decide))

/-- C01 for positive capacities, without further conditions. -/
theorem fixed_fifo_of_pos {T : Type} (capacity : Nat) (hpos : 0 < capacity) (tmp : Nat → T) (ops : List (QueueOp T)) :
    (Fixed.queue T).ActsAsFifo capacity (Fixed.new capacity tmp) [] .start ops :=
  fixed_fifo_partial capacity tmp ops (.inl hpos)

/-- A history that wraps around: all methods, capacity 3. -/
example : (Fixed.queue Nat).answers (Fixed.new 3 fun _ => 0)
    [.enqueue 1, .bulkEnqueue [2, 3, 4], .enqueue 9, .exposeItems, .considerDequeued 2, .exposeSlots, .write [7],
      .considerEnqueued 1, .len, .dequeue, .enqueue 8, .bulkDequeue [0, 0, 0], .bulkDequeue [0, 0, 0], .dequeue] =
    ok [.item none, .num 2, .item (some 9), .items (some [1, 2, 3]), .unit, .slots (some 2), .unit, .unit, .num 2,
      .item (some 3), .item none, .filled 2 [7, 8, 0], .filled 0 [0, 0, 0], .item none] := by decide

/-- C01 fails for capacity 0: `consider_dequeued(0)` respects the documented invariants but panics (fixed.rs:292 computes a
remainder by the capacity). -/
theorem fixed_capacity_zero_panics {T : Type} (tmp : Nat → T) :
    Ledger.start.Allows (QueueOp.considerDequeued (I := T) 0) ∧
      (Fixed.queue T).call (Fixed.new 0 tmp) (.considerDequeued 0) = .panic ∧
      ¬ (Fixed.queue T).ActsAsFifo 0 (Fixed.new 0 tmp) [] .start [.considerDequeued 0] := by
  have hp : (Fixed.queue T).call (Fixed.new 0 tmp) (.considerDequeued 0) = .panic := rfl
  refine ⟨Nat.le_refl 0, hp, fun h => ?_⟩
  obtain ⟨q', a, h1, _⟩ := h (Nat.le_refl 0)
  rw [hp] at h1
  cases h1

/-- C02 for every `N` except 0, where the statement fails (see `static_capacity_zero_panics`). -/
theorem static_fifo_partial {T : Type} (N : Nat) (tmp : Nat → T) (ops : List (QueueOp T))
    (h : 0 < N ∨ ∀ k, QueueOp.considerDequeued k ∉ ops) :
    (Static.queue T N).ActsAsFifo N (Static.new N tmp) [] .start ops :=
  (Static.fifoLaw T N).actsAsFifo ops h ⟨[], Static.holds_new N tmp, rfl, by simp [Ledger.start]⟩

example : (Static.queue Nat 0).ActsAsFifo 0 (Static.new 0 fun _ => 0) [] .start [.enqueue 1, .exposeItems, .exposeSlots, .dequeue] :=
  static_fifo_partial 0 _ _ (.inr (by simp))

/-- C02 for positive `N`, without further conditions. -/
theorem static_fifo_of_pos {T : Type} (N : Nat) (hpos : 0 < N) (tmp : Nat → T) (ops : List (QueueOp T)) :
    (Static.queue T N).ActsAsFifo N (Static.new N tmp) [] .start ops :=
  static_fifo_partial N tmp ops (.inl hpos)

/-- A history that wraps around: all methods, `N = 3`. -/
example : (Static.queue Nat 3).answers (Static.new 3 fun _ => 0)
    [.enqueue 1, .bulkEnqueue [2, 3, 4], .enqueue 9, .exposeItems, .considerDequeued 2, .exposeSlots, .write [7],
      .considerEnqueued 1, .len, .dequeue, .enqueue 8, .bulkDequeue [0, 0, 0], .bulkDequeue [0, 0, 0], .dequeue] =
    ok [.item none, .num 2, .item (some 9), .items (some [1, 2, 3]), .unit, .slots (some 2), .unit, .unit, .num 2,
      .item (some 3), .item none, .filled 2 [7, 8, 0], .filled 0 [0, 0, 0], .item none] := by decide

/-- C02 fails for `N = 0`: `consider_dequeued(0)` panics (static_.rs:129). -/
theorem static_capacity_zero_panics {T : Type} (tmp : Nat → T) :
    Ledger.start.Allows (QueueOp.considerDequeued (I := T) 0) ∧
      (Static.queue T 0).call (Static.new 0 tmp) (.considerDequeued 0) = .panic ∧
      ¬ (Static.queue T 0).ActsAsFifo 0 (Static.new 0 tmp) [] .start [.considerDequeued 0] := by
  have hp : (Static.queue T 0).call (Static.new 0 tmp) (.considerDequeued 0) = .panic := rfl
  refine ⟨Nat.le_refl 0, hp, fun h => ?_⟩
  obtain ⟨q', a, h1, _⟩ := h (Nat.le_refl 0)
  rw [hp] at h1
  cases h1

/-! ## Reachable states -/

private theorem fixed_tracks {T : Type} {capacity : Nat} {tmp : Nat → T} {q : Fixed T} {l : List T} {g : Ledger T}
    (h : (Fixed.queue T).Reaches capacity (Fixed.new capacity tmp) q l g) : Tracks (Fixed.Holds capacity) q l g := by
  rcases Nat.eq_zero_or_pos capacity with h0 | h0
  · subst h0
    suffices Tracks (Fixed.Holds 0) q l g ∧ q.data.length = 0 from this.1
    generalize hq₀ : Fixed.new 0 tmp = q₀ at h
    induction h with
    | start => subst hq₀; exact ⟨⟨[], Fixed.holds_new 0 tmp, rfl, by simp [Ledger.start]⟩, rfl⟩
    | @step q l g op q' a hr hop hcall ih =>
      have hc : 0 < 0 ∨ ∀ k, op ≠ .considerDequeued k := by
        right; rintro k rfl
        have := Fixed.considerDequeued_zero q ih.2 k
        simp [Queue.call, Fixed.queue, this] at hcall
      obtain ⟨q'', a', h1, _, h3⟩ := (Fixed.fifoLaw T 0).call ih.1 op hop hc
      rw [hcall] at h1
      injection h1 with h1; injection h1 with h1 h2; subst h1 h2
      exact ⟨h3, by obtain ⟨_, hR, _⟩ := h3; exact hR.length⟩
  · exact (Fixed.fifoLaw T capacity).reaches (by omega) (Fixed.holds_new capacity tmp) h

private theorem static_tracks {T : Type} {N : Nat} {tmp : Nat → T} {q : Static T N} {l : List T} {g : Ledger T}
    (h : (Static.queue T N).Reaches N (Static.new N tmp) q l g) : Tracks Static.Holds q l g :=
  (Static.fifoLaw T N).reaches (by rintro rfl q k; exact Static.considerDequeued_zero q k) (Static.holds_new N tmp) h

/-! ## C03: what is exposed; two bulk calls suffice -/

/-- What C03 says about a queue of capacity `cap` in a state `q` with contents `l`. -/
structure ExposesWell {κ T : Type} (Q : Queue κ T) (cap : Nat) (q : κ) (l : List T) : Prop where
  /-- `expose_slots` returns `None` exactly when the queue is full, and otherwise a non-empty slice that fits. -/
  slots : ∃ q' r, Q.exposeSlots q = ok (q', r) ∧ (r = none ↔ l.length = cap) ∧
    ∀ slots, r = some slots → slots ≠ [] ∧ l.length + slots.length ≤ cap
  /-- `expose_items` returns `None` exactly when the queue is empty, and otherwise a non-empty prefix of the contents. -/
  items : ∃ q' r, Q.exposeItems q = ok (q', r) ∧ (r = none ↔ l = []) ∧ ∀ xs, r = some xs → xs ≠ [] ∧ xs <+: l
  /-- `bulk_enqueue` transfers something whenever that is possible. -/
  bulkEnqueue : ∀ buf, ∃ q' n, Q.bulkEnqueue q buf = ok (q', n) ∧ n ≤ buf.length ∧ l.length + n ≤ cap ∧
    (0 < n ↔ buf ≠ [] ∧ l.length < cap)
  /-- `bulk_dequeue` transfers something whenever that is possible. -/
  bulkDequeue : ∀ buf, ∃ q' n, Q.bulkDequeue q buf = ok (q', n, l.take n ++ buf.drop n) ∧ n ≤ buf.length ∧
    n ≤ l.length ∧ (0 < n ↔ buf ≠ [] ∧ l ≠ [])
  /-- Two calls of `bulk_dequeue` with large enough buffers obtain everything, and leave the queue empty. -/
  dequeueTwice : ∀ buf₁ buf₂ : List T, l.length ≤ buf₁.length → l.length ≤ buf₂.length →
    ∃ q₁ n₁ q₂ n₂, Q.bulkDequeue q buf₁ = ok (q₁, n₁, l.take n₁ ++ buf₁.drop n₁) ∧
      Q.bulkDequeue q₁ buf₂ = ok (q₂, n₂, l.drop n₁ ++ buf₂.drop n₂) ∧ n₁ + n₂ = l.length ∧ Q.len q₂ = 0
  /-- Two calls of `bulk_enqueue` with large enough buffers fill the queue. -/
  enqueueTwice : ∀ buf₁ buf₂ : List T, cap ≤ l.length + buf₁.length → cap ≤ l.length + buf₂.length →
    ∃ q₁ n₁ q₂ n₂, Q.bulkEnqueue q buf₁ = ok (q₁, n₁) ∧ Q.bulkEnqueue q₁ buf₂ = ok (q₂, n₂) ∧
      l.length + n₁ + n₂ = cap ∧ Q.len q₂ = cap

private theorem exposesWell {κ T : Type} {Q : Queue κ T} {cap : Nat} {R : κ → List T → List T → Nat → Prop}
    {pos : κ → Nat} (hQ : RingLaw Q cap R pos) {q : κ} {l : List T} {g : Ledger T} (h : Tracks R q l g) :
    ExposesWell Q cap q l := by
  refine ⟨?_, ?_, ?_, ?_, fun b₁ b₂ => hQ.bulkDequeue_twice h b₁ b₂, fun b₁ b₂ => hQ.bulkEnqueue_twice h b₁ b₂⟩
  all_goals
    obtain ⟨slots, hR, -⟩ := h
    have hb := hQ.bound _ _ _ _ hR
  · by_cases hf : l.length = cap
    · exact ⟨q, none, hQ.exposeSlots_full _ _ _ _ hR hf, by simp [hf], by simp⟩
    · obtain ⟨q', s, h1, h2, h3⟩ := hQ.exposeSlots _ _ _ _ hR (by omega)
      refine ⟨q', some s, h2, by simp [hf], ?_⟩
      rintro _ ⟨⟩
      exact ⟨h1, (hQ.bound _ _ _ _ h3).1⟩
  · by_cases hf : l = []
    · subst hf; exact ⟨q, none, hQ.exposeItems_empty _ _ _ hR, by simp, by simp⟩
    · obtain ⟨q', m, h1, h2, h3, _⟩ := hQ.exposeItems _ _ _ _ hR hf
      refine ⟨q', _, h3, by simp [hf], ?_⟩
      rintro _ ⟨⟩
      exact ⟨by simp [hf]; omega, List.take_prefix _ _⟩
  · intro buf
    obtain ⟨q', n, h1, h2, h3, h4, -⟩ := hQ.bulkEnqueue_call hR buf
    refine ⟨q', n, h1, h2, h3, fun hn => ⟨?_, by omega⟩, fun ⟨hb, hl⟩ => ?_⟩
    · rintro rfl; simp at h2; omega
    · rcases Nat.eq_zero_or_pos n with h0 | h0
      · rcases h4 h0 with h | h
        · exact absurd h hb
        · omega
      · exact h0
  · intro buf
    obtain ⟨q', n, h1, h2, h3, h4, -⟩ := hQ.bulkDequeue_call hR buf
    refine ⟨q', n, h1, h2, h3, fun hn => ⟨?_, ?_⟩, fun ⟨hb, hl⟩ => ?_⟩
    · rintro rfl; simp at h2; omega
    · rintro rfl; simp at h3; omega
    · rcases Nat.eq_zero_or_pos n with h0 | h0
      · rcases h4 h0 with h | h
        · exact absurd h hb
        · exact absurd h hl
      · exact h0

/-- A reachable state with wrapped data: capacity 3, contents `[2, 3, 4]` from index 1 on. -/
theorem fixed_wrapped_reachable : (Fixed.queue Nat).Reaches 3 (Fixed.new 3 fun _ => 0) ⟨[4, 2, 3], 1, 3⟩ [2, 3, 4]
    ⟨0, [], 0⟩ := by
  have h1 := Queue.Reaches.start (Q := Fixed.queue Nat) (cap := 3) (q₀ := Fixed.new 3 fun _ => 0)
  have h2 := h1.step (op := .bulkEnqueue [1, 2, 3]) trivial rfl
  have h3 := h2.step (op := .dequeue) trivial rfl
  exact h3.step (op := .enqueue 4) trivial rfl

theorem static_wrapped_reachable : (Static.queue Nat 3).Reaches 3 (Static.new 3 fun _ => 0) ⟨[4, 2, 3], rfl, 1, 3⟩
    [2, 3, 4] ⟨0, [], 0⟩ := by
  have h1 := Queue.Reaches.start (Q := Static.queue Nat 3) (cap := 3) (q₀ := Static.new 3 fun _ => 0)
  have h2 := h1.step (op := .bulkEnqueue [1, 2, 3]) trivial rfl
  have h3 := h2.step (op := .dequeue) trivial rfl
  exact h3.step (op := .enqueue 4) trivial rfl

/-- C03 for `Fixed`, in every reachable state. -/
theorem fixed_exposes_well {T : Type} (capacity : Nat) (tmp : Nat → T) (q : Fixed T) (l : List T) (g : Ledger T)
    (h : (Fixed.queue T).Reaches capacity (Fixed.new capacity tmp) q l g) :
    ExposesWell (Fixed.queue T) capacity q l :=
  exposesWell (Fixed.ringLaw T capacity) (fixed_tracks h)

example : ExposesWell (Fixed.queue Nat) 3 ⟨[4, 2, 3], 1, 3⟩ [2, 3, 4] := fixed_exposes_well 3 _ _ _ _ fixed_wrapped_reachable

/-- C03 for `Static`, in every reachable state. -/
theorem static_exposes_well {T : Type} (N : Nat) (tmp : Nat → T) (q : Static T N) (l : List T) (g : Ledger T)
    (h : (Static.queue T N).Reaches N (Static.new N tmp) q l g) : ExposesWell (Static.queue T N) N q l :=
  exposesWell (Static.ringLaw T N) (static_tracks h)

example : ExposesWell (Static.queue Nat 3) 3 ⟨[4, 2, 3], rfl, 1, 3⟩ [2, 3, 4] :=
  static_exposes_well 3 _ _ _ _ static_wrapped_reachable

/-- In the wrapped state, one bulk call does not suffice, but two do. -/
example : (Fixed.queue Nat).bulkDequeue ⟨[4, 2, 3], 1, 3⟩ [0, 0, 0] = ok (⟨[4, 2, 3], 0, 1⟩, 2, [2, 3, 0]) ∧
    (Fixed.queue Nat).bulkDequeue ⟨[4, 2, 3], 0, 1⟩ [0, 0, 0] = ok (⟨[4, 2, 3], 1, 0⟩, 1, [4, 0, 0]) := by decide

/-! ## C04: `Debug` output -/

/-- C04 for `Fixed`: in every reachable state (also with capacity 0), formatting does not panic and lists the contents in
order. -/
theorem fixed_debug {T : Type} (capacity : Nat) (tmp : Nat → T) (q : Fixed T) (l : List T) (g : Ledger T)
    (h : (Fixed.queue T).Reaches capacity (Fixed.new capacity tmp) q l g) : q.debugEntries = ok l := by
  obtain ⟨_, hR, _⟩ := fixed_tracks h
  exact hR.debugEntries

example : (⟨[4, 2, 3], 1, 3⟩ : Fixed Nat).debugEntries = ok [2, 3, 4] :=
  fixed_debug _ _ _ _ _ fixed_wrapped_reachable

/-- C04 for `Static`. -/
theorem static_debug {T : Type} (N : Nat) (tmp : Nat → T) (q : Static T N) (l : List T) (g : Ledger T)
    (h : (Static.queue T N).Reaches N (Static.new N tmp) q l g) : q.debugEntries = ok l := by
  obtain ⟨_, hR, _⟩ := static_tracks h
  rw [Static.toFixed_debugEntries]
  exact Fixed.Holds.debugEntries hR

example : (⟨[4, 2, 3], rfl, 1, 3⟩ : Static Nat 3).debugEntries = ok [2, 3, 4] :=
  static_debug _ _ _ _ _ static_wrapped_reachable

/-- The ideal contents `l` are what successive calls of `dequeue` return: after `l.length` calls the queue is empty. -/
theorem fixed_dequeue_order {T : Type} (capacity : Nat) (tmp : Nat → T) (q : Fixed T) (l : List T) (g : Ledger T)
    (h : (Fixed.queue T).Reaches capacity (Fixed.new capacity tmp) q l g) :
    (Fixed.queue T).answers q (List.replicate (l.length + 1) .dequeue) =
      ok (l.map (fun x => .item (some x)) ++ [.item none]) := by
  obtain ⟨slots, hR, _⟩ := fixed_tracks h
  generalize g.shown = n at hR
  clear h
  induction l generalizing q n with
  | nil => simp [Queue.answers, Queue.call, (Fixed.fifoLaw T capacity).dequeue_empty _ _ _ hR]
  | cons x l ih =>
    obtain ⟨q', h1, h2⟩ := (Fixed.fifoLaw T capacity).dequeue _ _ _ _ _ hR
    rw [List.length_cons, List.replicate_succ]
    simp [Queue.answers, Queue.call, h1, ih _ _ h2]

example : (Fixed.queue Nat).answers ⟨[4, 2, 3], 1, 3⟩ (List.replicate 4 .dequeue) =
    ok [.item (some 2), .item (some 3), .item (some 4), .item none] :=
  fixed_dequeue_order 3 _ _ _ _ fixed_wrapped_reachable

/-- The same for `Static`. -/
theorem static_dequeue_order {T : Type} (N : Nat) (tmp : Nat → T) (q : Static T N) (l : List T) (g : Ledger T)
    (h : (Static.queue T N).Reaches N (Static.new N tmp) q l g) :
    (Static.queue T N).answers q (List.replicate (l.length + 1) .dequeue) =
      ok (l.map (fun x => .item (some x)) ++ [.item none]) := by
  obtain ⟨slots, hR, _⟩ := static_tracks h
  generalize g.shown = n at hR
  clear h
  induction l generalizing q n with
  | nil => simp [Queue.answers, Queue.call, (Static.fifoLaw T N).dequeue_empty _ _ _ hR]
  | cons x l ih =>
    obtain ⟨q', h1, h2⟩ := (Static.fifoLaw T N).dequeue _ _ _ _ _ hR
    rw [List.length_cons, List.replicate_succ]
    simp [Queue.answers, Queue.call, h1, ih _ _ h2]

example : (Static.queue Nat 3).answers ⟨[4, 2, 3], rfl, 1, 3⟩ (List.replicate 4 .dequeue) =
    ok [.item (some 2), .item (some 3), .item (some 4), .item none] :=
  static_dequeue_order 3 _ _ _ _ static_wrapped_reachable

/-! ## C05: filler values are not observable -/

/-- C05 for `Fixed` (with the same restriction as `fixed_fifo_partial` for capacity 0, where `consider_dequeued` panics for
all filler values alike). -/
theorem fixed_filler_unobservable {T : Type} (capacity : Nat) (tmp₁ tmp₂ : Nat → T) (ops : List (QueueOp T))
    (h : 0 < capacity ∨ ∀ k, QueueOp.considerDequeued k ∉ ops) :
    (Fixed.queue T).SameAnswers (Fixed.new capacity tmp₁) (Fixed.new capacity tmp₂) .start ops :=
  (Fixed.ringLaw T capacity).sameAnswers ops h ⟨[], Fixed.holds_new capacity tmp₁, rfl, by simp [Ledger.start]⟩
    ⟨[], Fixed.holds_new capacity tmp₂, rfl, by simp [Ledger.start]⟩ rfl

/-- Different fillers, same answers. -/
example : (Fixed.queue Nat).SameAnswers (Fixed.new 2 fun _ => 0) (Fixed.new 2 fun i => 5 + i) .start
    [.exposeSlots, .write [1], .considerEnqueued 1, .bulkDequeue [0, 0]] :=
  fixed_filler_unobservable 2 _ _ _ (.inl (by decide))

/-- For capacity 0 there are no filler values to begin with: the two queues are the same. -/
theorem fixed_filler_unobservable_zero {T : Type} (tmp₁ tmp₂ : Nat → T) : Fixed.new 0 tmp₁ = Fixed.new 0 tmp₂ := rfl

/-- C05 for `Static`. -/
theorem static_filler_unobservable {T : Type} (N : Nat) (tmp₁ tmp₂ : Nat → T) (ops : List (QueueOp T))
    (h : 0 < N ∨ ∀ k, QueueOp.considerDequeued k ∉ ops) :
    (Static.queue T N).SameAnswers (Static.new N tmp₁) (Static.new N tmp₂) .start ops :=
  (Static.ringLaw T N).sameAnswers ops h ⟨[], Static.holds_new N tmp₁, rfl, by simp [Ledger.start]⟩
    ⟨[], Static.holds_new N tmp₂, rfl, by simp [Ledger.start]⟩ rfl

example : (Static.queue Nat 2).SameAnswers (Static.new 2 fun _ => 0) (Static.new 2 fun i => 5 + i) .start
    [.exposeSlots, .write [1], .considerEnqueued 1, .bulkDequeue [0, 0]] :=
  static_filler_unobservable 2 _ _ _ (.inl (by decide))

theorem static_filler_unobservable_zero {T : Type} (tmp₁ tmp₂ : Nat → T) : Static.new 0 tmp₁ = Static.new 0 tmp₂ := rfl

/-- Different fillers, same answers; a sequence that goes over all slots. -/
example : (Fixed.queue Nat).SameAnswers (Fixed.new 2 fun _ => 0) (Fixed.new 2 fun i => 5 + i) .start
    [.exposeSlots, .write [1], .considerEnqueued 1, .bulkDequeue [0, 0], .bulkEnqueue [8, 9], .exposeItems, .dequeue] :=
  fixed_filler_unobservable 2 _ _ _ (.inl (by decide))

end Verif
