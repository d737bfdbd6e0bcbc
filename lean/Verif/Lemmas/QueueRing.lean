import Verif.Lemmas.Queue

/-!
# Helper lemmas: how many slots and items the ring buffers expose, and call sequences
-/

namespace Verif

open Outcome

section

variable {κ I : Type}

/-- How many slots a ring buffer exposes. -/
def ringSlots (cap read amount : Nat) : Nat := if read + amount < cap then cap - (read + amount) else cap - amount

/-- How many items a ring buffer exposes. -/
def ringItems (cap read amount : Nat) : Nat := min amount (cap - read)

/-- A queue that exposes as much as a ring buffer with read index `pos`. -/
structure RingLaw (Q : Queue κ I) (cap : Nat) (R : κ → List I → List I → Nat → Prop) (pos : κ → Nat) : Prop
    extends FifoLaw Q cap R where
  pos_lt : ∀ q l slots n, R q l slots n → 0 < cap → pos q < cap
  enqueue_pos : ∀ q l slots n x q' r, R q l slots n → Q.enqueue q x = ok (q', r) → pos q' = pos q
  exposeSlots_pos : ∀ q l slots n q' slots', R q l slots n → Q.exposeSlots q = ok (q', some slots') →
    pos q' = pos q ∧ slots'.length = ringSlots cap (pos q) l.length
  write_pos : ∀ q l slots n ws, R q l slots n → ws.length ≤ slots.length → pos (Q.writeSlots q ws) = pos q
  considerEnqueued_pos : ∀ q l slots n k q', R q l slots n → Q.considerEnqueued q k = ok q' → pos q' = pos q
  dequeue_pos : ∀ q l slots n q' x, R q l slots n → Q.dequeue q = ok (q', some x) → pos q' = (pos q + 1) % cap
  exposeItems_pos : ∀ q l slots n q' xs, R q l slots n → Q.exposeItems q = ok (q', some xs) →
    pos q' = pos q ∧ xs.length = ringItems cap (pos q) l.length
  considerDequeued_pos : ∀ q l slots n k q', R q l slots n → Q.considerDequeued q k = ok q' →
    pos q' = (pos q + k) % cap

/-- The state agrees with the ideal contents and the client's bookkeeping. -/
def Tracks (R : κ → List I → List I → Nat → Prop) (q : κ) (l : List I) (g : Ledger I) : Prop :=
  ∃ slots, R q l slots g.shown ∧ g.offered = slots.length ∧ g.written <+: slots

/-- `bulk_enqueue` on a lawful queue. -/
theorem FifoLaw.bulkEnqueue_call {Q : Queue κ I} {cap : Nat} {R : κ → List I → List I → Nat → Prop}
    (hQ : FifoLaw Q cap R) {q : κ} {l slots : List I} {n : Nat} (h : R q l slots n) (buf : List I) :
    ∃ q' k, Q.bulkEnqueue q buf = ok (q', k) ∧ k ≤ buf.length ∧ l.length + k ≤ cap ∧
      (k = 0 → buf = [] ∨ l.length = cap) ∧ R q' (l ++ buf.take k) [] n ∧
      ((l.length = cap ∧ k = 0 ∧ q' = q) ∨ ∃ q₁ slots₁, l.length < cap ∧ Q.exposeSlots q = ok (q₁, some slots₁) ∧
        R q₁ l slots₁ n ∧ k = min slots₁.length buf.length ∧
        Q.considerEnqueued (Q.writeSlots q₁ (buf.take k)) k = ok q') := by
  have hb := hQ.bound _ _ _ _ h
  rw [hQ.bulkEnqueue]
  by_cases hf : l.length = cap
  · refine ⟨q, 0, ?_, by omega, by omega, fun _ => .inr hf, ?_, .inl ⟨hf, rfl, rfl⟩⟩
    · simp [bulkEnqueueDefault, hQ.exposeSlots_full q l slots n h hf]
    · simpa using (hQ.weaken _ _ _ _ n h (Nat.le_refl _)).1
  · obtain ⟨q1, sl, hne, hex, hR⟩ := hQ.exposeSlots q l slots n h (by omega)
    have hb1 := hQ.bound _ _ _ _ hR
    have hpos := List.length_pos_iff.mpr hne
    generalize hk : min sl.length buf.length = k
    have hlen : (buf.take k).length = k := by simp; omega
    have hW := hQ.write q1 l sl n (buf.take k) hR (by omega)
    obtain ⟨q2, hce, hR2⟩ := hQ.considerEnqueued _ _ _ _ k hW (by rw [List.length_append]; omega)
    have htk : (buf.take k ++ sl.drop (buf.take k).length).take k = buf.take k := by
      rw [List.take_append_of_le_length (by omega), List.take_take, Nat.min_self]
    rw [htk] at hR2
    refine ⟨q2, k, ?_, by omega, by omega, fun h0 => ?_, (hQ.weaken _ _ _ _ n hR2 (Nat.le_refl _)).1,
      .inr ⟨q1, sl, by omega, hex, hR, hk.symm, hce⟩⟩
    · simp [bulkEnqueueDefault, hex, hk, hce]
    · left; apply List.length_eq_zero_iff.mp; omega

/-- `bulk_dequeue` on a lawful queue. -/
theorem FifoLaw.bulkDequeue_call {Q : Queue κ I} {cap : Nat} {R : κ → List I → List I → Nat → Prop}
    (hQ : FifoLaw Q cap R) {q : κ} {l slots : List I} {n : Nat} (h : R q l slots n) (buf : List I) :
    ∃ q' k, Q.bulkDequeue q buf = ok (q', k, l.take k ++ buf.drop k) ∧ k ≤ buf.length ∧ k ≤ l.length ∧
      (k = 0 → buf = [] ∨ l = []) ∧ (∃ m, R q' (l.drop k) slots m ∧ n - k ≤ m) ∧
      ((l = [] ∧ k = 0 ∧ q' = q) ∨ ∃ q₁ m, l ≠ [] ∧ Q.exposeItems q = ok (q₁, some (l.take m)) ∧ m ≤ l.length ∧
        R q₁ l slots (max n m) ∧ k = min m buf.length ∧ Q.considerDequeued q₁ k = ok q') := by
  have hb := hQ.bound _ _ _ _ h
  rw [hQ.bulkDequeue]
  by_cases hf : l = []
  · subst hf
    refine ⟨q, 0, ?_, by omega, by omega, fun _ => .inr rfl, ⟨n, by simpa using h, by omega⟩, .inl ⟨rfl, rfl, rfl⟩⟩
    simp [bulkDequeueDefault, hQ.exposeItems_empty q slots n h]
  · obtain ⟨q1, m, hm0, hml, hex, hR⟩ := hQ.exposeItems q l slots n h hf
    have hpos := List.length_pos_iff.mpr hf
    have hlm : (l.take m).length = m := by simp; omega
    generalize hk : min m buf.length = k
    obtain ⟨q2, hcd, hR2⟩ := hQ.considerDequeued _ _ _ _ k hR (by omega) (by omega)
    have htt : (l.take m).take k = l.take k := by rw [List.take_take]; congr 1; omega
    have hshow : ∃ m', R q2 (l.drop k) slots m' ∧ n - k ≤ m' := ⟨_, hR2, by omega⟩
    refine ⟨q2, k, ?_, by omega, by omega, fun h0 => ?_, hshow, .inr ⟨q1, m, hf, hex, hml, hR, hk.symm, hcd⟩⟩
    · simp [bulkDequeueDefault, hex, hk, hcd, hlm, htt]
    · left; apply List.length_eq_zero_iff.mp; omega

theorem prefix_drop {xs ys : List I} (h : xs <+: ys) (k : Nat) : xs.drop k <+: ys.drop k := by
  obtain ⟨t, rfl⟩ := h
  rw [List.drop_append]
  exact List.prefix_append _ _

/-- One call on a lawful queue. -/
theorem FifoLaw.call {Q : Queue κ I} {cap : Nat} {R : κ → List I → List I → Nat → Prop} (hQ : FifoLaw Q cap R)
    {q : κ} {l : List I} {g : Ledger I} (h : Tracks R q l g) (op : QueueOp I) (hop : g.Allows op)
    (hcap : 0 < cap ∨ ∀ k, op ≠ .considerDequeued k) :
    ∃ q' a, Q.call q op = ok (q', a) ∧ FifoAnswer cap l op a ∧
      Tracks R q' (fifoNext cap l g op a) (g.next op a) := by
  obtain ⟨slots, hR, hoff, hwr⟩ := h
  have hb := hQ.bound _ _ _ _ hR
  have hwl := hwr.length_le
  cases op with
  | len => exact ⟨q, _, rfl, by simp [FifoAnswer, hQ.len _ _ _ _ hR], slots, hR, hoff, hwr⟩
  | isEmpty => exact ⟨q, _, rfl, by simp [FifoAnswer, hQ.isEmpty _ _ _ _ hR], slots, hR, hoff, hwr⟩
  | enqueue x =>
    by_cases hf : l.length = cap
    · refine ⟨q, .item (some x), by simp [Queue.call, hQ.enqueue_full _ _ _ _ x hR hf], by simp [FifoAnswer, hf], slots, ?_⟩
      simpa [fifoNext, hf, Ledger.next] using ⟨hR, hoff, hwr⟩
    · obtain ⟨q', h1, h2⟩ := hQ.enqueue _ _ _ _ x hR (by omega)
      refine ⟨q', .item none, by simp [Queue.call, h1], by simp [FifoAnswer, hf], [], ?_⟩
      simpa [fifoNext, hf, Ledger.next] using h2
  | exposeSlots =>
    by_cases hf : l.length = cap
    · refine ⟨q, .slots none, by simp [Queue.call, hQ.exposeSlots_full _ _ _ _ hR hf], by simp [FifoAnswer, hf], [], ?_⟩
      simpa [fifoNext, Ledger.next] using (hQ.weaken _ _ _ _ _ hR (Nat.le_refl _)).1
    · obtain ⟨q', s, h1, h2, h3⟩ := hQ.exposeSlots _ _ _ _ hR (by omega)
      have hb' := hQ.bound _ _ _ _ h3
      refine ⟨q', .slots (some s.length), by simp [Queue.call, h2], ?_, s, ?_⟩
      · exact .inr ⟨s.length, rfl, List.length_pos_iff.mpr h1, hb'.1⟩
      · simpa [fifoNext, Ledger.next] using h3
  | write ws =>
    simp only [Ledger.Allows] at hop
    refine ⟨_, _, rfl, rfl, _, hQ.write _ _ _ _ ws hR (by omega), ?_, ?_⟩
    · simp [Ledger.next]; omega
    · simp only [Ledger.next]
      exact List.prefix_append_right_inj _ |>.mpr (prefix_drop hwr _)
  | considerEnqueued k =>
    simp only [Ledger.Allows] at hop
    obtain ⟨q', h1, h2⟩ := hQ.considerEnqueued _ _ _ _ k hR (by omega)
    refine ⟨q', .unit, by simp [Queue.call, h1], rfl, slots.drop k, ?_, ?_, ?_⟩
    · have : g.written.take k = slots.take k := by
        obtain ⟨t, rfl⟩ := hwr
        rw [List.take_append_of_le_length hop]
      simpa [fifoNext, Ledger.next, this] using h2
    · simp [Ledger.next]; omega
    · exact prefix_drop hwr _
  | bulkEnqueue buf =>
    obtain ⟨q', k, h1, h2, h3, h4, h5, _⟩ := hQ.bulkEnqueue_call hR buf
    refine ⟨q', .num k, by simp [Queue.call, h1], ⟨k, rfl, h2, h3, h4⟩, [], h5, by simp [Ledger.next], by simp [Ledger.next]⟩
  | dequeue =>
    cases l with
    | nil =>
      refine ⟨q, .item none, by simp [Queue.call, hQ.dequeue_empty _ _ _ hR], rfl, slots, ?_⟩
      simpa [fifoNext, Ledger.next] using ⟨hR, hoff, hwr⟩
    | cons x l =>
      obtain ⟨q', h1, h2⟩ := hQ.dequeue _ _ _ _ _ hR
      refine ⟨q', .item (some x), by simp [Queue.call, h1], rfl, slots, ?_⟩
      simpa [fifoNext, Ledger.next] using ⟨h2, hoff, hwr⟩
  | exposeItems =>
    by_cases hf : l = []
    · subst hf
      refine ⟨q, .items none, by simp [Queue.call, hQ.exposeItems_empty _ _ _ hR], .inl ⟨rfl, rfl⟩, slots, ?_⟩
      have := (hQ.weaken _ _ _ _ 0 hR (by omega)).2
      simpa [fifoNext, Ledger.next] using ⟨this, hoff, hwr⟩
    · obtain ⟨q', m, h1, h2, h3, h4⟩ := hQ.exposeItems _ _ _ _ hR hf
      have hlen : (l.take m).length = m := by simp; omega
      refine ⟨q', .items (some (l.take m)), by simp [Queue.call, h3], .inr ⟨l.take m, rfl, ?_, List.take_prefix _ _⟩, slots, ?_⟩
      · intro h0; rw [h0] at hlen; simp at hlen; omega
      · have := (hQ.weaken _ _ _ _ m h4 (by omega)).2
        simp only [fifoNext, Ledger.next, Option.map_some, Option.getD_some, hlen]
        exact ⟨this, hoff, hwr⟩
  | considerDequeued k =>
    simp only [Ledger.Allows] at hop
    obtain ⟨q', h1, h2⟩ := hQ.considerDequeued _ _ _ _ k hR hop (by
      rcases hcap with h | h
      · exact h
      · exact absurd rfl (h k))
    exact ⟨q', .unit, by simp [Queue.call, h1], rfl, slots, h2, hoff, hwr⟩
  | bulkDequeue buf =>
    obtain ⟨q', k, h1, h2, h3, h4, ⟨m, h5, h6⟩, _⟩ := hQ.bulkDequeue_call hR buf
    refine ⟨q', .filled k (l.take k ++ buf.drop k), by simp [Queue.call, h1], ⟨k, rfl, h2, h3, h4⟩, slots, ?_, hoff, hwr⟩
    exact (hQ.weaken _ _ _ _ _ h5 h6).2

theorem FifoLaw.actsAsFifo {Q : Queue κ I} {cap : Nat} {R : κ → List I → List I → Nat → Prop} (hQ : FifoLaw Q cap R)
    (ops : List (QueueOp I)) (hcap : 0 < cap ∨ ∀ k, .considerDequeued k ∉ ops) {q : κ} {l : List I} {g : Ledger I}
    (h : Tracks R q l g) : Q.ActsAsFifo cap q l g ops := by
  induction ops generalizing q l g with
  | nil => trivial
  | cons op ops ih =>
    intro hop
    obtain ⟨q', a, h1, h2, h3⟩ := hQ.call h op hop (by
      rcases hcap with h | h
      · exact .inl h
      · right; rintro k rfl; exact h k (by simp))
    refine ⟨q', a, h1, h2, ih ?_ h3⟩
    rcases hcap with h | h
    · exact .inl h
    · right; intro k hk; exact h k (by simp [hk])

/-- Reachable states are tracked. -/
theorem FifoLaw.reaches {Q : Queue κ I} {cap : Nat} {R : κ → List I → List I → Nat → Prop} (hQ : FifoLaw Q cap R)
    (hpanic : cap = 0 → ∀ q k, Q.considerDequeued q k = .panic)
    {q₀ : κ} (h₀ : R q₀ [] [] 0) {q : κ} {l : List I} {g : Ledger I} (h : Q.Reaches cap q₀ q l g) :
    Tracks R q l g := by
  induction h with
  | start => exact ⟨[], h₀, rfl, by simp [Ledger.start]⟩
  | @step q l g op q' a hr hop hcall ih =>
    have hc : 0 < cap ∨ ∀ k, op ≠ .considerDequeued k := by
      rcases Nat.eq_zero_or_pos cap with h0 | h0
      · right; rintro k rfl
        simp [Queue.call, hpanic h0] at hcall
      · exact .inl h0
    obtain ⟨q'', a', h1, _, h3⟩ := hQ.call ih op hop hc
    rw [hcall] at h1
    injection h1 with h1; injection h1 with h1 h2; subst h1 h2
    exact h3

/-- The answer of a ring buffer with read index `pos` and contents `l` to a call, and its read index after the call. -/
def ringAnswer (cap pos : Nat) (l : List I) : QueueOp I → QueueAns I × Nat
  | .len => (.num l.length, pos)
  | .isEmpty => (.bool (l.length == 0), pos)
  | .enqueue x => (.item (if l.length = cap then some x else none), pos)
  | .exposeSlots => (.slots (if l.length = cap then none else some (ringSlots cap pos l.length)), pos)
  | .write _ => (.unit, pos)
  | .considerEnqueued _ => (.unit, pos)
  | .bulkEnqueue buf => (.num (if l.length = cap then 0 else min (ringSlots cap pos l.length) buf.length), pos)
  | .dequeue => (.item l.head?, if l.length = 0 then pos else (pos + 1) % cap)
  | .exposeItems => (.items (if l.length = 0 then none else some (l.take (ringItems cap pos l.length))), pos)
  | .considerDequeued k => (.unit, (pos + k) % cap)
  | .bulkDequeue buf =>
    let k := if l.length = 0 then 0 else min (ringItems cap pos l.length) buf.length
    (.filled k (l.take k ++ buf.drop k), if l.length = 0 then pos else (pos + k) % cap)

theorem RingLaw.call_pos {Q : Queue κ I} {cap : Nat} {R : κ → List I → List I → Nat → Prop} {pos : κ → Nat}
    (hQ : RingLaw Q cap R pos) {q q' : κ} {l : List I} {g : Ledger I} (h : Tracks R q l g) (op : QueueOp I)
    {a : QueueAns I} (hop : g.Allows op) (hcall : Q.call q op = ok (q', a)) :
    ringAnswer cap (pos q) l op = (a, pos q') := by
  obtain ⟨slots, hR, hoff, hwr⟩ := h
  have hb := hQ.bound _ _ _ _ hR
  have hwl := hwr.length_le
  cases op with
  | len =>
    simp only [Queue.call, ok.injEq, Prod.mk.injEq] at hcall; obtain ⟨rfl, rfl⟩ := hcall
    simp [ringAnswer, hQ.len _ _ _ _ hR]
  | isEmpty =>
    simp only [Queue.call, ok.injEq, Prod.mk.injEq] at hcall; obtain ⟨rfl, rfl⟩ := hcall
    simp [ringAnswer, hQ.isEmpty _ _ _ _ hR]
  | enqueue x =>
    by_cases hf : l.length = cap
    · simp only [Queue.call, hQ.enqueue_full _ _ _ _ x hR hf, bind_ok, ok.injEq, Prod.mk.injEq] at hcall
      obtain ⟨rfl, rfl⟩ := hcall
      simp [ringAnswer, hf]
    · obtain ⟨q1, h1, h2⟩ := hQ.enqueue _ _ _ _ x hR (by omega)
      simp only [Queue.call, h1, bind_ok, ok.injEq, Prod.mk.injEq] at hcall
      obtain ⟨rfl, rfl⟩ := hcall
      simp [ringAnswer, hf, hQ.enqueue_pos _ _ _ _ _ _ _ hR h1]
  | exposeSlots =>
    by_cases hf : l.length = cap
    · simp only [Queue.call, hQ.exposeSlots_full _ _ _ _ hR hf, bind_ok, ok.injEq, Prod.mk.injEq] at hcall
      obtain ⟨rfl, rfl⟩ := hcall
      simp [ringAnswer, hf]
    · obtain ⟨q1, s, h1, h2, h3⟩ := hQ.exposeSlots _ _ _ _ hR (by omega)
      simp only [Queue.call, h2, bind_ok, ok.injEq, Prod.mk.injEq] at hcall
      obtain ⟨rfl, rfl⟩ := hcall
      have := hQ.exposeSlots_pos _ _ _ _ _ _ hR h2
      simp [ringAnswer, hf, this.1, this.2]
  | write ws =>
    simp only [Ledger.Allows] at hop
    simp only [Queue.call, ok.injEq, Prod.mk.injEq] at hcall; obtain ⟨rfl, rfl⟩ := hcall
    simp [ringAnswer, hQ.write_pos _ _ _ _ ws hR (by omega)]
  | considerEnqueued k =>
    simp only [Ledger.Allows] at hop
    obtain ⟨q1, h1, h2⟩ := hQ.considerEnqueued _ _ _ _ k hR (by omega)
    simp only [Queue.call, h1, bind_ok, ok.injEq, Prod.mk.injEq] at hcall
    obtain ⟨rfl, rfl⟩ := hcall
    simp [ringAnswer, hQ.considerEnqueued_pos _ _ _ _ _ _ hR h1]
  | bulkEnqueue buf =>
    obtain ⟨q1, k, h1, h2, h3, h4, h5, h6⟩ := hQ.bulkEnqueue_call hR buf
    simp only [Queue.call, h1, bind_ok, ok.injEq, Prod.mk.injEq] at hcall
    obtain ⟨rfl, rfl⟩ := hcall
    rcases h6 with ⟨hf, rfl, rfl⟩ | ⟨q2, s, hf, hex, hR2, hk, hce⟩
    · simp [ringAnswer, hf]
    · have hp := hQ.exposeSlots_pos _ _ _ _ _ _ hR hex
      have hW := hQ.write q2 l s _ (buf.take k) hR2 (by simp; omega)
      have hp2 := hQ.considerEnqueued_pos _ _ _ _ _ _ hW hce
      have hp3 := hQ.write_pos _ _ _ _ (buf.take k) hR2 (by simp; omega)
      simp only [ringAnswer, show ¬ l.length = cap by omega, if_false, ← hp.2, hp2, hp3, hp.1, ← hk]
  | dequeue =>
    cases l with
    | nil =>
      simp only [Queue.call, hQ.dequeue_empty _ _ _ hR, bind_ok, ok.injEq, Prod.mk.injEq] at hcall
      obtain ⟨rfl, rfl⟩ := hcall
      simp [ringAnswer]
    | cons x l =>
      obtain ⟨q1, h1, h2⟩ := hQ.dequeue _ _ _ _ _ hR
      simp only [Queue.call, h1, bind_ok, ok.injEq, Prod.mk.injEq] at hcall
      obtain ⟨rfl, rfl⟩ := hcall
      simp [ringAnswer, hQ.dequeue_pos _ _ _ _ _ _ hR h1]
  | exposeItems =>
    by_cases hf : l = []
    · subst hf
      simp only [Queue.call, hQ.exposeItems_empty _ _ _ hR, bind_ok, ok.injEq, Prod.mk.injEq] at hcall
      obtain ⟨rfl, rfl⟩ := hcall
      simp [ringAnswer]
    · obtain ⟨q1, m, h1, h2, h3, h4⟩ := hQ.exposeItems _ _ _ _ hR hf
      have hlen : (l.take m).length = m := by simp; omega
      simp only [Queue.call, h3, bind_ok, ok.injEq, Prod.mk.injEq] at hcall
      obtain ⟨rfl, rfl⟩ := hcall
      have hp := hQ.exposeItems_pos _ _ _ _ _ _ hR h3
      have : ¬ l.length = 0 := fun h => hf (List.length_eq_zero_iff.mp h)
      simp only [ringAnswer, this, if_false, ← hp.2, hlen, hp.1]
  | considerDequeued k =>
    simp only [Queue.call] at hcall
    rcases hcd : Q.considerDequeued q k with q1 | _ | _ <;> rw [hcd] at hcall <;> simp at hcall
    obtain ⟨rfl, rfl⟩ := hcall
    simp [ringAnswer, hQ.considerDequeued_pos _ _ _ _ _ _ hR hcd]
  | bulkDequeue buf =>
    obtain ⟨q1, k, h1, h2, h3, h4, h5, h6⟩ := hQ.bulkDequeue_call hR buf
    simp only [Queue.call, h1, bind_ok, ok.injEq, Prod.mk.injEq] at hcall
    obtain ⟨rfl, rfl⟩ := hcall
    rcases h6 with ⟨hf, rfl, rfl⟩ | ⟨q2, m, hf, hex, hm, hR2, hk, hcd⟩
    · simp [ringAnswer, hf]
    · have hp := hQ.exposeItems_pos _ _ _ _ _ _ hR hex
      have hp2 := hQ.considerDequeued_pos _ _ _ _ _ _ hR2 hcd
      have hlen : (l.take m).length = m := by simp; omega
      have : ¬ l.length = 0 := fun h => hf (List.length_eq_zero_iff.mp h)
      rw [hlen] at hp
      simp only [ringAnswer, this, if_false, ← hp.2, hp2, hp.1, ← hk]

theorem RingLaw.sameAnswers {Q : Queue κ I} {cap : Nat} {R : κ → List I → List I → Nat → Prop} {pos : κ → Nat}
    (hQ : RingLaw Q cap R pos) (ops : List (QueueOp I)) (hcap : 0 < cap ∨ ∀ k, .considerDequeued k ∉ ops) {q₁ q₂ : κ}
    {l : List I} {g : Ledger I} (h₁ : Tracks R q₁ l g) (h₂ : Tracks R q₂ l g) (hpos : pos q₁ = pos q₂) :
    Q.SameAnswers q₁ q₂ g ops := by
  induction ops generalizing q₁ q₂ l g with
  | nil => trivial
  | cons op ops ih =>
    intro hop
    have hc : 0 < cap ∨ ∀ k, op ≠ .considerDequeued k := by
      rcases hcap with h | h
      · exact .inl h
      · right; rintro k rfl; exact h k (by simp)
    obtain ⟨q₁', a₁, c₁, _, t₁⟩ := hQ.call h₁ op hop hc
    obtain ⟨q₂', a₂, c₂, _, t₂⟩ := hQ.call h₂ op hop hc
    have e₁ := hQ.call_pos h₁ op hop c₁
    have e₂ := hQ.call_pos h₂ op hop c₂
    rw [hpos, e₂] at e₁
    injection e₁ with e e'
    subst e
    refine ⟨q₁', q₂', a₂, c₁, c₂, ih ?_ t₁ t₂ e'.symm⟩
    rcases hcap with h | h
    · exact .inl h
    · right; intro k hk; exact h k (by simp [hk])

/-- Two maximal calls of `bulk_dequeue` empty a ring buffer. -/
theorem RingLaw.bulkDequeue_twice {Q : Queue κ I} {cap : Nat} {R : κ → List I → List I → Nat → Prop} {pos : κ → Nat}
    (hQ : RingLaw Q cap R pos) {q : κ} {l : List I} {g : Ledger I} (h : Tracks R q l g) (buf₁ buf₂ : List I)
    (hb₁ : l.length ≤ buf₁.length) (hb₂ : l.length ≤ buf₂.length) :
    ∃ q₁ n₁ q₂ n₂, Q.bulkDequeue q buf₁ = ok (q₁, n₁, l.take n₁ ++ buf₁.drop n₁) ∧
      Q.bulkDequeue q₁ buf₂ = ok (q₂, n₂, l.drop n₁ ++ buf₂.drop n₂) ∧ n₁ + n₂ = l.length ∧ Q.len q₂ = 0 := by
  have hl : l.length ≤ cap := by
    obtain ⟨s, hR, _⟩ := h
    have := hQ.bound _ _ _ _ hR; omega
  have hpl : 0 < cap → pos q < cap := by
    obtain ⟨s, hR, _⟩ := h
    exact hQ.pos_lt _ _ _ _ hR
  obtain ⟨q₁, a₁, c₁, ⟨n₁, rfl, hn₁, hn₁', _⟩, t₁⟩ := hQ.call h (.bulkDequeue buf₁) trivial (.inr (by simp))
  have e₁ := hQ.call_pos h (.bulkDequeue buf₁) trivial c₁
  simp only [fifoNext] at t₁
  obtain ⟨q₂, a₂, c₂, ⟨n₂, rfl, hn₂, hn₂', _⟩, t₂⟩ := hQ.call t₁ (.bulkDequeue buf₂) trivial (.inr (by simp))
  have e₂ := hQ.call_pos t₁ (.bulkDequeue buf₂) trivial c₂
  simp only [fifoNext] at t₂
  have hsum : n₁ + n₂ = l.length := by
    simp only [ringAnswer, ringItems, Prod.mk.injEq, QueueAns.filled.injEq, List.length_drop] at e₁ e₂ hn₂'
    obtain ⟨⟨e₁, -⟩, p₁⟩ := e₁
    obtain ⟨⟨e₂, -⟩, -⟩ := e₂
    rw [e₁] at p₁
    by_cases h0 : l.length = 0
    · omega
    · simp only [h0, if_false] at e₁ p₁
      have hp := hpl (by omega)
      by_cases h1 : n₁ = l.length
      · omega
      · have : (pos q + n₁) % cap = 0 := by
          have : pos q + n₁ = cap := by omega
          rw [this, Nat.mod_self]
        rw [this] at p₁
        rw [← p₁] at e₂
        rw [if_neg (by omega)] at e₂
        omega
  have hc₁ : Q.bulkDequeue q buf₁ = ok (q₁, n₁, l.take n₁ ++ buf₁.drop n₁) := by
    simp only [Queue.call] at c₁
    rcases hh : Q.bulkDequeue q buf₁ with ⟨_, _, _⟩ | _ | _ <;> rw [hh] at c₁ <;> simp at c₁
    obtain ⟨rfl, rfl, rfl⟩ := c₁; rfl
  have hc₂ : Q.bulkDequeue q₁ buf₂ = ok (q₂, n₂, l.drop n₁ ++ buf₂.drop n₂) := by
    simp only [Queue.call] at c₂
    have : (l.drop n₁).take n₂ = l.drop n₁ := by apply List.take_of_length_le; simp; omega
    rw [this] at c₂
    rcases hh : Q.bulkDequeue q₁ buf₂ with ⟨_, _, _⟩ | _ | _ <;> rw [hh] at c₂ <;> simp at c₂
    obtain ⟨rfl, rfl, rfl⟩ := c₂; rfl
  refine ⟨q₁, n₁, q₂, n₂, hc₁, hc₂, hsum, ?_⟩
  obtain ⟨s, hR, _⟩ := t₂
  rw [hQ.len _ _ _ _ hR]
  simp; omega

/-- Two maximal calls of `bulk_enqueue` fill a ring buffer. -/
theorem RingLaw.bulkEnqueue_twice {Q : Queue κ I} {cap : Nat} {R : κ → List I → List I → Nat → Prop} {pos : κ → Nat}
    (hQ : RingLaw Q cap R pos) {q : κ} {l : List I} {g : Ledger I} (h : Tracks R q l g) (buf₁ buf₂ : List I)
    (hb₁ : cap ≤ l.length + buf₁.length) (hb₂ : cap ≤ l.length + buf₂.length) :
    ∃ q₁ n₁ q₂ n₂, Q.bulkEnqueue q buf₁ = ok (q₁, n₁) ∧ Q.bulkEnqueue q₁ buf₂ = ok (q₂, n₂) ∧
      l.length + n₁ + n₂ = cap ∧ Q.len q₂ = cap := by
  have hl : l.length ≤ cap := by
    obtain ⟨s, hR, _⟩ := h
    have := hQ.bound _ _ _ _ hR; omega
  have hpl : 0 < cap → pos q < cap := by
    obtain ⟨s, hR, _⟩ := h
    exact hQ.pos_lt _ _ _ _ hR
  obtain ⟨q₁, a₁, c₁, ⟨n₁, rfl, hn₁, hn₁', _⟩, t₁⟩ := hQ.call h (.bulkEnqueue buf₁) trivial (.inr (by simp))
  have e₁ := hQ.call_pos h (.bulkEnqueue buf₁) trivial c₁
  simp only [fifoNext] at t₁
  obtain ⟨q₂, a₂, c₂, ⟨n₂, rfl, hn₂, hn₂', _⟩, t₂⟩ := hQ.call t₁ (.bulkEnqueue buf₂) trivial (.inr (by simp))
  have e₂ := hQ.call_pos t₁ (.bulkEnqueue buf₂) trivial c₂
  simp only [fifoNext] at t₂
  have htl : (l ++ buf₁.take n₁).length = l.length + n₁ := by simp; omega
  rw [htl] at hn₂'
  have hsum : l.length + n₁ + n₂ = cap := by
    simp only [ringAnswer, ringSlots, Prod.mk.injEq, QueueAns.num.injEq, htl] at e₁ e₂
    obtain ⟨e₁, p₁⟩ := e₁
    obtain ⟨e₂, -⟩ := e₂
    rw [← p₁] at e₂
    by_cases h0 : l.length = cap
    · omega
    · have hp := hpl (by omega)
      rw [if_neg h0] at e₁
      split at e₁ <;> split at e₂ <;> first | omega | (split at e₂ <;> omega)
  have hc₁ : Q.bulkEnqueue q buf₁ = ok (q₁, n₁) := by
    simp only [Queue.call] at c₁
    rcases hh : Q.bulkEnqueue q buf₁ with ⟨_, _⟩ | _ | _ <;> rw [hh] at c₁ <;> simp at c₁
    obtain ⟨rfl, rfl⟩ := c₁; rfl
  have hc₂ : Q.bulkEnqueue q₁ buf₂ = ok (q₂, n₂) := by
    simp only [Queue.call] at c₂
    rcases hh : Q.bulkEnqueue q₁ buf₂ with ⟨_, _⟩ | _ | _ <;> rw [hh] at c₂ <;> simp at c₂
    obtain ⟨rfl, rfl⟩ := c₂; rfl
  refine ⟨q₁, n₁, q₂, n₂, hc₁, hc₂, hsum, ?_⟩
  obtain ⟨s, hR, _⟩ := t₂
  rw [hQ.len _ _ _ _ hR]
  simp; omega

end

namespace Fixed

theorem ringLaw (T : Type) (cap : Nat) : RingLaw (queue T) cap (Holds cap) Fixed.read where
  toFifoLaw := fifoLaw T cap
  pos_lt _ _ _ _ h hc := by have := h.read; omega
  enqueue_pos q l slots n x q' r h he := by
    change q.enqueue x = _ at he
    simp only [enqueue, writeTo, mod, setIndex, bind_eq, pure_eq] at he
    split at he
    · simp at he; rw [he.1]
    · split at he
      · simp at he
      · simp only [bind_ok] at he
        split at he <;> simp at he
        rw [← he.1]
  exposeSlots_pos q l slots n q' slots' h he := by
    have hb := h.bound
    by_cases hf : l.length = cap
    · have := h.exposeSlots_full hf
      change q.exposeSlots = _ at he
      rw [this] at he; simp at he
    · obtain ⟨s, _, h2, _, h4⟩ := h.exposeSlots (by omega)
      change q.exposeSlots = _ at he
      rw [h2] at he; simp at he
      obtain ⟨rfl, rfl⟩ := he
      refine ⟨rfl, ?_⟩
      rw [h4]; simp [slotCount, ringSlots, h.length, h.amount]
  write_pos _ _ _ _ _ _ _ := rfl
  considerEnqueued_pos q _ _ _ k q' _ he := by
    change q.considerEnqueued k = _ at he
    simp [considerEnqueued] at he
    rw [← he]
  dequeue_pos q l slots n q' x h he := by
    change q.dequeue = _ at he
    simp only [dequeue, mod, sub, index, capacity, bind_eq, pure_eq, h.length] at he
    split at he
    · simp at he
    · split at he
      · simp at he
      · simp only [bind_ok] at he
        split at he
        · rcases hd : q.data[q.read]? with _ | y <;> simp [hd] at he
          rw [← he.1]
        · simp at he
  exposeItems_pos q l slots n q' xs h he := by
    change q.exposeItems = _ at he
    by_cases hf : l = []
    · subst hf; rw [h.exposeItems_empty] at he; simp at he
    · obtain ⟨_, h2, h3⟩ := h.exposeItems hf
      rw [h3] at he; simp at he
      obtain ⟨rfl, rfl⟩ := he
      refine ⟨rfl, ?_⟩
      rw [List.length_take, Nat.min_eq_left h2]
      simp [itemCount, ringItems, h.length, h.amount]
  considerDequeued_pos q l slots n k q' h he := by
    change q.considerDequeued k = _ at he
    simp only [considerDequeued, mod, sub, capacity, h.length, bind_eq, pure_eq] at he
    split at he
    · simp at he
    · simp only [bind_ok] at he
      split at he <;> simp at he
      rw [← he]

theorem considerDequeued_zero {T : Type} (q : Fixed T) (h : q.data.length = 0) (k : Nat) :
    q.considerDequeued k = .panic := by
  simp [considerDequeued, capacity, h, mod]

theorem Holds.debugEntries {T : Type} {cap : Nat} {q : Fixed T} {l slots : List T} {n : Nat}
    (h : Holds cap q l slots n) : q.debugEntries = ok l := by
  have hb := h.bound
  have hlen := h.length
  by_cases hc : q.read + l.length < cap
  · have hr : q.read < cap := by omega
    simp only [Fixed.debugEntries, isDataContiguous, capacity, hlen, h.amount, hc, decide_true, if_true, writeTo, bind_eq]
    rw [mod_of_pos (by omega), bind_ok, Nat.mod_eq_of_lt hc, slice_of_le (by omega) (by omega)]
    congr 1
    apply List.ext_getElem?
    intro i
    rw [List.getElem?_drop]
    by_cases hi : i < l.length
    · have := h.ring i l[i] (by rw [List.getElem?_append_left hi]; exact List.getElem?_eq_getElem hi)
      rw [Nat.mod_eq_of_lt (by omega)] at this
      rw [List.getElem?_take_of_lt (by omega), this, List.getElem?_eq_getElem hi]
    · rw [List.getElem?_eq_none (by simp; omega), List.getElem?_eq_none (by omega)]
  · have hr : q.read ≤ cap := by have := h.read; omega
    have hf : ((q.data.take q.data.length).drop q.read).length = cap - q.read := by simp [hlen]
    simp only [Fixed.debugEntries, isDataContiguous, capacity, hlen, h.amount, hc, decide_false, Bool.false_eq_true,
      if_false, bind_eq]
    rw [← hlen, slice_of_le (by omega) (by omega), bind_ok, hf, sub_of_le (by omega), bind_ok,
      slice_of_le (by omega) (by omega)]
    simp only [bind_ok, pure_eq, List.drop_zero]
    congr 1
    apply List.ext_getElem?
    intro i
    by_cases hi : i < l.length
    · have := h.ring i l[i] (by rw [List.getElem?_append_left hi]; exact List.getElem?_eq_getElem hi)
      rw [ring_mod (by have := h.read; omega) (by omega)] at this
      rw [List.getElem?_eq_getElem hi, ← this]
      by_cases hi2 : i < cap - q.read
      · rw [List.getElem?_append_left (by omega), List.getElem?_drop, List.getElem?_take_of_lt (by omega),
          if_pos (by omega)]
      · rw [List.getElem?_append_right (by omega), hf, List.getElem?_take_of_lt (by omega), if_neg (by omega)]
        congr 1; omega
    · rw [List.getElem?_eq_none (by simp [hlen]; omega), List.getElem?_eq_none (by omega)]

end Fixed

namespace Static

variable {T : Type} {N : Nat}

theorem lift_eq {α : Type} {o : Outcome (Static T N × α)} {q : Static T N} {a : α} (h : o = ok (q, a)) :
    lift o = ok (q.toFixed, a) := by subst h; rfl

theorem ringLaw (T : Type) (N : Nat) : RingLaw (queue T N) N Holds Static.read where
  toFifoLaw := fifoLaw T N
  pos_lt q _ _ _ h hc := (Fixed.ringLaw T N).pos_lt q.toFixed _ _ _ h hc
  enqueue_pos q l slots n x q' r h he :=
    (Fixed.ringLaw T N).enqueue_pos q.toFixed l slots n x q'.toFixed r h ((lift_enqueue q x).symm.trans (lift_eq he))
  exposeSlots_pos q l slots n q' slots' h he :=
    (Fixed.ringLaw T N).exposeSlots_pos q.toFixed l slots n q'.toFixed slots' h
      ((lift_exposeSlots q).symm.trans (lift_eq he))
  write_pos q l slots n ws h hw := by
    change (q.writeSlots ws).read = q.read
    unfold writeSlots; split <;> rfl
  considerEnqueued_pos q _ _ _ k q' _ he := by
    change q.considerEnqueued k = _ at he
    simp [considerEnqueued] at he
    rw [← he]
  dequeue_pos q l slots n q' x h he :=
    (Fixed.ringLaw T N).dequeue_pos q.toFixed l slots n q'.toFixed x h ((lift_dequeue q).symm.trans (lift_eq he))
  exposeItems_pos q l slots n q' xs h he :=
    (Fixed.ringLaw T N).exposeItems_pos q.toFixed l slots n q'.toFixed xs h
      ((lift_exposeItems q).symm.trans (lift_eq he))
  considerDequeued_pos q l slots n k q' h he := by
    change q.considerDequeued k = _ at he
    simp only [considerDequeued, mod, sub, bind_eq, pure_eq] at he
    split at he
    · simp at he
    · simp only [bind_ok] at he
      split at he <;> simp at he
      rw [← he]

theorem considerDequeued_zero (q : Static T 0) (k : Nat) : q.considerDequeued k = .panic := by
  simp [considerDequeued, mod]

end Static

end Verif
