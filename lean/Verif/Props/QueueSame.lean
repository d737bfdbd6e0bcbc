import Verif.Props.Queue

/-!
# C72: `Static` works exactly like `Fixed`; C01, C02: exactly which capacities are affected
-/

namespace Verif

open Outcome

section

variable {κ₁ κ₂ I : Type}

/-- How many slots can be written to after a call: those that `expose_slots` has returned, until the next call (the borrow checker
rules out writing to them later). -/
def slotsLent (n : Nat) : QueueOp I → QueueAns I → Nat
  | .exposeSlots, .slots r => r.getD 0
  | .write _, _ => n
  | _, _ => 0

/-- Two queues cannot be told apart by the calls `ops`: they give the same answers and show the same items when they are printed,
until both panic. The calls may violate the documented invariants, but only slots that have just been exposed are written to (`n` of
them at the start). -/
def Queue.Alike (Q₁ : Queue κ₁ I) (Q₂ : Queue κ₂ I) (debug₁ : κ₁ → Outcome (List I)) (debug₂ : κ₂ → Outcome (List I)) :
    κ₁ → κ₂ → Nat → List (QueueOp I) → Prop
  | q₁, q₂, _, [] => debug₁ q₁ = debug₂ q₂
  | q₁, q₂, n, op :: ops => debug₁ q₁ = debug₂ q₂ ∧ ((∀ ws, op = .write ws → ws.length ≤ n) →
      (Q₁.call q₁ op = .panic ∧ Q₂.call q₂ op = .panic) ∨
      ∃ q₁' q₂' a, Q₁.call q₁ op = ok (q₁', a) ∧ Q₂.call q₂ op = ok (q₂', a) ∧
        Q₁.Alike Q₂ debug₁ debug₂ q₁' q₂' (slotsLent n op a) ops)

end

namespace Static

variable {T : Type} {N : Nat}

theorem toFixed_writeSlots_of_fits (q : Static T N) (ws : List T) (h : ws = [] ∨ (q.read + q.amount) % N + ws.length ≤ N) :
    (q.writeSlots ws).toFixed = q.toFixed.writeSlots ws := by
  have hl : (overwriteAt q.data ((q.read + q.amount) % N) ws).length = N := by
    have := q.size
    rcases h with rfl | h
    · simp only [overwriteAt, List.append_nil, List.length_nil, Nat.add_zero, List.take_append_drop]
      exact this
    · simp only [overwriteAt, List.length_append, List.length_take, List.length_drop, this]
      omega
  simp [writeSlots, hl, Fixed.writeSlots, toFixed, Fixed.capacity, q.size]

theorem fits_of_exposed (q : Static T N) {q' : Static T N} {slots : List T} (h : q.exposeSlots = ok (q', some slots)) :
    q' = q ∧ (q.read + q.amount) % N + slots.length ≤ N := by
  simp only [exposeSlots, writeableSlice, writeTo, mod, bind_eq, pure_eq] at h
  split at h
  · cases h
  · split at h
    · cases h
    · simp only [bind_ok, slice] at h
      have := q.size
      split at h <;> split at h <;> simp only [bind_ok, bind_panic, ok.injEq, Prod.mk.injEq, Option.some.injEq, reduceCtorEq] at h
      · obtain ⟨rfl, rfl⟩ := h
        refine ⟨rfl, ?_⟩
        simp only [List.length_drop, List.length_take]
        omega
      · obtain ⟨rfl, rfl⟩ := h
        refine ⟨rfl, ?_⟩
        simp only [List.length_drop, List.length_take]
        omega

/-- The same queue, and `n` slots fit. -/
def Same (q : Static T N) (f : Fixed T) (n : Nat) : Prop := q.toFixed = f ∧ (n = 0 ∨ (q.read + q.amount) % N + n ≤ N)

theorem same_of_lift {α : Type} {o : Outcome (Static T N × α)} {o' : Outcome (Fixed T × α)} (h : lift o = o') :
    (o = .panic ∧ o' = .panic) ∨ (o = .diverge ∧ o' = .diverge) ∨ ∃ q a, o = ok (q, a) ∧ o' = ok (q.toFixed, a) := by
  subst h
  rcases o with ⟨q, a⟩ | _ | _
  · exact .inr (.inr ⟨q, a, rfl, rfl⟩)
  · exact .inl ⟨rfl, rfl⟩
  · exact .inr (.inl ⟨rfl, rfl⟩)

theorem lift_bind {α β : Type} (o : Outcome (Static T N × α)) (g : α → β) :
    lift (o.bind fun (q, a) => ok (q, g a)) = (lift o).bind fun (q, a) => ok (q, g a) := by
  rcases o with ⟨q, a⟩ | _ | _ <;> rfl

theorem lift_bulkEnqueue (q : Static T N) (buf : List T) :
    lift ((queue T N).bulkEnqueue q buf) = (Fixed.queue T).bulkEnqueue q.toFixed buf := by
  simp only [queue, Fixed.queue, bulkEnqueueDefault, bind_eq, pure_eq, ← lift_exposeSlots]
  rcases h : q.exposeSlots with ⟨q', _ | slots⟩ | _ | _
  · rfl
  · obtain ⟨rfl, hf⟩ := q.fits_of_exposed h
    simp only [lift, bind_ok, considerEnqueued, Fixed.considerEnqueued, pure_eq]
    rw [← toFixed_writeSlots_of_fits q' _ (.inr (by simp only [List.length_take]; omega))]
    rfl
  · rfl
  · rfl

theorem lift_bulkDequeue (q : Static T N) (buf : List T) :
    lift ((queue T N).bulkDequeue q buf) = (Fixed.queue T).bulkDequeue q.toFixed buf := by
  simp only [queue, Fixed.queue, bulkDequeueDefault, bind_eq, pure_eq, ← lift_exposeItems]
  rcases h : q.exposeItems with ⟨q', _ | items⟩ | _ | _
  · rfl
  · simp only [lift, bind_ok]
    have := lift_considerDequeued q' (min items.length buf.length)
    rcases h1 : q'.considerDequeued (min items.length buf.length) with q'' | _ | _ <;>
      rcases h2 : q'.toFixed.considerDequeued (min items.length buf.length) with f | _ | _ <;>
      rw [h1, h2] at this <;> cases this <;> rfl
  · rfl
  · rfl

theorem lift_call (q : Static T N) (op : QueueOp T)
    (h : ∀ ws, op = .write ws → ws = [] ∨ (q.read + q.amount) % N + ws.length ≤ N) :
    lift ((queue T N).call q op) = (Fixed.queue T).call q.toFixed op := by
  cases op with
  | len => rfl
  | isEmpty => rfl
  | enqueue x => exact (lift_bind _ _).trans (by rw [show (queue T N).enqueue q x = q.enqueue x from rfl, lift_enqueue]; rfl)
  | exposeSlots =>
    exact (lift_bind q.exposeSlots fun r => QueueAns.slots (r.map List.length)).trans (by rw [lift_exposeSlots]; rfl)
  | write ws =>
    show ok ((q.writeSlots ws).toFixed, _) = ok (q.toFixed.writeSlots ws, _)
    rw [toFixed_writeSlots_of_fits q ws (h ws rfl)]
  | considerEnqueued k => rfl
  | bulkEnqueue buf => exact (lift_bind _ _).trans (by rw [lift_bulkEnqueue]; rfl)
  | dequeue => exact (lift_bind _ _).trans (by rw [show (queue T N).dequeue q = q.dequeue from rfl, lift_dequeue]; rfl)
  | exposeItems =>
    exact (lift_bind _ _).trans (by rw [show (queue T N).exposeItems q = q.exposeItems from rfl, lift_exposeItems]; rfl)
  | considerDequeued k =>
    have := lift_considerDequeued q k
    simp only [Queue.call, queue, Fixed.queue]
    rcases h1 : q.considerDequeued k with q'' | _ | _ <;> rcases h2 : q.toFixed.considerDequeued k with f | _ | _ <;>
      rw [h1, h2] at this <;> cases this <;> rfl
  | bulkDequeue buf =>
    exact (lift_bind ((queue T N).bulkDequeue q buf) fun r => QueueAns.filled r.1 r.2).trans (by rw [lift_bulkDequeue]; rfl)

end Static

theorem bind_ne_diverge {α β : Type} {x : Outcome α} {f : α → Outcome β} (hx : x ≠ .diverge) (hf : ∀ a, f a ≠ .diverge) :
    x.bind f ≠ .diverge := by
  cases x with
  | ok a => exact hf a
  | panic => intro h; cases h
  | diverge => exact absurd rfl hx

theorem Fixed.call_ne_diverge {T : Type} (q : Fixed T) (op : QueueOp T) : (Fixed.queue T).call q op ≠ .diverge := by
  have hmod : ∀ a b, Outcome.mod a b ≠ .diverge := fun a b => by unfold Outcome.mod; split <;> simp
  have hsub : ∀ a b, Outcome.sub a b ≠ .diverge := fun a b => by unfold Outcome.sub; split <;> simp
  have hslice : ∀ (l : List T) a b, Outcome.slice l a b ≠ .diverge := fun l a b => by unfold Outcome.slice; split <;> simp
  have hset : ∀ (l : List T) a b, Outcome.setIndex l a b ≠ .diverge := fun l a b => by unfold Outcome.setIndex; split <;> simp
  have hindex : ∀ (l : List T) a, Outcome.index l a ≠ .diverge := fun l a => by
    unfold Outcome.index; cases l[a]? <;> simp
  have hes : ∀ q : Fixed T, q.exposeSlots ≠ .diverge := fun q => by
    simp only [exposeSlots, writeableSlice, writeTo, bind_eq, pure_eq]
    split
    · simp
    · refine bind_ne_diverge (bind_ne_diverge (hmod _ _) fun a => ?_) fun a => by simp
      split <;> exact hslice _ _ _
  have hei : ∀ q : Fixed T, q.exposeItems ≠ .diverge := fun q => by
    simp only [exposeItems, readableSlice, writeTo, bind_eq, pure_eq]
    split
    · simp
    · refine bind_ne_diverge ?_ fun a => by simp
      split
      · exact bind_ne_diverge (hmod _ _) fun a => hslice _ _ _
      · exact hslice _ _ _
  have hcd : ∀ (q : Fixed T) k, q.considerDequeued k ≠ .diverge := fun q k => by
    simp only [considerDequeued, bind_eq, pure_eq]
    exact bind_ne_diverge (hmod _ _) fun a => bind_ne_diverge (hsub _ _) fun a => by simp
  cases op with
  | len => simp [Queue.call]
  | isEmpty => simp [Queue.call]
  | enqueue x =>
    refine bind_ne_diverge (x := q.enqueue x) ?_ fun a => by simp
    simp only [enqueue, writeTo, bind_eq, pure_eq]
    split
    · simp
    · exact bind_ne_diverge (hmod _ _) fun a => bind_ne_diverge (hset _ _ _) fun a => by simp
  | exposeSlots => exact bind_ne_diverge (hes q) fun a => by simp
  | write ws => simp [Queue.call]
  | considerEnqueued k => simp [Queue.call, Fixed.queue, considerEnqueued]
  | bulkEnqueue buf =>
    refine bind_ne_diverge ?_ fun a => by simp
    simp only [queue, bulkEnqueueDefault, bind_eq, pure_eq]
    refine bind_ne_diverge (hes q) fun a => ?_
    rcases a with ⟨q', _ | slots⟩ <;> simp [considerEnqueued]
  | dequeue =>
    refine bind_ne_diverge (x := q.dequeue) ?_ fun a => by simp
    simp only [dequeue, bind_eq, pure_eq]
    split
    · simp
    · exact bind_ne_diverge (hmod _ _) fun a => bind_ne_diverge (hsub _ _) fun a => bind_ne_diverge (hindex _ _) fun a => by simp
  | exposeItems => exact bind_ne_diverge (hei q) fun a => by simp
  | considerDequeued k => exact bind_ne_diverge (hcd q k) fun a => by simp
  | bulkDequeue buf =>
    refine bind_ne_diverge ?_ fun a => by simp
    simp only [queue, bulkDequeueDefault, bind_eq, pure_eq]
    refine bind_ne_diverge (hei q) fun a => ?_
    rcases a with ⟨q', _ | items⟩
    · simp
    · exact bind_ne_diverge (hcd _ _) fun a => by simp

/-- **C72.** `Static` works exactly like `Fixed` (lib.rs:12): no sequence of calls tells them apart, not even by violating the
documented invariants of the queues, by printing them, or by which calls panic. -/
theorem static_like_fixed {T : Type} (N : Nat) (tmp : Nat → T) (ops : List (QueueOp T)) :
    (Static.queue T N).Alike (Fixed.queue T) Static.debugEntries Fixed.debugEntries (Static.new N tmp) (Fixed.new N tmp) 0 ops := by
  suffices h : ∀ (q : Static T N) n, (n = 0 ∨ (q.read + q.amount) % N + n ≤ N) →
      (Static.queue T N).Alike (Fixed.queue T) Static.debugEntries Fixed.debugEntries q q.toFixed n ops from h _ 0 (.inl rfl)
  induction ops with
  | nil => intro q n _; exact q.toFixed_debugEntries
  | cons op ops ih =>
    intro q n hn
    refine ⟨q.toFixed_debugEntries, fun hw => ?_⟩
    have hc := q.lift_call op (fun ws h => by
      have := hw ws h
      rcases hn with rfl | hn
      · exact .inl (List.length_eq_zero_iff.mp (by omega))
      · exact .inr (by omega))
    rcases Static.same_of_lift hc with h | ⟨_, h⟩ | ⟨q', a, h1, h2⟩
    · exact .inl h
    · exact absurd h (Fixed.call_ne_diverge _ _)
    · refine .inr ⟨q', q'.toFixed, a, h1, h2, ih q' _ ?_⟩
      cases op with
      | exposeSlots =>
        simp only [Queue.call, Static.queue] at h1
        rcases h3 : q.exposeSlots with ⟨q'', _ | slots⟩ | _ | _ <;> rw [h3] at h1 <;> cases h1
        · exact .inl rfl
        · obtain ⟨rfl, hf⟩ := q.fits_of_exposed h3
          exact .inr hf
      | write ws =>
        have h3 : q.writeSlots ws = q' := congrArg Prod.fst (Outcome.ok.inj h1)
        have h4 : q'.read = q.read ∧ q'.amount = q.amount := by
          rw [← h3]
          unfold Static.writeSlots
          split <;> exact ⟨rfl, rfl⟩
        show n = 0 ∨ _
        rw [h4.1, h4.2]
        exact hn
      | _ => exact .inl rfl

/-- The two queues panic at the same call when too many items are considered enqueued, or when the capacity is 0. -/
example : (Static.queue Nat 2).answers (Static.new 2 fun _ => 0) [.considerEnqueued 3, .exposeSlots] = .panic ∧
    (Fixed.queue Nat).answers (Fixed.new 2 fun _ => 0) [.considerEnqueued 3, .exposeSlots] = .panic ∧
    (Static.queue Nat 0).answers (Static.new 0 fun _ => 0) [.considerDequeued 0] = .panic ∧
    (Fixed.queue Nat).answers (Fixed.new 0 fun _ => 0) [.considerDequeued 0] = .panic := ⟨rfl, rfl, rfl, rfl⟩

/-- The wrapped around exposure is the same, too. -/
example : (Static.queue Nat 3).answers (Static.new 3 fun _ => 0) [.bulkEnqueue [1, 2, 3], .dequeue, .enqueue 4, .exposeItems] =
      ok [.num 3, .item (some 1), .item none, .items (some [2, 3])] ∧
    (Fixed.queue Nat).answers (Fixed.new 3 fun _ => 0) [.bulkEnqueue [1, 2, 3], .dequeue, .enqueue 4, .exposeItems] =
      ok [.num 3, .item (some 1), .item none, .items (some [2, 3])] := ⟨rfl, rfl⟩

/-! ## C01, C02 -/

/-- **C01.** The full statement holds exactly for the capacities other than 0. -/
theorem fixed_fifo_iff {T : Type} (capacity : Nat) (tmp : Nat → T) :
    (∀ ops, (Fixed.queue T).ActsAsFifo capacity (Fixed.new capacity tmp) [] .start ops) ↔ 0 < capacity := by
  refine ⟨fun h => Nat.pos_of_ne_zero ?_, fun h ops => fixed_fifo_of_pos capacity h tmp ops⟩
  rintro rfl
  exact (fixed_capacity_zero_panics tmp).2.2 (h _)

/-- **C02.** The full statement holds exactly for the capacities other than 0. -/
theorem static_fifo_iff {T : Type} (N : Nat) (tmp : Nat → T) :
    (∀ ops, (Static.queue T N).ActsAsFifo N (Static.new N tmp) [] .start ops) ↔ 0 < N := by
  refine ⟨fun h => Nat.pos_of_ne_zero ?_, fun h ops => static_fifo_of_pos N h tmp ops⟩
  rintro rfl
  exact (static_capacity_zero_panics tmp).2.2 (h _)

/-- **C01, C02.** With capacity 0, a call panics after an allowed history exactly if it is `consider_dequeued`. -/
theorem fixed_zero_panics_iff {T : Type} {tmp : Nat → T} {q : Fixed T} {l : List T} {g : Ledger T}
    (h : (Fixed.queue T).Reaches 0 (Fixed.new 0 tmp) q l g) (op : QueueOp T) (hop : g.Allows op) :
    (Fixed.queue T).call q op = .panic ↔ op = .considerDequeued 0 := by
  have hq : q = ⟨[], 0, 0⟩ ∧ g.offered = 0 ∧ g.written = [] ∧ g.shown = 0 := by
    clear hop op
    generalize hq₀ : Fixed.new 0 tmp = q₀ at h
    induction h with
    | start => subst hq₀; exact ⟨rfl, rfl, rfl, rfl⟩
    | @step q l g op q' a hr hop hcall ih =>
      obtain ⟨rfl, h1, h2, h3⟩ := ih
      obtain ⟨off, wr, sh⟩ := g
      simp only at h1 h2 h3
      subst h1 h2 h3
      cases op with
      | len => cases hcall; exact ⟨rfl, rfl, rfl, rfl⟩
      | isEmpty => cases hcall; exact ⟨rfl, rfl, rfl, rfl⟩
      | enqueue x => cases hcall; exact ⟨rfl, rfl, rfl, rfl⟩
      | exposeSlots => cases hcall; exact ⟨rfl, rfl, rfl, rfl⟩
      | write ws =>
        have : ws = [] := List.length_eq_zero_iff.mp (Nat.le_zero.mp hop)
        subst this
        cases hcall; exact ⟨rfl, rfl, rfl, rfl⟩
      | considerEnqueued k =>
        have : k = 0 := Nat.le_zero.mp hop
        subst this
        cases hcall; exact ⟨rfl, rfl, rfl, rfl⟩
      | bulkEnqueue buf => cases hcall; exact ⟨rfl, rfl, rfl, rfl⟩
      | dequeue => cases hcall; exact ⟨rfl, rfl, rfl, rfl⟩
      | exposeItems => cases hcall; exact ⟨rfl, rfl, rfl, rfl⟩
      | considerDequeued k => cases hcall
      | bulkDequeue buf => cases hcall; exact ⟨rfl, rfl, rfl, rfl⟩
  obtain ⟨rfl, h1, h2, h3⟩ := hq
  refine ⟨fun hp => ?_, fun hp => by subst hp; rfl⟩
  cases op with
  | considerDequeued k =>
    have : k = 0 := by
      have : k ≤ g.shown := hop
      omega
    rw [this]
  | _ => cases hp

/-- All other calls can be made. -/
example : (Fixed.queue Nat).Reaches 0 (Fixed.new 0 fun _ => 0) ⟨[], 0, 0⟩ [] .start ∧
    (Fixed.queue Nat).answers (Fixed.new 0 fun _ => 0) [.enqueue 5, .exposeSlots, .bulkEnqueue [1], .considerEnqueued 0, .dequeue,
      .exposeItems, .bulkDequeue [7]] =
      ok [.item (some 5), .slots none, .num 0, .unit, .item none, .items none, .filled 0 [7]] := ⟨.start, rfl⟩

end Verif
