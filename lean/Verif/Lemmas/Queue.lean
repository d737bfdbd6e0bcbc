import Verif.QueueSpec

/-!
# Helper lemmas: the ring buffers satisfy the queue laws
-/

namespace Verif

open Outcome

theorem ring_mod {read i cap : Nat} (hr : read < cap) (hi : i ≤ cap) :
    (read + i) % cap = if read + i < cap then read + i else read + i - cap := by
  split
  · exact Nat.mod_eq_of_lt (by assumption)
  · rw [Nat.mod_eq_sub_mod (by omega), Nat.mod_eq_of_lt (by omega)]

theorem getElem?_overwriteAt {T : Type} {data ws : List T} {i j : Nat} (h : i + ws.length ≤ data.length) :
    (overwriteAt data i ws)[j]? = if i ≤ j ∧ j < i + ws.length then ws[j - i]? else data[j]? := by
  unfold overwriteAt
  have h1 : (data.take i).length = i := by simp; omega
  by_cases hj : j < i
  · rw [List.append_assoc, List.getElem?_append_left (by omega), List.getElem?_take_of_lt hj, if_neg (by omega)]
  · by_cases hj2 : j < i + ws.length
    · rw [if_pos (by omega), List.append_assoc, List.getElem?_append_right (by omega), h1,
        List.getElem?_append_left (by omega)]
    · rw [if_neg (by omega), List.getElem?_append_right (by simp; omega), List.getElem?_drop]
      congr 1; simp; omega

theorem length_overwriteAt {T : Type} {data ws : List T} {i : Nat} (h : i + ws.length ≤ data.length) :
    (overwriteAt data i ws).length = data.length := by
  simp [overwriteAt]; omega

namespace Fixed

variable {T : Type}

/-- The ring buffer invariant. -/
structure Holds (cap : Nat) (q : Fixed T) (l slots : List T) (n : Nat) : Prop where
  length : q.data.length = cap
  amount : q.amount = l.length
  bound : l.length + slots.length ≤ cap
  shown : n ≤ l.length
  read : q.read < cap ∨ (cap = 0 ∧ q.read = 0)
  ring : ∀ i x, (l ++ slots)[i]? = some x → q.data[(q.read + i) % cap]? = some x
  slots : slots = [] ∨ (q.read + q.amount) % cap + slots.length ≤ cap

theorem holds_new (cap : Nat) (tmp : Nat → T) : Holds cap (new cap tmp) [] [] 0 where
  length := by simp [new]
  amount := rfl
  bound := by simp
  shown := by simp
  read := by simp [new]; omega
  ring := by simp
  slots := .inl rfl

theorem Holds.weaken {cap : Nat} {q : Fixed T} {l slots : List T} {n m : Nat} (h : Holds cap q l slots n)
    (hm : m ≤ n) : Holds cap q l [] m ∧ Holds cap q l slots m := by
  refine ⟨⟨h.length, h.amount, by have := h.bound; simp; omega, by have := h.shown; omega, h.read, ?_, .inl rfl⟩,
    ⟨h.length, h.amount, h.bound, by have := h.shown; omega, h.read, h.ring, h.slots⟩⟩
  intro i x hx
  apply h.ring
  rw [List.append_nil] at hx
  rw [List.getElem?_append_left]
  · exact hx
  · rw [List.getElem?_eq_some_iff] at hx; exact hx.1

theorem Holds.show {cap : Nat} {q : Fixed T} {l slots : List T} {n m : Nat} (h : Holds cap q l slots n)
    (hm : m ≤ l.length) : Holds cap q l slots m :=
  ⟨h.length, h.amount, h.bound, hm, h.read, h.ring, h.slots⟩

theorem Holds.enqueue_full {cap : Nat} {q : Fixed T} {l slots : List T} {n : Nat} (h : Holds cap q l slots n) (x : T)
    (hf : l.length = cap) : q.enqueue x = ok (q, some x) := by
  simp [enqueue, capacity, h.length, h.amount, hf]

theorem Holds.enqueue {cap : Nat} {q : Fixed T} {l slots : List T} {n : Nat} (h : Holds cap q l slots n) (x : T)
    (hf : l.length < cap) : ∃ q', q.enqueue x = ok (q', none) ∧ Holds cap q' (l ++ [x]) [] n := by
  have hr : q.read < cap := by have := h.read; omega
  have hlt : (q.read + q.amount) % cap < cap := Nat.mod_lt _ (by omega)
  refine ⟨{ q with data := q.data.set ((q.read + q.amount) % cap) x, amount := q.amount + 1 }, ?_, ?_⟩
  · have h1 : ¬ l.length = cap := by omega
    simp only [Fixed.enqueue, capacity, h.length, h.amount, h1, if_false, writeTo, bind_eq]
    rw [mod_of_pos (by omega), bind_ok, setIndex_of_lt (by rw [h.length]; exact Nat.mod_lt _ (by omega))]
    simp
  · refine ⟨by simpa using h.length, by simp [h.amount], by simp; omega, by have := h.shown; simp; omega,
      .inl hr, ?_, .inl rfl⟩
    intro i y hy
    rw [List.append_nil] at hy
    simp only [h.amount] at hlt ⊢
    by_cases hi : i < l.length
    · rw [List.getElem?_append_left hi] at hy
      have := h.ring i y (by rw [List.getElem?_append_left hi]; exact hy)
      have hne : ¬ (q.read + l.length) % cap = (q.read + i) % cap := by
        rw [ring_mod hr (by omega), ring_mod hr (by omega)]
        split <;> split <;> omega
      rw [List.getElem?_set_ne hne]
      exact this
    · have : i = l.length := by
        have : i < (l ++ [x]).length := by rw [List.getElem?_eq_some_iff] at hy; exact hy.1
        simp at this; omega
      subst this
      rw [List.getElem?_append_right (by omega)] at hy
      simp at hy; subst hy
      rw [List.getElem?_set_self (by rw [h.length]; exact hlt)]

theorem Holds.exposeSlots_full {cap : Nat} {q : Fixed T} {l slots : List T} {n : Nat} (h : Holds cap q l slots n)
    (hf : l.length = cap) : q.exposeSlots = ok (q, none) := by
  simp [exposeSlots, capacity, h.length, h.amount, hf]

/-- How many slots are exposed. -/
def slotCount (q : Fixed T) : Nat :=
  if q.read + q.amount < q.data.length then q.data.length - (q.read + q.amount) else q.data.length - q.amount

theorem Holds.exposeSlots {cap : Nat} {q : Fixed T} {l slots : List T} {n : Nat} (h : Holds cap q l slots n)
    (hf : l.length < cap) :
    ∃ slots', slots' ≠ [] ∧ q.exposeSlots = ok (q, some slots') ∧ Holds cap q l slots' n ∧
      slots'.length = q.slotCount := by
  have hr : q.read < cap := by have := h.read; omega
  have hm : (q.read + l.length) % cap = if q.read + l.length < cap then q.read + l.length else
    q.read + l.length - cap := ring_mod hr (by omega)
  have h1 : ¬ l.length = cap := by omega
  have hlen := h.length
  generalize hw : (q.read + l.length) % cap = w at hm
  by_cases hc : q.read + l.length < cap
  · rw [if_pos hc] at hm
    have hexp : q.exposeSlots = ok (q, some ((q.data.take cap).drop w)) := by
      simp only [Fixed.exposeSlots, capacity, h.length, h.amount, h1, if_false, writeableSlice, writeTo, bind_eq,
        isDataContiguous, hc, decide_true, if_true]
      rw [mod_of_pos (by omega), bind_ok, hw, slice_of_le (by omega) (by omega)]
      simp
    have hl : ((q.data.take cap).drop w).length = cap - w := by simp [hlen]
    refine ⟨_, ?_, hexp, ⟨h.length, h.amount, by omega, h.shown, h.read, ?_, .inr ?_⟩, ?_⟩
    · intro h0; rw [h0] at hl; simp at hl; omega
    · intro i x hx
      by_cases hi : i < l.length
      · rw [List.getElem?_append_left hi] at hx
        exact h.ring i x (by rw [List.getElem?_append_left hi]; exact hx)
      · rw [List.getElem?_append_right (by omega)] at hx
        have hi2 : i - l.length < ((q.data.take cap).drop w).length := by
          rw [List.getElem?_eq_some_iff] at hx; exact hx.1
        rw [List.getElem?_drop, List.getElem?_take_of_lt (by omega)] at hx
        rw [ring_mod hr (by omega), if_pos (by omega), ← hx]
        congr 1; omega
    · rw [h.amount, hw, hl]; omega
    · rw [hl]; simp [slotCount, h.amount, hlen, hc, hm]
  · rw [if_neg hc] at hm
    have hexp : q.exposeSlots = ok (q, some ((q.data.take q.read).drop w)) := by
      simp only [Fixed.exposeSlots, capacity, h.length, h.amount, h1, if_false, writeableSlice, writeTo, bind_eq,
        isDataContiguous, hc, decide_false, Bool.false_eq_true]
      rw [mod_of_pos (by omega), bind_ok, hw, slice_of_le (by omega) (by omega)]
      simp
    have hl : ((q.data.take q.read).drop w).length = q.read - w := by simp [hlen]; omega
    refine ⟨_, ?_, hexp, ⟨h.length, h.amount, by omega, h.shown, h.read, ?_, .inr ?_⟩, ?_⟩
    · intro h0; rw [h0] at hl; simp at hl; omega
    · intro i x hx
      by_cases hi : i < l.length
      · rw [List.getElem?_append_left hi] at hx
        exact h.ring i x (by rw [List.getElem?_append_left hi]; exact hx)
      · rw [List.getElem?_append_right (by omega)] at hx
        have hi2 : i - l.length < ((q.data.take q.read).drop w).length := by
          rw [List.getElem?_eq_some_iff] at hx; exact hx.1
        rw [List.getElem?_drop, List.getElem?_take_of_lt (by omega)] at hx
        rw [ring_mod hr (by omega), if_neg (by omega), ← hx]
        congr 1; omega
    · rw [h.amount, hw, hl]; omega
    · rw [hl]; simp [slotCount, h.amount, hlen, hc, hm]; omega

theorem Holds.write {cap : Nat} {q : Fixed T} {l slots : List T} {n : Nat} (h : Holds cap q l slots n)
    (ws : List T) (hw : ws.length ≤ slots.length) :
    Holds cap (q.writeSlots ws) l (ws ++ slots.drop ws.length) n := by
  have hb := h.bound
  by_cases h0 : ws = []
  · subst h0
    have : q.writeSlots [] = q := by simp [writeSlots, overwriteAt]
    rw [this]; simpa using h
  · have hpos : 0 < ws.length := List.length_pos_iff.mpr h0
    have hr : q.read < cap := by have := h.read; omega
    have hs : (q.read + q.amount) % cap + slots.length ≤ cap := by
      rcases h.slots with hs | hs
      · subst hs; simp at hw; exact absurd hw h0
      · exact hs
    have hlen : (ws ++ slots.drop ws.length).length = slots.length := by simp; omega
    have hfit : (q.read + q.amount) % q.capacity + ws.length ≤ q.data.length := by
      unfold capacity; rw [h.length]; omega
    refine ⟨?_, h.amount, by rw [hlen]; exact hb, h.shown, h.read, ?_, .inr (by rw [hlen]; exact hs)⟩
    · simp only [writeSlots]; rw [length_overwriteAt hfit, h.length]
    · intro i x hx
      have hi : i < cap := by
        rw [List.getElem?_eq_some_iff] at hx
        have := hx.1
        rw [List.length_append, hlen] at this; omega
      simp only [writeSlots]
      rw [getElem?_overwriteAt hfit]
      unfold capacity; rw [h.length, h.amount]
      rw [h.amount] at hs
      have hm1 := ring_mod hr (show i ≤ cap by omega)
      have hm2 := ring_mod hr (show l.length ≤ cap by omega)
      by_cases hi1 : i < l.length
      · rw [if_neg]
        · rw [List.getElem?_append_left hi1] at hx
          exact h.ring i x (by rw [List.getElem?_append_left hi1]; exact hx)
        · rw [hm1, hm2]; rw [hm2] at hs
          (split at hs <;> split <;> first | omega | (split <;> omega))
      · rw [List.getElem?_append_right (by omega)] at hx
        by_cases hi2 : i < l.length + ws.length
        · rw [List.getElem?_append_left (by omega)] at hx
          rw [hm2] at hs
          have hidx : (q.read + i) % cap = (q.read + l.length) % cap + (i - l.length) := by
            rw [hm1, hm2]; (split at hs <;> split <;> first | omega | (split <;> omega))
          rw [if_pos (by omega), ← hx]
          congr 1; omega
        · rw [List.getElem?_append_right (by omega), List.getElem?_drop] at hx
          have hi3 : i < l.length + slots.length := by
            rw [List.getElem?_eq_some_iff] at hx
            have := hx.1; omega
          rw [hm2] at hs
          have hidx : (q.read + i) % cap = (q.read + l.length) % cap + (i - l.length) := by
            rw [hm1, hm2]; (split at hs <;> split <;> first | omega | (split <;> omega))
          rw [if_neg (by omega)]
          apply h.ring
          rw [List.getElem?_append_right (by omega), ← hx]
          congr 1; omega

theorem Holds.considerEnqueued {cap : Nat} {q : Fixed T} {l slots : List T} {n : Nat} (h : Holds cap q l slots n)
    (k : Nat) (hk : k ≤ slots.length) :
    ∃ q', q.considerEnqueued k = ok q' ∧ Holds cap q' (l ++ slots.take k) (slots.drop k) n := by
  have hb := h.bound
  refine ⟨{ q with amount := q.amount + k }, rfl, ⟨h.length, ?_, ?_, ?_, h.read, ?_, ?_⟩⟩
  · simp [h.amount]; omega
  · simp; omega
  · have := h.shown; simp; omega
  · intro i x hx
    apply h.ring
    rwa [List.append_assoc, List.take_append_drop] at hx
  · rcases h.slots with hs | hs
    · left; simp [hs]
    · by_cases hk0 : slots.length ≤ k
      · left; simp; omega
      · right
        have hr : q.read < cap := by have := h.read; omega
        rw [h.amount] at hs
        simp only [List.length_drop, h.amount]
        rw [ring_mod hr (by omega)]
        rw [ring_mod hr (by omega)] at hs
        split at hs <;> split <;> omega

theorem Holds.dequeue_empty {cap : Nat} {q : Fixed T} {slots : List T} {n : Nat} (h : Holds cap q [] slots n) :
    q.dequeue = ok (q, none) := by
  simp [dequeue, h.amount]

theorem Holds.drop {cap : Nat} {q : Fixed T} {l slots : List T} {n : Nat} (h : Holds cap q l slots n) (k : Nat)
    (hk : k ≤ l.length) (hcap : 0 < cap) (m : Nat) (hm : m ≤ l.length - k) :
    Holds cap { q with read := (q.read + k) % cap, amount := q.amount - k } (l.drop k) slots m := by
  have hb := h.bound
  have hr : q.read < cap := by have := h.read; omega
  have hk2 := ring_mod hr (show k ≤ cap by omega)
  refine ⟨h.length, by simp [h.amount], by simp; omega, by simpa using hm, .inl (Nat.mod_lt _ hcap), ?_, ?_⟩
  · intro i x hx
    have := h.ring (k + i) x (by
      rw [← List.take_append_drop k l, List.append_assoc, List.getElem?_append_right (by simp; omega), ← hx]
      congr 1; simp; omega)
    simp only
    rw [Nat.mod_add_mod, Nat.add_assoc]; exact this
  · rcases h.slots with hs | hs
    · exact .inl hs
    · right
      simp only
      rw [Nat.mod_add_mod, Nat.add_assoc, h.amount, Nat.add_sub_cancel' hk, ← h.amount]; exact hs

theorem Holds.dequeue {cap : Nat} {q : Fixed T} {x : T} {l slots : List T} {n : Nat}
    (h : Holds cap q (x :: l) slots n) : ∃ q', q.dequeue = ok (q', some x) ∧ Holds cap q' l slots (n - 1) := by
  have hb := h.bound
  have hsh := h.shown
  simp only [List.length_cons] at hb hsh
  have hr : q.read < cap := by have := h.read; omega
  have hd := h.drop 1 (by simp) (by omega) (n - 1) (by simp; omega)
  have hx := h.ring 0 x (by simp)
  rw [Nat.add_zero, Nat.mod_eq_of_lt hr] at hx
  refine ⟨_, ?_, hd⟩
  have ham : ¬ q.amount = 0 := by rw [h.amount]; simp
  simp only [Fixed.dequeue, ham, if_false, capacity, h.length, bind_eq]
  rw [mod_of_pos (by omega), bind_ok, sub_of_le (by omega), bind_ok]
  simp [index, hx]

theorem Holds.exposeItems_empty {cap : Nat} {q : Fixed T} {slots : List T} {n : Nat} (h : Holds cap q [] slots n) :
    q.exposeItems = ok (q, none) := by
  simp [exposeItems, h.amount]

/-- How many items are exposed. -/
def itemCount (q : Fixed T) : Nat := min q.amount (q.data.length - q.read)

theorem Holds.exposeItems {cap : Nat} {q : Fixed T} {l slots : List T} {n : Nat} (h : Holds cap q l slots n)
    (hne : l ≠ []) : 0 < q.itemCount ∧ q.itemCount ≤ l.length ∧
      q.exposeItems = ok (q, some (l.take q.itemCount)) := by
  have hpos : 0 < l.length := List.length_pos_iff.mpr hne
  have hb := h.bound
  have hr : q.read < cap := by have := h.read; omega
  have hic : q.itemCount = min l.length (cap - q.read) := by simp [itemCount, h.amount, h.length]
  have ham : ¬ l.length = 0 := by omega
  have key : ∀ hi, hi = q.read + q.itemCount → (q.data.take hi).drop q.read = l.take q.itemCount := by
    rintro hi rfl
    apply List.ext_getElem?
    intro i
    rw [List.getElem?_drop]
    by_cases hii : i < q.itemCount
    · rw [List.getElem?_take_of_lt (by omega), List.getElem?_take_of_lt hii]
      have hil : i < l.length := by omega
      have := h.ring i l[i] (by rw [List.getElem?_append_left hil]; exact List.getElem?_eq_getElem hil)
      rw [ring_mod hr (by omega), if_pos (by omega)] at this
      rw [this, List.getElem?_eq_getElem hil]
    · rw [List.getElem?_eq_none (by simp; omega), List.getElem?_eq_none (by simp; omega)]
  refine ⟨by omega, by omega, ?_⟩
  by_cases hc : q.read + l.length < cap
  · simp only [Fixed.exposeItems, h.amount, ham, if_false, readableSlice, isDataContiguous, capacity, h.length, hc,
      decide_true, if_true, writeTo, bind_eq]
    rw [mod_of_pos (by omega), bind_ok, Nat.mod_eq_of_lt hc, slice_of_le (by omega) (by rw [h.length]; omega)]
    rw [key _ (by omega)]
    rfl
  · simp only [Fixed.exposeItems, h.amount, ham, if_false, readableSlice, isDataContiguous, capacity, h.length, hc,
      decide_false, Bool.false_eq_true, bind_eq]
    rw [slice_of_le (by omega) (by rw [h.length]; omega), key _ (by omega)]
    rfl

theorem Holds.considerDequeued {cap : Nat} {q : Fixed T} {l slots : List T} {n : Nat} (h : Holds cap q l slots n)
    (k : Nat) (hk : k ≤ n) (hcap : 0 < cap) :
    q.considerDequeued k = ok { q with read := (q.read + k) % cap, amount := q.amount - k } ∧
      Holds cap { q with read := (q.read + k) % cap, amount := q.amount - k } (l.drop k) slots (n - k) := by
  have hsh := h.shown
  refine ⟨?_, h.drop k (by omega) hcap (n - k) (by omega)⟩
  simp only [Fixed.considerDequeued, capacity, h.length, bind_eq]
  rw [mod_of_pos hcap, bind_ok, sub_of_le (by rw [h.amount]; omega)]
  rfl

/-- The ring buffer satisfies the laws of a bounded first-in-first-out queue. -/
theorem fifoLaw (T : Type) (cap : Nat) : FifoLaw (queue T) cap (Holds cap) where
  bound _ _ _ _ h := ⟨h.bound, h.shown⟩
  len _ _ _ _ h := h.amount
  isEmpty _ _ _ _ h := by simp [queue, Fixed.len, h.amount]
  enqueue_full _ _ _ _ x h hf := h.enqueue_full x hf
  enqueue _ _ _ _ x h hf := h.enqueue x hf
  exposeSlots_full _ _ _ _ h hf := h.exposeSlots_full hf
  exposeSlots q _ _ _ h hf := by
    obtain ⟨s, h1, h2, h3, _⟩ := h.exposeSlots hf; exact ⟨q, s, h1, h2, h3⟩
  write _ _ _ _ ws h hw := h.write ws hw
  considerEnqueued _ _ _ _ k h hk := h.considerEnqueued k hk
  dequeue_empty _ _ _ h := h.dequeue_empty
  dequeue _ _ _ _ _ h := h.dequeue
  exposeItems_empty _ _ _ h := h.exposeItems_empty
  exposeItems q l slots n h hne := by
    obtain ⟨h1, h2, h3⟩ := h.exposeItems hne
    exact ⟨q, q.itemCount, h1, h2, h3, h.show (by have := h.shown; omega)⟩
  considerDequeued _ _ _ _ k h hk hcap := ⟨_, h.considerDequeued k hk hcap⟩
  weaken _ _ _ _ _ h hm := h.weaken hm
  bulkEnqueue := rfl
  bulkDequeue := rfl

end Fixed

/-! ## `Static` is the same as `Fixed` -/

namespace Static

variable {T : Type} {N : Nat}

/-- The same ring buffer as a `Fixed`. -/
def toFixed (q : Static T N) : Fixed T := ⟨q.data, q.read, q.amount⟩

def Holds (q : Static T N) (l slots : List T) (n : Nat) : Prop := q.toFixed.Holds N l slots n

theorem ext_toFixed {q q' : Static T N} (h : q.toFixed = q'.toFixed) : q = q' := by
  cases q; cases q'; simp [toFixed] at h; obtain ⟨rfl, rfl, rfl⟩ := h; rfl

/-- The result of a `Static` method, seen as the result of a `Fixed` method. -/
def lift {α : Type} : Outcome (Static T N × α) → Outcome (Fixed T × α)
  | ok (q, a) => ok (q.toFixed, a)
  | .panic => .panic
  | .diverge => .diverge

theorem lift_ok {α : Type} {o : Outcome (Static T N × α)} {f : Fixed T} {a : α} (h : lift o = ok (f, a)) :
    ∃ q, o = ok (q, a) ∧ q.toFixed = f := by
  rcases o with ⟨q, b⟩ | _ | _ <;> simp [lift] at h
  obtain ⟨rfl, rfl⟩ := h
  exact ⟨q, rfl, rfl⟩

theorem lift_enqueue (q : Static T N) (x : T) : lift (q.enqueue x) = q.toFixed.enqueue x := by
  simp only [enqueue, Fixed.enqueue, Fixed.capacity, toFixed, q.size]
  split
  · rfl
  · simp only [writeTo, Fixed.writeTo, Fixed.capacity, q.size, setIndex, bind_eq]
    rcases mod (q.read + q.amount) N with i | _ | _
    · simp only [bind_ok]
      split <;> rfl
    · rfl
    · rfl

theorem lift_bind_some {q : Static T N} (o : Outcome (List T)) :
    lift (o.bind fun x => ok (q, some x)) = o.bind fun x => ok (q.toFixed, some x) := by
  cases o <;> rfl

theorem toFixed_writeableSlice (q : Static T N) : q.writeableSlice = q.toFixed.writeableSlice := by
  simp only [writeableSlice, Fixed.writeableSlice, writeTo, Fixed.writeTo, Fixed.capacity, q.size, isDataContiguous,
      Fixed.isDataContiguous, toFixed]
  rfl

theorem toFixed_readableSlice (q : Static T N) : q.readableSlice = q.toFixed.readableSlice := by
  simp only [readableSlice, Fixed.readableSlice, writeTo, Fixed.writeTo, Fixed.capacity, q.size, isDataContiguous,
      Fixed.isDataContiguous, toFixed]

theorem lift_exposeSlots (q : Static T N) : lift q.exposeSlots = q.toFixed.exposeSlots := by
  have hcap : q.toFixed.capacity = N := q.size
  have ham : q.toFixed.amount = q.amount := rfl
  simp only [exposeSlots, Fixed.exposeSlots, hcap, ham, toFixed_writeableSlice, bind_eq, pure_eq]
  split
  · rfl
  · exact lift_bind_some _

theorem lift_dequeue (q : Static T N) : lift q.dequeue = q.toFixed.dequeue := by
  simp only [dequeue, Fixed.dequeue, Fixed.capacity, toFixed, q.size]
  split
  · rfl
  · simp only [bind_eq]
    rcases mod (q.read + 1) N with _ | _ | _
    · rcases sub q.amount 1 with _ | _ | _
      · rcases index q.data q.read with _ | _ | _ <;> rfl
      · rfl
      · rfl
    · rfl
    · rfl

theorem lift_exposeItems (q : Static T N) : lift q.exposeItems = q.toFixed.exposeItems := by
  have ham : q.toFixed.amount = q.amount := rfl
  simp only [exposeItems, Fixed.exposeItems, ham, toFixed_readableSlice, bind_eq, pure_eq]
  split
  · rfl
  · exact lift_bind_some _

theorem lift_considerDequeued (q : Static T N) (k : Nat) :
    lift ((q.considerDequeued k).bind fun q => ok (q, ())) =
      (q.toFixed.considerDequeued k).bind fun q => ok (q, ()) := by
  simp only [considerDequeued, Fixed.considerDequeued, Fixed.capacity, toFixed, q.size, bind_eq]
  rcases mod (q.read + k) N with _ | _ | _
  · rcases sub q.amount k with _ | _ | _ <;> rfl
  · rfl
  · rfl

theorem toFixed_debugEntries (q : Static T N) : q.debugEntries = q.toFixed.debugEntries := by
  simp only [debugEntries, Fixed.debugEntries, isDataContiguous, Fixed.isDataContiguous, Fixed.capacity, toFixed, q.size,
    writeTo, Fixed.writeTo]

theorem toFixed_writeSlots {q : Static T N} {l slots : List T} {n : Nat} (h : q.Holds l slots n) {ws : List T}
    (hw : ws.length ≤ slots.length) : (q.writeSlots ws).toFixed = q.toFixed.writeSlots ws := by
  have := (Fixed.Holds.write h ws hw).length
  simp only [Fixed.writeSlots, Fixed.capacity, toFixed, q.size] at this
  simp [writeSlots, this, Fixed.writeSlots, toFixed, Fixed.capacity, q.size]

theorem holds_new (N : Nat) (tmp : Nat → T) : (new N tmp).Holds [] [] 0 := Fixed.holds_new N tmp

theorem fifoLaw (T : Type) (N : Nat) : FifoLaw (queue T N) N Holds where
  bound _ _ _ _ h := ⟨Fixed.Holds.bound h, Fixed.Holds.shown h⟩
  len _ _ _ _ h := Fixed.Holds.amount h
  isEmpty q l _ _ h := by
    have : q.amount = l.length := Fixed.Holds.amount h
    simp [queue, Static.len, this]
  enqueue_full q _ _ _ x h hf := by
    obtain ⟨q', h1, h2⟩ := lift_ok ((lift_enqueue q x).trans (Fixed.Holds.enqueue_full h x hf))
    rwa [ext_toFixed h2] at h1
  enqueue q _ _ _ x h hf := by
    obtain ⟨f, h1, h2⟩ := Fixed.Holds.enqueue h x hf
    obtain ⟨q', h3, rfl⟩ := lift_ok ((lift_enqueue q x).trans h1)
    exact ⟨q', h3, h2⟩
  exposeSlots_full q _ _ _ h hf := by
    obtain ⟨q', h1, h2⟩ := lift_ok ((lift_exposeSlots q).trans (Fixed.Holds.exposeSlots_full h hf))
    rwa [ext_toFixed h2] at h1
  exposeSlots q _ _ _ h hf := by
    obtain ⟨s, h1, h2, h3, _⟩ := Fixed.Holds.exposeSlots h hf
    obtain ⟨q', h4, h5⟩ := lift_ok ((lift_exposeSlots q).trans h2)
    exact ⟨q', s, h1, h4, by rw [ext_toFixed h5]; exact h3⟩
  write q l slots n ws h hw := by
    have h1 : (q.writeSlots ws).Holds l (ws ++ slots.drop ws.length) n := by
      unfold Holds; rw [toFixed_writeSlots h hw]; exact Fixed.Holds.write h ws hw
    exact h1
  considerEnqueued q _ _ _ k h hk := by
    obtain ⟨f, h1, h2⟩ := Fixed.Holds.considerEnqueued h k hk
    refine ⟨{ q with amount := q.amount + k }, rfl, ?_⟩
    simp only [Fixed.considerEnqueued, pure_eq] at h1
    injection h1 with h1; subst h1
    exact h2
  dequeue_empty q _ _ h := by
    obtain ⟨q', h1, h2⟩ := lift_ok ((lift_dequeue q).trans (Fixed.Holds.dequeue_empty h))
    rwa [ext_toFixed h2] at h1
  dequeue q _ _ _ _ h := by
    obtain ⟨f, h1, h2⟩ := Fixed.Holds.dequeue h
    obtain ⟨q', h3, rfl⟩ := lift_ok ((lift_dequeue q).trans h1)
    exact ⟨q', h3, h2⟩
  exposeItems_empty q _ _ h := by
    obtain ⟨q', h1, h2⟩ := lift_ok ((lift_exposeItems q).trans (Fixed.Holds.exposeItems_empty h))
    rwa [ext_toFixed h2] at h1
  exposeItems q l slots n h hne := by
    obtain ⟨h1, h2, h3⟩ := Fixed.Holds.exposeItems h hne
    obtain ⟨q', h4, h5⟩ := lift_ok ((lift_exposeItems q).trans h3)
    exact ⟨q', _, h1, h2, h4, by rw [ext_toFixed h5]; exact Fixed.Holds.show h (by have := Fixed.Holds.shown h; omega)⟩
  considerDequeued q _ _ _ k h hk hcap := by
    obtain ⟨h1, h2⟩ := Fixed.Holds.considerDequeued h k hk hcap
    have := lift_considerDequeued q k
    rw [h1] at this
    obtain ⟨q', h3, h4⟩ := lift_ok this
    rcases hq : q.considerDequeued k with q'' | _ | _
    · rw [hq] at h3
      simp at h3; subst h3
      exact ⟨_, hq, by unfold Holds; rw [h4]; exact h2⟩
    · rw [hq] at h3; simp at h3
    · rw [hq] at h3; simp at h3
  weaken _ _ _ _ _ h hm := Fixed.Holds.weaken h hm
  bulkEnqueue := rfl
  bulkDequeue := rfl

end Static

end Verif
