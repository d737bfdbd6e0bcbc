import Verif.TestSpec
import Verif.Lemmas.TestDoubles

/-!
# Helper lemmas about `TestConsumer`
-/

namespace Verif

open Outcome

theorem Outcome.bind_eq_ok {α β : Type} {x : Outcome α} {f : α → Outcome β} {b : β} :
    Outcome.bind x f = ok b ↔ ∃ a, x = ok a ∧ f a = ok b := by
  cases x <;> simp

theorem bulkConsumeDefault_error {τ I F E : Type} {C : BulkConsumer τ I F E}
    (hd : C.bulkConsume = bulkConsumeDefault C.exposeSlots C.writeSlots C.consumeSlots) {t t' : τ} {buf : List I} {e : E}
    (h : C.bulkConsume t buf = ok (t', .error e)) :
    C.exposeSlots t = ok (t', .error e) ∨ ∃ t₁ slots, C.exposeSlots t = ok (t₁, .ok slots) ∧
      C.consumeSlots (C.writeSlots t₁ (buf.take (min slots.length buf.length))) (min slots.length buf.length) =
        ok (t', .error e) := by
  rw [hd] at h
  simp only [bulkConsumeDefault, bind_eq, bind_eq_ok] at h
  obtain ⟨⟨t₁, e' | slots⟩, h1, h2⟩ := h
  · cases h2; exact .inl h1
  · refine .inr ⟨t₁, slots, h1, ?_⟩
    simp only [bind_eq_ok] at h2
    obtain ⟨⟨t₂, e' | u⟩, h3, h4⟩ := h2
    · cases h4; exact h3
    · cases h4

namespace TestConsumer

variable {I F E : Type} [Inhabited I]

/-- The public `IntoVec` is usable, has consumed `l`, and its first exposed slots contain `slots`. -/
def VecOk (test : Bool) (s : InvariantSt (IntoVec I)) (l slots : List I) : Prop :=
  s.active = true ∧ s.inner.Ready l slots ∧ (test = true → slots.length ≤ s.exposedSlots)

theorem VecOk.nil {test : Bool} {s : InvariantSt (IntoVec I)} {l slots : List I} (h : VecOk test s l slots) :
    VecOk test s l [] := ⟨h.1, h.2.1.nil, by simp⟩

theorem VecOk.take {test : Bool} {s : InvariantSt (IntoVec I)} {l slots : List I} (h : VecOk test s l slots) (k : Nat) :
    VecOk test s l (slots.take k) := by
  obtain ⟨h1, ⟨h2, h3, h4, h5⟩, h6⟩ := h
  refine ⟨h1, ⟨h2, h3, ?_, ?_⟩, ?_⟩
  · rw [List.length_take]
    conv => rhs; rw [← h4]
    rw [List.take_take]
  · rw [List.length_take]; omega
  · intro ht; have := h6 ht; rw [List.length_take]; omega

theorem VecOk.consume {test : Bool} {s : InvariantSt (IntoVec I)} {l slots : List I} (h : VecOk test s l slots) (x : I) :
    ∃ s', (vec test).consume s x = ok (s', .ok ()) ∧ VecOk test s' (l ++ [x]) [] := by
  obtain ⟨h1, h2, _⟩ := h
  obtain ⟨s', h3, sl, h4⟩ := IntoVec.law.base.consume_ok s.inner l x ⟨slots, h2⟩ rfl
  refine ⟨{ s with inner := s' }, ?_, h1, h4.nil, by simp⟩
  cases test <;> simp [vec, publicConsumer, unusedInvariantBulkConsumer, invariantBulkConsumer, invariantBufferedConsumer,
    invariantConsumer, InvariantSt.checkInactive, h1, h3]

theorem VecOk.close {test : Bool} {s : InvariantSt (IntoVec I)} {l slots : List I} (h : VecOk test s l slots) :
    ∃ s', (vec test).close s () = ok (s', .ok ()) ∧ s'.inner = s.inner := by
  obtain ⟨h1, _⟩ := h
  cases test
  · exact ⟨s, by simp [vec, publicConsumer, unusedInvariantBulkConsumer, IntoVec.consumer, IntoVec.close], rfl⟩
  · exact ⟨⟨s.inner, false, s.exposedSlots⟩, by simp [vec, publicConsumer, invariantBulkConsumer,
      invariantBufferedConsumer, invariantConsumer, InvariantSt.checkInactive, h1, IntoVec.consumer, IntoVec.close], rfl⟩

theorem VecOk.flush {test : Bool} {s : InvariantSt (IntoVec I)} {l slots : List I} (h : VecOk test s l slots) :
    (vec test).flush s = ok (s, .ok ()) := by
  obtain ⟨h1, _⟩ := h
  obtain ⟨s, a, e⟩ := s
  obtain rfl : a = true := h1
  cases test <;> simp [vec, publicConsumer, unusedInvariantBulkConsumer, invariantBulkConsumer, invariantBufferedConsumer,
    InvariantSt.checkInactive, IntoVec.consumer, IntoVec.flush]

theorem VecOk.exposeSlots {test : Bool} {s : InvariantSt (IntoVec I)} {l slots : List I} (h : VecOk test s l slots) :
    ∃ s' slots', (vec test).exposeSlots s = ok (s', .ok slots') ∧ VecOk test s' l slots' ∧ 0 < slots'.length ∧
      s.inner.v.length - s.inner.consumed ≤ slots'.length := by
  obtain ⟨h1, h2, _⟩ := h
  have h3 : ∃ s' slots', (IntoVec.consumer I).exposeSlots s.inner = ok (s', .ok slots') ∧ s'.Ready l slots' ∧
      0 < slots'.length ∧ s.inner.v.length - s.inner.consumed ≤ slots'.length := by
    obtain ⟨h3, h4, h5⟩ := s.inner.makeSpaceIfNeeded_spec h2.1
    have hx : (s.inner.makeSpaceIfNeeded.v.drop s.inner.makeSpaceIfNeeded.consumed).length =
      s.inner.makeSpaceIfNeeded.v.length - s.inner.makeSpaceIfNeeded.consumed := by simp
    refine ⟨s.inner.makeSpaceIfNeeded, s.inner.makeSpaceIfNeeded.v.drop s.inner.makeSpaceIfNeeded.consumed, ?_,
      ⟨?_, ?_, ?_, ?_⟩, ?_, ?_⟩
    · simp only [IntoVec.consumer, IntoVec.exposeSlots]
      rw [slice_of_le (by omega) (Nat.le_refl _), List.take_length]; rfl
    · omega
    · rw [h3, h5, h2.2.1]
    · rw [List.take_length]
    · omega
    · omega
    · rw [hx]
      unfold IntoVec.makeSpaceIfNeeded
      split
      · omega
      · exact Nat.le_refl _
  obtain ⟨s', slots', h3, h4, h5, h6⟩ := h3
  cases test
  · exact ⟨{ s with inner := s' }, slots', by simp [vec, publicConsumer, unusedInvariantBulkConsumer, h3], ⟨h1, h4, by simp⟩,
      h5, h6⟩
  · exact ⟨⟨s', true, slots'.length⟩, slots', by simp [vec, publicConsumer, invariantBulkConsumer,
      InvariantSt.checkInactive, h1, h3], ⟨rfl, h4, fun _ => Nat.le_refl _⟩, h5, h6⟩

theorem VecOk.write {test : Bool} {s : InvariantSt (IntoVec I)} {l slots ws : List I} (h : VecOk test s l slots)
    (hw : ws.length ≤ slots.length) :
    VecOk test ((vec test).writeSlots s ws) l (ws ++ slots.drop ws.length) := by
  obtain ⟨h1, h2, h3⟩ := h
  have h4 := IntoVec.law.write s.inner l slots ws h2 hw
  have hl : (ws ++ slots.drop ws.length).length = slots.length := by simp; omega
  cases test
  · exact ⟨h1, h4, by simp⟩
  · exact ⟨h1, h4, fun _ => by rw [hl]; exact h3 rfl⟩

theorem VecOk.consumeSlots {test : Bool} {s : InvariantSt (IntoVec I)} {l slots : List I} {k : Nat} (h : VecOk test s l slots)
    (hk : k ≤ slots.length) :
    ∃ s', (vec test).consumeSlots s k = ok (s', .ok ()) ∧ VecOk test s' (l ++ slots.take k) (slots.drop k) := by
  obtain ⟨h1, h2, h3⟩ := h
  have h4 : ∃ s', (IntoVec.consumer I).consumeSlots s.inner k = ok (s', .ok ()) ∧ s'.Ready (l ++ slots.take k) (slots.drop k) := by
    by_cases hne : slots = []
    · subst hne
      obtain rfl : k = 0 := by simpa using hk
      exact ⟨s.inner, rfl, by simpa using h2⟩
    · exact IntoVec.law.consumeSlots_ok s.inner l slots k h2 hne hk (by intro i x _; rfl)
  obtain ⟨s', h4, h5⟩ := h4
  cases test
  · exact ⟨{ s with inner := s' }, by simp [vec, publicConsumer, unusedInvariantBulkConsumer, h4], h1, h5, by simp⟩
  · have h3 := h3 rfl
    refine ⟨⟨s', true, s.exposedSlots - k⟩, ?_, rfl, h5, fun _ => by simp only [List.length_drop]; omega⟩
    simp [vec, publicConsumer, invariantBulkConsumer, InvariantSt.checkInactive, h1, h4,
      sub_of_le (show k ≤ s.exposedSlots by omega), show ¬ s.exposedSlots < k by omega]

/-- The loop that makes space ends, leaving enough space. -/
theorem grow_loop {v : IntoVec I} {l slots : List I} (h : v.Ready l slots) (m : Nat) :
    ∃ v', loop (growBody m) v = ok v' ∧ v'.Ready l [] ∧ m ≤ v'.v.length - v'.consumed := by
  refine loop_ok (fun a _ v => v.Ready l [] ∧ a = m - (v.v.length - v.consumed)) _ ?_ (b := 0) ⟨h.nil, rfl⟩
  rintro a b v ⟨hv, rfl⟩
  simp only [growBody, IntoVec.remainingSlots, bind_eq, sub_of_le hv.1, bind_ok]
  by_cases hm : v.v.length - v.consumed < m
  · refine .inr ⟨v.makeSpaceEvenIfNotNeeded, _, 0, by rw [if_pos hm]; rfl, .inl ?_, ?_, rfl⟩
    · simp only [IntoVec.makeSpaceEvenIfNotNeeded, IntoVec.resizeWith, List.length_append, List.length_take,
        List.length_replicate]
      have := hv.1
      omega
    · have h1 := hv.1
      refine ⟨?_, ?_, by simp, by simp⟩
      · simp only [IntoVec.makeSpaceEvenIfNotNeeded, IntoVec.resizeWith, List.length_append, List.length_take,
          List.length_replicate]
        omega
      · simp only [IntoVec.makeSpaceEvenIfNotNeeded, IntoVec.resizeWith]
        rw [List.take_append_of_le_length (by simp; omega), List.take_take, Nat.min_eq_left (by omega)]
        exact hv.2.1
  · exact .inl ⟨v, by rw [if_neg hm]; rfl, hv, by omega⟩

/-- Ready for more, having consumed `l` of at most `n` items, with `slots` being exposed. -/
structure Ready (test : Bool) (n : Nat) (e : E) (s : TestConsumer I F E) (l slots : List I) : Prop where
  vec : VecOk test s.inner l slots
  error : s.error = some e
  fin : s.fin = none
  count : l.length + s.consumptionsUntilError = n
  slots : slots.length ≤ s.consumptionsUntilError
  sizes : SizesOk s.sizes
  yielder : YielderLive s.yielder

theorem Ready.seen {test : Bool} {n : Nat} {e : E} {s : TestConsumer I F E} {l slots : List I} (h : s.Ready test n e l slots) :
    s.Seen l none := by
  have := h.vec.2.1.contents none
  exact ⟨this.1, h.fin, by simp [intoConsumed, this.2, h.fin]⟩

/-- The prologue of all methods. -/
theorem Ready.enter {test : Bool} {n : Nat} {e : E} {s : TestConsumer I F E} {l slots : List I} (h : s.Ready test n e l slots) :
    ∃ s', s'.inner = s.inner ∧ s'.fin = s.fin ∧ s'.sizes = s.sizes ∧
      ((l.length < n ∧ 0 < s'.consumptionsUntilError ∧ s.enter = ok (s', none) ∧ s'.Ready test n e l slots) ∨
       (¬ l.length < n ∧ s.enter = ok (s', some e) ∧ s'.Seen l none ∧ slots = [])) := by
  obtain ⟨y, hy1, hy2, _⟩ := maybeYield_ok h.yielder
  have h' : ({ s with yielder := y } : TestConsumer I F E).Ready test n e l slots :=
    ⟨h.vec, h.error, h.fin, h.count, h.slots, h.sizes, hy2⟩
  have hc := h.count
  by_cases h0 : s.consumptionsUntilError = 0
  · refine ⟨{ s with yielder := y, error := none }, rfl, rfl, rfl, .inr ⟨by omega, ?_, h.seen, ?_⟩⟩
    · simp [TestConsumer.enter, checkError, hy1, h0, h.error, unwrap]
    · have := h.slots
      exact List.length_eq_zero_iff.mp (by omega)
  · exact ⟨{ s with yielder := y }, rfl, rfl, rfl,
      .inl ⟨by omega, by simp only; omega, by simp [TestConsumer.enter, checkError, hy1, h0], h'⟩⟩

theorem consume_law {test : Bool} {n : Nat} {e : E} {s : TestConsumer I F E} {l slots : List I}
    (h : s.Ready test n e l slots) (x : I) :
    ∃ s', (l.length < n ∧ s.consume test x = ok (s', .ok ()) ∧ s'.Ready test n e (l ++ [x]) []) ∨
      (¬ l.length < n ∧ s.consume test x = ok (s', .error e) ∧ s'.Seen l none) := by
  obtain ⟨s', _, _, _, ⟨h1, h0, h2, h3⟩ | ⟨h1, h2, h3, _⟩⟩ := h.enter
  · obtain ⟨v, h4, h5⟩ := h3.vec.consume x
    refine ⟨{ s' with inner := v, consumptionsUntilError := s'.consumptionsUntilError - 1 }, .inl ⟨h1, ?_, ?_⟩⟩
    · simp [TestConsumer.consume, h2, h4, unwrapResult, sub_of_le (show 1 ≤ s'.consumptionsUntilError by omega)]
    · have := h3.count
      exact ⟨h5, h3.error, h3.fin, by simp; omega, by simp, h3.sizes, h3.yielder⟩
  · exact ⟨s', .inr ⟨h1, by simp [TestConsumer.consume, h2], h3⟩⟩

theorem close_law {test : Bool} {n : Nat} {e : E} {s : TestConsumer I F E} {l slots : List I}
    (h : s.Ready test n e l slots) (f : F) :
    ∃ s', (l.length < n ∧ s.close test f = ok (s', .ok ()) ∧ s'.Seen l (some f)) ∨
      (¬ l.length < n ∧ s.close test f = ok (s', .error e) ∧ s'.Seen l none) := by
  obtain ⟨s', _, _, _, ⟨h1, h0, h2, h3⟩ | ⟨h1, h2, h3, _⟩⟩ := h.enter
  · obtain ⟨v, h4, h5⟩ := h3.vec.close
    have hc := h3.vec.2.1.contents none
    refine ⟨{ s' with inner := v, fin := some f }, .inl ⟨h1, ?_, ?_, rfl, ?_⟩⟩
    · simp [TestConsumer.close, h2, h4, unwrapResult]
    · simp only [consumed, h5]; exact hc.1
    · simp only [intoConsumed, h5, hc.2]
  · exact ⟨s', .inr ⟨h1, by simp [TestConsumer.close, h2], h3⟩⟩

theorem flush_law {test : Bool} {n : Nat} {e : E} {s : TestConsumer I F E} {l slots : List I}
    (h : s.Ready test n e l slots) :
    ∃ s', (l.length < n ∧ s.flush test = ok (s', .ok ()) ∧ s'.Ready test n e l slots) ∨
      (¬ l.length < n ∧ s.flush test = ok (s', .error e) ∧ s'.Seen l none) := by
  obtain ⟨s', _, _, _, ⟨h1, h0, h2, h3⟩ | ⟨h1, h2, h3, _⟩⟩ := h.enter
  · exact ⟨s', .inl ⟨h1, by simp [TestConsumer.flush, h2, h3.vec.flush, unwrapResult], h3⟩⟩
  · exact ⟨s', .inr ⟨h1, by simp [TestConsumer.flush, h2], h3⟩⟩

/-- The bound for the next slice of slots. -/
def bound (s : TestConsumer I F E) : Option Nat := s.sizes.bind fun z => z.sizes[z.index]?.map (·.val)

omit [Inhabited I] in
theorem nextSize_law {s : TestConsumer I F E} (h : SizesOk s.sizes) :
    ∃ z, s.nextSize = ok ({ s with sizes := z }, s.bound) ∧ SizesOk z ∧ (∀ b, s.bound = some b → 0 < b) := by
  rcases hz : s.sizes with _ | z
  · obtain ⟨inner, fin, error, c, sizes, y⟩ := s
    obtain rfl : sizes = none := hz
    exact ⟨none, by simp [nextSize, bound], by simp [SizesOk], by simp [bound]⟩
  · have hok : z.index < z.sizes.length := h z hz
    obtain ⟨h1, h2⟩ := Sizes.next_ok (h z hz)
    refine ⟨some ⟨z.sizes, (z.index + 1) % z.sizes.length⟩, ?_, ?_, ?_⟩
    · simp [nextSize, hz, h1, bound, hok]
      rfl
    · rintro _ ⟨⟩; exact h2
    · intro b hb
      simp only [bound, hz, Option.bind_some, List.getElem?_eq_getElem hok, Option.map_some, Option.some.injEq] at hb
      rw [← hb]
      exact (z.sizes[z.index]'hok).2

theorem expose_law {test : Bool} {n : Nat} {e : E} {s : TestConsumer I F E} {l slots : List I}
    (h : s.Ready test n e l slots) :
    ∃ s', (l.length < n ∧ ∃ slots', s.exposeSlots test = ok (s', .ok slots') ∧ s'.Ready test n e l slots' ∧
        0 < slots'.length ∧ slots'.length ≤ n - l.length ∧ (∀ b, s.bound = some b → slots'.length ≤ b) ∧
        min (min (s.bound.getD 2048) 2048) (n - l.length) ≤ slots'.length) ∨
      (¬ l.length < n ∧ s.exposeSlots test = ok (s', .error e) ∧ s'.Seen l none) := by
  obtain ⟨s', hi, _, hz, ⟨h1, h0, h2, h3⟩ | ⟨h1, h2, h3, _⟩⟩ := h.enter
  · obtain ⟨z, h4, h5, h6⟩ := nextSize_law h3.sizes
    have hb : s'.bound = s.bound := by simp [bound, hz]
    rw [hb] at h4 h6
    have hcount := h3.count
    rcases hbd : s.bound with _ | b
    · obtain ⟨v, h7, h8, h9⟩ := grow_loop h3.vec.2.1 2048
      obtain ⟨v', slots', h10, h11, h12, h13⟩ := VecOk.exposeSlots (test := test)
        (s := { s'.inner with inner := v }) (l := l) (slots := []) ⟨h3.vec.1, h8, by simp⟩
      simp only at h13
      refine ⟨{ s' with sizes := z, inner := v' }, .inl ⟨h1, slots'.take (min slots'.length s'.consumptionsUntilError),
        ?_, ⟨h11.take _, h3.error, h3.fin, h3.count, ?_, h5, h3.yielder⟩, ?_, ?_, by simp, ?_⟩⟩
      · simp only [TestConsumer.exposeSlots, bind_eq, h2, bind_ok, h4, hbd, h7, h10, unwrapResult]
        rw [slice_of_le (Nat.zero_le _) (Nat.min_le_left _ _)]
        rfl
      · rw [List.length_take]; simp only; omega
      · rw [List.length_take]; omega
      · rw [List.length_take]; omega
      · rw [List.length_take]; simp only [Option.getD_none]; omega
    · have hb0 := h6 b hbd
      obtain ⟨v, h7, h8, h9⟩ := grow_loop h3.vec.2.1 (min b 2048)
      obtain ⟨v', slots', h10, h11, h12, h13⟩ := VecOk.exposeSlots (test := test)
        (s := { s'.inner with inner := v }) (l := l) (slots := []) ⟨h3.vec.1, h8, by simp⟩
      simp only at h13
      refine ⟨{ s' with sizes := z, inner := v' }, .inl ⟨h1,
        slots'.take (min (min slots'.length b) s'.consumptionsUntilError),
        ?_, ⟨h11.take _, h3.error, h3.fin, h3.count, ?_, h5, h3.yielder⟩, ?_, ?_, ?_, ?_⟩⟩
      · simp only [TestConsumer.exposeSlots, bind_eq, h2, bind_ok, h4, hbd, h7, h10, unwrapResult]
        rw [slice_of_le (Nat.zero_le _) (Nat.le_trans (Nat.min_le_left _ _) (Nat.min_le_left _ _))]
        rfl
      · rw [List.length_take]; simp only; omega
      · rw [List.length_take]; omega
      · rw [List.length_take]; omega
      · rintro _ ⟨⟩; rw [List.length_take]; omega
      · rw [List.length_take]; simp only [Option.getD_some]; omega
  · exact ⟨s', .inr ⟨h1, by simp [TestConsumer.exposeSlots, h2], h3⟩⟩

theorem consumeSlots_law {test : Bool} {n : Nat} {e : E} {s : TestConsumer I F E} {l slots : List I} {k : Nat}
    (h : s.Ready test n e l slots) (hne : slots ≠ []) (hk : k ≤ slots.length) :
    ∃ s', s.consumeSlots test k = ok (s', .ok ()) ∧ s'.Ready test n e (l ++ slots.take k) (slots.drop k) := by
  obtain ⟨s', _, _, _, ⟨h1, h0, h2, h3⟩ | ⟨_, _, _, h1⟩⟩ := h.enter
  · obtain ⟨v, h4, h5⟩ := h3.vec.consumeSlots hk
    have h6 := h3.slots
    have h7 := h3.count
    refine ⟨{ s' with inner := v, consumptionsUntilError := s'.consumptionsUntilError - k }, ?_, h5, h3.error, h3.fin, ?_, ?_,
      h3.sizes, h3.yielder⟩
    · simp [TestConsumer.consumeSlots, h2, h4, unwrapResult, sub_of_le (show k ≤ s'.consumptionsUntilError by omega)]
    · rw [List.length_append, List.length_take]; simp only; omega
    · rw [List.length_drop]; simp only; omega
  · exact absurd h1 hne

omit [Inhabited I] in
theorem answer_failAfter (n : Nat) (e : E) (l : List I) (x : I) :
    (Policy.failAfter n e : Policy I F E).answer l x = if l.length < n then none else some e := by
  by_cases h : l.length < n <;> simp [Policy.answer, Policy.failAfter, h]

theorem law (test : Bool) (n : Nat) (e : E) :
    BulkCollectsLaw (consumer test I F E) Seen (Policy.failAfter n e) (Ready test n e) := by
  refine .of_default rfl ⟨⟨?_, ?_, ?_, ?_, ?_⟩, ?_⟩ ?_ ?_ ?_ ?_ ?_
  · rintro s l ⟨slots, h⟩; exact h.seen
  · rintro s l x ⟨slots, h⟩ hq
    obtain ⟨s', ⟨h1, h2, h3⟩ | ⟨h1, h2, h3⟩⟩ := consume_law h x
    · exact ⟨s', h2, [], h3⟩
    · simp [answer_failAfter, h1] at hq
  · rintro s l x e' ⟨slots, h⟩ hq
    obtain ⟨s', ⟨h1, h2, h3⟩ | ⟨h1, h2, h3⟩⟩ := consume_law h x
    · simp [answer_failAfter, h1] at hq
    · obtain rfl : e = e' := by simpa [answer_failAfter, h1] using hq
      exact ⟨s', h2, h3⟩
  · rintro s l f ⟨slots, h⟩ hq
    obtain ⟨s', ⟨h1, h2, h3⟩ | ⟨h1, h2, h3⟩⟩ := close_law h f
    · exact ⟨s', h2, h3⟩
    · simp [Policy.failAfter, h1] at hq
  · rintro s l f e' ⟨slots, h⟩ hq
    obtain ⟨s', ⟨h1, h2, h3⟩ | ⟨h1, h2, h3⟩⟩ := close_law h f
    · simp [Policy.failAfter, h1] at hq
    · obtain rfl : e = e' := by simpa [Policy.failAfter, h1] using hq
      exact ⟨s', h2, h3⟩
  · rintro s l ⟨slots, h⟩
    obtain ⟨s', ⟨h1, h2, h3⟩ | ⟨h1, h2, h3⟩⟩ := flush_law h
    · exact ⟨s', .inl ⟨h2, slots, h3⟩⟩
    · exact ⟨s', .inr ⟨e, by simp [Policy.failAfter, h1], h2, h3⟩⟩
  · rintro s l slots h hq
    obtain ⟨s', ⟨h1, slots', h2, h3, h4, _⟩ | ⟨h1, h2, h3⟩⟩ := expose_law h
    · exact ⟨s', slots', List.length_pos_iff.mp h4, h2, h3⟩
    · simp [Policy.failAfter, h1] at hq
  · rintro s l slots e' h hq
    obtain ⟨s', ⟨h1, slots', h2, h3, h4, _⟩ | ⟨h1, h2, h3⟩⟩ := expose_law h
    · simp [Policy.failAfter, h1] at hq
    · obtain rfl : e = e' := by simpa [Policy.failAfter, h1] using hq
      exact ⟨s', h2, h3⟩
  · rintro s l slots ws h hw
    exact ⟨h.vec.write hw, h.error, h.fin, h.count, by
      have := h.slots
      rw [List.length_append, List.length_drop, show ws.length + (slots.length - ws.length) = slots.length by omega]
      exact this, h.sizes, h.yielder⟩
  · rintro s l slots k h hne hk -
    exact consumeSlots_law h hne hk
  · rintro s l slots k i e' h hne hk ⟨_, x, hx, ha⟩
    have h1 := h.slots
    have h2 := h.count
    have hi : i < k := by
      have := List.getElem?_eq_some_iff.mp hx
      obtain ⟨h, _⟩ := this
      rw [List.length_take] at h; omega
    rw [answer_failAfter, if_pos (by rw [List.length_append, List.length_take, List.length_take]; omega)] at ha
    cases ha

theorem ready_new (test : Bool) (e : E) (n : Nat) (sizes : List NonZero) (pattern : Option (List Bool)) :
    (new e n sizes pattern : TestConsumer I F E).Ready test n e [] [] :=
  ⟨⟨rfl, IntoVec.ready_fromVec [], by simp⟩, rfl, rfl, by simp [new], by simp, sizesOk_new sizes, yielderLive_new pattern⟩

theorem all_or_first (test : Bool) (n : Nat) (e : E) :
    AllOrFirst (consumer test I F E) (Policy.failAfter n e) (Ready test n e) := by
  intro s l slots buf s' e' h hne hb
  obtain ⟨x, xs, rfl⟩ := List.exists_cons_of_ne_nil hne
  refine ⟨x, xs, rfl, ?_⟩
  obtain ⟨s₁, ⟨h1, slots', h2, h3, h4, _⟩ | ⟨h1, h2, _⟩⟩ := expose_law h
  · obtain h5 | ⟨t₁, sl, h5, h6⟩ := bulkConsumeDefault_error rfl hb
    · have := h2.symm.trans h5; cases this
    · have := h2.symm.trans h5; cases this
      have hw := (law test n e).write s₁ l slots' ((x :: xs).take (min slots'.length (x :: xs).length)) h3
        (by rw [List.length_take]; omega)
      obtain ⟨s₂, h7, _⟩ := consumeSlots_law hw (k := min slots'.length (x :: xs).length)
        (by intro h0; have := congrArg List.length h0; rw [List.length_append, List.length_take, List.length_cons] at this; simp only [List.length_nil] at this; omega)
        (by rw [List.length_append, List.length_drop, List.length_take]; omega)
      have := h7.symm.trans h6; cases this
  · obtain h5 | ⟨t₁, sl, h5, h6⟩ := bulkConsumeDefault_error rfl hb
    · have := h2.symm.trans h5; cases this
      rw [answer_failAfter, if_neg h1]
    · have := h2.symm.trans h5; cases this

end TestConsumer

end Verif
