import Verif.Lemmas.IntoSlice
import Verif.Lemmas.History

/-!
# C70: `IntoSlice`
-/

namespace Verif

open Outcome

section

variable {T : Type}

/-- **C70.** An `IntoSlice` accepts as many items as the slice is long and then refuses items and slots; it can be flushed and
closed at all times. -/
theorem into_slice_collects (v : List T) :
    BulkCollects (IntoSlice.consumer T) (IntoSlice.Contents v.length)
      { refuse := fun l => if l.length < v.length then none else some ()
        refuseFlush := fun _ => none
        refuseClose := fun _ _ => none } (IntoSlice.new v) [] :=
  ⟨_, IntoSlice.law v.length, [], IntoSlice.ready_new v⟩

example : BulkCollects (IntoSlice.consumer Nat) (IntoSlice.Contents 2)
    { refuse := fun l => if l.length < 2 then none else some (), refuseFlush := fun _ => none, refuseClose := fun _ _ => none }
    (IntoSlice.new [7, 8]) [] := into_slice_collects [7, 8]

/-- Histories around a slice of two items: one that goes on, one that has failed, one that has been closed. -/
theorem Case.into_slice_runs :
    (∃ s, ConsumerRuns (IntoSlice.consumer Nat) (.new [7, 8]) [1] s [8] none) ∧
    (∃ s, ConsumerRuns (IntoSlice.consumer Nat) (.new [7, 8]) [1, 2] s [] (some (.failed () [3]))) ∧
    ∃ s, ConsumerRuns (IntoSlice.consumer Nat) (.new [7, 8]) [1, 2] s [] (some (.closed ())) := by
  refine ⟨⟨_, .call (op := .exposeSlots) (r := ⟨[], [8], none⟩)
    (.call (op := .consume 1) (r := ⟨[1], [], none⟩) .start trivial rfl) trivial rfl⟩, ?_, ?_⟩
  · exact ⟨_, .call (op := .consume 3) (r := ⟨[], [], some (.failed () [3])⟩)
      (.call (op := .bulkConsume [2, 3]) (r := ⟨[2], [], none⟩)
        (.call (op := .consume 1) (r := ⟨[1], [], none⟩) .start trivial rfl) (by simp [ConsumerOp.Allowed]) rfl) trivial rfl⟩
  · exact ⟨_, .call (op := .close ()) (r := ⟨[], [], some (.closed ())⟩)
      (.call (op := .bulkConsume [2, 3]) (r := ⟨[2], [], none⟩)
        (.call (op := .consume 1) (r := ⟨[1], [], none⟩) .start trivial rfl) (by simp [ConsumerOp.Allowed]) rfl) trivial rfl⟩

/-- **C70**, accessors: after every history, the slice starts with the items that have been consumed, the offset is their
number, the two parts are reported without a panic, and the slice keeps its length. If a method has failed, then because the
slice is full. -/
theorem into_slice_accessors (v : List T) {taken slots : List T} {s : IntoSlice T} {ended : Option (ConsumerEnd T Unit Unit)}
    (h : ConsumerRuns (IntoSlice.consumer T) (IntoSlice.new v) taken s slots ended) :
    s.getOffset = taken.length ∧ s.getOverwrittenSoFar = ok taken ∧
    (∃ rest, s.getNotYetOverwritten = ok rest ∧ s.intoInner = taken ++ rest ∧ taken.length + rest.length = v.length) ∧
    (∀ e offered, ended = some (.failed e offered) → taken.length = v.length) ∧
    (∀ e, ended ≠ some (.flushFailed e)) ∧ (∀ e f, ended ≠ some (.closeFailed e f)) := by
  have h0 := h.after (IntoSlice.law v.length) (IntoSlice.ready_new v)
  have fin : ∀ {f}, s.Contents v.length taken f → s.getOffset = taken.length ∧ s.getOverwrittenSoFar = ok taken ∧
      ∃ rest, s.getNotYetOverwritten = ok rest ∧ s.intoInner = taken ++ rest ∧ taken.length + rest.length = v.length :=
    fun h => h
  rcases ended with _ | f | ⟨e, offered⟩ | ⟨e, f⟩ | e
  · obtain ⟨_, ⟨sl, hr⟩, _⟩ := h0
    obtain ⟨h1, h2, h3⟩ := fin (hr.contents none)
    exact ⟨h1, h2, h3, nofun, nofun, nofun⟩
  · obtain ⟨_, _, hd⟩ := h0
    obtain ⟨h1, h2, h3⟩ := fin hd
    exact ⟨h1, h2, h3, nofun, nofun, nofun⟩
  · -- `bulk_consume` and `consume_slots` never fail halfway.
    have key : s.Contents v.length taken none ∧ taken.length = v.length := by
      generalize hend : some (ConsumerEnd.failed e offered) = ended' at h
      cases h with
      | start => cases hend
      | @call taken t slots op t' r hr hop hcall =>
        obtain ⟨_, ⟨sl, hR⟩, hsl⟩ := hr.after (IntoSlice.law v.length) (IntoSlice.ready_new v)
        rw [List.nil_append] at hR hsl
        have hc := hR.contents none
        obtain ⟨rest, h1, h2, h3⟩ := hR
        have hle : taken.length ≤ v.length := by rw [← h3, h1]; simp
        by_cases hfull : t.data.length = t.offset
        · have hlen : taken.length = v.length := by omega
          cases op with
          | consume x =>
            have h4 : (IntoSlice.consumer T).consume t x = ok (t, .error ()) := by
              simp only [IntoSlice.consumer, IntoSlice.consume]; rw [if_pos hfull]; rfl
            simp only [BulkConsumer.call, h4, bind_ok] at hcall
            obtain ⟨rfl, rfl⟩ : t = s ∧ _ = r := by simpa using hcall
            simpa using ⟨hc, hlen⟩
          | exposeSlots =>
            have h4 : (IntoSlice.consumer T).exposeSlots t = ok (t, .error ()) := by
              simp only [IntoSlice.consumer, IntoSlice.exposeSlots]; rw [if_pos hfull]; rfl
            simp only [BulkConsumer.call, h4, bind_ok] at hcall
            obtain ⟨rfl, rfl⟩ : t = s ∧ _ = r := by simpa using hcall
            simpa using ⟨hc, hlen⟩
          | bulkConsume buf =>
            have h4 : (IntoSlice.consumer T).exposeSlots t = ok (t, .error ()) := by
              simp only [IntoSlice.consumer, IntoSlice.exposeSlots]; rw [if_pos hfull]; rfl
            have h5 : (IntoSlice.consumer T).bulkConsume t buf = ok (t, .error ()) := by
              show bulkConsumeDefault (IntoSlice.consumer T).exposeSlots _ _ t buf = _
              simp [bulkConsumeDefault, h4]
            simp only [BulkConsumer.call, h5, bind_ok] at hcall
            obtain ⟨rfl, rfl⟩ : t = s ∧ _ = r := by simpa using hcall
            simpa using ⟨hc, hlen⟩
          | flush =>
            obtain ⟨rfl, rfl⟩ : t = s ∧ _ = r := by simpa [BulkConsumer.call, IntoSlice.consumer, IntoSlice.flush] using hcall
            cases hend
          | close f =>
            obtain ⟨rfl, rfl⟩ : t = s ∧ _ = r := by simpa [BulkConsumer.call, IntoSlice.consumer, IntoSlice.close] using hcall
            cases hend
          | write ws => obtain ⟨rfl, rfl⟩ : _ = s ∧ _ = r := by simpa [BulkConsumer.call] using hcall
                        cases hend
          | consumeSlots k =>
            obtain ⟨rfl, rfl⟩ : _ = s ∧ _ = r := by
              simpa [BulkConsumer.call, IntoSlice.consumer, IntoSlice.consumeSlots] using hcall
            cases hend
        · exfalso
          cases op with
          | consume x =>
            have h4 : (IntoSlice.consumer T).consume t x = ok (⟨t.data.set t.offset x, t.offset + 1⟩, .ok ()) := by
              simp only [IntoSlice.consumer, IntoSlice.consume, bind_eq]
              rw [if_neg hfull, setIndex_of_lt (by omega)]; rfl
            simp only [BulkConsumer.call, h4, bind_ok] at hcall
            obtain ⟨rfl, rfl⟩ : _ = s ∧ _ = r := by simpa using hcall
            cases hend
          | exposeSlots =>
            have h4 : ∃ sl, (IntoSlice.consumer T).exposeSlots t = ok (t, .ok sl) := by
              simp only [IntoSlice.consumer, IntoSlice.exposeSlots, bind_eq]
              rw [if_neg hfull, slice_of_le (by omega) (Nat.le_refl _)]; exact ⟨_, rfl⟩
            obtain ⟨sl, h4⟩ := h4
            simp only [BulkConsumer.call, h4, bind_ok] at hcall
            obtain ⟨rfl, rfl⟩ : _ = s ∧ _ = r := by simpa using hcall
            cases hend
          | bulkConsume buf =>
            have h4 : ∃ sl, (IntoSlice.consumer T).exposeSlots t = ok (t, .ok sl) := by
              simp only [IntoSlice.consumer, IntoSlice.exposeSlots, bind_eq]
              rw [if_neg hfull, slice_of_le (by omega) (Nat.le_refl _)]; exact ⟨_, rfl⟩
            obtain ⟨sl, h4⟩ := h4
            have h5 : ∃ t' k, (IntoSlice.consumer T).bulkConsume t buf = ok (t', .ok k) := by
              show ∃ t' k, bulkConsumeDefault (IntoSlice.consumer T).exposeSlots _ _ t buf = _
              simp only [bulkConsumeDefault, bind_eq, h4, bind_ok]
              exact ⟨_, _, rfl⟩
            obtain ⟨t₁, k, h5⟩ := h5
            simp only [BulkConsumer.call, h5, bind_ok] at hcall
            obtain ⟨rfl, rfl⟩ : _ = s ∧ _ = r := by simpa using hcall
            cases hend
          | flush =>
            obtain ⟨rfl, rfl⟩ : t = s ∧ _ = r := by simpa [BulkConsumer.call, IntoSlice.consumer, IntoSlice.flush] using hcall
            cases hend
          | close f =>
            obtain ⟨rfl, rfl⟩ : t = s ∧ _ = r := by simpa [BulkConsumer.call, IntoSlice.consumer, IntoSlice.close] using hcall
            cases hend
          | write ws => obtain ⟨rfl, rfl⟩ : _ = s ∧ _ = r := by simpa [BulkConsumer.call] using hcall
                        cases hend
          | consumeSlots k =>
            obtain ⟨rfl, rfl⟩ : _ = s ∧ _ = r := by
              simpa [BulkConsumer.call, IntoSlice.consumer, IntoSlice.consumeSlots] using hcall
            cases hend
    obtain ⟨h1, h2, h3⟩ := fin key.1
    exact ⟨h1, h2, h3, fun _ _ _ => key.2, nofun, nofun⟩
  · obtain ⟨_, hq, _⟩ := h0
    cases hq
  · obtain ⟨_, hq, _⟩ := h0
    cases hq

example : (∃ s : IntoSlice Nat, s.intoInner = [1, 8] ∧ s.getNotYetOverwritten = ok [8]) ∧
    ∃ s : IntoSlice Nat, s.getOverwrittenSoFar = ok [1, 2] := by
  obtain ⟨_, ⟨s, h⟩, _⟩ := Case.into_slice_runs
  exact ⟨⟨⟨[1, 8], 1⟩, rfl, rfl⟩, s, (into_slice_accessors _ h).2.1⟩

/-- **C70**, untouched items: whatever is called, except for writes to exposed slots, the items of the slice behind those
consumed stay as they are. -/
theorem into_slice_untouched (v : List T) {taken slots : List T} {s s' : IntoSlice T} {op : ConsumerOp T Unit}
    {r : Receipt T Unit Unit} (h : ConsumerRuns (IntoSlice.consumer T) (IntoSlice.new v) taken s slots none)
    (hop : op.Allowed slots) (hw : ∀ ws, op ≠ .write ws)
    (hcall : (IntoSlice.consumer T).call s slots op = ok (s', r)) :
    s'.intoInner.drop (taken ++ r.items).length = s.intoInner.drop (taken ++ r.items).length := by
  obtain ⟨_, ⟨sl, hR⟩, hsl⟩ := h.after (IntoSlice.law v.length) (IntoSlice.ready_new v)
  rw [List.nil_append] at hR hsl
  obtain ⟨rest, h1, h2, h3⟩ := hR
  have hle : taken.length ≤ v.length := by rw [← h3, h1]; simp
  have hx : (IntoSlice.consumer T).exposeSlots s = ok (s, .error ()) ∨
      s.offset < s.data.length ∧ (IntoSlice.consumer T).exposeSlots s = ok (s, .ok (s.data.drop s.offset)) := by
    by_cases hfull : s.data.length = s.offset
    · refine .inl ?_
      simp only [IntoSlice.consumer, IntoSlice.exposeSlots]; rw [if_pos hfull]; rfl
    · refine .inr ⟨by omega, ?_⟩
      simp only [IntoSlice.consumer, IntoSlice.exposeSlots, bind_eq]
      rw [if_neg hfull, slice_of_le (by omega) (Nat.le_refl _), List.take_length]; rfl
  cases op with
  | write ws => exact absurd rfl (hw ws)
  | flush =>
    obtain ⟨rfl, rfl⟩ : s = s' ∧ _ = r := by simpa [BulkConsumer.call, IntoSlice.consumer, IntoSlice.flush] using hcall
    rfl
  | close f =>
    obtain ⟨rfl, rfl⟩ : s = s' ∧ _ = r := by simpa [BulkConsumer.call, IntoSlice.consumer, IntoSlice.close] using hcall
    rfl
  | consumeSlots k =>
    obtain ⟨rfl, rfl⟩ : _ = s' ∧ _ = r := by
      simpa [BulkConsumer.call, IntoSlice.consumer, IntoSlice.consumeSlots] using hcall
    rfl
  | consume x =>
    by_cases hfull : s.data.length = s.offset
    · have h4 : (IntoSlice.consumer T).consume s x = ok (s, .error ()) := by
        simp only [IntoSlice.consumer, IntoSlice.consume]; rw [if_pos hfull]; rfl
      simp only [BulkConsumer.call, h4, bind_ok] at hcall
      obtain ⟨rfl, rfl⟩ : s = s' ∧ _ = r := by simpa using hcall
      rfl
    · have h4 : (IntoSlice.consumer T).consume s x = ok (⟨s.data.set s.offset x, s.offset + 1⟩, .ok ()) := by
        simp only [IntoSlice.consumer, IntoSlice.consume, bind_eq]
        rw [if_neg hfull, setIndex_of_lt (by omega)]; rfl
      simp only [BulkConsumer.call, h4, bind_ok] at hcall
      obtain ⟨rfl, rfl⟩ : _ = s' ∧ _ = r := by simpa using hcall
      simp only [IntoSlice.intoInner, List.length_append, List.length_singleton, ← h2]
      exact List.drop_set_of_lt (by omega)
  | exposeSlots =>
    rcases hx with h4 | ⟨_, h4⟩
    all_goals
      simp only [BulkConsumer.call, h4, bind_ok] at hcall
      obtain ⟨rfl, rfl⟩ : s = s' ∧ _ = r := by simpa using hcall
      rfl
  | bulkConsume buf =>
    have hdef : (IntoSlice.consumer T).bulkConsume s buf = bulkConsumeDefault (IntoSlice.consumer T).exposeSlots
      (IntoSlice.consumer T).writeSlots (IntoSlice.consumer T).consumeSlots s buf := rfl
    rcases hx with h4 | ⟨hlt, h4⟩
    · simp only [BulkConsumer.call, hdef, bulkConsumeDefault, bind_eq, h4, bind_ok, pure_eq] at hcall
      obtain ⟨rfl, rfl⟩ : s = s' ∧ _ = r := by simpa using hcall
      rfl
    · generalize hk : min (s.data.drop s.offset).length buf.length = k at *
      have hk' : k ≤ s.data.length - s.offset ∧ k ≤ buf.length := by rw [← hk]; simp; omega
      have h5 : (IntoSlice.consumer T).bulkConsume s buf = ok (⟨(s.writeSlots (buf.take k)).data, s.offset + k⟩, .ok k) := by
        rw [hdef]
        simp only [bulkConsumeDefault, bind_eq, h4, bind_ok, hk]
        rfl
      simp only [BulkConsumer.call, h5, bind_ok] at hcall
      obtain ⟨rfl, rfl⟩ : _ = s' ∧ _ = r := by simpa using hcall
      have hl : (buf.take k).length = k := by simp; omega
      have ht : (s.data.take s.offset ++ buf.take k).length = s.offset + k := by
        rw [List.length_append, hl, List.length_take]; omega
      simp only [IntoSlice.intoInner, IntoSlice.writeSlots, List.length_append, hl, ← h2]
      rw [List.drop_left' ht]

/-- `bulk_consume` of one item, around a slice of three. -/
example : ∃ s s' : IntoSlice Nat, s.intoInner = [7, 8, 9] ∧ s'.intoInner = [1, 8, 9] ∧
    (IntoSlice.consumer Nat).call s [] (.bulkConsume [1]) = ok (s', ⟨[1], [], none⟩) ∧
    s'.intoInner.drop ([] ++ [1]).length = s.intoInner.drop ([] ++ [1]).length :=
  ⟨.new [7, 8, 9], ⟨[1, 8, 9], 1⟩, rfl, rfl, rfl,
    into_slice_untouched [7, 8, 9] .start (op := .bulkConsume [1]) (r := ⟨[1], [], none⟩) (by simp [ConsumerOp.Allowed]) nofun rfl⟩

end

end Verif
