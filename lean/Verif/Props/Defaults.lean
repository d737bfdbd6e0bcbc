import Verif.DefaultsSpec
import Verif.Lemmas.Slices
import Verif.Cases

/-!
# C51: the default bulk methods
-/

namespace Verif

open Outcome

section

variable {σ I F E : Type}

/-- **C51, producers.** If the required methods of a bulk producer emit a sequence, in whatever mix they are called, then so
does a bulk producer that does not override `bulk_produce`, with `bulk_produce` in the mix. -/
theorem bulk_produce_default_lawful {P : BulkProducer σ I F E}
    (hdef : P.bulkProduce = bulkProduceDefault P.exposeItems P.considerProduced) {s : σ} {c : Script I F E}
    (h : RequiredPlays P s c) : BulkPlays P s c := by
  obtain ⟨R, hR, n, hn⟩ := h
  exact ⟨R, .of_default hdef hR.base hR.expose hR.consider, n, hn⟩

example : RequiredPlays (FromSlice.producer Nat) (FromSlice.new [1, 2, 3]) (.ofList [1, 2, 3] (.ok ())) := by
  have hR := FromSlice.law (T := Nat)
  exact ⟨_, ⟨hR.base, hR.expose, hR.consider⟩, 0, FromSlice.ready_new _⟩

example : BulkPlays Case.P (Case.pro (.error "broken")) (Case.script (.error "broken")) := by
  obtain ⟨R, hR, n, hn⟩ := Case.plays (.error "broken")
  exact bulk_produce_default_lawful rfl ⟨R, ⟨hR.base, hR.expose, hR.consider⟩, n, hn⟩

/-- **C51, producers: the buffer.** For every producer, lawful or not: if the default `bulk_produce` returns, then the buffer has
kept its length; if it says that `k` items were produced, then `k` is at most the length of the buffer, and only the first `k`
places were changed; if it returns the final value, nothing was changed. -/
theorem bulk_produce_default_buffer {P : BulkProducer σ I F E}
    (hdef : P.bulkProduce = bulkProduceDefault P.exposeItems P.considerProduced) {s s' : σ} {buf buf' : List I}
    {r : Except E (Nat ⊕ F)} (h : P.bulkProduce s buf = ok (s', r, buf')) :
    buf'.length = buf.length ∧ (∀ k, r = .ok (.inl k) → k ≤ buf.length ∧ buf'.drop k = buf.drop k) ∧
    (∀ f, r = .ok (.inr f) → buf' = buf) := by
  rw [hdef] at h
  unfold bulkProduceDefault at h
  cases he : P.exposeItems s with
  | panic => simp [he] at h
  | diverge => simp [he] at h
  | ok a =>
    obtain ⟨s₁, e | xs | f⟩ := a
    · simp [he] at h
      obtain ⟨rfl, rfl, rfl⟩ := h
      exact ⟨rfl, nofun, nofun⟩
    · cases hc : P.considerProduced s₁ (min xs.length buf.length) with
      | panic => simp [he, hc] at h
      | diverge => simp [he, hc] at h
      | ok a =>
        obtain ⟨s₂, e | u⟩ := a
        · simp [he, hc] at h
          obtain ⟨rfl, rfl, rfl⟩ := h
          refine ⟨by simp; omega, nofun, nofun⟩
        · simp [he, hc] at h
          obtain ⟨rfl, rfl, rfl⟩ := h
          refine ⟨by simp; omega, fun k hk => ?_, nofun⟩
          cases hk
          refine ⟨Nat.min_le_right _ _, ?_⟩
          have : (xs.take (min xs.length buf.length)).length = min xs.length buf.length := by simp
          rw [List.drop_append_of_le_length (by omega), List.drop_of_length_le (by omega), List.nil_append]
    · simp [he] at h
      obtain ⟨rfl, rfl, rfl⟩ := h
      exact ⟨rfl, nofun, fun _ _ => rfl⟩

/-- A slice producer with two items left, and a buffer of three places, the last of which is not touched. -/
example : (FromSlice.producer Nat).bulkProduce ⟨[0, 1, 2], 1⟩ [7, 8, 9] = ok (⟨[0, 1, 2], 3⟩, .ok (.inl 2), [1, 2, 9]) ∧
    [1, 2, 9].drop 2 = [7, 8, 9].drop 2 :=
  ⟨rfl, ((bulk_produce_default_buffer (P := FromSlice.producer Nat) rfl (s := ⟨[0, 1, 2], 1⟩) (buf := [7, 8, 9]) rfl).2.1 2 rfl).2⟩

/-- **C51, producers: as much as possible.** The default `bulk_produce` fills the buffer, or hands out everything that was
exposed: it produces `min` of the two lengths. -/
theorem bulk_produce_default_amount {P : BulkProducer σ I F E}
    (hdef : P.bulkProduce = bulkProduceDefault P.exposeItems P.considerProduced) {s s₁ s₂ : σ} {buf xs : List I}
    (he : P.exposeItems s = ok (s₁, .ok (.inl xs)))
    (hc : P.considerProduced s₁ (min xs.length buf.length) = ok (s₂, .ok ())) :
    ∃ buf', P.bulkProduce s buf = ok (s₂, .ok (.inl (min xs.length buf.length)), buf') ∧
      buf'.take (min xs.length buf.length) = xs.take buf.length := by
  refine ⟨xs.take (min xs.length buf.length) ++ buf.drop (min xs.length buf.length), ?_, ?_⟩
  · simp [hdef, bulkProduceDefault, he, hc]
  · have : (xs.take (min xs.length buf.length)).length = min xs.length buf.length := by simp
    rw [List.take_append_of_le_length (by omega), List.take_of_length_le (by omega)]
    rcases Nat.le_total xs.length buf.length with h | h
    · rw [Nat.min_eq_left h, List.take_of_length_le (Nat.le_refl _), List.take_of_length_le h]
    · rw [Nat.min_eq_right h]

/-- A slice producer with five items left, and a buffer of three places. -/
example : (FromSlice.producer Nat).bulkProduce ⟨[0, 1, 2, 3, 4, 5], 1⟩ [7, 8, 9] =
    ok (⟨[0, 1, 2, 3, 4, 5], 4⟩, .ok (.inl 3), [1, 2, 3]) := rfl

/-- A slice producer with two items left, and a buffer of three places, the last of which is not touched. -/
example : (FromSlice.producer Nat).bulkProduce ⟨[0, 1, 2], 1⟩ [7, 8, 9] = ok (⟨[0, 1, 2], 3⟩, .ok (.inl 2), [1, 2, 9]) := rfl

/-- **C51, consumers.** If the required methods of a bulk consumer accept and refuse according to some policy, in whatever mix they
are called, then so does a bulk consumer that does not override `bulk_consume`, with `bulk_consume` in the mix. -/
theorem bulk_consume_default_lawful {C : BulkConsumer σ I F E} {D : σ → List I → Option F → Prop} {q : Policy I F E}
    (hdef : C.bulkConsume = bulkConsumeDefault C.exposeSlots C.writeSlots C.consumeSlots) {s : σ} {l : List I}
    (h : RequiredCollects C D q s l) : BulkCollects C D q s l := by
  obtain ⟨R, hR, n, hn⟩ := h
  exact ⟨R, .of_default hdef hR.base hR.expose_ok hR.expose_err hR.write hR.consumeSlots_ok hR.consumeSlots_err, n, hn⟩

example : RequiredCollects (IntoVec.consumer Nat) IntoVec.Contents .acceptAll (IntoVec.fromVec [7]) [7] := by
  have hR := IntoVec.law (T := Nat)
  exact ⟨_, ⟨hR.base, hR.expose_ok, hR.expose_err, hR.write, hR.consumeSlots_ok, hR.consumeSlots_err⟩, [],
    IntoVec.ready_fromVec _⟩

/-- **C51, consumers that delay their effects.** -/
theorem bulk_consume_default_defers {C : BulkConsumer σ I F E} {D : σ → List I → Option F → Prop} {X : Faults I F E}
    (hX : X.Regular) (hdef : C.bulkConsume = bulkConsumeDefault C.exposeSlots C.writeSlots C.consumeSlots) {s : σ} {l : List I}
    (h : RequiredDefers C D X s l) : BulkDefers C D X s l := by
  obtain ⟨R, hR, n, hn⟩ := h
  exact ⟨R, .of_default hX hdef hR.base hR.expose hR.write hR.consumeSlots, n, hn⟩

example : BulkDefers Case.B Case.SeenInside (Case.policy 4).faults (Case.del 4) [] := by
  obtain ⟨R, hR, n, hn⟩ := Case.defers 4
  exact bulk_consume_default_defers (Policy.regular_faults _) rfl ⟨R, ⟨hR.base, hR.expose, hR.write, hR.consumeSlots⟩, n, hn⟩

/-- **C51, consumers: as much as possible.** The default `bulk_consume` consumes the whole buffer, or as much as fits in the
exposed slots. -/
theorem bulk_consume_default_amount {C : BulkConsumer σ I F E} {D : σ → List I → Option F → Prop} {q : Policy I F E}
    (hdef : C.bulkConsume = bulkConsumeDefault C.exposeSlots C.writeSlots C.consumeSlots) {R : σ → List I → List I → Prop}
    (hR : RequiredCollectsLaw C D q R) {s s₁ : σ} {l slots slots₁ buf : List I} (h : R s l slots)
    (he : C.exposeSlots s = ok (s₁, .ok slots₁)) (hq : q.refuse l = none)
    (ha : q.Accepts l (buf.take slots₁.length)) :
    ∃ s₂ slots₂, C.bulkConsume s buf = ok (s₂, .ok (min slots₁.length buf.length)) ∧
      R s₂ (l ++ buf.take slots₁.length) slots₂ := by
  obtain ⟨s', sl, hne, he', hR'⟩ := hR.expose_ok _ _ _ h hq
  rw [he] at he'
  cases he'
  have hsl : 0 < slots₁.length := List.length_pos_iff.mpr hne
  have hmin : buf.take (min slots₁.length buf.length) = buf.take slots₁.length := by
    rcases Nat.le_total slots₁.length buf.length with h | h
    · rw [Nat.min_eq_left h]
    · rw [Nat.min_eq_right h, List.take_of_length_le (Nat.le_refl _), List.take_of_length_le h]
  rw [hdef]
  generalize hk : min slots₁.length buf.length = k at *
  have hlen : (buf.take k).length = k := by simp; omega
  have hW := hR.write s₁ l slots₁ (buf.take k) hR' (by omega)
  have htk : (buf.take k ++ slots₁.drop (buf.take k).length).take k = buf.take k := by
    rw [List.take_append_of_le_length (by omega), List.take_take, Nat.min_self]
  have hlen2 : (buf.take k ++ slots₁.drop (buf.take k).length).length = slots₁.length := by
    rw [List.length_append, List.length_drop]; omega
  obtain ⟨s₂, h1, h2⟩ := hR.consumeSlots_ok _ _ _ k hW (by intro h0; rw [h0] at hlen2; simp at hlen2; omega) (by omega)
    (by rw [htk, hmin]; exact ha)
  rw [htk, hmin] at h2
  exact ⟨s₂, _, by simp [bulkConsumeDefault, he, hk, h1], h2⟩

/-- An `IntoVec` that exposes three slots, and a buffer of two items. -/
example : (IntoVec.consumer Nat).bulkConsume ⟨[7, 8, 0, 0, 0], 2⟩ [1, 2] = ok (⟨[7, 8, 1, 2, 0], 4⟩, .ok 2) := rfl

/-- An `IntoVec` that exposes three slots, and a buffer of four items. -/
example : (IntoVec.consumer Nat).bulkConsume ⟨[7, 8, 0, 0, 0], 2⟩ [1, 2, 3, 4] = ok (⟨[7, 8, 1, 2, 3], 5⟩, .ok 3) := rfl

end

end Verif
