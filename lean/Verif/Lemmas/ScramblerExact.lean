import Verif.Lemmas.ConsumerScrambler
import Verif.Lemmas.Proptest

/-!
# The consumer `BulkScrambler` reports no errors too early
-/

namespace Verif

open Outcome

section

variable {σ I F E : Type}

/-- The policy accepted everything that came after `l₀`. -/
def Policy.AcceptedSince (q : Policy I F E) (l₀ l : List I) : Prop := ∃ xs, l = l₀ ++ xs ∧ q.Accepts l₀ xs

theorem Policy.AcceptedSince.refl (q : Policy I F E) (l : List I) : q.AcceptedSince l l := ⟨[], by simp, by simp⟩

theorem Policy.AcceptedSince.append {q : Policy I F E} {l₀ l xs : List I} (h : q.AcceptedSince l₀ l) (hx : q.Accepts l xs) :
    q.AcceptedSince l₀ (l ++ xs) := by
  obtain ⟨ys, rfl, hy⟩ := h
  exact ⟨ys ++ xs, by simp, Policy.accepts_append.mpr ⟨hy, hx⟩⟩

theorem Policy.AcceptedSince.snoc {q : Policy I F E} {l₀ l : List I} {x : I} (h : q.AcceptedSince l₀ l)
    (hx : q.answer l x = none) : q.AcceptedSince l₀ (l ++ [x]) :=
  h.append (Policy.accepts_cons.mpr ⟨hx, by simp⟩)

/-- Of a lawful consumer one knows that it has consumed only what the policy accepts. -/
theorem BulkCollectsLaw.accepted {C : BulkConsumer σ I F E} {D : σ → List I → Option F → Prop} {q : Policy I F E}
    {S : σ → List I → List I → Prop} (h : BulkCollectsLaw C D q S) (l₀ : List I) :
    BulkCollectsLaw C (fun s l f => D s l f ∧ q.AcceptedSince l₀ l ∧ ∀ x, f = some x → q.refuseClose l x = none) q
      (fun s l sl => S s l sl ∧ q.AcceptedSince l₀ l) := by
  refine ⟨⟨⟨?_, ?_, ?_, ?_, ?_⟩, ?_⟩, ?_, ?_, ?_, ?_, ?_, ?_⟩
  · rintro s l ⟨sl, hs, ha⟩; exact ⟨h.base.observe s l ⟨sl, hs⟩, ha, by simp⟩
  · rintro s l x ⟨sl, hs, ha⟩ hq
    obtain ⟨s', h1, sl', h2⟩ := h.base.consume_ok s l x ⟨sl, hs⟩ hq
    exact ⟨s', h1, sl', h2, ha.snoc hq⟩
  · rintro s l x e ⟨sl, hs, ha⟩ hq
    obtain ⟨s', h1, h2⟩ := h.base.consume_err s l x e ⟨sl, hs⟩ hq
    exact ⟨s', h1, h2, ha, by simp⟩
  · rintro s l f ⟨sl, hs, ha⟩ hq
    obtain ⟨s', h1, h2⟩ := h.base.close_ok s l f ⟨sl, hs⟩ hq
    exact ⟨s', h1, h2, ha, by rintro x ⟨⟩; exact hq⟩
  · rintro s l f e ⟨sl, hs, ha⟩ hq
    obtain ⟨s', h1, h2⟩ := h.base.close_err s l f e ⟨sl, hs⟩ hq
    exact ⟨s', h1, h2, ha, by simp⟩
  · rintro s l ⟨sl, hs, ha⟩
    obtain ⟨s', ⟨h1, sl', h2⟩ | ⟨e, h1, h2, h3⟩⟩ := h.base.flush s l ⟨sl, hs⟩
    · exact ⟨s', .inl ⟨h1, sl', h2, ha⟩⟩
    · exact ⟨s', .inr ⟨e, h1, h2, h3, ha, by simp⟩⟩
  · rintro s l sl ⟨hs, ha⟩ hq
    obtain ⟨s', sl', h1, h2, h3⟩ := h.expose_ok s l sl hs hq
    exact ⟨s', sl', h1, h2, h3, ha⟩
  · rintro s l sl e ⟨hs, ha⟩ hq
    obtain ⟨s', h1, h2⟩ := h.expose_err s l sl e hs hq
    exact ⟨s', h1, h2, ha, by simp⟩
  · rintro s l sl ws ⟨hs, ha⟩ hw
    exact ⟨h.write s l sl ws hs hw, ha⟩
  · rintro s l sl k ⟨hs, ha⟩ hne hk hacc
    obtain ⟨s', h1, h2⟩ := h.consumeSlots_ok s l sl k hs hne hk hacc
    exact ⟨s', h1, h2, ha.append hacc⟩
  · rintro s l sl k i e ⟨hs, ha⟩ hne hk hf
    obtain ⟨s', h1, h2⟩ := h.consumeSlots_err s l sl k i e hs hne hk hf
    have hi := hf.lt
    rw [List.length_take] at hi
    have := hf.1
    rw [List.take_take, Nat.min_eq_left (by omega)] at this
    exact ⟨s', h1, h2, ha.append this, by simp⟩
  · rintro s l sl buf ⟨hs, ha⟩ hne
    obtain ⟨s', ⟨k, h1, h2, h3, h4, sl', h5⟩ | ⟨i, e, h1, h2, h3⟩⟩ := h.bulkConsume s l sl buf hs hne
    · exact ⟨s', .inl ⟨k, h1, h2, h3, h4, sl', h5, ha.append h3⟩⟩
    · exact ⟨s', .inr ⟨i, e, h1, h2, h3, ha.append h1.1, by simp⟩⟩

/-- Every error leaves the consumer in one of the states `Failed`. -/
structure AlwaysFailsIn (C : BulkConsumer σ I F E) (Failed : σ → Prop) : Prop where
  consume : ∀ t x t' e, C.consume t x = ok (t', .error e) → Failed t'
  close : ∀ t f t' e, C.close t f = ok (t', .error e) → Failed t'
  flush : ∀ t t' e, C.flush t = ok (t', .error e) → Failed t'
  expose : ∀ t t' e, C.exposeSlots t = ok (t', .error e) → Failed t'
  consumeSlots : ∀ t k t' e, C.consumeSlots t k = ok (t', .error e) → Failed t'

namespace ConsumerScrambler

variable {C : BulkConsumer σ I F E} {Failed : σ → Prop} {debug : Bool}

theorem perform_fails (hC : AlwaysFailsIn C Failed) {s s' : ConsumerScrambler σ I} {e : E}
    (h : s.performOperation debug C = ok (s', .error e)) : Failed s'.inner := by
  simp only [performOperation, bind_eq, bind_eq_ok] at h
  obtain ⟨_, _, op, _, h⟩ := h
  cases op with
  | consume =>
    simp only [bind_eq_ok] at h
    obtain ⟨⟨b, x⟩, _, x', _, ⟨inner, r⟩, hc, h⟩ := h
    rcases r with e' | u
    · cases h; exact hC.consume _ _ _ _ hc
    · simp only [bind_eq_ok] at h
      obtain ⟨_, _, h⟩ := h
      cases h
  | flush =>
    simp only [bind_eq_ok] at h
    obtain ⟨⟨inner, r⟩, hc, h⟩ := h
    rcases r with e' | u
    · cases h; exact hC.flush _ _ _ hc
    · simp only [bind_eq_ok] at h
      obtain ⟨_, _, h⟩ := h
      cases h
  | consumeSlots n =>
    simp only [bind_eq_ok] at h
    obtain ⟨⟨inner, r⟩, hc, h⟩ := h
    rcases r with e' | slots
    · cases h; exact hC.expose _ _ _ hc
    · simp only [bind_eq_ok] at h
      obtain ⟨_, _, ⟨b, k, w⟩, _, ⟨inner', r⟩, hc', h⟩ := h
      rcases r with e' | u
      · cases h; exact hC.consumeSlots _ _ _ _ hc'
      · simp only [bind_eq_ok] at h
        obtain ⟨_, _, h⟩ := h
        cases h

theorem drain_fails (hC : AlwaysFailsIn C Failed) {s s' : ConsumerScrambler σ I} {e : E}
    (h : s.drain debug C = ok (s', .error e)) : Failed s'.inner := by
  refine loop_keeps (body := drainBody debug C) (fun _ => True) (fun r => ∀ e, r.2 = .error e → Failed r.1.inner)
    (fun _ _ _ _ => trivial) ?_ (s := s) trivial h e rfl
  rintro s ⟨s', r⟩ - hb e rfl
  simp only [drainBody] at hb
  split at hb
  · simp only [bind_eq, bind_eq_ok] at hb
    obtain ⟨⟨s₁, r₁⟩, hp, hb⟩ := hb
    rcases r₁ with e₁ | u
    · cases hb; exact perform_fails hC hp
    · cases hb
  · cases hb

theorem consume_fails (hC : AlwaysFailsIn C Failed) {s s' : ConsumerScrambler σ I} {x : I} {e : E}
    (h : (consumerScrambler debug C).consume s x = ok (s', .error e)) : Failed s'.inner := by
  simp only [consumerScrambler, consume, bind_eq, bind_eq_ok] at h
  obtain ⟨⟨b, y⟩, _, h⟩ := h
  rcases y with _ | y
  · cases h
  · simp only [bind_eq_ok] at h
    obtain ⟨⟨s₁, r₁⟩, hd, h⟩ := h
    rcases r₁ with e₁ | u
    · cases h; exact drain_fails hC hd
    · simp only [bind_eq_ok] at h
      obtain ⟨_, _, _, _, h⟩ := h
      cases h

theorem close_fails (hC : AlwaysFailsIn C Failed) {s s' : ConsumerScrambler σ I} {f : F} {e : E}
    (h : (consumerScrambler debug C).close s f = ok (s', .error e)) : Failed s'.inner := by
  simp only [consumerScrambler, close, bind_eq, bind_eq_ok] at h
  obtain ⟨⟨s₁, r₁⟩, hd, h⟩ := h
  rcases r₁ with e₁ | u
  · cases h; exact drain_fails hC hd
  · simp only [bind_eq_ok] at h
    obtain ⟨⟨inner, r⟩, hc, h⟩ := h
    cases h; exact hC.close _ _ _ _ hc

theorem flush_fails (hC : AlwaysFailsIn C Failed) {s s' : ConsumerScrambler σ I} {e : E}
    (h : (consumerScrambler debug C).flush s = ok (s', .error e)) : Failed s'.inner := by
  simp only [consumerScrambler, flush, bind_eq, bind_eq_ok] at h
  obtain ⟨⟨s₁, r₁⟩, hd, h⟩ := h
  rcases r₁ with e₁ | u
  · cases h; exact drain_fails hC hd
  · simp only [bind_eq_ok] at h
    obtain ⟨⟨inner, r⟩, hc, h⟩ := h
    cases h; exact hC.flush _ _ _ hc

variable {D : σ → List I → Option F → Prop} {X : Faults I F E} {R : σ → List I → List I → Prop} {cap : Nat}

/-- An error of `consume` was caused by the items before, not by the item that was passed in. -/
theorem consume_exact (hX : X.Regular) (hC : BulkDefersLaw C D X R) {s s' : ConsumerScrambler σ I} {l slots : List I} {x : I}
    {e : E} (hs : s.Defers R cap l slots) (h : (consumerScrambler debug C).consume s x = ok (s', .error e)) :
    ∃ d, X.during l d e ∧ D s'.inner d none := by
  have hs0 := hs
  obtain ⟨d, b, rfl, hok, hR⟩ := hs0
  have hbd := hok.holds.bound
  by_cases hl : b.length < cap
  · obtain ⟨q, h1, h2⟩ := (Fixed.fifoLaw I cap).enqueue _ _ _ _ x hok.holds hl
    have h1' : s.buffer.enqueue x = ok (q, none) := h1
    simp [consumerScrambler, consume, h1'] at h
  · have h1 := (Fixed.fifoLaw I cap).enqueue_full _ _ _ _ x hok.holds (by omega)
    have h1' : s.buffer.enqueue x = ok (s.buffer, some x) := h1
    rcases drain_loop debug hX hC hs with ⟨s₁, h2, hok', hR'⟩ | ⟨s₁, e', d', h2, h3, h4⟩
    · simp only [consumerScrambler, consume, h1', h2, bind_eq, bind_ok, bind_eq_ok] at h
      obtain ⟨_, _, _, _, h⟩ := h
      cases h
    · simp [consumerScrambler, consume, h1', h2] at h
      obtain ⟨rfl, rfl⟩ := h
      exact ⟨d', h3, h4⟩

end ConsumerScrambler

end

end Verif
