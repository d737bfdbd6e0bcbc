import Verif.AdaptorSpec
import Verif.Lemmas.Invariant

/-!
# Helper lemmas about the adaptors
-/

namespace Verif

open Outcome

section

variable {σ I F E : Type}

namespace Script

theorem limit_drop (c : Script I F E) (n k : Nat) (h : k ≤ n) : (c.limit n).drop k = (c.drop k).limit (n - k) := by
  funext i
  simp only [limit, drop_apply]
  by_cases hi : i < n - k
  · rw [if_pos hi, if_pos (by omega)]
  · rw [if_neg hi, if_neg (by omega)]

theorem limit_zero (c : Script I F E) (i : Nat) : c.limit 0 i = .ok (.inr none) := by simp [limit]

theorem StartsWith.limit {c : Script I F E} {xs : List I} (h : c.StartsWith xs) {n : Nat} (hn : xs.length ≤ n) :
    (c.limit n).StartsWith xs := by
  intro i x hi
  have hlt : i < xs.length := (List.getElem?_eq_some_iff.mp hi).1
  simp [Script.limit, h i x hi, show i < n by omega]

theorem mapFinal_drop {B : Type} (f : F → B) (c : Script I F E) (k : Nat) :
    (c.mapFinal f).drop k = (c.drop k).mapFinal f := rfl

theorem StartsWith.mapFinal {B : Type} {f : F → B} {c : Script I F E} {xs : List I} (h : c.StartsWith xs) :
    (c.mapFinal f).StartsWith xs := by
  intro i x hi
  simp [Script.mapFinal, h i x hi]

theorem mapItem_drop_one {φ B : Type} (f : φ → I → φ × B) (a : φ) (c : Script I F E) {x : I}
    (h : c 0 = .ok (.inl x)) : (c.mapItem f a).drop 1 = (c.drop 1).mapItem f (f a x).1 := by
  funext i
  rw [drop_apply, Nat.add_comm, mapItem, h]

theorem StartsWith.mapItem {φ B : Type} {f : φ → I → φ × B} {a : φ} {c : Script I F E} {xs : List I}
    (h : c.StartsWith xs) : (c.mapItem f a).StartsWith (results f a xs) := by
  induction xs generalizing c a with
  | nil => simp [results]
  | cons x xs ih =>
    rw [startsWith_cons] at h
    rw [results, startsWith_cons, mapItem_drop_one f a c h.1]
    exact ⟨by simp [Script.mapItem, h.1], ih h.2⟩

end Script

section

variable {φ A B : Type} (f : φ → A → φ × B)

@[simp] theorem results_length (a : φ) (xs : List A) : (results f a xs).length = xs.length := by
  induction xs generalizing a with
  | nil => rfl
  | cons x xs ih => simp [results, ih]

theorem results_append (a : φ) (xs ys : List A) :
    results f a (xs ++ ys) = results f a xs ++ results f (stateAfter f a xs) ys := by
  induction xs generalizing a with
  | nil => rfl
  | cons x xs ih => simp [results, stateAfter, ih]

theorem stateAfter_append (a : φ) (xs ys : List A) :
    stateAfter f a (xs ++ ys) = stateAfter f (stateAfter f a xs) ys := by
  induction xs generalizing a with
  | nil => rfl
  | cons x xs ih => simp [stateAfter, ih]

end

/-! ### Producer `Limit` -/

/-- The sequence does not consist of `n` items followed by an error. -/
def NoErrorAt (c : Script I F E) (n : Nat) : Prop := ∀ e, c n = .error e → ∃ i, i < n ∧ ∀ x, c i ≠ .ok (.inl x)

/-- The wrapped producer is in a state to emit a sequence whose limited version is `c'`; of the items it exposes, `k` may
be considered produced. `Q` is a condition on the sequence and the position at which it is cut off. -/
def LimitSt.Plays (Q : Script I F E → Nat → Prop) (R : σ → Script I F E → Nat → Prop) (s : LimitSt σ)
    (c' : Script I (Option F) E) (k : Nat) : Prop :=
  ∃ c n xs, R s.inner c n ∧ k ≤ n ∧ k ≤ s.remaining ∧ c' = c.limit s.remaining ∧ Q c s.remaining ∧
    c.StartsWith xs ∧ xs.length = k

theorem limit_produce_step {P : Producer σ I F E} {s s' : σ} {c : Script I F E} (h : P.produce s = ok (s', c 0)) (m : Nat) :
    (limitProducer P).produce ⟨s, m + 1⟩ = ok (⟨s', m⟩, c.limit (m + 1) 0) ∧
      ∀ x, c.limit (m + 1) 0 = .ok (.inl x) ↔ c 0 = .ok (.inl x) := by
  rcases hc : c 0 with e | x | f <;> simp [limitProducer, h, hc, Script.limit]

theorem PlaysLaw.limit {P : Producer σ I F E} {R : σ → Script I F E → Prop} (h : PlaysLaw P R) :
    PlaysLaw (limitProducer P) (fun s c' => ∃ c, R s.inner c ∧ c' = c.limit s.remaining) := by
  refine ⟨?_⟩
  rintro ⟨s, m⟩ c' ⟨c, hR, rfl⟩
  cases m with
  | zero => exact ⟨⟨s, 0⟩, by simp [limitProducer, Script.limit], by simp [Script.limit]⟩
  | succ m =>
    obtain ⟨s', h1, h2⟩ := h.produce s c hR
    obtain ⟨h3, h4⟩ := limit_produce_step h1 m
    refine ⟨⟨s', m⟩, h3, fun x hx => ⟨c.drop 1, h2 x ((h4 x).mp hx), ?_⟩⟩
    rw [Script.limit_drop _ _ _ (by simp only; omega)]; rfl

section

variable {Q : Script I F E → Nat → Prop} (hQ : ∀ c n k xs, Q c n → c.StartsWith xs → k ≤ xs.length → k ≤ n → Q (c.drop k) (n - k))
  {P : BulkProducer σ I F E} {R : σ → Script I F E → Nat → Prop}

include hQ in
theorem BulkPlaysLaw.limit_produce (h : BulkPlaysLaw P R) :
    PlaysLaw (limitProducer P.toProducer) (fun s c' => ∃ k, s.Plays Q R c' k) := by
  refine ⟨?_⟩
  rintro ⟨s, m⟩ c' ⟨k, c, n, xs, hR, hk, hm, rfl, hq, hst, hxs⟩
  cases m with
  | zero => exact ⟨⟨s, 0⟩, by simp [limitProducer, Script.limit], by simp [Script.limit]⟩
  | succ m =>
    obtain ⟨s', h1, h2⟩ := h.base.produce s c ⟨n, hR⟩
    obtain ⟨h3, h4⟩ := limit_produce_step h1 m
    refine ⟨⟨s', m⟩, h3, fun x hx => ?_⟩
    obtain ⟨n', hn'⟩ := h2 x ((h4 x).mp hx)
    refine ⟨0, c.drop 1, n', [], hn', Nat.zero_le _, Nat.zero_le _, ?_,
      hQ c (m + 1) 1 [x] hq (Script.startsWith_cons.mpr ⟨(h4 x).mp hx, by simp⟩) (by simp) (by omega), by simp, rfl⟩
    rw [Script.limit_drop _ _ _ (by simp only; omega)]; rfl

theorem BulkPlaysLaw.limit_expose (h : BulkPlaysLaw P R)
    (s : LimitSt σ) (c' : Script I (Option F) E) (k : Nat) (hs : s.Plays Q R c' k) : ∃ s',
    (∃ xs, xs ≠ [] ∧ c'.StartsWith xs ∧ (limitBulkProducer P).exposeItems s = ok (s', .ok (.inl xs)) ∧
      s'.Plays Q R c' xs.length) ∨
    (∃ f, c' 0 = .ok (.inr f) ∧ (limitBulkProducer P).exposeItems s = ok (s', .ok (.inr f))) ∨
    (∃ e, c' 0 = .error e ∧ (limitBulkProducer P).exposeItems s = ok (s', .error e)) := by
  obtain ⟨s, m⟩ := s
  obtain ⟨c, n, xs₀, hR, hk, hm, rfl, hq, _⟩ := hs
  simp only at hR hk hm hq
  by_cases h0 : m = 0
  · subst h0
    exact ⟨⟨s, 0⟩, .inr (.inl ⟨none, Script.limit_zero _ _, by simp [limitBulkProducer]⟩)⟩
  · obtain ⟨s', ⟨xs, h1, h2, h3, h4⟩ | ⟨f, h1, h2⟩ | ⟨e', h1, h2⟩⟩ := h.expose s c n hR
    · have hl : 0 < xs.length := List.length_pos_iff.mpr h1
      refine ⟨⟨s', m⟩, .inl ⟨xs.take (min m xs.length), ?_, ?_, ?_, c, xs.length, _, h4, ?_, ?_, rfl, hq, h2.take _, rfl⟩⟩
      · intro h0'
        have := congrArg List.length h0'
        simp only [List.length_take, List.length_nil] at this; omega
      · exact (h2.take _).limit (by simp; omega)
      · simp [limitBulkProducer, h0, h3, slice_of_le (Nat.zero_le _) (Nat.min_le_right m xs.length)]
      · simp; omega
      · simp; omega
    · exact ⟨⟨s', m⟩, .inr (.inl ⟨some f, by simp [Script.limit, h1]; omega, by simp [limitBulkProducer, h0, h2]⟩)⟩
    · exact ⟨⟨s', m⟩, .inr (.inr ⟨e', by simp [Script.limit, h1]; omega, by simp [limitBulkProducer, h0, h2]⟩)⟩

include hQ in
theorem BulkPlaysLaw.limit_consider (h : BulkPlaysLaw P R)
    (s : LimitSt σ) (c' : Script I (Option F) E) (n k : Nat) (hs : s.Plays Q R c' n) (h0 : 0 < n) (hk : k ≤ n) :
    ∃ s', (limitBulkProducer P).considerProduced s k = ok (s', .ok ()) ∧ s'.Plays Q R (c'.drop k) (n - k) := by
  obtain ⟨s, m⟩ := s
  obtain ⟨c, n', xs, hR, hk', hm, rfl, hq, hst, hxs⟩ := hs
  simp only at hR hk' hm hq
  obtain ⟨s', h1, h2⟩ := h.consider s c n' k hR (by omega) (by omega)
  refine ⟨⟨s', m - k⟩, ?_, c.drop k, n' - k, xs.drop k, h2, by omega, by simp only; omega, ?_,
    hQ c m k xs hq hst (by omega) (by omega), hst.drop (by omega), by simp; omega⟩
  · simp [limitBulkProducer, sub_of_le (show k ≤ m by omega), h1]
  · rw [Script.limit_drop _ _ _ (by simp only; omega)]

end

theorem BulkPlaysLaw.limit {P : BulkProducer σ I F E} {R : σ → Script I F E → Nat → Prop} (h : BulkPlaysLaw P R) :
    BulkPlaysLaw (limitBulkProducer P) (LimitSt.Plays NoErrorAt R) := by
  have hQ : ∀ (c : Script I F E) n k xs, NoErrorAt c n → c.StartsWith xs → k ≤ xs.length → k ≤ n →
      NoErrorAt (c.drop k) (n - k) := by
    intro c n k xs h hst hk hkn e
    rw [Script.drop_apply, show k + (n - k) = n by omega]
    intro he
    obtain ⟨i, hi, hx⟩ := h e he
    have : k ≤ i := by
      rcases Nat.lt_or_ge i k with hlt | hge
      · exact absurd (hst i xs[i] (by simp [show i < xs.length by omega])) (hx _)
      · exact hge
    exact ⟨i - k, by omega, fun x => by rw [Script.drop_apply, show k + (i - k) = i by omega]; exact hx x⟩
  refine .of_default rfl ⟨h.limit_produce hQ, ?_⟩ h.limit_expose (h.limit_consider hQ)
  rintro ⟨s, m⟩ c' ⟨k, c, n, xs, hR, hk, hm, rfl, hq, _⟩
  obtain ⟨s', ⟨h1, n', h2⟩ | ⟨e, h1, h2⟩⟩ := h.base.slurp s c ⟨n, hR⟩
  · exact ⟨⟨s', m⟩, .inl ⟨by simp [limitBulkProducer, limitBufferedProducer, h1], 0, c, n', [], h2, Nat.zero_le _,
      Nat.zero_le _, rfl, hq, by simp, rfl⟩⟩
  · refine ⟨⟨s', m⟩, .inr ⟨e, ?_, by simp [limitBulkProducer, limitBufferedProducer, h2]⟩⟩
    have : 0 < m := by
      rcases Nat.eq_zero_or_pos m with rfl | h0
      · obtain ⟨i, hi, _⟩ := hq e h1
        exact absurd hi (Nat.not_lt_zero i)
      · exact h0
    simp [Script.limit, h1, this]

/-! ### Consumer `Limit` -/

def LimitSt.Collects (N : Nat) (R : σ → List I → List I → Prop) (s : LimitSt σ) (l slots : List I) : Prop :=
  l.length + s.remaining = N ∧ ∃ islots, R s.inner l islots ∧ slots = islots.take slots.length ∧ slots.length ≤ s.remaining

theorem limit_answer (q : Policy I F E) (N : Nat) (l : List I) (x : I) (h : l.length < N) :
    (q.limit N).answer l x = (q.answer l x).map some := by
  simp only [Policy.answer, Policy.limit, if_neg (show ¬ N ≤ l.length by omega)]
  cases q.refuse l <;> simp

theorem limit_accepts {q : Policy I F E} {N : Nat} {l xs : List I} :
    (q.limit N).Accepts l xs ↔ q.Accepts l xs ∧ (xs = [] ∨ l.length + xs.length ≤ N) := by
  induction xs generalizing l with
  | nil => simp
  | cons x xs ih =>
    rw [Policy.accepts_cons, Policy.accepts_cons, ih]
    by_cases h : l.length < N
    · rw [limit_answer q N l x h]
      simp only [Option.map_eq_none_iff, List.length_append, List.length_cons, List.length_nil, reduceCtorEq, false_or]
      constructor
      · rintro ⟨h1, h2, rfl | h3⟩
        · exact ⟨⟨h1, h2⟩, by simp; omega⟩
        · exact ⟨⟨h1, h2⟩, by omega⟩
      · rintro ⟨⟨h1, h2⟩, h3⟩
        exact ⟨h1, h2, .inr (by omega)⟩
    · constructor
      · rintro ⟨h1, _⟩
        simp [Policy.answer, Policy.limit, show N ≤ l.length by omega] at h1
      · rintro ⟨_, h2 | h2⟩
        · cases h2
        · simp only [List.length_cons] at h2; omega

theorem limit_failsAt {q : Policy I F E} {N : Nat} {l xs : List I} {i : Nat} {e : Option E}
    (h : (q.limit N).FailsAt l xs i e) (hN : l.length + xs.length ≤ N) : ∃ e', e = some e' ∧ q.FailsAt l xs i e' := by
  have hlt := h.lt
  obtain ⟨h1, x, h2, h3⟩ := h
  rw [limit_answer q N _ x (by simp; omega)] at h3
  obtain ⟨e', h4, h5⟩ := Option.map_eq_some_iff.mp h3
  exact ⟨e', h5.symm, (limit_accepts.mp h1).1, x, h2, h4⟩

theorem BulkCollectsLaw.limit {C : BulkConsumer σ I F E} {D : σ → List I → Option F → Prop} {q : Policy I F E}
    {R : σ → List I → List I → Prop} (h : BulkCollectsLaw C D q R) (N : Nat) :
    BulkCollectsLaw (limitBulkConsumer C) (fun s => D s.inner) (q.limit N) (LimitSt.Collects N R) := by
  refine .of_default rfl ⟨⟨?_, ?_, ?_, ?_, ?_⟩, ?_⟩ ?_ ?_ ?_ ?_ ?_
  · rintro ⟨s, m⟩ l ⟨slots, hN, islots, hR, _⟩
    exact h.base.observe _ _ ⟨_, hR⟩
  · rintro ⟨s, m⟩ l x ⟨slots, hN, islots, hR, _⟩ hq
    simp only at hN hR
    cases m with
    | zero => simp [Policy.answer, Policy.limit, show N ≤ l.length by omega] at hq
    | succ m =>
      rw [limit_answer q N l x (by omega), Option.map_eq_none_iff] at hq
      obtain ⟨s', h1, islots', h2⟩ := h.base.consume_ok s l x ⟨_, hR⟩ hq
      exact ⟨⟨s', m⟩, by simp [limitBulkConsumer, limitBufferedConsumer, limitConsumer, h1, Except.mapError], [],
        by simp; omega, islots', h2, by simp, by simp⟩
  · rintro ⟨s, m⟩ l x e ⟨slots, hN, islots, hR, _⟩ hq
    simp only at hN hR
    cases m with
    | zero =>
      simp [Policy.answer, Policy.limit, show N ≤ l.length by omega] at hq
      subst hq
      exact ⟨⟨s, 0⟩, by simp [limitBulkConsumer, limitBufferedConsumer, limitConsumer], h.base.observe _ _ ⟨_, hR⟩⟩
    | succ m =>
      rw [limit_answer q N l x (by omega), Option.map_eq_some_iff] at hq
      obtain ⟨e', hq, rfl⟩ := hq
      obtain ⟨s', h1, h2⟩ := h.base.consume_err s l x e' ⟨_, hR⟩ hq
      exact ⟨⟨s', m⟩, by simp [limitBulkConsumer, limitBufferedConsumer, limitConsumer, h1, Except.mapError], h2⟩
  · rintro ⟨s, m⟩ l f ⟨slots, hN, islots, hR, _⟩ hq
    simp only [Policy.limit, Option.map_eq_none_iff] at hq
    obtain ⟨s', h1, h2⟩ := h.base.close_ok s l f ⟨_, hR⟩ hq
    exact ⟨⟨s', m⟩, by simp [limitBulkConsumer, limitBufferedConsumer, limitConsumer, h1, Except.mapError], h2⟩
  · rintro ⟨s, m⟩ l f e ⟨slots, hN, islots, hR, _⟩ hq
    simp only [Policy.limit, Option.map_eq_some_iff] at hq
    obtain ⟨e', hq, rfl⟩ := hq
    obtain ⟨s', h1, h2⟩ := h.base.close_err s l f e' ⟨_, hR⟩ hq
    exact ⟨⟨s', m⟩, by simp [limitBulkConsumer, limitBufferedConsumer, limitConsumer, h1, Except.mapError], h2⟩
  · rintro ⟨s, m⟩ l ⟨slots, hN, islots, hR, _⟩
    obtain ⟨s', ⟨h1, islots', h2⟩ | ⟨e, h1, h2, h3⟩⟩ := h.base.flush s l ⟨_, hR⟩
    · exact ⟨⟨s', m⟩, .inl ⟨by simp [limitBulkConsumer, limitBufferedConsumer, h1, Except.mapError], [], hN,
        islots', h2, by simp, by simp⟩⟩
    · exact ⟨⟨s', m⟩, .inr ⟨some e, by simp [Policy.limit, h1],
        by simp [limitBulkConsumer, limitBufferedConsumer, h2, Except.mapError], h3⟩⟩
  · rintro ⟨s, m⟩ l slots ⟨hN, islots, hR, _⟩ hq
    simp only at hN hR
    simp only [Policy.limit] at hq
    split at hq
    · cases hq
    · rw [Option.map_eq_none_iff] at hq
      obtain ⟨s', sl, h1, h2, h3⟩ := h.expose_ok s l islots hR hq
      have hl : 0 < sl.length := List.length_pos_iff.mpr h1
      refine ⟨⟨s', m⟩, sl.take (min m sl.length), ?_, ?_, hN, sl, h3, ?_, ?_⟩
      · intro h0
        have := congrArg List.length h0
        simp only [List.length_take, List.length_nil] at this; omega
      · simp [limitBulkConsumer, h2, show m ≠ 0 by omega, slice_of_le (Nat.zero_le _) (Nat.min_le_right m sl.length)]
      · rw [List.length_take, Nat.min_eq_left (Nat.min_le_right _ _)]
      · simp; omega
  · rintro ⟨s, m⟩ l slots e ⟨hN, islots, hR, _⟩ hq
    simp only at hN hR
    simp only [Policy.limit] at hq
    split at hq
    · cases hq
      exact ⟨⟨s, m⟩, by simp [limitBulkConsumer, show m = 0 by omega], h.base.observe _ _ ⟨_, hR⟩⟩
    · rw [Option.map_eq_some_iff] at hq
      obtain ⟨e', hq, rfl⟩ := hq
      obtain ⟨s', h1, h2⟩ := h.expose_err s l islots e' hR hq
      exact ⟨⟨s', m⟩, by simp [limitBulkConsumer, h1, show m ≠ 0 by omega], h2⟩
  · rintro ⟨s, m⟩ l slots ws ⟨hN, islots, hR, h1, h2⟩ hw
    have hle : slots.length ≤ islots.length := by
      have := congrArg List.length h1
      simp at this; omega
    refine ⟨hN, _, h.write s l islots ws hR (by omega), ?_, ?_⟩
    · rw [List.length_append, List.take_length_add_append]
      congr 1
      conv => lhs; rw [h1]
      rw [List.length_drop, List.drop_take]
    · simp only [List.length_append, List.length_drop, limitBulkConsumer] at h2 ⊢; omega
  · rintro ⟨s, m⟩ l slots k ⟨hN, islots, hR, h1, h2⟩ hne hk ha
    simp only at hN hR h2
    have hle : slots.length ≤ islots.length := by
      have := congrArg List.length h1
      simp at this; omega
    have htk : slots.take k = islots.take k := by rw [h1, List.take_take, Nat.min_eq_left hk]
    have hne' : islots ≠ [] := by rintro rfl; simp at h1; exact hne h1
    obtain ⟨s', h3, h4⟩ := h.consumeSlots_ok s l islots k hR hne' (by omega)
      (by rw [← htk]; exact (limit_accepts.mp ha).1)
    refine ⟨⟨s', m - k⟩, ?_, ?_, _, by rw [htk]; exact h4, ?_, ?_⟩
    · simp [limitBulkConsumer, sub_of_le (show k ≤ m by omega), h3, Except.mapError]
    · simp; omega
    · rw [List.length_drop, ← List.drop_take, ← h1]
    · simp; omega
  · rintro ⟨s, m⟩ l slots k i e ⟨hN, islots, hR, h1, h2⟩ hne hk ha
    simp only at hN hR h2
    have hle : slots.length ≤ islots.length := by
      have := congrArg List.length h1
      simp at this; omega
    have htk : slots.take k = islots.take k := by rw [h1, List.take_take, Nat.min_eq_left hk]
    have hne' : islots ≠ [] := by rintro rfl; simp at h1; exact hne h1
    have hi := ha.lt
    obtain ⟨e', rfl, hf⟩ := limit_failsAt ha (by simp; omega)
    obtain ⟨s', h3, h4⟩ := h.consumeSlots_err s l islots k i e' hR hne' (by omega) (by rw [← htk]; exact hf)
    refine ⟨⟨s', m - k⟩, ?_, ?_⟩
    · simp [limitBulkConsumer, sub_of_le (show k ≤ m by omega), h3, Except.mapError]
    · have : slots.take i = islots.take i := by
        simp at hi
        rw [h1, List.take_take, Nat.min_eq_left (by omega)]
      rw [this]; exact h4

end

end Verif
