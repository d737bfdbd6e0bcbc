import Verif.Lemmas.Traces
import Verif.Cases

/-!
# C06–C09: the full-slice methods
-/

namespace Verif

open Outcome

section

variable {σ I F E : Type}

/-! ### C06 -/

theorem consumeFullSliceFrom_ok_iff (C : Consumer σ I F E) (s : σ) (i : Nat) (buf : List I) (s' : σ) :
    consumeFullSliceFrom C s i buf = ok (s', .ok ()) ↔ Consumes C s buf s' := by
  induction buf generalizing s i with
  | nil =>
    constructor
    · intro h
      simp [consumeFullSliceFrom] at h
      subst h; exact .nil _
    · intro h; cases h; rfl
  | cons x xs ih =>
    constructor
    · intro h
      rw [consumeFullSliceFrom] at h
      cases hc : C.consume s x with
      | panic => simp [hc] at h
      | diverge => simp [hc] at h
      | ok r =>
        obtain ⟨s1, r⟩ := r
        cases r with
        | error e => simp [hc] at h
        | ok u =>
          simp only [hc, bind_eq, bind_ok] at h
          exact .cons hc ((ih _ _).mp h)
    · intro h
      cases h with
      | cons hc hrest =>
        rw [consumeFullSliceFrom, hc]
        simp only [bind_eq, bind_ok]
        exact (ih _ _).mpr hrest

theorem consumeFullSliceFrom_err_iff (C : Consumer σ I F E) (s : σ) (i : Nat) (buf : List I) (s' : σ) (n : Nat)
    (e : E) :
    consumeFullSliceFrom C s i buf = ok (s', .error ⟨n, e⟩) ↔
      ∃ k x s₁, n = i + k ∧ buf[k]? = some x ∧ Consumes C s (buf.take k) s₁ ∧
        C.consume s₁ x = ok (s', .error e) := by
  induction buf generalizing s i with
  | nil => simp [consumeFullSliceFrom]
  | cons x xs ih =>
    constructor
    · intro h
      rw [consumeFullSliceFrom] at h
      cases hc : C.consume s x with
      | panic => simp [hc] at h
      | diverge => simp [hc] at h
      | ok r =>
        obtain ⟨s1, r⟩ := r
        cases r with
        | error e' =>
          simp [hc] at h
          obtain ⟨rfl, rfl, rfl⟩ := h
          exact ⟨0, x, s, rfl, rfl, .nil _, hc⟩
        | ok u =>
          simp only [hc, bind_eq, bind_ok] at h
          obtain ⟨k, y, s2, h1, h2, h3, h4⟩ := (ih _ _).mp h
          exact ⟨k + 1, y, s2, by omega, by simpa using h2, by simpa using Consumes.cons hc h3, h4⟩
    · rintro ⟨k, y, s2, h1, h2, h3, h4⟩
      rw [consumeFullSliceFrom]
      cases k with
      | zero =>
        simp at h2 h3
        cases h3
        subst h2
        simp [h4, h1]
      | succ k =>
        simp only [List.take_succ_cons] at h3
        cases h3 with
        | cons hc hrest =>
          simp only [hc, bind_eq, bind_ok]
          exact (ih _ _).mpr ⟨k, y, s2, by omega, by simpa using h2, hrest, h4⟩

/-- **C06**, for every consumer whatsoever: `consume_full_slice(buf)` returns `Ok` exactly if consuming the items of
`buf` one after the other succeeds (and leaves the consumer in that state); it returns an error with count `k` and reason
`e` exactly if consuming the first `k` items succeeds and the next item is answered with `e`. -/
theorem consume_full_slice_exact (C : Consumer σ I F E) (s : σ) (buf : List I) (s' : σ) :
    (consumeFullSlice C s buf = ok (s', .ok ()) ↔ Consumes C s buf s') ∧
    (∀ k e, consumeFullSlice C s buf = ok (s', .error ⟨k, e⟩) ↔
      ∃ x s₁, buf[k]? = some x ∧ Consumes C s (buf.take k) s₁ ∧ C.consume s₁ x = ok (s', .error e)) := by
  refine ⟨consumeFullSliceFrom_ok_iff C s 0 buf s', fun k e => ?_⟩
  unfold consumeFullSlice
  rw [consumeFullSliceFrom_err_iff]
  constructor
  · rintro ⟨k', x, s₁, h, rest⟩
    rw [Nat.zero_add] at h; subst h
    exact ⟨x, s₁, rest⟩
  · rintro ⟨x, s₁, rest⟩
    exact ⟨k, x, s₁, by omega, rest⟩

/-- A consumer that takes two of three items and refuses the third one: `Err` with the count 2. -/
example : ∃ s₁ s', [5, 6, 7][2]? = some 7 ∧ Consumes Case.C.toConsumer (Case.con 2) ([5, 6, 7].take 2) s₁ ∧
    Case.C.consume s₁ 7 = ok (s', .error "full") ∧
    consumeFullSlice Case.C.toConsumer (Case.con 2) [5, 6, 7] = ok (s', .error ⟨2, "full"⟩) :=
  ⟨_, _, rfl, .cons rfl (.cons rfl (.nil _)), rfl,
    ((consume_full_slice_exact _ _ _ _).2 2 "full").mpr ⟨7, _, rfl, .cons rfl (.cons rfl (.nil _)), rfl⟩⟩

/-- One that takes all three. -/
example : ∃ s', Consumes Case.C.toConsumer (Case.con 3) [5, 6, 7] s' ∧
    consumeFullSlice Case.C.toConsumer (Case.con 3) [5, 6, 7] = ok (s', .ok ()) :=
  ⟨_, .cons rfl (.cons rfl (.cons rfl (.nil _))),
    (consume_full_slice_exact _ _ _ _).1.mpr (.cons rfl (.cons rfl (.cons rfl (.nil _))))⟩

/-- **C06**, in terms of the policy of the consumer: it always returns, and which result it returns is determined by
which items the consumer accepts. -/
theorem consume_full_slice_spec {C : Consumer σ I F E} {D : σ → List I → Option F → Prop} {q : Policy I F E}
    {s : σ} {l : List I} (h : Collects C D q s l) (buf : List I) :
    (q.Accepts l buf → ∃ s', consumeFullSlice C s buf = ok (s', .ok ()) ∧ Collects C D q s' (l ++ buf)) ∧
    (∀ k e, q.FailsAt l buf k e →
      ∃ s', consumeFullSlice C s buf = ok (s', .error ⟨k, e⟩) ∧ D s' (l ++ buf.take k) none) := by
  constructor
  · intro ha
    obtain ⟨s', h1, h2⟩ := h.consumes ha
    exact ⟨s', (consume_full_slice_exact C s buf s').1.mpr h1, h2⟩
  · rintro k e ⟨ha, x, hx, he⟩
    obtain ⟨s1, h1, h2⟩ := h.consumes ha
    obtain ⟨s', h3, h4⟩ := h2.consume_err x he
    exact ⟨s', ((consume_full_slice_exact C s buf s').2 k e).mpr ⟨x, s1, hx, h1, h3⟩, h4⟩

example : Collects Case.C.toConsumer TestConsumer.Seen (Case.policy 2) (Case.con 2) [] ∧ (Case.policy 2).Accepts [] [5, 6] ∧
    (Case.policy 2).FailsAt [] [5, 6, 7] 2 "full" :=
  ⟨(Case.collects 2).toCollects, Case.accepts (by decide), Case.fails (by decide) (by decide)⟩

/-! ### C07 -/

theorem bulkConsumeFullSlice_aux {C : BulkConsumer σ I F E} {D : σ → List I → Option F → Prop} {q : Policy I F E}
    {R : σ → List I → List I → Prop} (hR : BulkCollectsLaw C D q R) (buf : List I) (l : List I) :
    ∀ n consumed s, buf.length - consumed ≤ n → consumed ≤ buf.length →
      (∃ slots, R s (l ++ buf.take consumed) slots) → q.Accepts l (buf.take consumed) →
    (q.Accepts l buf → ∃ s', loop (bulkConsumeFullSliceBody C buf) (s, consumed) = ok (s', .ok ()) ∧
      ∃ slots, R s' (l ++ buf) slots) ∧
    (∀ k e, q.FailsAt l buf k e → ∃ s' count, count ≤ k ∧
      loop (bulkConsumeFullSliceBody C buf) (s, consumed) = ok (s', .error ⟨count, e⟩) ∧
      D s' (l ++ buf.take k) none ∧
      ∃ s₁, C.bulkConsume s₁ (buf.drop count) = ok (s', .error e)) := by
  intro n
  induction n with
  | zero =>
    intro consumed s hn hle hs hacc
    have hc : consumed = buf.length := by omega
    subst hc
    rw [List.take_length] at hs hacc
    have hl : loop (bulkConsumeFullSliceBody C buf) (s, buf.length) = ok (s, .ok ()) := by
      rw [loop_unfold]; simp [bulkConsumeFullSliceBody]
    refine ⟨fun _ => ⟨s, hl, hs⟩, fun k e hf => absurd hacc hf.not_accepts⟩
  | succ n ih =>
    intro consumed s hn hle hs hacc
    by_cases hlt : consumed < buf.length
    · obtain ⟨slots, hs⟩ := hs
      have hne : buf.drop consumed ≠ [] := by
        intro h0; have := congrArg List.length h0; simp at this; omega
      obtain ⟨s1, ⟨k, hk0, hkl, hka, hbc, slots', hR'⟩ | ⟨i, e, hf, hbc, hD⟩⟩ :=
        hR.bulkConsume s _ slots (buf.drop consumed) hs hne
      · rw [List.length_drop] at hkl
        have htake : buf.take consumed ++ (buf.drop consumed).take k = buf.take (consumed + k) := by
          rw [List.take_add]
        rw [List.append_assoc, htake] at hR'
        have hacc' : q.Accepts l (buf.take (consumed + k)) := by
          rw [← htake, Policy.accepts_append]; exact ⟨hacc, hka⟩
        have hstep : loop (bulkConsumeFullSliceBody C buf) (s, consumed)
            = loop (bulkConsumeFullSliceBody C buf) (s1, consumed + k) := by
          rw [loop_unfold]; simp [bulkConsumeFullSliceBody, hlt, hbc]
        rw [hstep]
        exact ih (consumed + k) s1 (by omega) (by omega) ⟨slots', hR'⟩ hacc'
      · have hlen : (buf.take consumed).length = consumed := by simp; omega
        have hf' : q.FailsAt l buf (consumed + i) e := by
          have := Policy.FailsAt.append_left hacc hf
          rwa [List.take_append_drop, hlen] at this
        have hstep : loop (bulkConsumeFullSliceBody C buf) (s, consumed)
            = ok (s1, .error ⟨consumed, e⟩) := by
          rw [loop_unfold]; simp [bulkConsumeFullSliceBody, hlt, hbc]
        refine ⟨fun ha => absurd ha hf'.not_accepts, fun k e' hk => ?_⟩
        obtain ⟨rfl, rfl⟩ := hf'.unique hk
        refine ⟨s1, consumed, by omega, hstep, ?_, s, hbc⟩
        rwa [List.append_assoc, ← List.take_add] at hD
    · exact ih consumed s (by omega) hle hs hacc

/-- **C07**: for every lawful bulk consumer, `bulk_consume_full_slice(buf)` always returns, succeeds and fails (with
the same reason) exactly when `consume_full_slice(buf)` does, and in both cases exactly the same items have been consumed;
the count in its error is at most the number of items actually consumed. -/
theorem bulk_consume_full_slice_spec {C : BulkConsumer σ I F E} {D : σ → List I → Option F → Prop}
    {q : Policy I F E} {s : σ} {l : List I} (h : BulkCollects C D q s l) (buf : List I) :
    (q.Accepts l buf →
      (∃ s', bulkConsumeFullSlice C s buf = ok (s', .ok ()) ∧ BulkCollects C D q s' (l ++ buf)) ∧
      (∃ s', consumeFullSlice C.toConsumer s buf = ok (s', .ok ()) ∧
        Collects C.toConsumer D q s' (l ++ buf))) ∧
    (∀ k e, q.FailsAt l buf k e →
      (∃ s' count, count ≤ k ∧ bulkConsumeFullSlice C s buf = ok (s', .error ⟨count, e⟩) ∧
        D s' (l ++ buf.take k) none) ∧
      (∃ s', consumeFullSlice C.toConsumer s buf = ok (s', .error ⟨k, e⟩) ∧ D s' (l ++ buf.take k) none)) := by
  have h' := h.toCollects
  obtain ⟨R, hR, slots, hs⟩ := h
  have := bulkConsumeFullSlice_aux hR buf l buf.length 0 s (by omega) (by omega) ⟨slots, by simpa using hs⟩ (by simp)
  refine ⟨fun ha => ⟨?_, (consume_full_slice_spec h' buf).1 ha⟩,
    fun k e hf => ⟨?_, (consume_full_slice_spec h' buf).2 k e hf⟩⟩
  · obtain ⟨s', h1, h2⟩ := this.1 ha
    exact ⟨s', h1, R, hR, h2⟩
  · obtain ⟨s', count, h1, h2, h3, _⟩ := this.2 k e hf
    exact ⟨s', count, h1, h2, h3⟩

/-- Both methods report the same for a slice that does not fit. -/
example : ∃ s' s'' count, bulkConsumeFullSlice Case.C (Case.con 2) [5, 6, 7] = ok (s', .error ⟨count, "full"⟩) ∧
    consumeFullSlice Case.C.toConsumer (Case.con 2) [5, 6, 7] = ok (s'', .error ⟨2, "full"⟩) ∧
    s'.Seen [5, 6] none ∧ s''.Seen [5, 6] none := by
  obtain ⟨⟨s', count, _, h1, h2⟩, s'', h3, h4⟩ := (bulk_consume_full_slice_spec (Case.collects 2) [5, 6, 7]).2 2 "full"
    (Case.fails (by decide) (by decide))
  exact ⟨s', s'', count, h1, h3, h2, h4⟩

/-- A slice that fits. -/
example : BulkCollects Case.C TestConsumer.Seen (Case.policy 3) (Case.con 3) [] ∧ (Case.policy 3).Accepts [] [5, 6, 7] :=
  ⟨Case.collects 3, Case.accepts (by decide)⟩

/-- **C07**, exactness of the count: if `bulk_consume` of the consumer fails only if not even the first item is accepted, the
error count is the number of items consumed. -/
theorem bulk_consume_full_slice_count {C : BulkConsumer σ I F E} {D : σ → List I → Option F → Prop}
    {q : Policy I F E} {s : σ} {l : List I} {R : σ → List I → List I → Prop} (hR : BulkCollectsLaw C D q R)
    (hs : ∃ slots, R s l slots) (buf : List I)
    (hstart : AllOrFirst C q R) (k : Nat) (e : E) (hf : q.FailsAt l buf k e) :
    ∃ s', bulkConsumeFullSlice C s buf = ok (s', .error ⟨k, e⟩) ∧ D s' (l ++ buf.take k) none := by
  suffices H : ∀ n consumed s, buf.length - consumed ≤ n → consumed ≤ buf.length →
      (∃ slots, R s (l ++ buf.take consumed) slots) → q.Accepts l (buf.take consumed) →
      ∃ s', loop (bulkConsumeFullSliceBody C buf) (s, consumed) = ok (s', .error ⟨k, e⟩) ∧
        D s' (l ++ buf.take k) none by
    obtain ⟨slots, hs⟩ := hs
    exact H buf.length 0 s (by omega) (by omega) ⟨slots, by simpa using hs⟩ (by simp)
  intro n
  induction n with
  | zero =>
    intro consumed s hn hle hs hacc
    have hc : consumed = buf.length := by omega
    subst hc
    rw [List.take_length] at hacc
    exact absurd hacc hf.not_accepts
  | succ n ih =>
    intro consumed s hn hle hs hacc
    have hlt : consumed < buf.length := by
      rcases Nat.lt_or_ge consumed buf.length with h | h
      · exact h
      · rw [List.take_of_length_le h] at hacc
        exact absurd hacc hf.not_accepts
    obtain ⟨slots, hs⟩ := hs
    have hne : buf.drop consumed ≠ [] := by
      intro h0; have := congrArg List.length h0; simp at this; omega
    obtain ⟨s1, ⟨m, hk0, hkl, hka, hbc, slots', hR'⟩ | ⟨i, e', hf', hbc, hD⟩⟩ :=
      hR.bulkConsume s _ slots (buf.drop consumed) hs hne
    · rw [List.length_drop] at hkl
      have htake : buf.take consumed ++ (buf.drop consumed).take m = buf.take (consumed + m) := by
        rw [List.take_add]
      rw [List.append_assoc, htake] at hR'
      have hacc' : q.Accepts l (buf.take (consumed + m)) := by
        rw [← htake, Policy.accepts_append]; exact ⟨hacc, hka⟩
      have hstep : loop (bulkConsumeFullSliceBody C buf) (s, consumed)
          = loop (bulkConsumeFullSliceBody C buf) (s1, consumed + m) := by
        rw [loop_unfold]; simp [bulkConsumeFullSliceBody, hlt, hbc]
      rw [hstep]
      exact ih (consumed + m) s1 (by omega) (by omega) ⟨slots', hR'⟩ hacc'
    · obtain ⟨y, ys, hy, href⟩ := hstart _ _ _ _ _ _ hs hne hbc
      have hi : i = 0 := by
        rcases Nat.eq_zero_or_pos i with h0 | h0
        · exact h0
        · obtain ⟨hacc0, _⟩ := hf'
          have := hacc0 0 y (by rw [List.getElem?_take_of_lt h0, hy]; rfl)
          simp [href] at this
      subst hi
      have hlen : (buf.take consumed).length = consumed := by simp; omega
      have hf2 : q.FailsAt l buf (consumed + 0) e' := by
        have := Policy.FailsAt.append_left hacc hf'
        rwa [List.take_append_drop, hlen] at this
      obtain ⟨h1, rfl⟩ := hf2.unique hf
      rw [Nat.add_zero] at h1; subst h1
      refine ⟨s1, ?_, ?_⟩
      · rw [loop_unfold]; simp [bulkConsumeFullSliceBody, hlt, hbc]
      · rw [List.append_assoc, ← List.take_add, Nat.add_zero] at hD; exact hD

example : ∃ s', bulkConsumeFullSlice Case.C (Case.con 2) [5, 6, 7] = ok (s', .error ⟨2, "full"⟩) ∧ s'.Seen [5, 6] none :=
  bulk_consume_full_slice_count (TestConsumer.law true 2 "full") ⟨[], TestConsumer.ready_new true "full" 2 _ none⟩ [5, 6, 7]
    (TestConsumer.all_or_first true 2 "full") 2 "full" (Case.fails (by decide) (by decide))

/-! ### C08 -/

theorem overwriteFullSliceFrom_ok_iff (P : Producer σ I F E) (s : σ) (written todo : List I) (s' : σ)
    (out : List I) :
    overwriteFullSliceFrom P s written todo = ok (s', .ok (), out) ↔
      ∃ xs, xs.length = todo.length ∧ Emits P s xs s' ∧ out = written ++ xs := by
  induction todo generalizing s written with
  | nil =>
    constructor
    · intro h
      simp [overwriteFullSliceFrom] at h
      obtain ⟨rfl, rfl⟩ := h
      exact ⟨[], rfl, .nil _, by simp⟩
    · rintro ⟨xs, h1, h2, rfl⟩
      have : xs = [] := List.length_eq_zero_iff.mp h1
      subst this
      cases h2
      simp [overwriteFullSliceFrom]
  | cons old todo ih =>
    constructor
    · intro h
      rw [overwriteFullSliceFrom] at h
      cases hc : P.produce s with
      | panic => simp [hc] at h
      | diverge => simp [hc] at h
      | ok r =>
        obtain ⟨s1, r⟩ := r
        cases r with
        | error e => simp [hc] at h
        | ok r =>
          cases r with
          | inr f => simp [hc] at h
          | inl x =>
            simp only [hc, bind_eq, bind_ok] at h
            obtain ⟨xs, h1, h2, h3⟩ := (ih _ _).mp h
            exact ⟨x :: xs, by simp [h1], .cons hc h2, by simp [h3]⟩
    · rintro ⟨xs, h1, h2, rfl⟩
      cases h2 with
      | nil => simp at h1
      | cons hc hrest =>
        rw [overwriteFullSliceFrom, hc]
        simp only [bind_eq, bind_ok]
        rw [ih]
        exact ⟨_, by simpa using h1, hrest, by simp⟩

theorem overwriteFullSliceFrom_err_iff (P : Producer σ I F E) (s : σ) (written todo : List I) (s' : σ)
    (out : List I) (n : Nat) (r : F ⊕ E) :
    overwriteFullSliceFrom P s written todo = ok (s', .error ⟨n, r⟩, out) ↔
      ∃ xs s₁, xs.length < todo.length ∧ n = written.length + xs.length ∧ Emits P s xs s₁ ∧
        P.produce s₁ = ok (s', Sum.elim (fun f => .ok (.inr f)) (fun e => .error e) r) ∧
        out = written ++ xs ++ todo.drop xs.length := by
  induction todo generalizing s written with
  | nil => simp [overwriteFullSliceFrom]
  | cons old todo ih =>
    constructor
    · intro h
      rw [overwriteFullSliceFrom] at h
      cases hc : P.produce s with
      | panic => simp [hc] at h
      | diverge => simp [hc] at h
      | ok a =>
        obtain ⟨s1, a⟩ := a
        cases a with
        | error e =>
          simp [hc] at h
          obtain ⟨rfl, ⟨rfl, rfl⟩, rfl⟩ := h
          exact ⟨[], s, by simp, by simp, .nil _, by simp [hc], by simp⟩
        | ok a =>
          cases a with
          | inr f =>
            simp [hc] at h
            obtain ⟨rfl, ⟨rfl, rfl⟩, rfl⟩ := h
            exact ⟨[], s, by simp, by simp, .nil _, by simp [hc], by simp⟩
          | inl x =>
            simp only [hc, bind_eq, bind_ok] at h
            obtain ⟨xs, s2, h1, h2, h3, h4, h5⟩ := (ih _ _).mp h
            exact ⟨x :: xs, s2, by simpa using h1, by simp at h2 ⊢; omega, .cons hc h3, h4, by simp [h5]⟩
    · rintro ⟨xs, s1, h1, h2, h3, h4, rfl⟩
      rw [overwriteFullSliceFrom]
      cases h3 with
      | nil =>
        cases r with
        | inl f => simp [h4, h2]
        | inr e => simp [h4, h2]
      | cons hc hrest =>
        simp only [hc, bind_eq, bind_ok]
        rw [ih]
        exact ⟨_, s1, by simpa using h1, by simp at h2 ⊢; omega, hrest, h4, by simp⟩

/-- **C08**, for every producer whatsoever: `overwrite_full_slice(buf)` returns `Ok` exactly if producing `buf.len()`
times yields items only, and then the buffer holds exactly those; it returns an error with count `k` exactly if producing
yields `k < buf.len()` items `xs` and then the reported final value or error, and then the buffer holds `xs` followed by its
old contents. -/
theorem overwrite_full_slice_exact (P : Producer σ I F E) (s : σ) (buf : List I) (s' : σ) (out : List I) :
    (overwriteFullSlice P s buf = ok (s', .ok (), out) ↔ out.length = buf.length ∧ Emits P s out s') ∧
    (∀ k f, overwriteFullSlice P s buf = ok (s', .error ⟨k, .inl f⟩, out) ↔
      ∃ xs s₁, xs.length = k ∧ k < buf.length ∧ Emits P s xs s₁ ∧ P.produce s₁ = ok (s', .ok (.inr f)) ∧
        out = xs ++ buf.drop k) ∧
    (∀ k e, overwriteFullSlice P s buf = ok (s', .error ⟨k, .inr e⟩, out) ↔
      ∃ xs s₁, xs.length = k ∧ k < buf.length ∧ Emits P s xs s₁ ∧ P.produce s₁ = ok (s', .error e) ∧
        out = xs ++ buf.drop k) := by
  unfold overwriteFullSlice
  refine ⟨?_, fun k f => ?_, fun k e => ?_⟩
  · rw [overwriteFullSliceFrom_ok_iff]
    constructor
    · rintro ⟨xs, h1, h2, rfl⟩; exact ⟨by simpa using h1, by simpa using h2⟩
    · rintro ⟨h1, h2⟩; exact ⟨out, h1, h2, by simp⟩
  all_goals
    rw [overwriteFullSliceFrom_err_iff]
    constructor
    · rintro ⟨xs, s₁, h1, h2, h3, h4, rfl⟩
      simp at h2; subst h2
      exact ⟨xs, s₁, rfl, h1, h3, h4, by simp⟩
    · rintro ⟨xs, s₁, rfl, h2, h3, h4, rfl⟩
      exact ⟨xs, s₁, h2, by simp, h3, h4, by simp⟩

/-- A buffer that is filled, one that meets the final value, and one that meets an error. -/
example : ∃ s₁ s₂ s₃, overwriteFullSlice Case.P.toProducer (Case.pro (.ok ())) [0, 0] = ok (s₁, .ok (), [1, 2]) ∧
    overwriteFullSlice Case.P.toProducer (Case.pro (.ok ())) [0, 0, 0, 9] = ok (s₂, .error ⟨3, .inl ()⟩, [1, 2, 3, 9]) ∧
    overwriteFullSlice Case.P.toProducer (Case.pro (.error "bad")) [0, 0, 0, 9] = ok (s₃, .error ⟨3, .inr "bad"⟩, [1, 2, 3, 9]) :=
  ⟨_, _, _, (overwrite_full_slice_exact _ _ _ _ _).1.mpr ⟨rfl, .cons rfl (.cons rfl (.nil _))⟩,
    ((overwrite_full_slice_exact _ _ _ _ _).2.1 3 ()).mpr
      ⟨[1, 2, 3], _, rfl, by decide, .cons rfl (.cons rfl (.cons rfl (.nil _))), rfl, rfl⟩,
    ((overwrite_full_slice_exact _ _ _ _ _).2.2 3 "bad").mpr
      ⟨[1, 2, 3], _, rfl, by decide, .cons rfl (.cons rfl (.cons rfl (.nil _))), rfl, rfl⟩⟩

/-- **C08**, in terms of the sequence of the producer: it always returns, and the result is determined by the sequence. -/
theorem overwrite_full_slice_spec {P : Producer σ I F E} {s : σ} {c : Script I F E} (h : Plays P s c)
    (buf : List I) :
    (∀ xs, xs.length = buf.length → c.StartsWith xs →
      ∃ s', overwriteFullSlice P s buf = ok (s', .ok (), xs) ∧ Plays P s' (c.drop buf.length)) ∧
    (∀ xs f, xs.length < buf.length → c.StartsWith xs → c xs.length = .ok (.inr f) →
      ∃ s', overwriteFullSlice P s buf = ok (s', .error ⟨xs.length, .inl f⟩, xs ++ buf.drop xs.length)) ∧
    (∀ xs e, xs.length < buf.length → c.StartsWith xs → c xs.length = .error e →
      ∃ s', overwriteFullSlice P s buf = ok (s', .error ⟨xs.length, .inr e⟩, xs ++ buf.drop xs.length)) := by
  refine ⟨fun xs hl hsw => ?_, fun xs f hl hsw hf => ?_, fun xs e hl hsw he => ?_⟩
  · obtain ⟨s', h1, h2⟩ := h.emits hsw
    exact ⟨s', (overwrite_full_slice_exact P s buf s' xs).1.mpr ⟨hl, h1⟩, by rwa [hl] at h2⟩
  · obtain ⟨s1, h1, h2⟩ := h.emits hsw
    obtain ⟨s', h3, _⟩ := h2.step
    simp only [Script.drop_apply, Nat.add_zero, hf] at h3
    exact ⟨s', ((overwrite_full_slice_exact P s buf s' _).2.1 _ _).mpr ⟨xs, s1, rfl, hl, h1, h3, rfl⟩⟩
  · obtain ⟨s1, h1, h2⟩ := h.emits hsw
    obtain ⟨s', h3, _⟩ := h2.step
    simp only [Script.drop_apply, Nat.add_zero, he] at h3
    exact ⟨s', ((overwrite_full_slice_exact P s buf s' _).2.2 _ _).mpr ⟨xs, s1, rfl, hl, h1, h3, rfl⟩⟩

example : Plays Case.P.toProducer (Case.pro (.error "bad")) (Case.script (.error "bad")) ∧
    (Case.script (.error "bad")).StartsWith [1, 2, 3] ∧ Case.script (.error "bad") [1, 2, 3].length = .error "bad" ∧
    [1, 2, 3].length < [0, 0, 0, 0].length :=
  ⟨(Case.plays _).toPlays, Case.script_starts _, Case.script_end _, by decide⟩

/-- **C08**, `produce_item`: the next item, or an error that carries the final value or the error (and count 0). -/
theorem produce_item_exact (P : Producer σ I F E) (s s' : σ) :
    (∀ x, produceItem P s = ok (s', .ok x) ↔ P.produce s = ok (s', .ok (.inl x))) ∧
    (∀ k f, produceItem P s = ok (s', .error ⟨k, .inl f⟩) ↔ k = 0 ∧ P.produce s = ok (s', .ok (.inr f))) ∧
    (∀ k e, produceItem P s = ok (s', .error ⟨k, .inr e⟩) ↔ k = 0 ∧ P.produce s = ok (s', .error e)) := by
  unfold produceItem
  rcases P.produce s with ⟨s1, e | x | f⟩ | _ | _ <;> simp <;> grind

/-- An item; then, at the end, the error. -/
example : ∃ s₁ s₂ s₃, produceItem Case.P.toProducer (Case.pro (.error "bad")) = ok (s₁, .ok 1) ∧
    Emits Case.P.toProducer s₁ [2, 3] s₂ ∧ produceItem Case.P.toProducer s₂ = ok (s₃, .error ⟨0, .inr "bad"⟩) :=
  ⟨_, _, _, rfl, .cons rfl (.cons rfl (.nil _)), rfl⟩

/-! ### C09 -/

theorem bulkOverwriteFullSlice_aux {P : BulkProducer σ I F E} {R : σ → Script I F E → Nat → Prop}
    (hR : BulkPlaysLaw P R) :
    ∀ n s c buf pre, buf.length ≤ n → (∃ m, R s c m) →
    (∀ xs, xs.length = buf.length → c.StartsWith xs →
      ∃ s', loop (bulkOverwriteFullSliceBody P) (s, pre ++ buf, pre.length) = ok (s', .ok (), pre ++ xs) ∧
        ∃ m, R s' (c.drop buf.length) m) ∧
    (∀ xs f, xs.length < buf.length → c.StartsWith xs → c xs.length = .ok (.inr f) →
      ∃ s' out, loop (bulkOverwriteFullSliceBody P) (s, pre ++ buf, pre.length) =
        ok (s', .error ⟨pre.length + xs.length, .inl f⟩, pre ++ xs ++ out) ∧
        out.length = buf.length - xs.length) ∧
    (∀ xs e, xs.length < buf.length → c.StartsWith xs → c xs.length = .error e →
      ∃ s' out, loop (bulkOverwriteFullSliceBody P) (s, pre ++ buf, pre.length) =
        ok (s', .error ⟨pre.length + xs.length, .inr e⟩, pre ++ xs ++ out) ∧
        out.length = buf.length - xs.length) := by
  intro n
  induction n with
  | zero =>
    intro s c buf pre hn hs
    have : buf = [] := List.length_eq_zero_iff.mp (by omega)
    subst this
    refine ⟨fun xs hl hsw => ?_, fun xs f hl => ?_, fun xs e hl => ?_⟩
    · have : xs = [] := List.length_eq_zero_iff.mp hl
      subst this
      refine ⟨s, ?_, by simpa using hs⟩
      rw [loop_unfold]; simp [bulkOverwriteFullSliceBody]
    · simp at hl
    · simp at hl
  | succ n ih =>
    intro s c buf pre hn hs
    by_cases hbuf : buf = []
    · subst hbuf; exact ih s c [] pre (by simp) hs
    · obtain ⟨m, hs⟩ := hs
      have hlt : pre.length < (pre ++ buf).length := by
        have := List.length_pos_iff.mpr hbuf
        simp; omega
      obtain ⟨s1, buf', hlen, ⟨k, hk0, hkl, hbp, hsw, hR'⟩ | ⟨f, hf, hbp⟩ | ⟨e, he, hbp⟩⟩ :=
        hR.bulkProduce s c m buf hs hbuf
      · have hk : (buf'.take k).length = k := by simp; omega
        have hstep : loop (bulkOverwriteFullSliceBody P) (s, pre ++ buf, pre.length) =
            loop (bulkOverwriteFullSliceBody P) (s1, (pre ++ buf'.take k) ++ buf'.drop k,
              (pre ++ buf'.take k).length) := by
          rw [loop_unfold]
          simp only [bulkOverwriteFullSliceBody, hlt, if_true, List.drop_left, hbp, bind_eq, bind_ok,
            List.take_left, pure_eq]
          rw [List.append_assoc, List.take_append_drop, List.length_append, hk]
        have := ih s1 (c.drop k) (buf'.drop k) (pre ++ buf'.take k) (by simp; omega) hR'
        rw [hstep]
        -- the items of any long enough start of the script agree with what was produced
        have hpre : ∀ xs : List I, c.StartsWith xs → k ≤ xs.length → xs.take k = buf'.take k := by
          intro xs hxs hle
          have := hsw.prefix hxs (by omega)
          rw [hk] at this; exact this.symm
        have hle_of_end : ∀ xs : List I, (∀ x, c xs.length ≠ .ok (.inl x)) → k ≤ xs.length := by
          intro xs hx
          rcases Nat.lt_or_ge xs.length k with h | h
          · have h' : xs.length < (buf'.take k).length := by omega
            exact absurd (hsw xs.length _ (List.getElem?_eq_getElem h')) (hx _)
          · exact h
        refine ⟨fun xs hl hxs => ?_, fun xs f hl hxs hf => ?_, fun xs e hl hxs he => ?_⟩
        · obtain ⟨s', h1, h2⟩ := this.1 (xs.drop k) (by simp; omega) (hxs.drop (by omega))
          refine ⟨s', ?_, ?_⟩
          · rw [h1, ← hpre xs hxs (by omega), List.append_assoc, List.take_append_drop]
          · simp only [Script.drop_drop, List.length_drop] at h2
            rwa [show k + (buf'.length - k) = buf.length by omega] at h2
        · have hkx := hle_of_end xs (by simp [hf])
          obtain ⟨s', out, h1, h2⟩ := this.2.1 (xs.drop k) f (by simp; omega) (hxs.drop (by omega))
            (by simp [hf, Nat.add_sub_cancel' hkx])
          refine ⟨s', out, ?_, ?_⟩
          · rw [h1, ← hpre xs hxs (by omega)]
            simp only [List.append_assoc, List.length_append, List.length_drop, List.length_take]
            rw [Nat.min_eq_left hkx, show pre.length + k + (xs.length - k) = pre.length + xs.length by omega,
              ← List.append_assoc (xs.take k), List.take_append_drop]
          · simp at h2; omega
        · have hkx := hle_of_end xs (by simp [he])
          obtain ⟨s', out, h1, h2⟩ := this.2.2 (xs.drop k) e (by simp; omega) (hxs.drop (by omega))
            (by simp [he, Nat.add_sub_cancel' hkx])
          refine ⟨s', out, ?_, ?_⟩
          · rw [h1, ← hpre xs hxs (by omega)]
            simp only [List.append_assoc, List.length_append, List.length_drop, List.length_take]
            rw [Nat.min_eq_left hkx, show pre.length + k + (xs.length - k) = pre.length + xs.length by omega,
              ← List.append_assoc (xs.take k), List.take_append_drop]
          · simp at h2; omega
      · have hstep : loop (bulkOverwriteFullSliceBody P) (s, pre ++ buf, pre.length) =
            ok (s1, .error ⟨pre.length, .inl f⟩, pre ++ buf') := by
          rw [loop_unfold]
          simp only [bulkOverwriteFullSliceBody, hlt, if_true, List.drop_left, hbp, bind_eq, bind_ok,
            List.take_left, pure_eq]
        have hnil : ∀ xs : List I, c.StartsWith xs → xs = [] := by
          intro xs hxs
          rcases xs with _ | ⟨x, xs⟩
          · rfl
          · have hx := (Script.startsWith_cons.mp hxs).1
            rw [hf] at hx; simp at hx
        refine ⟨fun xs hl hxs => ?_, fun xs f' hl hxs hf' => ?_, fun xs e hl hxs he => ?_⟩
        · have := hnil xs hxs; subst this
          exact absurd (List.length_eq_zero_iff.mp hl.symm) hbuf
        · have := hnil xs hxs; subst this
          simp only [List.length_nil, hf] at hf'
          injection hf' with hf'; injection hf' with hf'; subst hf'
          exact ⟨s1, buf', by simpa using hstep, by simpa using hlen⟩
        · have := hnil xs hxs; subst this
          simp [hf] at he
      · have hstep : loop (bulkOverwriteFullSliceBody P) (s, pre ++ buf, pre.length) =
            ok (s1, .error ⟨pre.length, .inr e⟩, pre ++ buf') := by
          rw [loop_unfold]
          simp only [bulkOverwriteFullSliceBody, hlt, if_true, List.drop_left, hbp, bind_eq, bind_ok,
            List.take_left, pure_eq]
        have hnil : ∀ xs : List I, c.StartsWith xs → xs = [] := by
          intro xs hxs
          rcases xs with _ | ⟨x, xs⟩
          · rfl
          · have hx := (Script.startsWith_cons.mp hxs).1
            rw [he] at hx; simp at hx
        refine ⟨fun xs hl hxs => ?_, fun xs f' hl hxs hf' => ?_, fun xs e' hl hxs he' => ?_⟩
        · have := hnil xs hxs; subst this
          exact absurd (List.length_eq_zero_iff.mp hl.symm) hbuf
        · have := hnil xs hxs; subst this
          simp [he] at hf'
        · have := hnil xs hxs; subst this
          simp only [List.length_nil, he] at he'
          injection he' with he'; subst he'
          exact ⟨s1, buf', by simpa using hstep, by simpa using hlen⟩

/-- **C09**: for every lawful bulk producer, `bulk_overwrite_full_slice(buf)` always returns, and result, count and
filled part of the buffer are the same as for `overwrite_full_slice(buf)`; after success the producer is directly after the
items written. -/
theorem bulk_overwrite_full_slice_spec {P : BulkProducer σ I F E} {s : σ} {c : Script I F E} (h : BulkPlays P s c)
    (buf : List I) :
    (∀ xs, xs.length = buf.length → c.StartsWith xs →
      (∃ s', bulkOverwriteFullSlice P s buf = ok (s', .ok (), xs) ∧ BulkPlays P s' (c.drop buf.length)) ∧
      (∃ s', overwriteFullSlice P.toProducer s buf = ok (s', .ok (), xs) ∧
        Plays P.toProducer s' (c.drop buf.length))) ∧
    (∀ xs f, xs.length < buf.length → c.StartsWith xs → c xs.length = .ok (.inr f) →
      (∃ s' out, bulkOverwriteFullSlice P s buf = ok (s', .error ⟨xs.length, .inl f⟩, xs ++ out) ∧
        (xs ++ out).length = buf.length) ∧
      (∃ s', overwriteFullSlice P.toProducer s buf =
        ok (s', .error ⟨xs.length, .inl f⟩, xs ++ buf.drop xs.length))) ∧
    (∀ xs e, xs.length < buf.length → c.StartsWith xs → c xs.length = .error e →
      (∃ s' out, bulkOverwriteFullSlice P s buf = ok (s', .error ⟨xs.length, .inr e⟩, xs ++ out) ∧
        (xs ++ out).length = buf.length) ∧
      (∃ s', overwriteFullSlice P.toProducer s buf =
        ok (s', .error ⟨xs.length, .inr e⟩, xs ++ buf.drop xs.length))) := by
  have h0 := overwrite_full_slice_spec h.toPlays buf
  obtain ⟨R, hR, hs⟩ := h
  have := bulkOverwriteFullSlice_aux hR buf.length s c buf [] (Nat.le_refl _) hs
  refine ⟨fun xs hl hsw => ⟨?_, h0.1 xs hl hsw⟩, fun xs f hl hsw hf => ⟨?_, h0.2.1 xs f hl hsw hf⟩,
    fun xs e hl hsw he => ⟨?_, h0.2.2 xs e hl hsw he⟩⟩
  · obtain ⟨s', h1, h2⟩ := this.1 xs hl hsw
    exact ⟨s', by simpa [bulkOverwriteFullSlice] using h1, R, hR, h2⟩
  · obtain ⟨s', out, h1, h2⟩ := this.2.1 xs f hl hsw hf
    exact ⟨s', out, by simpa [bulkOverwriteFullSlice] using h1, by simp; omega⟩
  · obtain ⟨s', out, h1, h2⟩ := this.2.2 xs e hl hsw he
    exact ⟨s', out, by simpa [bulkOverwriteFullSlice] using h1, by simp; omega⟩

/-- A buffer that is filled and one that meets the error. -/
example : ∃ s₁ s₂ out, bulkOverwriteFullSlice Case.P (Case.pro (.error "bad")) [0, 0] = ok (s₁, .ok (), [1, 2]) ∧
    bulkOverwriteFullSlice Case.P (Case.pro (.error "bad")) [0, 0, 0, 0] = ok (s₂, .error ⟨3, .inr "bad"⟩, [1, 2, 3] ++ out) := by
  obtain ⟨⟨s₁, h1, _⟩, _⟩ := (bulk_overwrite_full_slice_spec (Case.plays (.error "bad")) [0, 0]).1 [1, 2] rfl
    ((Case.script_starts _).take 2)
  obtain ⟨⟨s₂, out, h2, _⟩, _⟩ := (bulk_overwrite_full_slice_spec (Case.plays (.error "bad")) [0, 0, 0, 0]).2.2 [1, 2, 3] "bad"
    (by decide) (Case.script_starts _) (Case.script_end _)
  exact ⟨s₁, s₂, out, h1, h2⟩

end

end Verif
