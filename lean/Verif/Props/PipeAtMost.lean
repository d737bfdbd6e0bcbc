import Verif.Props.Pipe

/-!
# C12–C14: the bounded piping functions
-/

namespace Verif

open Outcome

section

variable {σ τ I F E₁ E₂ : Type}

/-! ### C12: `pipe_at_most`, for all producers and consumers whatsoever -/

theorem pipeAtMost_inv {P : Producer σ I F E₁} {C : Consumer τ I F E₂} {count : Nat} {s : σ} {t : τ}
    {r : (σ × τ) × Except (PipeError E₁ E₂) Nat} (h : pipeAtMost P C s t count = ok r) :
    ∃ xs s₁ t₁, xs.length ≤ count ∧ Emits P s xs s₁ ∧ Consumes C t xs t₁ ∧
      pipeAtMostBody P C count (s₁, t₁, xs.length) = ok (.done r) := by
  obtain ⟨n, hn⟩ := loop_ok_fuel h
  simpa using pipeAtMost_fuel_inv P C count n s t 0 (Nat.zero_le _) r hn

theorem pipeAtMost_of_body {P : Producer σ I F E₁} {C : Consumer τ I F E₂} {count : Nat} {s s₁ : σ} {t t₁ : τ}
    {r : (σ × τ) × Except (PipeError E₁ E₂) Nat} {xs : List I} (hle : xs.length ≤ count) (h1 : Emits P s xs s₁)
    (h2 : Consumes C t xs t₁) (h3 : pipeAtMostBody P C count (s₁, t₁, xs.length) = ok (.done r)) :
    pipeAtMost P C s t count = ok r := by
  unfold pipeAtMost
  rw [pipeAtMost_skip h1 h2 (by simpa using hle), loop_unfold, Nat.zero_add, h3]

/-- **C12**: `pipe_at_most(p, c, count)` returns `Ok(k)` exactly in two cases: `k = count` and exactly the next `count` items
of the producer were consumed, nothing else happened to either side; or `k < count`, exactly `k` items were consumed, then the
producer emitted its final value and the consumer was closed with it. -/
theorem pipe_at_most_ok_iff (P : Producer σ I F E₁) (C : Consumer τ I F E₂) (count k : Nat) (s s' : σ) (t t' : τ) :
    pipeAtMost P C s t count = ok ((s', t'), .ok k) ↔
      (k = count ∧ ∃ xs, xs.length = count ∧ Emits P s xs s' ∧ Consumes C t xs t') ∨
      (k < count ∧ ∃ xs f s₁ t₁, xs.length = k ∧ Emits P s xs s₁ ∧ P.produce s₁ = ok (s', .ok (.inr f)) ∧
        Consumes C t xs t₁ ∧ C.close t₁ f = ok (t', .ok ())) := by
  constructor
  · intro h
    obtain ⟨xs, s₁, t₁, hle, h1, h2, h3⟩ := pipeAtMost_inv h
    simp only [pipeAtMostBody] at h3
    by_cases hlt : xs.length < count
    · right
      simp only [hlt, if_true] at h3
      rcases hp : P.produce s₁ with ⟨s2, e | x | f⟩ | _ | _
      · simp [hp] at h3
      · simp only [hp, bind_eq, bind_ok] at h3
        rcases hc : C.consume t₁ x with ⟨t2, e | u⟩ | _ | _ <;> simp [hc] at h3
      · simp only [hp, bind_eq, bind_ok] at h3
        rcases hc : C.close t₁ f with ⟨t2, e | u⟩ | _ | _
        · simp [hc] at h3
        · simp [hc] at h3
          obtain ⟨⟨rfl, rfl⟩, rfl⟩ := h3
          exact ⟨hlt, xs, f, s₁, t₁, rfl, h1, hp, h2, hc⟩
        · simp [hc] at h3
        · simp [hc] at h3
      · simp [hp] at h3
      · simp [hp] at h3
    · left
      simp [hlt] at h3
      obtain ⟨⟨rfl, rfl⟩, rfl⟩ := h3
      exact ⟨by omega, xs, by omega, h1, h2⟩
  · rintro (⟨rfl, xs, hl, h1, h2⟩ | ⟨hlt, xs, f, s₁, t₁, rfl, h1, h2, h3, h4⟩)
    · exact pipeAtMost_of_body (by omega) h1 h2 (by simp [pipeAtMostBody, hl])
    · exact pipeAtMost_of_body (by omega) h1 h3 (by simp [pipeAtMostBody, hlt, h2, h4])

/-- Two of three items; all three items and the final value. -/
example : ∃ s₁ t₁ s₂ t₂, pipeAtMost Case.P.toProducer Case.C.toConsumer (Case.pro (.ok ())) (Case.con 5) 2 = ok ((s₁, t₁), .ok 2) ∧
    pipeAtMost Case.P.toProducer Case.C.toConsumer (Case.pro (.ok ())) (Case.con 5) 4 = ok ((s₂, t₂), .ok 3) :=
  ⟨_, _, _, _, (pipe_at_most_ok_iff _ _ _ _ _ _ _ _).mpr (.inl ⟨rfl, [1, 2], rfl, .cons rfl (.cons rfl (.nil _)), .cons rfl (.cons rfl (.nil _))⟩),
    (pipe_at_most_ok_iff _ _ _ _ _ _ _ _).mpr (.inr ⟨by decide, [1, 2, 3], (), _, _, rfl,
      .cons rfl (.cons rfl (.cons rfl (.nil _))), rfl, .cons rfl (.cons rfl (.cons rfl (.nil _))), rfl⟩)⟩

/-- **C12**: producer errors are attributed as in `pipe`, and only fewer than `count` items were moved. -/
theorem pipe_at_most_producer_error_iff (P : Producer σ I F E₁) (C : Consumer τ I F E₂) (count : Nat) (s s' : σ)
    (t t' : τ) (e : E₁) :
    pipeAtMost P C s t count = ok ((s', t'), .error (.producer e)) ↔
      ∃ xs s₁, xs.length < count ∧ Emits P s xs s₁ ∧ P.produce s₁ = ok (s', .error e) ∧ Consumes C t xs t' := by
  constructor
  · intro h
    obtain ⟨xs, s₁, t₁, hle, h1, h2, h3⟩ := pipeAtMost_inv h
    simp only [pipeAtMostBody] at h3
    by_cases hlt : xs.length < count
    · simp only [hlt, if_true] at h3
      rcases hp : P.produce s₁ with ⟨s2, e | x | f⟩ | _ | _
      · simp [hp] at h3
        obtain ⟨⟨rfl, rfl⟩, rfl⟩ := h3
        exact ⟨xs, s₁, hlt, h1, hp, h2⟩
      · simp only [hp, bind_eq, bind_ok] at h3
        rcases hc : C.consume t₁ x with ⟨t2, e | u⟩ | _ | _ <;> simp [hc] at h3
      · simp only [hp, bind_eq, bind_ok] at h3
        rcases hc : C.close t₁ f with ⟨t2, e | u⟩ | _ | _ <;> simp [hc] at h3
      · simp [hp] at h3
      · simp [hp] at h3
    · simp [hlt] at h3
  · rintro ⟨xs, s₁, hlt, h1, h2, h3⟩
    exact pipeAtMost_of_body (by omega) h1 h3 (by simp [pipeAtMostBody, hlt, h2])

example : ∃ s₁ s' t', [1, 2, 3].length < 4 ∧ Emits Case.P.toProducer (Case.pro (.error "bad")) [1, 2, 3] s₁ ∧
    Case.P.produce s₁ = ok (s', .error "bad") ∧ Consumes Case.C.toConsumer (Case.con 5) [1, 2, 3] t' :=
  ⟨_, _, _, by decide, .cons rfl (.cons rfl (.cons rfl (.nil _))), rfl, .cons rfl (.cons rfl (.cons rfl (.nil _)))⟩

/-- **C12**: consumer errors are attributed as in `pipe`, and only fewer than `count` items were moved. -/
theorem pipe_at_most_consumer_error_iff (P : Producer σ I F E₁) (C : Consumer τ I F E₂) (count : Nat) (s s' : σ)
    (t t' : τ) (e : E₂) :
    pipeAtMost P C s t count = ok ((s', t'), .error (.consumer e)) ↔
      ∃ xs s₁ t₁, xs.length < count ∧ Emits P s xs s₁ ∧ Consumes C t xs t₁ ∧
        ((∃ x, P.produce s₁ = ok (s', .ok (.inl x)) ∧ C.consume t₁ x = ok (t', .error e)) ∨
         (∃ f, P.produce s₁ = ok (s', .ok (.inr f)) ∧ C.close t₁ f = ok (t', .error e))) := by
  constructor
  · intro h
    obtain ⟨xs, s₁, t₁, hle, h1, h2, h3⟩ := pipeAtMost_inv h
    simp only [pipeAtMostBody] at h3
    by_cases hlt : xs.length < count
    · refine ⟨xs, s₁, t₁, hlt, h1, h2, ?_⟩
      simp only [hlt, if_true] at h3
      rcases hp : P.produce s₁ with ⟨s2, e | x | f⟩ | _ | _
      · simp [hp] at h3
      · simp only [hp, bind_eq, bind_ok] at h3
        rcases hc : C.consume t₁ x with ⟨t2, e | u⟩ | _ | _
        · simp [hc] at h3
          obtain ⟨⟨rfl, rfl⟩, rfl⟩ := h3
          exact .inl ⟨x, rfl, hc⟩
        all_goals simp [hc] at h3
      · simp only [hp, bind_eq, bind_ok] at h3
        rcases hc : C.close t₁ f with ⟨t2, e | u⟩ | _ | _
        · simp [hc] at h3
          obtain ⟨⟨rfl, rfl⟩, rfl⟩ := h3
          exact .inr ⟨f, rfl, hc⟩
        all_goals simp [hc] at h3
      · simp [hp] at h3
      · simp [hp] at h3
    · simp [hlt] at h3
  · rintro ⟨xs, s₁, t₁, hlt, h1, h2, ⟨x, h3, h4⟩ | ⟨f, h3, h4⟩⟩
    · exact pipeAtMost_of_body (by omega) h1 h2 (by simp [pipeAtMostBody, hlt, h3, h4])
    · exact pipeAtMost_of_body (by omega) h1 h2 (by simp [pipeAtMostBody, hlt, h3, h4])

example : ∃ s₁ s' t₁ t', [1, 2].length < 3 ∧ Emits Case.P.toProducer (Case.pro (.ok ())) [1, 2] s₁ ∧
    Consumes Case.C.toConsumer (Case.con 2) [1, 2] t₁ ∧
    Case.P.produce s₁ = ok (s', .ok (.inl 3)) ∧ Case.C.consume t₁ 3 = ok (t', .error "full") :=
  ⟨_, _, _, _, by decide, .cons rfl (.cons rfl (.nil _)), .cons rfl (.cons rfl (.nil _)), rfl, rfl⟩

/-- **C12**: `pipe_at_most` always returns, whatever the (even infinite) producer, if the methods it calls do. -/
theorem pipe_at_most_terminates (P : Producer σ I F E₁) (C : Consumer τ I F E₂) (count : Nat) (s : σ) (t : τ)
    (hP : ∀ s, P.produce s ≠ .diverge) (hC : ∀ t x, C.consume t x ≠ .diverge) (hC' : ∀ t f, C.close t f ≠ .diverge) :
    pipeAtMost P C s t count ≠ .diverge := by
  unfold pipeAtMost
  suffices H : ∀ n s t i, count - i ≤ n → loop (pipeAtMostBody P C count) (s, t, i) ≠ .diverge from
    H count s t 0 (by omega)
  intro n
  induction n with
  | zero =>
    intro s t i hi
    rw [loop_unfold]
    have : ¬ i < count := by omega
    simp [pipeAtMostBody, this]
  | succ n ih =>
    intro s t i hi
    rw [loop_unfold]
    by_cases hlt : i < count
    · simp only [pipeAtMostBody, hlt, if_true]
      rcases hp : P.produce s with ⟨s2, e | x | f⟩ | _ | _
      · simp
      · simp only [bind_eq, bind_ok]
        rcases hc : C.consume t x with ⟨t2, e | u⟩ | _ | _
        · simp
        · simp only [bind_ok, pure_eq]
          exact ih s2 t2 (i + 1) (by omega)
        · simp
        · exact absurd hc (hC t x)
      · simp only [bind_eq, bind_ok]
        rcases hc : C.close t f with ⟨t2, e | u⟩ | _ | _
        · simp
        · simp
        · simp
        · exact absurd hc (hC' t f)
      · simp
      · exact absurd hp (hP s)
    · simp [pipeAtMostBody, hlt]

/-- Also for a producer and a consumer that would go on for ever. -/
example (count : Nat) : pipeAtMost Case.endless.toProducer Case.V.toConsumer 0 (IntoVec.fromVec []) count ≠ .diverge :=
  pipe_at_most_terminates _ _ _ _ _ (by intro s h; cases h) (by intro t x; simp [Case.V, IntoVec.consumer, IntoVec.consume, setIndex]; split <;> simp)
    (by intro t f h; cases h)

/-! ### What must come out of a bounded pipe, in terms of sequence and policy

`AtMostResult c q l count xs fin res`: as `PipeResult`, but stop without closing once `count` items have been moved. -/
inductive AtMostResult (c : Script I F E₁) (q : Policy I F E₂) (l : List I) (count : Nat) :
    List I → Option F → Except (PipeError E₁ E₂) Nat → Prop where
  | full {xs} : xs.length = count → c.StartsWith xs → q.Accepts l xs → AtMostResult c q l count xs none (.ok count)
  | closed {xs fin} : xs.length < count → PipeResult c q l xs fin (.ok ()) →
      AtMostResult c q l count xs fin (.ok xs.length)
  | failed {xs fin e} : xs.length < count → PipeResult c q l xs fin (.error e) →
      AtMostResult c q l count xs fin (.error e)

/-- There always is exactly one right result. -/
theorem AtMostResult.exists (c : Script I F E₁) (q : Policy I F E₂) (l : List I) (count : Nat) :
    ∃ xs fin res, AtMostResult c q l count xs fin res := by
  rcases PipeResult.exists_or_endless c q l with ⟨xs, fin, res, h⟩ | h
  · by_cases hlt : xs.length < count
    · cases res with
      | ok u => exact ⟨_, _, _, .closed hlt h⟩
      | error e => exact ⟨_, _, _, .failed hlt h⟩
    · exact ⟨_, _, _, .full (xs := xs.take count) (by simp; omega) (h.startsWith.take _) (h.accepts.take _)⟩
  · obtain ⟨xs, hl, h1, h2⟩ := h count
    exact ⟨_, _, _, .full hl h1 h2⟩

/-- Each way in which a bounded pipe can end. -/
example : AtMostResult (Case.script (.ok ())) (Case.policy 5) [] 2 [1, 2] none (.ok 2) ∧
    AtMostResult (Case.script (.ok ())) (Case.policy 5) [] 4 [1, 2, 3] (some ()) (.ok 3) ∧
    AtMostResult (Case.script (.error "bad")) (Case.policy 5) [] 4 [1, 2, 3] none (.error (.producer "bad")) ∧
    AtMostResult (Case.script (.ok ())) (Case.policy 2) [] 3 [1, 2] none (.error (.consumer "full")) :=
  ⟨.full rfl ((Case.script_starts _).take 2) (Case.accepts (by decide)),
    .closed (by decide) (.closed (Case.script_starts _) (Case.accepts (by decide)) (Case.script_end _) rfl),
    .failed (by decide) (.producerFailed (Case.script_starts _) (Case.accepts (by decide)) (Case.script_end _)),
    .failed (by decide) (.itemRefused ((Case.script_starts _).take 2) (Case.accepts (by decide)) (x := 3) rfl rfl)⟩

theorem AtMostResult.startsWith {c : Script I F E₁} {q : Policy I F E₂} {l xs : List I} {count fin res}
    (h : AtMostResult c q l count xs fin res) : c.StartsWith xs := by
  cases h with
  | full _ h _ => exact h
  | closed _ h => exact h.startsWith
  | failed _ h => exact h.startsWith

theorem AtMostResult.accepts {c : Script I F E₁} {q : Policy I F E₂} {l xs : List I} {count fin res}
    (h : AtMostResult c q l count xs fin res) : q.Accepts l xs := by
  cases h with
  | full _ _ h => exact h
  | closed _ h => exact h.accepts
  | failed _ h => exact h.accepts

theorem AtMostResult.length_le {c : Script I F E₁} {q : Policy I F E₂} {l xs : List I} {count fin res}
    (h : AtMostResult c q l count xs fin res) : xs.length ≤ count := by
  cases h <;> omega

theorem AtMostResult.unique {c : Script I F E₁} {q : Policy I F E₂} {l xs ys : List I} {count fin fin' res res'}
    (h : AtMostResult c q l count xs fin res) (h' : AtMostResult c q l count ys fin' res') :
    xs = ys ∧ fin = fin' ∧ res = res' := by
  have key : ∀ {xs ys : List I} {fin' : Option F} {res'}, xs.length = count → c.StartsWith xs → q.Accepts l xs →
      ys.length < count → PipeResult c q l ys fin' res' → False := by
    intro xs ys fin' res' hl h1 h2 hlt h
    have := (h.advance h1 h2).1
    omega
  cases h with
  | full hl h1 h2 =>
    cases h' with
    | full hl' h1' h2' =>
      have := h1.prefix h1' (by omega)
      rw [hl, ← hl', List.take_length] at this
      exact ⟨this, rfl, rfl⟩
    | closed hlt h => exact (key hl h1 h2 hlt h).elim
    | failed hlt h => exact (key hl h1 h2 hlt h).elim
  | closed hlt h =>
    cases h' with
    | full hl' h1' h2' => exact (key hl' h1' h2' hlt h).elim
    | closed hlt' h' =>
      obtain ⟨rfl, rfl, _⟩ := h.unique h'
      exact ⟨rfl, rfl, rfl⟩
    | failed hlt' h' => obtain ⟨_, _, h0⟩ := h.unique h'; cases h0
  | failed hlt h =>
    cases h' with
    | full hl' h1' h2' => exact (key hl' h1' h2' hlt h).elim
    | closed hlt' h' => obtain ⟨_, _, h0⟩ := h.unique h'; cases h0
    | failed hlt' h' =>
      obtain ⟨rfl, rfl, h0⟩ := h.unique h'
      injection h0 with h0; subst h0
      exact ⟨rfl, rfl, rfl⟩

/-- **C12**, in terms of sequence and policy: `pipe_at_most` returns exactly the result that must come out (see
`AtMostResult.exists`: there always is one), with exactly those items consumed; if it returns `Ok(count)`, the producer
is directly after the moved items and the consumer is open and has consumed exactly them. -/
theorem pipe_at_most_spec {P : Producer σ I F E₁} {C : Consumer τ I F E₂} {D : τ → List I → Option F → Prop}
    {c : Script I F E₁} {q : Policy I F E₂} {s : σ} {t : τ} {l : List I} (hP : Plays P s c) (hC : Collects C D q t l)
    {count : Nat} {xs : List I} {fin : Option F} {res : Except (PipeError E₁ E₂) Nat}
    (h : AtMostResult c q l count xs fin res) :
    ∃ s' t', pipeAtMost P C s t count = ok ((s', t'), res) ∧ D t' (l ++ xs) fin ∧
      (res = .ok count → xs.length = count ∧ Plays P s' (c.drop count) ∧ Collects C D q t' (l ++ xs)) := by
  obtain ⟨s1, hs1, hP1⟩ := hP.emits h.startsWith
  obtain ⟨t1, ht1, hC1⟩ := hC.consumes h.accepts
  obtain ⟨s2, hs2, hP2⟩ := hP1.step
  simp only [Script.drop_apply, Nat.add_zero] at hs2
  cases h with
  | full hl h1 h2 =>
    refine ⟨s1, t1, (pipe_at_most_ok_iff P C count count s s1 t t1).mpr (.inl ⟨rfl, xs, hl, hs1, ht1⟩),
      hC1.observe, fun _ => ⟨hl, ?_, hC1⟩⟩
    rwa [hl] at hP1
  | closed hlt h =>
    have hne : (Except.ok xs.length : Except (PipeError E₁ E₂) Nat) ≠ .ok count := by
      intro h0; injection h0 with h0; omega
    cases h with
    | closed _ _ hc hq =>
      obtain ⟨t2, ht2, hD⟩ := hC1.close_ok _ hq
      exact ⟨s2, t2, (pipe_at_most_ok_iff P C count _ s s2 t t2).mpr
        (.inr ⟨hlt, _, _, s1, t1, rfl, hs1, by rw [hs2, hc], ht1, ht2⟩), hD, fun h0 => absurd h0 hne⟩
  | failed hlt h =>
    cases h with
    | closeRefused _ _ hc hq =>
      obtain ⟨t2, ht2, hD⟩ := hC1.close_err _ hq
      exact ⟨s2, t2, (pipe_at_most_consumer_error_iff P C count s s2 t t2 _).mpr
        ⟨_, s1, t1, hlt, hs1, ht1, .inr ⟨_, by rw [hs2, hc], ht2⟩⟩, hD, by simp⟩
    | itemRefused _ _ hc hq =>
      obtain ⟨t2, ht2, hD⟩ := hC1.consume_err _ hq
      exact ⟨s2, t2, (pipe_at_most_consumer_error_iff P C count s s2 t t2 _).mpr
        ⟨_, s1, t1, hlt, hs1, ht1, .inl ⟨_, by rw [hs2, hc], ht2⟩⟩, hD, by simp⟩
    | producerFailed _ _ hc =>
      exact ⟨s2, t1, (pipe_at_most_producer_error_iff P C count s s2 t t1 _).mpr
        ⟨_, s1, hlt, hs1, by rw [hs2, hc], ht1⟩, hC1.observe, by simp⟩

example : ∃ s' t', pipeAtMost Case.P.toProducer Case.C.toConsumer (Case.pro (.ok ())) (Case.con 2) 2 = ok ((s', t'), .ok 2) ∧
    t'.Seen [1, 2] none :=
  let ⟨s', t', h1, h2, _⟩ := pipe_at_most_spec (Case.plays (.ok ())).toPlays (Case.collects 2).toCollects
    (.full (xs := [1, 2]) rfl ((Case.script_starts _).take 2) (Case.accepts (by decide)))
  ⟨s', t', h1, h2⟩

/-! ### C13: `bulk_pipe_at_most` -/

/-- One round of `bulk_pipe_at_most`: it ends with the right result, or moves a positive number of items. -/
theorem bulkPipeAtMost_round {P : BulkProducer σ I F E₁} {C : BulkConsumer τ I F E₂}
    {D : τ → List I → Option F → Prop} {c : Script I F E₁} {q : Policy I F E₂} {s : σ} {t : τ} {l : List I}
    (hP : BulkPlays P s c) (hC : BulkCollects C D q t l) (count piped : Nat) (hlt : piped < count) :
    (∃ ys s' t', ys ≠ [] ∧ ys.length ≤ count - piped ∧ c.StartsWith ys ∧ q.Accepts l ys ∧
      bulkPipeAtMostBody P C count (s, t, piped) = ok (.continue (s', t', piped + ys.length)) ∧
      BulkPlays P s' (c.drop ys.length) ∧ BulkCollects C D q t' (l ++ ys)) ∨
    (∃ xs fin res s' t', xs.length < count - piped ∧ PipeResult c q l xs fin res ∧
      bulkPipeAtMostBody P C count (s, t, piped) = ok (.done ((s', t'), res.map fun _ => piped + xs.length)) ∧
      D t' (l ++ xs) fin) := by
  obtain ⟨R, hR, n, hs⟩ := hP
  obtain ⟨S, hS, slots, ht⟩ := hC
  have hC : BulkCollects C D q t l := ⟨S, hS, slots, ht⟩
  have hC' := hC.toCollects
  obtain ⟨s1, ⟨xs, hne, hsw, hex, hR1⟩ | ⟨f, hf, hex⟩ | ⟨e, he, hex⟩⟩ := hR.expose s c n hs
  · have hpos := List.length_pos_iff.mpr hne
    generalize hm : min (count - piped) xs.length = m
    have hm' : m ≤ count - piped ∧ m ≤ xs.length ∧ 0 < m := by omega
    have hlen : (xs.take m).length = m := by simp; omega
    have hne2 : xs.take m ≠ [] := by intro h0; rw [h0] at hlen; simp at hlen; omega
    obtain ⟨t1, ⟨k, hk0, hkl, hacc, hbc, slots', hS'⟩ | ⟨i, e, hf, hbc, hD⟩⟩ :=
      hS.bulkConsume t l slots (xs.take m) ht hne2
    · left
      rw [hlen] at hkl
      obtain ⟨s2, hcp, hR2⟩ := hR.consider s1 c xs.length k hR1 hpos (by omega)
      have htk : (xs.take m).take k = xs.take k := by rw [List.take_take, Nat.min_eq_left hkl]
      rw [htk] at hacc hS'
      have hlenk : (xs.take k).length = k := by simp; omega
      refine ⟨xs.take k, s2, t1, ?_, by omega, hsw.take k, hacc, ?_, ?_, S, hS, slots', hS'⟩
      · intro h0; rw [h0] at hlenk; simp at hlenk; omega
      · rw [hlenk]; simp [bulkPipeAtMostBody, hlt, hex, hm, hbc, hcp]
      · rw [hlenk]; exact ⟨R, hR, _, hR2⟩
    · right
      have hilt := hf.lt
      rw [hlen] at hilt
      obtain ⟨hacc, x, hx, hq⟩ := hf.of_take
      have htk : (xs.take m).take i = xs.take i := by rw [List.take_take, Nat.min_eq_left (by omega)]
      rw [htk] at hD
      have hleni : (xs.take i).length = i := by simp; omega
      refine ⟨xs.take i, none, _, s1, t1, by omega, .itemRefused (hsw.take i) hacc ?_ hq, ?_, hD⟩
      · rw [hleni]; exact hsw i x hx
      · simp [bulkPipeAtMostBody, hlt, hex, hm, hbc, Except.map]
  · right
    cases hq : q.refuseClose l f with
    | none =>
      obtain ⟨t1, hcl, hD⟩ := hC'.close_ok f hq
      exact ⟨[], some f, _, s1, t1, by simp; omega, .closed (by simp) (by simp) hf (by simpa using hq),
        by simp [bulkPipeAtMostBody, hlt, hex, hcl, Except.map], by simpa using hD⟩
    | some e =>
      obtain ⟨t1, hcl, hD⟩ := hC'.close_err f hq
      exact ⟨[], none, _, s1, t1, by simp; omega, .closeRefused (by simp) (by simp) hf (by simpa using hq),
        by simp [bulkPipeAtMostBody, hlt, hex, hcl, Except.map], by simpa using hD⟩
  · right
    exact ⟨[], none, _, s1, t, by simp; omega, .producerFailed (by simp) (by simp) he,
      by simp [bulkPipeAtMostBody, hlt, hex, Except.map], by simpa using hC'.observe⟩

/-- **C13**: `bulk_pipe_at_most` always returns, with exactly the result that must come out (the same as for `pipe_at_most`,
`pipe_at_most_spec`); if it returns `Ok(count)`, the producer is directly after the moved items and the consumer is open and
has consumed exactly them. -/
theorem bulk_pipe_at_most_spec {P : BulkProducer σ I F E₁} {C : BulkConsumer τ I F E₂}
    {D : τ → List I → Option F → Prop} {c : Script I F E₁} {q : Policy I F E₂} {s : σ} {t : τ} {l : List I}
    (hP : BulkPlays P s c) (hC : BulkCollects C D q t l)
    {count : Nat} {xs : List I} {fin : Option F} {res : Except (PipeError E₁ E₂) Nat}
    (h : AtMostResult c q l count xs fin res) :
    ∃ s' t', bulkPipeAtMost P C s t count = ok ((s', t'), res) ∧ D t' (l ++ xs) fin ∧
      (res = .ok count → xs.length = count ∧ BulkPlays P s' (c.drop count) ∧ BulkCollects C D q t' (l ++ xs)) := by
  suffices H : ∀ n s t c' ys, count - ys.length ≤ n → ys.length ≤ count → c.StartsWith ys → q.Accepts l ys →
      c' = c.drop ys.length → BulkPlays P s c' → BulkCollects C D q t (l ++ ys) →
      ∃ s' t', loop (bulkPipeAtMostBody P C count) (s, t, ys.length) = ok ((s', t'), res) ∧ D t' (l ++ xs) fin ∧
      (res = .ok count → xs.length = count ∧ BulkPlays P s' (c.drop count) ∧ BulkCollects C D q t' (l ++ xs)) from
    H count s t c [] (by simp) (by simp) (by simp) (by simp) (by simp) hP (by simpa using hC)
  intro n
  induction n with
  | zero =>
    intro s t c' ys hn hle h1 h2 hc' hP hC
    have hlen : ys.length = count := by omega
    obtain ⟨rfl, rfl, rfl⟩ := h.unique (.full hlen h1 h2)
    refine ⟨s, t, ?_, hC.toCollects.observe, fun _ => ⟨hlen, ?_, hC⟩⟩
    · rw [loop_unfold]; simp [bulkPipeAtMostBody, hlen]
    · rw [hc', hlen] at hP; exact hP
  | succ n ih =>
    intro s t c' ys hn hle h1 h2 hc' hP hC
    by_cases hlt : ys.length < count
    · rcases bulkPipeAtMost_round hP hC count ys.length hlt with
        ⟨zs, s', t', hne, hzl, h3, h4, h5, h6, h7⟩ | ⟨zs, fin', res', s', t', hzl, h3, h4, h5⟩
      · have hpos := List.length_pos_iff.mpr hne
        have := ih s' t' _ (ys ++ zs) (by simp; omega) (by simp; omega)
          (h1.append (by rw [← hc']; exact h3)) (Policy.accepts_append.mpr ⟨h2, h4⟩) rfl
          (by rw [List.length_append, ← Script.drop_drop, ← hc']; exact h6) (by rw [← List.append_assoc]; exact h7)
        rw [loop_unfold, h5]
        simpa using this
      · -- the round ended the pipe
        have hres : PipeResult c q l (ys ++ zs) fin' res' := by
          have hidx : ∀ r, c' zs.length = r → c (ys ++ zs).length = r := by
            rintro r rfl; rw [hc']; simp
          have hsw : c'.StartsWith zs → c.StartsWith (ys ++ zs) := fun h => h1.append (by rw [← hc']; exact h)
          have hac : q.Accepts (l ++ ys) zs → q.Accepts l (ys ++ zs) :=
            fun h => Policy.accepts_append.mpr ⟨h2, h⟩
          cases h3 with
          | closed ha hb hc hq => exact .closed (hsw ha) (hac hb) (hidx _ hc) (by simpa using hq)
          | closeRefused ha hb hc hq => exact .closeRefused (hsw ha) (hac hb) (hidx _ hc) (by simpa using hq)
          | itemRefused ha hb hc hq => exact .itemRefused (hsw ha) (hac hb) (hidx _ hc) (by simpa using hq)
          | producerFailed ha hb hc => exact .producerFailed (hsw ha) (hac hb) (hidx _ hc)
        rw [List.append_assoc] at h5
        have hll : (ys ++ zs).length < count := by simp; omega
        cases res' with
        | ok u =>
          obtain ⟨rfl, rfl, rfl⟩ := h.unique (.closed hll hres)
          refine ⟨s', t', ?_, h5, fun h0 => ?_⟩
          · rw [loop_unfold, h4]; simp [Except.map]
          · injection h0 with h0; omega
        | error e =>
          obtain ⟨rfl, rfl, rfl⟩ := h.unique (.failed hll hres)
          exact ⟨s', t', by rw [loop_unfold, h4]; simp [Except.map], h5, by simp⟩
    · exact ih s t c' ys (by omega) hle h1 h2 hc' hP hC

/-- Two of three items, though two and then one are exposed and though the consumer exposes other amounts. -/
example : ∃ s' t', bulkPipeAtMost Case.P Case.C (Case.pro (.ok ())) (Case.con 5) 2 = ok ((s', t'), .ok 2) ∧ t'.Seen [1, 2] none :=
  let ⟨s', t', h1, h2, _⟩ := bulk_pipe_at_most_spec (Case.plays (.ok ())) (Case.collects 5)
    (.full (xs := [1, 2]) rfl ((Case.script_starts _).take 2) (Case.accepts (by decide)))
  ⟨s', t', h1, h2⟩

/-- **C13**: for all lawful bulk producers and consumers, `bulk_pipe_at_most` and `pipe_at_most` return the same value and
leave the consumer with the same items and final value. -/
theorem bulk_pipe_at_most_eq {P : BulkProducer σ I F E₁} {C : BulkConsumer τ I F E₂}
    {D : τ → List I → Option F → Prop} {c : Script I F E₁} {q : Policy I F E₂} {s : σ} {t : τ} {l : List I}
    (hP : BulkPlays P s c) (hC : BulkCollects C D q t l) (count : Nat) :
    ∃ res s₁ t₁ s₂ t₂ xs fin, pipeAtMost P.toProducer C.toConsumer s t count = ok ((s₁, t₁), res) ∧
      bulkPipeAtMost P C s t count = ok ((s₂, t₂), res) ∧ xs.length ≤ count ∧ c.StartsWith xs ∧
      D t₁ (l ++ xs) fin ∧ D t₂ (l ++ xs) fin := by
  obtain ⟨xs, fin, res, h⟩ := AtMostResult.exists c q l count
  obtain ⟨s₁, t₁, h1, h2, _⟩ := pipe_at_most_spec hP.toPlays hC.toCollects h
  obtain ⟨s₂, t₂, h3, h4, _⟩ := bulk_pipe_at_most_spec hP hC h
  exact ⟨res, s₁, t₁, s₂, t₂, xs, fin, h1, h3, h.length_le, h.startsWith, h2, h4⟩

example : BulkPlays Case.P (Case.pro (.error "bad")) (Case.script (.error "bad")) ∧
    BulkCollects Case.C TestConsumer.Seen (Case.policy 2) (Case.con 2) [] :=
  ⟨Case.plays _, Case.collects 2⟩

/-! ### C14: bounded pipes compose -/

theorem pipeAtMost_shift (P : Producer σ I F E₁) (C : Consumer τ I F E₂) (m n : Nat) :
    ∀ k s t i, n - i ≤ k → i ≤ n →
    loop (pipeAtMostBody P C (m + n)) (s, t, m + i) =
      match loop (pipeAtMostBody P C n) (s, t, i) with
      | ok (st, .ok j) => ok (st, .ok (m + j))
      | ok (st, .error e) => ok (st, .error e)
      | .panic => .panic
      | .diverge => .diverge := by
  intro k
  induction k with
  | zero =>
    intro s t i hk hle
    have h1 : ¬ i < n := by omega
    have h2 : ¬ m + i < m + n := by omega
    conv => lhs; rw [loop_unfold]
    conv => rhs; rw [loop_unfold]
    simp only [pipeAtMostBody, h1, h2, if_false, pure_eq]
  | succ k ih =>
    intro s t i hk hle
    by_cases h1 : i < n
    · have h2 : m + i < m + n := by omega
      conv => lhs; rw [loop_unfold]
      conv => rhs; rw [loop_unfold]
      simp only [pipeAtMostBody, h1, h2, if_true]
      rcases hp : P.produce s with ⟨s2, e | x | f⟩ | _ | _
      · simp
      · simp only [bind_eq, bind_ok]
        rcases hc : C.consume t x with ⟨t2, e | u⟩ | _ | _
        · simp
        · simp only [bind_ok, pure_eq]
          exact ih s2 t2 (i + 1) (by omega) (by omega)
        · simp
        · simp
      · simp only [bind_eq, bind_ok]
        rcases hc : C.close t f with ⟨t2, e | u⟩ | _ | _ <;> simp
      · simp
      · simp
    · exact ih s t i (by omega) hle

/-- **C14**, for all producers and consumers whatsoever: if `pipe_at_most(p, c, m)` returned `Ok(m)`, then a single
`pipe_at_most(p, c, m + n)` on the original pair has exactly the outcome (result and end states, panic, or divergence) of
continuing with `pipe_at_most(p, c, n)`, with `m` added to the returned count. -/
theorem pipe_at_most_compose (P : Producer σ I F E₁) (C : Consumer τ I F E₂) (m n : Nat) (s s₁ : σ) (t t₁ : τ)
    (h : pipeAtMost P C s t m = ok ((s₁, t₁), .ok m)) :
    pipeAtMost P C s t (m + n) =
      match pipeAtMost P C s₁ t₁ n with
      | ok (st, .ok k) => ok (st, .ok (m + k))
      | ok (st, .error e) => ok (st, .error e)
      | .panic => .panic
      | .diverge => .diverge := by
  rcases (pipe_at_most_ok_iff P C m m s s₁ t t₁).mp h with ⟨_, xs, hl, h1, h2⟩ | ⟨h0, _⟩
  · have := pipeAtMost_shift P C m n n s₁ t₁ 0 (by omega) (by omega)
    unfold pipeAtMost
    rw [pipeAtMost_skip h1 h2 (by omega), Nat.zero_add, hl]
    exact this
  · omega

/-- The first two items, and what is left. -/
example : ∃ s₁ t₁, pipeAtMost Case.P.toProducer Case.C.toConsumer (Case.pro (.ok ())) (Case.con 5) 2 = ok ((s₁, t₁), .ok 2) :=
  ⟨_, _, (pipe_at_most_ok_iff _ _ _ _ _ _ _ _).mpr (.inl ⟨rfl, [1, 2], rfl, .cons rfl (.cons rfl (.nil _)), .cons rfl (.cons rfl (.nil _))⟩)⟩

/-- **C14**, for all producers and consumers whatsoever: if `pipe_at_most(p, c, m)` returned `Ok(m)`, following up with
`pipe` has exactly the same outcome as a single `pipe` on the original pair. -/
theorem pipe_at_most_then_pipe (P : Producer σ I F E₁) (C : Consumer τ I F E₂) (m : Nat) (s s₁ : σ) (t t₁ : τ)
    (h : pipeAtMost P C s t m = ok ((s₁, t₁), .ok m)) : pipe P C s t = pipe P C s₁ t₁ := by
  rcases (pipe_at_most_ok_iff P C m m s s₁ t t₁).mp h with ⟨_, xs, hl, h1, h2⟩ | ⟨h0, _⟩
  · exact pipe_skip h1 h2
  · omega

example : ∃ s₁ t₁, pipe Case.P.toProducer Case.C.toConsumer (Case.pro (.ok ())) (Case.con 5) =
    pipe Case.P.toProducer Case.C.toConsumer s₁ t₁ ∧ Emits Case.P.toProducer (Case.pro (.ok ())) [1, 2] s₁ :=
  ⟨_, _, pipe_at_most_then_pipe _ _ 2 _ _ _ _
    ((pipe_at_most_ok_iff _ _ _ _ _ _ _ _).mpr (.inl ⟨rfl, [1, 2], rfl, .cons rfl (.cons rfl (.nil _)), .cons rfl (.cons rfl (.nil _))⟩)), .cons rfl (.cons rfl (.nil _))⟩

/-- **C14** for `bulk_pipe_at_most`: after `Ok(m)`, continuing with `bulk_pipe_at_most(n)` returns the same result (with `m`
added) and leaves the consumer with the same items and final value as a single `bulk_pipe_at_most(m + n)`. -/
theorem bulk_pipe_at_most_compose {P : BulkProducer σ I F E₁} {C : BulkConsumer τ I F E₂}
    {D : τ → List I → Option F → Prop} {c : Script I F E₁} {q : Policy I F E₂} {s s₁ : σ} {t t₁ : τ} {l : List I}
    (hP : BulkPlays P s c) (hC : BulkCollects C D q t l) (m n : Nat)
    (h : bulkPipeAtMost P C s t m = ok ((s₁, t₁), .ok m)) :
    ∃ res s₂ t₂ s₃ t₃ xs fin, bulkPipeAtMost P C s₁ t₁ n = ok ((s₂, t₂), res) ∧
      bulkPipeAtMost P C s t (m + n) = ok ((s₃, t₃), res.map (m + ·)) ∧
      D t₂ (l ++ xs) fin ∧ D t₃ (l ++ xs) fin := by
  obtain ⟨xs, fin, res, hr⟩ := AtMostResult.exists c q l m
  obtain ⟨s', t', h1, h2, h3⟩ := bulk_pipe_at_most_spec hP hC hr
  rw [h] at h1
  injection h1 with h1; injection h1 with h1 h4; injection h1 with h1 h5
  subst h1 h5
  obtain ⟨hl, hP', hC'⟩ := h3 h4.symm
  obtain ⟨ys, fin', res', hr'⟩ := AtMostResult.exists (c.drop m) q (l ++ xs) n
  obtain ⟨s₂, t₂, h6, h7, _⟩ := bulk_pipe_at_most_spec hP' hC' hr'
  have hsw := hr.startsWith
  have hac := hr.accepts
  have hsw' : ∀ {zs : List I}, (c.drop m).StartsWith zs → c.StartsWith (xs ++ zs) :=
    fun h => hsw.append (by rw [hl]; exact h)
  have hac' : ∀ {zs : List I}, q.Accepts (l ++ xs) zs → q.Accepts l (xs ++ zs) :=
    fun h => Policy.accepts_append.mpr ⟨hac, h⟩
  have hpr : ∀ {zs fin res}, PipeResult (c.drop m) q (l ++ xs) zs fin res → PipeResult c q l (xs ++ zs) fin res := by
    intro zs fin res h
    have hidx : ∀ {r}, c.drop m zs.length = r → c (xs ++ zs).length = r := by
      rintro r rfl; simp [hl]
    cases h with
    | closed ha hb hc hq => exact .closed (hsw' ha) (hac' hb) (hidx hc) (by simpa using hq)
    | closeRefused ha hb hc hq => exact .closeRefused (hsw' ha) (hac' hb) (hidx hc) (by simpa using hq)
    | itemRefused ha hb hc hq => exact .itemRefused (hsw' ha) (hac' hb) (hidx hc) (by simpa using hq)
    | producerFailed ha hb hc => exact .producerFailed (hsw' ha) (hac' hb) (hidx hc)
  have hr'' : AtMostResult c q l (m + n) (xs ++ ys) fin' (res'.map (m + ·)) := by
    cases hr' with
    | full hl' ha hb => exact .full (by simp; omega) (hsw' ha) (hac' hb)
    | closed hlt h' =>
      have := AtMostResult.closed (count := m + n) (by simp; omega) (hpr h')
      simpa [Except.map, hl] using this
    | failed hlt h' => exact .failed (by simp; omega) (hpr h')
  obtain ⟨s₃, t₃, h8, h9, _⟩ := bulk_pipe_at_most_spec hP hC hr''
  exact ⟨res', s₂, t₂, s₃, t₃, xs ++ ys, fin', h6, h8, by rw [← List.append_assoc]; exact h7, h9⟩

/-- The first two items, and what is left, are the same as all four. -/
example : ∃ s₁ t₁ s₂ t₂ s₃ t₃ res, bulkPipeAtMost Case.P Case.C (Case.pro (.error "bad")) (Case.con 5) 2 = ok ((s₁, t₁), .ok 2) ∧
    bulkPipeAtMost Case.P Case.C s₁ t₁ 2 = ok ((s₂, t₂), res) ∧
    bulkPipeAtMost Case.P Case.C (Case.pro (.error "bad")) (Case.con 5) (2 + 2) = ok ((s₃, t₃), res.map (2 + ·)) := by
  obtain ⟨s₁, t₁, h1, _⟩ := bulk_pipe_at_most_spec (Case.plays (.error "bad")) (Case.collects 5)
    (.full (xs := [1, 2]) rfl ((Case.script_starts _).take 2) (Case.accepts (by decide)))
  obtain ⟨res, s₂, t₂, s₃, t₃, _, _, h2, h3, _⟩ := bulk_pipe_at_most_compose (Case.plays (.error "bad")) (Case.collects 5) 2 2 h1
  exact ⟨s₁, t₁, s₂, t₂, s₃, t₃, res, h1, h2, h3⟩

/-- **C14** for `bulk_pipe_at_most` followed by `bulk_pipe`, versus a single `bulk_pipe`. -/
theorem bulk_pipe_at_most_then_bulk_pipe {P : BulkProducer σ I F E₁} {C : BulkConsumer τ I F E₂}
    {D : τ → List I → Option F → Prop} {c : Script I F E₁} {q : Policy I F E₂} {s s₁ : σ} {t t₁ : τ} {l : List I}
    (hP : BulkPlays P s c) (hC : BulkCollects C D q t l) (m : Nat)
    (h : bulkPipeAtMost P C s t m = ok ((s₁, t₁), .ok m)) :
    (bulkPipe P C s₁ t₁ = .diverge ∧ bulkPipe P C s t = .diverge) ∨
    (∃ res s₂ t₂ s₃ t₃ xs fin, bulkPipe P C s₁ t₁ = ok ((s₂, t₂), res) ∧
      bulkPipe P C s t = ok ((s₃, t₃), res) ∧ D t₂ (l ++ xs) fin ∧ D t₃ (l ++ xs) fin) := by
  obtain ⟨xs, fin, res, hr⟩ := AtMostResult.exists c q l m
  obtain ⟨s', t', h1, h2, h3⟩ := bulk_pipe_at_most_spec hP hC hr
  rw [h] at h1
  injection h1 with h1; injection h1 with h1 h4; injection h1 with h1 h5
  subst h1 h5
  obtain ⟨hl, hP', hC'⟩ := h3 h4.symm
  have hsw := hr.startsWith
  have hac := hr.accepts
  rcases PipeResult.exists_or_endless c q l with ⟨ys, fin', res', hp⟩ | hend
  · right
    obtain ⟨s₃, t₃, h6, h7, _⟩ := bulk_pipe_spec hP hC hp
    obtain ⟨hle, hsplit, hp'⟩ := hp.advance hsw hac
    rw [hl] at hp' hsplit
    obtain ⟨s₂, t₂, h8, h9, _⟩ := bulk_pipe_spec hP' hC' hp'
    rw [List.append_assoc, ← hsplit] at h9
    exact ⟨res', s₂, t₂, s₃, t₃, ys, fin', h8, h6, h9, h7⟩
  · left
    refine ⟨bulk_pipe_endless hP' hC' fun n => ?_, bulk_pipe_endless hP hC hend⟩
    obtain ⟨ys, hyl, h6, h7⟩ := hend (m + n)
    have htake : ys.take m = xs := by
      have := hsw.prefix h6 (by omega); rw [hl] at this; exact this.symm
    refine ⟨ys.drop m, by simp; omega, h6.drop (by omega), ?_⟩
    have := h7.drop m
    rwa [htake] at this

/-- All numbers, the first two of them on their own. -/
example : ∃ s₁ t₁, bulkPipeAtMost Case.endless Case.V 0 (IntoVec.fromVec []) 2 = ok ((s₁, t₁), .ok 2) :=
  let ⟨xs, h1, h2⟩ := Case.endless_starts 0 2
  let ⟨s', t', h1, _⟩ := bulk_pipe_at_most_spec (Case.endless_plays 0) (Case.vec_collects []) (.full (xs := xs) h1 h2 (by simp))
  ⟨s', t', h1⟩

end

end Verif
