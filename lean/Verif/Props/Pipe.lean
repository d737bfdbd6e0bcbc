import Verif.Lemmas.Pipe
import Verif.Cases

/-!
# C10–C14: the piping functions
-/

namespace Verif

open Outcome

section

variable {σ τ I F E₁ E₂ : Type}

/-! ### C10: `pipe`, for all producers and consumers whatsoever -/

/-- **C10**: exactly when, and in which states, `pipe` returns `Ok`: the producer emits some items `xs` and then a final
value `f`, the consumer accepts all of `xs` and then the closing with `f`. -/
theorem pipe_ok_iff (P : Producer σ I F E₁) (C : Consumer τ I F E₂) (s s' : σ) (t t' : τ) :
    pipe P C s t = ok ((s', t'), .ok ()) ↔
      ∃ xs f s₁ t₁, Emits P s xs s₁ ∧ P.produce s₁ = ok (s', .ok (.inr f)) ∧
        Consumes C t xs t₁ ∧ C.close t₁ f = ok (t', .ok ()) := by
  constructor
  · intro h
    obtain ⟨xs, s₁, t₁, h1, h2, h3⟩ := pipe_inv h
    simp only [pipeBody] at h3
    rcases hp : P.produce s₁ with ⟨s2, e | x | f⟩ | _ | _
    · simp [hp] at h3
    · simp only [hp, bind_eq, bind_ok] at h3
      rcases hc : C.consume t₁ x with ⟨t2, e | u⟩ | _ | _ <;> simp [hc] at h3
    · simp only [hp, bind_eq, bind_ok] at h3
      rcases hc : C.close t₁ f with ⟨t2, e | u⟩ | _ | _
      · simp [hc] at h3
      · simp [hc] at h3
        obtain ⟨rfl, rfl⟩ := h3
        exact ⟨xs, f, s₁, t₁, h1, hp, h2, hc⟩
      · simp [hc] at h3
      · simp [hc] at h3
    · simp [hp] at h3
    · simp [hp] at h3
  · rintro ⟨xs, f, s₁, t₁, h1, h2, h3, h4⟩
    rw [pipe_skip h1 h3, pipe_unfold]
    simp [pipeBody, h2, h4]

/-- Three items and the final value, into a consumer that has room for more. -/
example : ∃ s₁ s' t₁ t', Emits Case.P.toProducer (Case.pro (.ok ())) [1, 2, 3] s₁ ∧ Case.P.produce s₁ = ok (s', .ok (.inr ())) ∧
    Consumes Case.C.toConsumer (Case.con 5) [1, 2, 3] t₁ ∧ Case.C.close t₁ () = ok (t', .ok ()) :=
  ⟨_, _, _, _, .cons rfl (.cons rfl (.cons rfl (.nil _))), rfl, .cons rfl (.cons rfl (.cons rfl (.nil _))), rfl⟩

/-- **C10**: `pipe` returns a producer error exactly when the producer emits some items, all accepted by the consumer, and
then that error; the consumer is left as after consuming those items, and is not closed. -/
theorem pipe_producer_error_iff (P : Producer σ I F E₁) (C : Consumer τ I F E₂) (s s' : σ) (t t' : τ) (e : E₁) :
    pipe P C s t = ok ((s', t'), .error (.producer e)) ↔
      ∃ xs s₁, Emits P s xs s₁ ∧ P.produce s₁ = ok (s', .error e) ∧ Consumes C t xs t' := by
  constructor
  · intro h
    obtain ⟨xs, s₁, t₁, h1, h2, h3⟩ := pipe_inv h
    simp only [pipeBody] at h3
    rcases hp : P.produce s₁ with ⟨s2, e | x | f⟩ | _ | _
    · simp [hp] at h3
      obtain ⟨⟨rfl, rfl⟩, rfl⟩ := h3
      exact ⟨xs, s₁, h1, hp, h2⟩
    · simp only [hp, bind_eq, bind_ok] at h3
      rcases hc : C.consume t₁ x with ⟨t2, e | u⟩ | _ | _ <;> simp [hc] at h3
    · simp only [hp, bind_eq, bind_ok] at h3
      rcases hc : C.close t₁ f with ⟨t2, e | u⟩ | _ | _ <;> simp [hc] at h3
    · simp [hp] at h3
    · simp [hp] at h3
  · rintro ⟨xs, s₁, h1, h2, h3⟩
    rw [pipe_skip h1 h3, pipe_unfold]
    simp [pipeBody, h2]

/-- Three items and an error. -/
example : ∃ s₁ s' t', Emits Case.P.toProducer (Case.pro (.error "bad")) [1, 2, 3] s₁ ∧
    Case.P.produce s₁ = ok (s', .error "bad") ∧ Consumes Case.C.toConsumer (Case.con 5) [1, 2, 3] t' :=
  ⟨_, _, _, .cons rfl (.cons rfl (.cons rfl (.nil _))), rfl, .cons rfl (.cons rfl (.cons rfl (.nil _)))⟩

/-- **C10**: `pipe` returns a consumer error exactly when the consumer accepts some items of the producer and then refuses
the next item, or refuses to be closed with the final value that comes next. -/
theorem pipe_consumer_error_iff (P : Producer σ I F E₁) (C : Consumer τ I F E₂) (s s' : σ) (t t' : τ) (e : E₂) :
    pipe P C s t = ok ((s', t'), .error (.consumer e)) ↔
      ∃ xs s₁ t₁, Emits P s xs s₁ ∧ Consumes C t xs t₁ ∧
        ((∃ x, P.produce s₁ = ok (s', .ok (.inl x)) ∧ C.consume t₁ x = ok (t', .error e)) ∨
         (∃ f, P.produce s₁ = ok (s', .ok (.inr f)) ∧ C.close t₁ f = ok (t', .error e))) := by
  constructor
  · intro h
    obtain ⟨xs, s₁, t₁, h1, h2, h3⟩ := pipe_inv h
    refine ⟨xs, s₁, t₁, h1, h2, ?_⟩
    simp only [pipeBody] at h3
    rcases hp : P.produce s₁ with ⟨s2, e | x | f⟩ | _ | _
    · simp [hp] at h3
    · simp only [hp, bind_eq, bind_ok] at h3
      rcases hc : C.consume t₁ x with ⟨t2, e | u⟩ | _ | _
      · simp [hc] at h3
        obtain ⟨⟨rfl, rfl⟩, rfl⟩ := h3
        exact .inl ⟨x, rfl, hc⟩
      · simp [hc] at h3
      · simp [hc] at h3
      · simp [hc] at h3
    · simp only [hp, bind_eq, bind_ok] at h3
      rcases hc : C.close t₁ f with ⟨t2, e | u⟩ | _ | _
      · simp [hc] at h3
        obtain ⟨⟨rfl, rfl⟩, rfl⟩ := h3
        exact .inr ⟨f, rfl, hc⟩
      · simp [hc] at h3
      · simp [hc] at h3
      · simp [hc] at h3
    · simp [hp] at h3
    · simp [hp] at h3
  · rintro ⟨xs, s₁, t₁, h1, h2, ⟨x, h3, h4⟩ | ⟨f, h3, h4⟩⟩
    · rw [pipe_skip h1 h2, pipe_unfold]; simp [pipeBody, h3, h4]
    · rw [pipe_skip h1 h2, pipe_unfold]; simp [pipeBody, h3, h4]

/-- The consumer refuses the third item. -/
example : ∃ s₁ s' t₁ t', Emits Case.P.toProducer (Case.pro (.ok ())) [1, 2] s₁ ∧ Consumes Case.C.toConsumer (Case.con 2) [1, 2] t₁ ∧
    Case.P.produce s₁ = ok (s', .ok (.inl 3)) ∧ Case.C.consume t₁ 3 = ok (t', .error "full") :=
  ⟨_, _, _, _, .cons rfl (.cons rfl (.nil _)), .cons rfl (.cons rfl (.nil _)), rfl, rfl⟩

/-- The consumer refuses to be closed. -/
example : ∃ s₁ s' t₁ t', Emits Case.P.toProducer (Case.pro (.ok ())) [1, 2, 3] s₁ ∧
    Consumes Case.C.toConsumer (Case.con 3) [1, 2, 3] t₁ ∧
    Case.P.produce s₁ = ok (s', .ok (.inr ())) ∧ Case.C.close t₁ () = ok (t', .error "full") :=
  ⟨_, _, _, _, .cons rfl (.cons rfl (.cons rfl (.nil _))), .cons rfl (.cons rfl (.cons rfl (.nil _))), rfl, rfl⟩

/-- **C10**: if the producer keeps emitting items and the consumer keeps accepting them, `pipe` does not return. -/
theorem pipe_never_returns (P : Producer σ I F E₁) (C : Consumer τ I F E₂) (s : σ) (t : τ)
    (h : ∀ n, ∃ xs s' t', xs.length = n ∧ Emits P s xs s' ∧ Consumes C t xs t') :
    pipe P C s t = .diverge := by
  apply loop_diverge (pipeBody P C)
    (Inv := fun st => ∀ n, ∃ xs s' t', xs.length = n ∧ Emits P st.1 xs s' ∧ Consumes C st.2 xs t')
  · rintro ⟨s, t⟩ hst
    obtain ⟨xs, s', t', hl, h1, h2⟩ := hst 1
    match xs, hl with
    | [x], _ =>
      cases h1 with
      | @cons _ s₁ _ _ _ hp _ =>
      cases h2 with
      | @cons _ t₁ _ _ _ hc _ =>
      refine ⟨(s₁, t₁), by simp [pipeBody, hp, hc], fun n => ?_⟩
      obtain ⟨ys, s'', t'', hl, h3, h4⟩ := hst (n + 1)
      cases h3 with
      | nil => simp at hl
      | cons hp' h3 =>
        rw [hp] at hp'
        injection hp' with hp'; injection hp' with e1 e2
        injection e2 with e2; injection e2 with e2
        subst e1 e2
        cases h4 with
        | cons hc' h4 =>
          rw [hc] at hc'
          injection hc' with hc'; injection hc' with e1 _
          subst e1
          exact ⟨_, _, _, by simpa using hl, h3, h4⟩
  · exact h

/-- All numbers into a vector. -/
example : pipe Case.endless.toProducer Case.V.toConsumer 0 (IntoVec.fromVec []) = .diverge := by
  apply pipe_never_returns
  intro n
  obtain ⟨xs, hl, h⟩ := Case.endless_starts 0 n
  obtain ⟨s', h1, _⟩ := (Case.endless_plays 0).toPlays.emits h
  obtain ⟨t', h2, _⟩ := (Case.vec_collects []).toCollects.consumes (xs := xs) (by simp)
  exact ⟨xs, s', t', hl, h1, h2⟩

/-! ### What must come out of a pipe, in terms of sequence and policy

`PipeResult c q l xs fin res`: when a producer of the sequence `c` is piped into a consumer with policy `q` that has already
consumed `l`, exactly the items `xs` get consumed, the consumer is closed with `fin` (or not closed if `none`), and the
result is `res`. -/
inductive PipeResult (c : Script I F E₁) (q : Policy I F E₂) (l : List I) :
    List I → Option F → Except (PipeError E₁ E₂) Unit → Prop where
  | closed {xs f} : c.StartsWith xs → q.Accepts l xs → c xs.length = .ok (.inr f) →
      q.refuseClose (l ++ xs) f = none → PipeResult c q l xs (some f) (.ok ())
  | closeRefused {xs f e} : c.StartsWith xs → q.Accepts l xs → c xs.length = .ok (.inr f) →
      q.refuseClose (l ++ xs) f = some e → PipeResult c q l xs none (.error (.consumer e))
  | itemRefused {xs x e} : c.StartsWith xs → q.Accepts l xs → c xs.length = .ok (.inl x) →
      q.answer (l ++ xs) x = some e → PipeResult c q l xs none (.error (.consumer e))
  | producerFailed {xs e} : c.StartsWith xs → q.Accepts l xs → c xs.length = .error e →
      PipeResult c q l xs none (.error (.producer e))

theorem PipeResult.startsWith {c : Script I F E₁} {q : Policy I F E₂} {l xs : List I} {fin res}
    (h : PipeResult c q l xs fin res) : c.StartsWith xs := by cases h <;> assumption

theorem PipeResult.accepts {c : Script I F E₁} {q : Policy I F E₂} {l xs : List I} {fin res}
    (h : PipeResult c q l xs fin res) : q.Accepts l xs := by cases h <;> assumption

/-- Each way in which a pipe can end. -/
example : PipeResult (Case.script (.ok ())) (Case.policy 5) [] [1, 2, 3] (some ()) (.ok ()) ∧
    PipeResult (Case.script (.ok ())) (Case.policy 3) [] [1, 2, 3] none (.error (.consumer "full")) ∧
    PipeResult (Case.script (.ok ())) (Case.policy 2) [] [1, 2] none (.error (.consumer "full")) ∧
    PipeResult (Case.script (.error "bad")) (Case.policy 5) [] [1, 2, 3] none (.error (.producer "bad")) :=
  ⟨.closed (Case.script_starts _) (Case.accepts (by decide)) (Case.script_end _) rfl,
    .closeRefused (Case.script_starts _) (Case.accepts (by decide)) (Case.script_end _) rfl,
    .itemRefused ((Case.script_starts _).take 2) (Case.accepts (by decide)) (x := 3) rfl rfl,
    .producerFailed (Case.script_starts _) (Case.accepts (by decide)) (Case.script_end _)⟩

/-- If the sequence and the policy go on for ever, there is no result; otherwise there is one. -/
theorem PipeResult.exists_or_endless (c : Script I F E₁) (q : Policy I F E₂) (l : List I) :
    (∃ xs fin res, PipeResult c q l xs fin res) ∨ (∀ n, ∃ xs, xs.length = n ∧ c.StartsWith xs ∧ q.Accepts l xs) := by
  rcases Classical.em (∃ xs fin res, PipeResult c q l xs fin res) with h | h
  · exact .inl h
  · refine .inr fun n => ?_
    induction n with
    | zero => exact ⟨[], rfl, by simp, by simp⟩
    | succ n ih =>
      obtain ⟨xs, rfl, h1, h2⟩ := ih
      rcases hc : c xs.length with e | x | f
      · exact absurd ⟨_, _, _, .producerFailed h1 h2 hc⟩ h
      · cases ha : q.answer (l ++ xs) x with
        | some e => exact absurd ⟨_, _, _, .itemRefused h1 h2 hc ha⟩ h
        | none =>
          refine ⟨xs ++ [x], by simp, h1.append ?_, Policy.accepts_append.mpr ⟨h2, ?_⟩⟩
          · rw [Script.startsWith_cons]; exact ⟨by simpa using hc, by simp⟩
          · rw [Policy.accepts_cons]; exact ⟨ha, by simp⟩
      · cases ha : q.refuseClose (l ++ xs) f with
        | some e => exact absurd ⟨_, _, _, .closeRefused h1 h2 hc ha⟩ h
        | none => exact absurd ⟨_, _, _, .closed h1 h2 hc ha⟩ h

/-- **C10**, in terms of sequence and policy: `pipe` returns exactly the result that must come out, with exactly those
items consumed. -/
theorem pipe_spec {P : Producer σ I F E₁} {C : Consumer τ I F E₂} {D : τ → List I → Option F → Prop}
    {c : Script I F E₁} {q : Policy I F E₂} {s : σ} {t : τ} {l : List I} (hP : Plays P s c) (hC : Collects C D q t l)
    {xs : List I} {fin : Option F} {res : Except (PipeError E₁ E₂) Unit} (h : PipeResult c q l xs fin res) :
    ∃ s' t', pipe P C s t = ok ((s', t'), res) ∧ D t' (l ++ xs) fin := by
  obtain ⟨s1, hs1, hP1⟩ := hP.emits h.startsWith
  obtain ⟨t1, ht1, hC1⟩ := hC.consumes h.accepts
  obtain ⟨s2, hs2, hP2⟩ := hP1.step
  simp only [Script.drop_apply, Nat.add_zero] at hs2
  cases h with
  | closed _ _ hc hq =>
    obtain ⟨t2, ht2, hD⟩ := hC1.close_ok _ hq
    exact ⟨s2, t2, (pipe_ok_iff P C s s2 t t2).mpr ⟨_, _, s1, t1, hs1, by rw [hs2, hc], ht1, ht2⟩, hD⟩
  | closeRefused _ _ hc hq =>
    obtain ⟨t2, ht2, hD⟩ := hC1.close_err _ hq
    exact ⟨s2, t2, (pipe_consumer_error_iff P C s s2 t t2 _).mpr
      ⟨_, s1, t1, hs1, ht1, .inr ⟨_, by rw [hs2, hc], ht2⟩⟩, hD⟩
  | itemRefused _ _ hc hq =>
    obtain ⟨t2, ht2, hD⟩ := hC1.consume_err _ hq
    exact ⟨s2, t2, (pipe_consumer_error_iff P C s s2 t t2 _).mpr
      ⟨_, s1, t1, hs1, ht1, .inl ⟨_, by rw [hs2, hc], ht2⟩⟩, hD⟩
  | producerFailed _ _ hc =>
    exact ⟨s2, t1, (pipe_producer_error_iff P C s s2 t t1 _).mpr ⟨_, s1, hs1, by rw [hs2, hc], ht1⟩, hC1.observe⟩

example : ∃ s' t', pipe Case.P.toProducer Case.C.toConsumer (Case.pro (.ok ())) (Case.con 2) =
    ok ((s', t'), .error (.consumer "full")) ∧ t'.Seen [1, 2] none :=
  pipe_spec (Case.plays (.ok ())).toPlays (Case.collects 2).toCollects
    (.itemRefused ((Case.script_starts _).take 2) (Case.accepts (by decide)) (x := 3) rfl rfl)

/-- **C10**: on a producer error the consumer has not been closed and can be used on. -/
theorem pipe_producer_error_open {P : Producer σ I F E₁} {C : Consumer τ I F E₂} {D : τ → List I → Option F → Prop}
    {c : Script I F E₁} {q : Policy I F E₂} {s s' : σ} {t t' : τ} {l : List I} (hP : Plays P s c)
    (hC : Collects C D q t l) {e : E₁} (h : pipe P C s t = ok ((s', t'), .error (.producer e))) :
    ∃ xs, c.StartsWith xs ∧ c xs.length = .error e ∧ Collects C D q t' (l ++ xs) := by
  obtain ⟨xs, s₁, h1, h2, h3⟩ := (pipe_producer_error_iff P C s s' t t' e).mp h
  obtain ⟨h4, h5⟩ := h1.startsWith hP
  obtain ⟨s2, h6, hstep⟩ := h5.step
  rw [h2] at h6
  injection h6 with h6; injection h6 with _ h6
  refine ⟨xs, h4, by simpa using h6.symm, ?_⟩
  clear h h1 h2 h4 h5 h6 hstep
  induction h3 generalizing l with
  | nil => simpa using hC
  | @cons t t₁ t₂ x xs hc _ ih =>
    cases ha : q.answer l x with
    | none =>
      obtain ⟨t1, ht, hC'⟩ := hC.consume_ok x ha
      rw [hc] at ht
      injection ht with ht; injection ht with ht _
      subst ht
      simpa using ih hC'
    | some e' =>
      obtain ⟨t1, ht, _⟩ := hC.consume_err x ha
      rw [hc] at ht
      injection ht with ht; injection ht with _ ht
      cases ht

/-- After the error, the consumer takes further items. -/
example : ∃ s' t' t'', pipe Case.P.toProducer Case.C.toConsumer (Case.pro (.error "bad")) (Case.con 5) =
    ok ((s', t'), .error (.producer "bad")) ∧ Case.C.consume t' 4 = ok (t'', .ok ()) := by
  obtain ⟨s', t', h, _⟩ := pipe_spec (Case.plays (.error "bad")).toPlays (Case.collects 5).toCollects
    (.producerFailed (Case.script_starts _) (Case.accepts (by decide)) (Case.script_end _))
  obtain ⟨xs, h1, h2, h3⟩ := pipe_producer_error_open (Case.plays (.error "bad")).toPlays (Case.collects 5).toCollects h
  have hl : xs.length ≤ 3 := by
    rcases Nat.lt_or_ge 3 xs.length with hlt | hge
    · have := h1 3 _ (List.getElem?_eq_getElem hlt)
      cases this
    · exact hge
  obtain ⟨t'', h4, _⟩ := h3.consume_ok 4 (by simp [Case.policy, Policy.failAfter, Policy.answer]; omega)
  exact ⟨s', t', t'', h, h4⟩

/-- **C10**: if the sequence and the policy go on for ever, `pipe` does not return. -/
theorem pipe_endless {P : Producer σ I F E₁} {C : Consumer τ I F E₂} {D : τ → List I → Option F → Prop}
    {c : Script I F E₁} {q : Policy I F E₂} {s : σ} {t : τ} {l : List I} (hP : Plays P s c) (hC : Collects C D q t l)
    (h : ∀ n, ∃ xs, xs.length = n ∧ c.StartsWith xs ∧ q.Accepts l xs) : pipe P C s t = .diverge := by
  apply pipe_never_returns
  intro n
  obtain ⟨xs, hl, h1, h2⟩ := h n
  obtain ⟨s1, hs1, _⟩ := hP.emits h1
  obtain ⟨t1, ht1, _⟩ := hC.consumes h2
  exact ⟨xs, s1, t1, hl, hs1, ht1⟩

example : Plays Case.endless.toProducer 0 (Case.endlessScript 0) ∧
    ∀ n, ∃ xs, xs.length = n ∧ (Case.endlessScript 0).StartsWith xs ∧ (Policy.acceptAll : Policy Nat Unit Empty).Accepts [] xs :=
  ⟨(Case.endless_plays 0).toPlays, fun n => let ⟨xs, h1, h2⟩ := Case.endless_starts 0 n; ⟨xs, h1, h2, by simp⟩⟩

/-! ### C11: `bulk_pipe` -/

theorem bulkPipe_unfold (P : BulkProducer σ I F E₁) (C : BulkConsumer τ I F E₂) (s : σ) (t : τ) :
    bulkPipe P C s t = match bulkPipeBody P C (s, t) with
      | ok (.continue s') => bulkPipe P C s'.1 s'.2
      | ok (.done r) => ok r
      | .panic => .panic
      | .diverge => .diverge := by
  unfold bulkPipe
  rw [loop_unfold]
  split <;> simp_all

/-- One round of `bulk_pipe`: it ends with the right result, or moves a positive number of items. -/
theorem bulkPipe_round {P : BulkProducer σ I F E₁} {C : BulkConsumer τ I F E₂} {D : τ → List I → Option F → Prop}
    {c : Script I F E₁} {q : Policy I F E₂} {s : σ} {t : τ} {l : List I} (hP : BulkPlays P s c)
    (hC : BulkCollects C D q t l) :
    (∃ ys s' t', ys ≠ [] ∧ c.StartsWith ys ∧ q.Accepts l ys ∧ bulkPipeBody P C (s, t) = ok (.continue (s', t')) ∧
      BulkPlays P s' (c.drop ys.length) ∧ BulkCollects C D q t' (l ++ ys)) ∨
    (∃ xs fin res s' t', PipeResult c q l xs fin res ∧ bulkPipeBody P C (s, t) = ok (.done ((s', t'), res)) ∧
      D t' (l ++ xs) fin ∧ (∀ e, res = .error (.producer e) → BulkCollects C D q t' (l ++ xs))) := by
  obtain ⟨R, hR, n, hs⟩ := hP
  obtain ⟨S, hS, slots, ht⟩ := hC
  have hC : BulkCollects C D q t l := ⟨S, hS, slots, ht⟩
  have hC' := hC.toCollects
  obtain ⟨s1, ⟨xs, hne, hsw, hex, hR1⟩ | ⟨f, hf, hex⟩ | ⟨e, he, hex⟩⟩ := hR.expose s c n hs
  · obtain ⟨t1, ⟨k, hk0, hkl, hacc, hbc, slots', hS'⟩ | ⟨i, e, hf, hbc, hD⟩⟩ := hS.bulkConsume t l slots xs ht hne
    · left
      obtain ⟨s2, hcp, hR2⟩ := hR.consider s1 c xs.length k hR1 (List.length_pos_iff.mpr hne) hkl
      have hlen : (xs.take k).length = k := by simp; omega
      refine ⟨xs.take k, s2, t1, ?_, hsw.take k, hacc, ?_, ?_, S, hS, slots', hS'⟩
      · intro h0; rw [h0] at hlen; simp at hlen; omega
      · simp [bulkPipeBody, hex, hbc, hcp]
      · rw [hlen]; exact ⟨R, hR, _, hR2⟩
    · right
      have hlt := hf.lt
      obtain ⟨hacc, x, hx, hq⟩ := hf
      have hlen : (xs.take i).length = i := by simp; omega
      refine ⟨xs.take i, none, _, s1, t1, .itemRefused (hsw.take i) hacc ?_ hq, ?_, hD, by simp⟩
      · rw [hlen]; exact hsw i x hx
      · simp [bulkPipeBody, hex, hbc]
  · right
    cases hq : q.refuseClose l f with
    | none =>
      obtain ⟨t1, hcl, hD⟩ := hC'.close_ok f hq
      exact ⟨[], some f, _, s1, t1, .closed (by simp) (by simp) hf (by simpa using hq),
        by simp [bulkPipeBody, hex, hcl], by simpa using hD, by simp⟩
    | some e =>
      obtain ⟨t1, hcl, hD⟩ := hC'.close_err f hq
      exact ⟨[], none, _, s1, t1, .closeRefused (by simp) (by simp) hf (by simpa using hq),
        by simp [bulkPipeBody, hex, hcl], by simpa using hD, by simp⟩
  · right
    exact ⟨[], none, _, s1, t, .producerFailed (by simp) (by simp) he,
      by simp [bulkPipeBody, hex], by simpa using hC'.observe, fun _ _ => by simpa using hC⟩

/-- Moving the first items over does not change what must come out. -/
theorem PipeResult.advance {c : Script I F E₁} {q : Policy I F E₂} {l xs ys : List I} {fin res}
    (h : PipeResult c q l xs fin res) (h1 : c.StartsWith ys) (h2 : q.Accepts l ys) :
    ys.length ≤ xs.length ∧ xs = ys ++ xs.drop ys.length ∧
      PipeResult (c.drop ys.length) q (l ++ ys) (xs.drop ys.length) fin res := by
  have hle : ys.length ≤ xs.length := by
    rcases Nat.lt_or_ge xs.length ys.length with hlt | hge
    · exfalso
      have hcx : c xs.length = .ok (.inl ys[xs.length]) := h1 _ _ (List.getElem?_eq_getElem hlt)
      have hxy : xs = ys.take xs.length := h.startsWith.prefix h1 (by omega)
      have hq := h2 xs.length ys[xs.length] (List.getElem?_eq_getElem hlt)
      rw [← hxy] at hq
      cases h with
      | closed _ _ hc _ => rw [hcx] at hc; simp at hc
      | closeRefused _ _ hc _ => rw [hcx] at hc; simp at hc
      | itemRefused _ _ hc ha =>
        rw [hcx] at hc
        injection hc with hc; injection hc with hc
        rw [hc, ha] at hq; cases hq
      | producerFailed _ _ hc => rw [hcx] at hc; simp at hc
    · exact hge
  have htake : xs.take ys.length = ys := (h1.prefix h.startsWith hle).symm
  have hsplit : xs = ys ++ xs.drop ys.length := by
    conv => lhs; rw [← List.take_append_drop ys.length xs, htake]
  refine ⟨hle, hsplit, ?_⟩
  have hsw := h.startsWith.drop hle
  have hacc : q.Accepts (l ++ ys) (xs.drop ys.length) := by
    have := h.accepts.drop ys.length
    rwa [htake] at this
  have hl : l ++ ys ++ xs.drop ys.length = l ++ xs := by rw [List.append_assoc, ← hsplit]
  have hidx : ys.length + (xs.drop ys.length).length = xs.length := by simp; omega
  cases h with
  | closed _ _ hc hq =>
    exact .closed hsw hacc (by rw [Script.drop_apply, hidx, hc]) (by rw [hl]; exact hq)
  | closeRefused _ _ hc hq =>
    exact .closeRefused hsw hacc (by rw [Script.drop_apply, hidx, hc]) (by rw [hl]; exact hq)
  | itemRefused _ _ hc hq =>
    exact .itemRefused hsw hacc (by rw [Script.drop_apply, hidx, hc]) (by rw [hl]; exact hq)
  | producerFailed _ _ hc =>
    exact .producerFailed hsw hacc (by rw [Script.drop_apply, hidx, hc])

/-- What comes out of a pipe is determined by sequence and policy. -/
theorem PipeResult.unique {c : Script I F E₁} {q : Policy I F E₂} {l xs ys : List I} {fin fin' res res'}
    (h : PipeResult c q l xs fin res) (h' : PipeResult c q l ys fin' res') : xs = ys ∧ fin = fin' ∧ res = res' := by
  have h1 := h.advance h'.startsWith h'.accepts
  have h2 := h'.advance h.startsWith h.accepts
  have hlen : xs.length = ys.length := by omega
  have hxy : xs = ys := by
    have := h1.2.1
    rwa [List.drop_of_length_le (by omega), List.append_nil] at this
  subst hxy
  refine ⟨rfl, ?_⟩
  clear h1 h2 hlen
  cases h with
  | closed _ _ hc hq => cases h' <;> grind
  | closeRefused _ _ hc hq => cases h' <;> grind
  | itemRefused _ _ hc hq => cases h' <;> grind
  | producerFailed _ _ hc => cases h' <;> grind

/-- **C11**: `bulk_pipe` returns exactly the result that must come out (the same that `pipe` returns, `pipe_spec`), with
exactly those items consumed, whatever slice and slot sizes are exposed. -/
theorem bulk_pipe_spec {P : BulkProducer σ I F E₁} {C : BulkConsumer τ I F E₂} {D : τ → List I → Option F → Prop}
    {c : Script I F E₁} {q : Policy I F E₂} {s : σ} {t : τ} {l : List I} (hP : BulkPlays P s c)
    (hC : BulkCollects C D q t l)
    {xs : List I} {fin : Option F} {res : Except (PipeError E₁ E₂) Unit} (h : PipeResult c q l xs fin res) :
    ∃ s' t', bulkPipe P C s t = ok ((s', t'), res) ∧ D t' (l ++ xs) fin ∧
      (∀ e, res = .error (.producer e) → BulkCollects C D q t' (l ++ xs)) := by
  suffices H : ∀ n s t c l xs, xs.length ≤ n → BulkPlays P s c → BulkCollects C D q t l →
      PipeResult c q l xs fin res → ∃ s' t', bulkPipe P C s t = ok ((s', t'), res) ∧ D t' (l ++ xs) fin ∧
      (∀ e, res = .error (.producer e) → BulkCollects C D q t' (l ++ xs)) from
    H xs.length s t c l xs (Nat.le_refl _) hP hC h
  intro n
  induction n with
  | zero =>
    intro s t c l xs hn hP hC h
    rcases bulkPipe_round hP hC with ⟨ys, s', t', hne, h1, h2, _⟩ | ⟨ys, fin', res', s', t', h1, h2, h3, h4⟩
    · have := (h.advance h1 h2).1
      have := List.length_pos_iff.mpr hne
      omega
    · obtain ⟨rfl, rfl, rfl⟩ := h.unique h1
      exact ⟨s', t', by rw [bulkPipe_unfold, h2], h3, h4⟩
  | succ n ih =>
    intro s t c l xs hn hP hC h
    rcases bulkPipe_round hP hC with ⟨ys, s', t', hne, h1, h2, h3, h4, h5⟩ | ⟨ys, fin', res', s', t', h1, h2, h3, h4⟩
    · obtain ⟨hle, hsplit, hres⟩ := h.advance h1 h2
      have hpos := List.length_pos_iff.mpr hne
      obtain ⟨s2, t2, h6, h7, h8⟩ := ih s' t' _ _ _ (by simp; omega) h4 h5 hres
      rw [List.append_assoc, ← hsplit] at h7 h8
      exact ⟨s2, t2, by rw [bulkPipe_unfold, h3]; exact h6, h7, h8⟩
    · obtain ⟨rfl, rfl, rfl⟩ := h.unique h1
      exact ⟨s', t', by rw [bulkPipe_unfold, h2], h3, h4⟩

example : ∃ s' t', bulkPipe Case.P Case.C (Case.pro (.ok ())) (Case.con 2) =
    ok ((s', t'), .error (.consumer "full")) ∧ t'.Seen [1, 2] none :=
  let ⟨s', t', h1, h2, _⟩ := bulk_pipe_spec (Case.plays (.ok ())) (Case.collects 2)
    (.itemRefused ((Case.script_starts _).take 2) (Case.accepts (by decide)) (x := 3) rfl rfl)
  ⟨s', t', h1, h2⟩

example : ∃ s' t', bulkPipe Case.P Case.C (Case.pro (.ok ())) (Case.con 5) = ok ((s', t'), .ok ()) ∧ t'.Seen [1, 2, 3] (some ()) :=
  let ⟨s', t', h1, h2, _⟩ := bulk_pipe_spec (Case.plays (.ok ())) (Case.collects 5)
    (.closed (Case.script_starts _) (Case.accepts (by decide)) (Case.script_end _) rfl)
  ⟨s', t', h1, h2⟩

/-- **C11**: if the sequence and the policy go on for ever, `bulk_pipe` does not return, just like `pipe`. -/
theorem bulk_pipe_endless {P : BulkProducer σ I F E₁} {C : BulkConsumer τ I F E₂} {D : τ → List I → Option F → Prop}
    {c : Script I F E₁} {q : Policy I F E₂} {s : σ} {t : τ} {l : List I} (hP : BulkPlays P s c)
    (hC : BulkCollects C D q t l)
    (h : ∀ n, ∃ xs, xs.length = n ∧ c.StartsWith xs ∧ q.Accepts l xs) : bulkPipe P C s t = .diverge := by
  have hno : ∀ (c : Script I F E₁) l, (∀ n, ∃ xs, xs.length = n ∧ c.StartsWith xs ∧ q.Accepts l xs) →
      ∀ xs fin res, ¬ PipeResult c q l xs fin res := by
    intro c l h xs fin res hres
    obtain ⟨ys, hl, h1, h2⟩ := h (xs.length + 1)
    have := (hres.advance h1 h2).1
    omega
  apply loop_diverge (bulkPipeBody P C)
    (Inv := fun st => ∃ c l, BulkPlays P st.1 c ∧ BulkCollects C D q st.2 l ∧
      ∀ n, ∃ xs, xs.length = n ∧ c.StartsWith xs ∧ q.Accepts l xs)
  · rintro ⟨s, t⟩ ⟨c, l, hP, hC, h⟩
    rcases bulkPipe_round hP hC with ⟨ys, s', t', hne, h1, h2, h3, h4, h5⟩ | ⟨ys, fin', res', s', t', h1, _⟩
    · refine ⟨(s', t'), h3, _, _, h4, h5, fun n => ?_⟩
      obtain ⟨xs, hl, h6, h7⟩ := h (ys.length + n)
      have htake : xs.take ys.length = ys := (h1.prefix h6 (by omega)).symm
      refine ⟨xs.drop ys.length, by simp; omega, h6.drop (by omega), ?_⟩
      have := h7.drop ys.length
      rwa [htake] at this
    · exact absurd h1 (hno c l h _ _ _)
  · exact ⟨c, l, hP, hC, h⟩

example : bulkPipe Case.endless Case.V 0 (IntoVec.fromVec []) = .diverge :=
  bulk_pipe_endless (Case.endless_plays 0) (Case.vec_collects [])
    fun n => let ⟨xs, h1, h2⟩ := Case.endless_starts 0 n; ⟨xs, h1, h2, by simp⟩

/-- **C11**: for all lawful bulk producers and consumers, `bulk_pipe` and `pipe` give the same result and leave the consumer
with the same items and final value; or neither returns. -/
theorem bulk_pipe_eq_pipe {P : BulkProducer σ I F E₁} {C : BulkConsumer τ I F E₂} {D : τ → List I → Option F → Prop}
    {c : Script I F E₁} {q : Policy I F E₂} {s : σ} {t : τ} {l : List I} (hP : BulkPlays P s c)
    (hC : BulkCollects C D q t l) :
    (pipe P.toProducer C.toConsumer s t = .diverge ∧ bulkPipe P C s t = .diverge) ∨
    (∃ res s₁ t₁ s₂ t₂ xs fin, pipe P.toProducer C.toConsumer s t = ok ((s₁, t₁), res) ∧
      bulkPipe P C s t = ok ((s₂, t₂), res) ∧ D t₁ (l ++ xs) fin ∧ D t₂ (l ++ xs) fin ∧ c.StartsWith xs) := by
  rcases PipeResult.exists_or_endless c q l with ⟨xs, fin, res, h⟩ | h
  · right
    obtain ⟨s₁, t₁, h1, h2⟩ := pipe_spec hP.toPlays hC.toCollects h
    obtain ⟨s₂, t₂, h3, h4, _⟩ := bulk_pipe_spec hP hC h
    exact ⟨res, s₁, t₁, s₂, t₂, xs, fin, h1, h3, h2, h4, h.startsWith⟩
  · left
    exact ⟨pipe_endless hP.toPlays hC.toCollects h, bulk_pipe_endless hP hC h⟩

example : BulkPlays Case.P (Case.pro (.error "bad")) (Case.script (.error "bad")) ∧
    BulkCollects Case.C TestConsumer.Seen (Case.policy 2) (Case.con 2) [] :=
  ⟨Case.plays _, Case.collects 2⟩

end

end Verif
