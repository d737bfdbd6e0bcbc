import Verif.Props.PipeAtMost
import Verif.Lemmas.PipeDefers
import Verif.Props.Io
import Verif.Cases

/-!
# C57: piping and full slices into consumers that delay their effects

C06–C14 are about consumers whose effects happen during the call that causes them. Here the consumers may keep items back
(a `Writer` with its buffer, a scrambler with its queue), so an error can show up later than the item that caused it.
-/

namespace Verif

open Outcome

section

variable {σ τ I F E₁ E₂ : Type}

/-- What may come out when the sequence `c` is piped into a consumer to which `l` has been passed, and which fails only as
described by `X`: `DeferredPipe c X l Open D t' res` says that `res` may be the result and `t'` the consumer afterwards.
`Open t' m`: the consumer can be used on, `m` being all that was passed to it. `D t' d fin`: what it has really done. -/
inductive DeferredPipe (c : Script I F E₁) (X : Faults I F E₂) (l : List I) (Open : τ → List I → Prop)
    (D : τ → List I → Option F → Prop) : τ → Except (PipeError E₁ E₂) Unit → Prop where
  /-- Everything has been delivered, nothing is delayed any more. -/
  | closed {t' xs f} : c.StartsWith xs → c xs.length = .ok (.inr f) → D t' (l ++ xs) (some f) →
      DeferredPipe c X l Open D t' (.ok ())
  | producerFailed {t' xs e} : c.StartsWith xs → c xs.length = .error e → Open t' (l ++ xs) →
      DeferredPipe c X l Open D t' (.error (.producer e))
  /-- The consumer fails while taking the last of the items `xs`, having done the things `d`. -/
  | itemFailed {t' xs d e} : xs ≠ [] → c.StartsWith xs → X.during (l ++ xs) d e → D t' d none →
      DeferredPipe c X l Open D t' (.error (.consumer e))
  | closeFailed {t' xs f d e} : c.StartsWith xs → c xs.length = .ok (.inr f) → X.closing (l ++ xs) f d e → D t' d none →
      DeferredPipe c X l Open D t' (.error (.consumer e))

/-- The same for the piping functions that stop after `count` items. -/
inductive DeferredAtMost (c : Script I F E₁) (X : Faults I F E₂) (l : List I) (count : Nat) (Open : τ → List I → Prop)
    (D : τ → List I → Option F → Prop) : τ → Except (PipeError E₁ E₂) Nat → Prop where
  | full {t' xs} : c.StartsWith xs → xs.length = count → Open t' (l ++ xs) → DeferredAtMost c X l count Open D t' (.ok count)
  | closed {t' xs f} : c.StartsWith xs → xs.length < count → c xs.length = .ok (.inr f) → D t' (l ++ xs) (some f) →
      DeferredAtMost c X l count Open D t' (.ok xs.length)
  | producerFailed {t' xs e} : c.StartsWith xs → xs.length < count → c xs.length = .error e → Open t' (l ++ xs) →
      DeferredAtMost c X l count Open D t' (.error (.producer e))
  | itemFailed {t' xs d e} : xs ≠ [] → c.StartsWith xs → xs.length ≤ count → X.during (l ++ xs) d e → D t' d none →
      DeferredAtMost c X l count Open D t' (.error (.consumer e))
  | closeFailed {t' xs f d e} : c.StartsWith xs → xs.length < count → c xs.length = .ok (.inr f) →
      X.closing (l ++ xs) f d e → D t' d none → DeferredAtMost c X l count Open D t' (.error (.consumer e))

theorem Script.StartsWith.snoc {c : Script I F E₁} {xs : List I} {x : I} (h : c.StartsWith xs)
    (hx : c xs.length = .ok (.inl x)) : c.StartsWith (xs ++ [x]) :=
  h.append (by rw [Script.startsWith_cons]; exact ⟨by simpa using hx, by simp⟩)

/-- A sequence with prefixes of any length is endless. -/
theorem Script.exact_prefixes {c : Script I F E₁} (h : ∀ n, ∃ xs, n ≤ xs.length ∧ c.StartsWith xs) (n : Nat) :
    ∃ xs, xs.length = n ∧ c.StartsWith xs := by
  obtain ⟨xs, h1, h2⟩ := h n
  exact ⟨xs.take n, by simp; omega, h2.take n⟩

/-- **C57**: `pipe` into a delaying consumer returns one of the results that may come out, or does not return because the
sequence is endless. -/
theorem pipe_deferred {P : Producer σ I F E₁} {C : Consumer τ I F E₂} {D : τ → List I → Option F → Prop}
    {c : Script I F E₁} {X : Faults I F E₂} {s : σ} {t : τ} {l : List I} (hP : Plays P s c) (hC : Defers C D X t l) :
    (∃ s' t' res, pipe P C s t = ok ((s', t'), res) ∧ DeferredPipe c X l (Defers C D X) D t' res) ∨
    (pipe P C s t = .diverge ∧ ∀ n, ∃ xs, xs.length = n ∧ c.StartsWith xs) := by
  have := loop_or_forever (body := pipeBody P C)
    (fun xs st => c.StartsWith xs ∧ Plays P st.1 (c.drop xs.length) ∧ Defers C D X st.2 (l ++ xs))
    (fun r => DeferredPipe c X l (Defers C D X) D r.1.2 r.2) ?_ (xs := []) (s := (s, t))
    ⟨by simp, by simpa using hP, by simpa using hC⟩
  · rcases this with ⟨⟨⟨s', t'⟩, res⟩, h1, h2⟩ | ⟨h1, h2⟩
    · exact .inl ⟨s', t', res, h1, h2⟩
    · refine .inr ⟨h1, Script.exact_prefixes fun n => ?_⟩
      obtain ⟨ys, _, h3, h4, _⟩ := h2 n
      exact ⟨ys, h3, h4⟩
  · rintro xs ⟨s, t⟩ ⟨hsw, hP, hC⟩
    obtain ⟨s1, hs1, hP1⟩ := hP.step
    simp only [Script.drop_apply, Nat.add_zero] at hs1 hP1
    rcases hc : c xs.length with e | x | f
    · exact .inl ⟨((s1, t), .error (.producer e)), by simp [pipeBody, hs1, hc], .producerFailed hsw hc hC⟩
    · obtain ⟨t1, ⟨h1, h2⟩ | ⟨e, d, h1, h2, h3⟩⟩ := hC.consume x
      · refine .inr ⟨[x], (s1, t1), by simp, by simp [pipeBody, hs1, hc, h1], hsw.snoc hc, ?_, by simpa using h2⟩
        have := hP1 x hc
        rw [Script.drop_drop] at this
        simpa using this
      · exact .inl ⟨((s1, t1), .error (.consumer e)), by simp [pipeBody, hs1, hc, h1],
          .itemFailed (xs := xs ++ [x]) (by simp) (hsw.snoc hc) (by simpa using h2) h3⟩
    · obtain ⟨t1, ⟨h1, h2⟩ | ⟨e, d, h1, h2, h3⟩⟩ := hC.close f
      · exact .inl ⟨((s1, t1), .ok ()), by simp [pipeBody, hs1, hc, h1], .closed hsw hc h2⟩
      · exact .inl ⟨((s1, t1), .error (.consumer e)), by simp [pipeBody, hs1, hc, h1], .closeFailed hsw hc h2 h3⟩

/-- Nothing is refused: the scrambler's queue of two items is emptied in the end. -/
example : ∃ s' t' res, pipe Case.P.toProducer Case.B.toConsumer (Case.pro (.ok ())) (Case.del 5) = ok ((s', t'), res) ∧
    DeferredPipe (Case.script (.ok ())) (Case.policy 5).faults [] (Defers Case.B.toConsumer Case.SeenInside (Case.policy 5).faults)
      Case.SeenInside t' res := by
  rcases pipe_deferred (Case.plays (.ok ())).toPlays (Case.defers 5).toDefers with h | ⟨_, h⟩
  · exact h
  · exact absurd h (Case.script_ends _)

/-- **C57**: `bulk_pipe` likewise, with the same results allowed. -/
theorem bulk_pipe_deferred {P : BulkProducer σ I F E₁} {C : BulkConsumer τ I F E₂} {D : τ → List I → Option F → Prop}
    {c : Script I F E₁} {X : Faults I F E₂} {s : σ} {t : τ} {l : List I} (hP : BulkPlays P s c)
    (hC : BulkDefers C D X t l) :
    (∃ s' t' res, bulkPipe P C s t = ok ((s', t'), res) ∧ DeferredPipe c X l (BulkDefers C D X) D t' res) ∨
    (bulkPipe P C s t = .diverge ∧ ∀ n, ∃ xs, xs.length = n ∧ c.StartsWith xs) := by
  have := loop_or_forever (body := bulkPipeBody P C)
    (fun xs st => c.StartsWith xs ∧ BulkPlays P st.1 (c.drop xs.length) ∧ BulkDefers C D X st.2 (l ++ xs))
    (fun r => DeferredPipe c X l (BulkDefers C D X) D r.1.2 r.2) ?_ (xs := []) (s := (s, t))
    ⟨by simp, by simpa using hP, by simpa using hC⟩
  · rcases this with ⟨⟨⟨s', t'⟩, res⟩, h1, h2⟩ | ⟨h1, h2⟩
    · exact .inl ⟨s', t', res, h1, h2⟩
    · refine .inr ⟨h1, Script.exact_prefixes fun n => ?_⟩
      obtain ⟨ys, _, h3, h4, _⟩ := h2 n
      exact ⟨ys, h3, h4⟩
  · rintro xs ⟨s, t⟩ ⟨hsw, hP, hC⟩
    obtain ⟨s1, ⟨ys, hne, hsw', hex, hcp⟩ | ⟨f, hf, hex⟩ | ⟨e, he, hex⟩⟩ := hP.exposeStep
    · obtain ⟨t1, ⟨k, hk0, hkl, hbc, hC'⟩ | ⟨e, d, hbc, h2, h3⟩⟩ := hC.bulkConsume hne
      · obtain ⟨s2, hs2, hP2⟩ := hcp k hkl
        have hlen : (ys.take k).length = k := by simp; omega
        refine .inr ⟨ys.take k, (s2, t1), ?_, by simp [bulkPipeBody, hex, hbc, hs2], hsw.append (hsw'.take k), ?_,
          by rw [← List.append_assoc]; exact hC'⟩
        · intro h0; rw [h0] at hlen; simp at hlen; omega
        · rw [List.length_append, hlen, ← Script.drop_drop]; exact hP2
      · exact .inl ⟨((s1, t1), .error (.consumer e)), by simp [bulkPipeBody, hex, hbc],
          .itemFailed (xs := xs ++ ys) (by simp [hne]) (hsw.append hsw') (by simpa using h2) h3⟩
    · simp only [Script.drop_apply, Nat.add_zero] at hf
      obtain ⟨t1, ⟨h1, h2⟩ | ⟨e, d, h1, h2, h3⟩⟩ := hC.toDefers.close f
      · exact .inl ⟨((s1, t1), .ok ()), by simp [bulkPipeBody, hex, h1], .closed hsw hf h2⟩
      · exact .inl ⟨((s1, t1), .error (.consumer e)), by simp [bulkPipeBody, hex, h1], .closeFailed hsw hf h2 h3⟩
    · simp only [Script.drop_apply, Nat.add_zero] at he
      exact .inl ⟨((s1, t), .error (.producer e)), by simp [bulkPipeBody, hex], .producerFailed hsw he hC⟩

example : ∃ s' t' res, bulkPipe Case.P Case.B (Case.pro (.error "bad")) (Case.del 2) = ok ((s', t'), res) ∧
    DeferredPipe (Case.script (.error "bad")) (Case.policy 2).faults [] (BulkDefers Case.B Case.SeenInside (Case.policy 2).faults)
      Case.SeenInside t' res := by
  rcases bulk_pipe_deferred (Case.plays (.error "bad")) (Case.defers 2) with h | ⟨_, h⟩
  · exact h
  · exact absurd h (Case.script_ends _)

/-- **C57**: if `pipe` or `bulk_pipe` succeeds, then nothing is held back: exactly the items of the sequence and then its final
value have really been consumed. -/
theorem DeferredPipe.delivered {c : Script I F E₁} {X : Faults I F E₂} {l : List I} {Open : τ → List I → Prop}
    {D : τ → List I → Option F → Prop} {t' : τ} (h : DeferredPipe c X l Open D t' (.ok ())) :
    ∃ xs f, c.StartsWith xs ∧ c xs.length = .ok (.inr f) ∧ D t' (l ++ xs) (some f) := by
  cases h with
  | closed h1 h2 h3 => exact ⟨_, _, h1, h2, h3⟩

example : ∃ s' t', bulkPipe Case.P Case.B (Case.pro (.ok ())) (Case.del 5) = ok ((s', t'), .ok ()) ∧
    DeferredPipe (Case.script (.ok ())) (Case.policy 5).faults [] (BulkDefers Case.B Case.SeenInside (Case.policy 5).faults)
      Case.SeenInside t' (.ok ()) := by
  rcases bulk_pipe_deferred (Case.plays (.ok ())) (Case.defers 5) with ⟨s', t', res, h1, h2⟩ | ⟨_, h⟩
  · obtain rfl : res = .ok () := by
      cases h2 with
      | closed _ _ _ => rfl
      | producerFailed g1 g2 _ => exact absurd g2 (Case.script_no_error _ _)
      | itemFailed _ g1 g2 _ => exact absurd g2 (Case.no_faults (by have := Case.script_length g1; simp; omega) _ _)
      | closeFailed g1 _ g2 _ => exact absurd g2 (Case.no_close_faults (by have := Case.script_length g1; simp; omega) _ _)
    exact ⟨s', t', h1, h2⟩
  · exact absurd h (Case.script_ends _)

/-- **C57**: if they fail, then a prefix of the items of the sequence has really been consumed, and no final value. -/
theorem DeferredPipe.prefix {c : Script I F E₁} {X : Faults I F E₂} (hX : X.Regular) {l : List I} {C : Consumer τ I F E₂}
    {D : τ → List I → Option F → Prop} {t' : τ} {e : PipeError E₁ E₂}
    (h : DeferredPipe c X l (Defers C D X) D t' (.error e)) : ∃ xs d, c.StartsWith xs ∧ d <+: l ++ xs ∧ D t' d none := by
  cases h with
  | producerFailed h1 h2 h3 =>
    obtain ⟨R, hR, hs⟩ := h3
    obtain ⟨d, hd, hD⟩ := hR.observe _ _ hs
    exact ⟨_, d, h1, hd, hD⟩
  | itemFailed h1 h2 h3 h4 => exact ⟨_, _, h2, hX.during_prefix _ _ _ h3, h4⟩
  | closeFailed h1 h2 h3 h4 => exact ⟨_, _, h1, hX.closing_prefix _ _ _ _ h3, h4⟩

/-- The producer fails after three items. -/
example : ∃ s' t' e, pipe Case.P.toProducer Case.B.toConsumer (Case.pro (.error "bad")) (Case.del 5) = ok ((s', t'), .error e) ∧
    DeferredPipe (Case.script (.error "bad")) (Case.policy 5).faults []
      (Defers Case.B.toConsumer Case.SeenInside (Case.policy 5).faults) Case.SeenInside t' (.error e) := by
  rcases pipe_deferred (Case.plays (.error "bad")).toPlays (Case.defers 5).toDefers with ⟨s', t', res, h1, h2⟩ | ⟨_, h⟩
  · cases res with
    | error e => exact ⟨s', t', e, h1, h2⟩
    | ok u =>
      cases h2 with
      | closed g1 g2 _ => exact absurd g2 (Case.script_no_final _ _)
  · exact absurd h (Case.script_ends _)

/-- **C57**: if the sequence ends with a final value, and the consumer has no reason to fail while it takes the items nor when it
is closed, then `pipe` and `bulk_pipe` both succeed, and all of the items and the final value have really been consumed. -/
theorem pipe_deferred_ok {P : BulkProducer σ I F E₁} {C : BulkConsumer τ I F E₂} {D : τ → List I → Option F → Prop}
    {c : Script I F E₁} {X : Faults I F E₂} (hX : X.Regular) {s : σ} {t : τ} {l xs : List I} {f : F} (hP : BulkPlays P s c)
    (hC : BulkDefers C D X t l) (hxs : c.StartsWith xs) (hf : c xs.length = .ok (.inr f))
    (h1 : ∀ d e, ¬ X.during (l ++ xs) d e) (h2 : ∀ d e, ¬ X.closing (l ++ xs) f d e) :
    (∃ s' t', pipe P.toProducer C.toConsumer s t = ok ((s', t'), .ok ()) ∧ D t' (l ++ xs) (some f)) ∧
    (∃ s' t', bulkPipe P C s t = ok ((s', t'), .ok ()) ∧ D t' (l ++ xs) (some f)) := by
  have hend : ¬ ∀ n, ∃ ys, ys.length = n ∧ c.StartsWith ys := by
    intro h
    obtain ⟨ys, hl, hy⟩ := h (xs.length + 1)
    have := hy xs.length _ (List.getElem?_eq_getElem (by omega))
    rw [hf] at this; cases this
  have hle : ∀ ys, c.StartsWith ys → ys.length ≤ xs.length := by
    intro ys hy
    rcases Nat.lt_or_ge xs.length ys.length with hlt | hge
    · have := hy xs.length _ (List.getElem?_eq_getElem hlt)
      rw [hf] at this; cases this
    · exact hge
  have hpre : ∀ ys, c.StartsWith ys → ys <+: xs := by
    intro ys hy
    rw [hy.prefix hxs (hle ys hy)]
    exact List.take_prefix _ _
  have huniq : ∀ ys r, c.StartsWith ys → c ys.length = r → (∀ x, r ≠ .ok (.inl x)) → ys = xs := by
    intro ys r hy hr hne
    have hlen : ys.length = xs.length := by
      rcases Nat.lt_or_ge ys.length xs.length with hlt | hge
      · have := hxs ys.length _ (List.getElem?_eq_getElem hlt)
        exact absurd (hr.symm.trans this) (hne _)
      · have := hle ys hy; omega
    have := hy.prefix hxs (by omega)
    rwa [hlen, List.take_length] at this
  have key : ∀ {Open : τ → List I → Prop} {t' res}, DeferredPipe c X l Open D t' res →
      res = .ok () ∧ D t' (l ++ xs) (some f) := by
    intro Open t' res h
    cases h with
    | closed g1 g2 g3 =>
      have := huniq _ _ g1 g2 (by simp)
      subst this
      rw [hf] at g2; injection g2 with g2; injection g2 with g2
      subst g2
      exact ⟨rfl, g3⟩
    | producerFailed g1 g2 g3 =>
      have := huniq _ _ g1 g2 (by simp)
      subst this
      rw [hf] at g2; cases g2
    | itemFailed g1 g2 g3 g4 =>
      exact absurd (hX.mono _ _ _ _ g3 ((List.prefix_append_right_inj l).mpr (hpre _ g2))) (h1 _ _)
    | closeFailed g1 g2 g3 g4 =>
      have := huniq _ _ g1 g2 (by simp)
      subst this
      rw [hf] at g2; injection g2 with g2; injection g2 with g2
      subst g2
      exact absurd g3 (h2 _ _)
  constructor
  · rcases pipe_deferred hP.toPlays hC.toDefers with ⟨s', t', res, g1, g2⟩ | ⟨_, g⟩
    · obtain ⟨rfl, g3⟩ := key g2
      exact ⟨s', t', g1, g3⟩
    · exact absurd g hend
  · rcases bulk_pipe_deferred hP hC with ⟨s', t', res, g1, g2⟩ | ⟨_, g⟩
    · obtain ⟨rfl, g3⟩ := key g2
      exact ⟨s', t', g1, g3⟩
    · exact absurd g hend

/-- The three items all arrive, although two of them wait in the scrambler's queue at first. -/
example : ∃ s' t', bulkPipe Case.P Case.B (Case.pro (.ok ())) (Case.del 5) = ok ((s', t'), .ok ()) ∧
    Case.SeenInside t' [1, 2, 3] (some ()) :=
  (pipe_deferred_ok (Policy.regular_faults _) (Case.plays (.ok ())) (Case.defers 5) (Case.script_starts _) (Case.script_end _)
    (Case.no_faults (by decide)) (Case.no_close_faults (by decide))).2

/-- **C57**: `pipe_at_most` into a delaying consumer always returns, with one of the results that may come out. -/
theorem pipe_at_most_deferred {P : Producer σ I F E₁} {C : Consumer τ I F E₂} {D : τ → List I → Option F → Prop}
    {c : Script I F E₁} {X : Faults I F E₂} {s : σ} {t : τ} {l : List I} (hP : Plays P s c) (hC : Defers C D X t l)
    (count : Nat) : ∃ s' t' res, pipeAtMost P C s t count = ok ((s', t'), res) ∧
      DeferredAtMost c X l count (Defers C D X) D t' res ∧ (res = .ok count → Plays P s' (c.drop count)) := by
  have := loop_ok (body := pipeAtMostBody P C count)
    (fun a _ st => ∃ xs, c.StartsWith xs ∧ Plays P st.1 (c.drop xs.length) ∧ Defers C D X st.2.1 (l ++ xs) ∧
      st.2.2 = xs.length ∧ a + xs.length = count)
    (fun r => DeferredAtMost c X l count (Defers C D X) D r.1.2 r.2 ∧ (r.2 = .ok count → Plays P r.1.1 (c.drop count)))
    ?_ (a := count) (b := 0) (s := (s, t, 0)) ⟨[], by simp, by simpa using hP, by simpa using hC, rfl, rfl⟩
  · obtain ⟨⟨⟨s', t'⟩, res⟩, h1, h2⟩ := this
    exact ⟨s', t', res, h1, h2⟩
  · rintro a b ⟨s, t, n⟩ ⟨xs, hsw, hP, hC, rfl, ha⟩
    by_cases hlt : xs.length < count
    · obtain ⟨s1, hs1, hP1⟩ := hP.step
      simp only [Script.drop_apply, Nat.add_zero] at hs1 hP1
      rcases hc : c xs.length with e | x | f
      · exact .inl ⟨((s1, t), .error (.producer e)), by simp [pipeAtMostBody, hlt, hs1, hc],
          .producerFailed hsw hlt hc hC, by simp⟩
      · obtain ⟨t1, ⟨h1, h2⟩ | ⟨e, d, h1, h2, h3⟩⟩ := hC.consume x
        · refine .inr ⟨(s1, t1, xs.length + 1), a - 1, 0, by simp [pipeAtMostBody, hlt, hs1, hc, h1], .inl (by omega),
            xs ++ [x], hsw.snoc hc, ?_, by simpa using h2, by simp, by simp; omega⟩
          have := hP1 x hc
          rw [Script.drop_drop] at this
          simpa using this
        · exact .inl ⟨((s1, t1), .error (.consumer e)), by simp [pipeAtMostBody, hlt, hs1, hc, h1],
            .itemFailed (xs := xs ++ [x]) (by simp) (hsw.snoc hc) (by simp; omega) (by simpa using h2) h3, by simp⟩
      · obtain ⟨t1, ⟨h1, h2⟩ | ⟨e, d, h1, h2, h3⟩⟩ := hC.close f
        · refine .inl ⟨((s1, t1), .ok xs.length), by simp [pipeAtMostBody, hlt, hs1, hc, h1], .closed hsw hlt hc h2, ?_⟩
          intro h; injection h; omega
        · exact .inl ⟨((s1, t1), .error (.consumer e)), by simp [pipeAtMostBody, hlt, hs1, hc, h1],
            .closeFailed hsw hlt hc h2 h3, by simp⟩
    · have heq : xs.length = count := by omega
      refine .inl ⟨((s, t), .ok count), by simp [pipeAtMostBody, heq], .full hsw heq hC, fun _ => ?_⟩
      rw [← heq]; exact hP

example : ∃ s' t' res, pipeAtMost Case.P.toProducer Case.B.toConsumer (Case.pro (.ok ())) (Case.del 5) 2 = ok ((s', t'), res) ∧
    DeferredAtMost (Case.script (.ok ())) (Case.policy 5).faults [] 2
      (Defers Case.B.toConsumer Case.SeenInside (Case.policy 5).faults) Case.SeenInside t' res :=
  let ⟨s', t', res, h1, h2, _⟩ := pipe_at_most_deferred (Case.plays (.ok ())).toPlays (Case.defers 5).toDefers 2
  ⟨s', t', res, h1, h2⟩

/-- **C57**: `bulk_pipe_at_most` likewise, with the same results allowed; in particular no more than `count` items are ever
offered. -/
theorem bulk_pipe_at_most_deferred {P : BulkProducer σ I F E₁} {C : BulkConsumer τ I F E₂}
    {D : τ → List I → Option F → Prop} {c : Script I F E₁} {X : Faults I F E₂} {s : σ} {t : τ} {l : List I}
    (hP : BulkPlays P s c) (hC : BulkDefers C D X t l)
    (count : Nat) : ∃ s' t' res, bulkPipeAtMost P C s t count = ok ((s', t'), res) ∧
      DeferredAtMost c X l count (BulkDefers C D X) D t' res ∧ (res = .ok count → BulkPlays P s' (c.drop count)) := by
  have := loop_ok (body := bulkPipeAtMostBody P C count)
    (fun a _ st => ∃ xs, c.StartsWith xs ∧ BulkPlays P st.1 (c.drop xs.length) ∧ BulkDefers C D X st.2.1 (l ++ xs) ∧
      st.2.2 = xs.length ∧ a + xs.length = count)
    (fun r => DeferredAtMost c X l count (BulkDefers C D X) D r.1.2 r.2 ∧
      (r.2 = .ok count → BulkPlays P r.1.1 (c.drop count)))
    ?_ (a := count) (b := 0) (s := (s, t, 0)) ⟨[], by simp, by simpa using hP, by simpa using hC, rfl, rfl⟩
  · obtain ⟨⟨⟨s', t'⟩, res⟩, h1, h2⟩ := this
    exact ⟨s', t', res, h1, h2⟩
  · rintro a b ⟨s, t, n⟩ ⟨xs, hsw, hP, hC, rfl, ha⟩
    by_cases hlt : xs.length < count
    · obtain ⟨s1, ⟨ys, hne, hsw', hex, hcp⟩ | ⟨f, hf, hex⟩ | ⟨e, he, hex⟩⟩ := hP.exposeStep
      · have hpos := List.length_pos_iff.mpr hne
        generalize hm : min (count - xs.length) ys.length = m
        have hm' : m ≤ count - xs.length ∧ m ≤ ys.length ∧ 0 < m := by omega
        have hlenm : (ys.take m).length = m := by simp; omega
        have hne' : ys.take m ≠ [] := by intro h0; rw [h0] at hlenm; simp at hlenm; omega
        obtain ⟨t1, ⟨k, hk0, hkl, hbc, hC'⟩ | ⟨e, d, hbc, h2, h3⟩⟩ := hC.bulkConsume hne'
        · rw [hlenm] at hkl
          obtain ⟨s2, hs2, hP2⟩ := hcp k (by omega)
          have hlen : (ys.take k).length = k := by simp; omega
          rw [List.take_take, Nat.min_eq_left hkl] at hC'
          refine .inr ⟨(s2, t1, xs.length + k), a - k, 0, by simp [bulkPipeAtMostBody, hlt, hex, hm, hbc, hs2],
            .inl (by omega), xs ++ ys.take k, hsw.append (hsw'.take k), ?_, by rw [← List.append_assoc]; exact hC', ?_, ?_⟩
          · rw [List.length_append, hlen, ← Script.drop_drop]; exact hP2
          · rw [List.length_append, hlen]
          · rw [List.length_append, hlen]; omega
        · exact .inl ⟨((s1, t1), .error (.consumer e)), by simp [bulkPipeAtMostBody, hlt, hex, hm, hbc],
            .itemFailed (xs := xs ++ ys.take m) (by simp [hne']) (hsw.append (hsw'.take m))
              (by rw [List.length_append, hlenm]; omega) (by simpa using h2) h3, by simp⟩
      · simp only [Script.drop_apply, Nat.add_zero] at hf
        obtain ⟨t1, ⟨h1, h2⟩ | ⟨e, d, h1, h2, h3⟩⟩ := hC.toDefers.close f
        · refine .inl ⟨((s1, t1), .ok xs.length), by simp [bulkPipeAtMostBody, hlt, hex, h1], .closed hsw hlt hf h2, ?_⟩
          intro h; injection h; omega
        · exact .inl ⟨((s1, t1), .error (.consumer e)), by simp [bulkPipeAtMostBody, hlt, hex, h1],
            .closeFailed hsw hlt hf h2 h3, by simp⟩
      · simp only [Script.drop_apply, Nat.add_zero] at he
        exact .inl ⟨((s1, t), .error (.producer e)), by simp [bulkPipeAtMostBody, hlt, hex],
          .producerFailed hsw hlt he hC, by simp⟩
    · have heq : xs.length = count := by omega
      refine .inl ⟨((s, t), .ok count), by simp [bulkPipeAtMostBody, heq], .full hsw heq hC, fun _ => ?_⟩
      rw [← heq]; exact hP

/-- An endless producer; two of the items stay in the queue. -/
example : ∃ s' t' res, bulkPipeAtMost Case.endless Case.B 0 (Case.del 5) 4 = ok ((s', t'), res) ∧
    DeferredAtMost (Case.endlessScript 0) (Case.policy 5).faults [] 4
      (BulkDefers Case.B Case.SeenInside (Case.policy 5).faults) Case.SeenInside t' res :=
  let ⟨s', t', res, h1, h2, _⟩ := bulk_pipe_at_most_deferred (Case.endless_plays 0) (Case.defers 5) 4
  ⟨s', t', res, h1, h2⟩

/-- **C57**: if the bounded pipes return fewer items than asked for, then nothing is held back. -/
theorem DeferredAtMost.delivered {c : Script I F E₁} {X : Faults I F E₂} {l : List I} {count n : Nat}
    {Open : τ → List I → Prop} {D : τ → List I → Option F → Prop} {t' : τ}
    (h : DeferredAtMost c X l count Open D t' (.ok n)) (hn : n ≠ count) :
    ∃ xs f, c.StartsWith xs ∧ xs.length = n ∧ n < count ∧ c n = .ok (.inr f) ∧ D t' (l ++ xs) (some f) := by
  cases h with
  | full _ _ _ => exact absurd rfl hn
  | closed h1 h2 h3 h4 => exact ⟨_, _, h1, rfl, h2, h3, h4⟩

/-- A sequence of three items, at most four of which are asked for. -/
example : ∃ s' t' n, bulkPipeAtMost Case.P Case.B (Case.pro (.ok ())) (Case.del 5) 4 = ok ((s', t'), .ok n) ∧
    DeferredAtMost (Case.script (.ok ())) (Case.policy 5).faults [] 4 (BulkDefers Case.B Case.SeenInside (Case.policy 5).faults)
      Case.SeenInside t' (.ok n) ∧ n ≠ 4 := by
  obtain ⟨s', t', res, h1, h2, _⟩ := bulk_pipe_at_most_deferred (Case.plays (.ok ())) (Case.defers 5) 4
  cases res with
  | ok n =>
    refine ⟨s', t', n, h1, h2, ?_⟩
    intro hn
    cases h2 with
    | full g1 g2 _ => have := Case.script_length g1; omega
    | closed g1 _ _ _ => have := Case.script_length g1; omega
  | error e =>
    exfalso
    cases h2 with
    | producerFailed g1 g2 g3 _ => exact Case.script_no_error _ _ g3
    | itemFailed _ g1 g2 g3 _ => have := Case.script_length g1; exact Case.no_faults (by simp; omega) _ _ g3
    | closeFailed g1 g2 _ g3 _ => have := Case.script_length g1; exact Case.no_close_faults (by simp; omega) _ _ g3

/-- **C57**: `consume_full_slice` of a delaying consumer succeeds with all of the slice passed, or fails with the number
of items whose `consume` call succeeded. -/
theorem consume_full_slice_deferred {C : Consumer σ I F E₁} {D : σ → List I → Option F → Prop} {X : Faults I F E₁} {s : σ}
    {l : List I} (h : Defers C D X s l) (buf : List I) :
    (∃ s', consumeFullSlice C s buf = ok (s', .ok ()) ∧ Defers C D X s' (l ++ buf)) ∨
    (∃ s' n d e, consumeFullSlice C s buf = ok (s', .error ⟨n, e⟩) ∧ n < buf.length ∧
      X.during (l ++ buf.take (n + 1)) d e ∧ D s' d none) := by
  suffices H : ∀ buf s l i, Defers C D X s l →
      (∃ s', consumeFullSliceFrom C s i buf = ok (s', .ok ()) ∧ Defers C D X s' (l ++ buf)) ∨
      (∃ s' n d e, consumeFullSliceFrom C s i buf = ok (s', .error ⟨i + n, e⟩) ∧ n < buf.length ∧
        X.during (l ++ buf.take (n + 1)) d e ∧ D s' d none) by
    have := H buf s l 0 h
    simpa [consumeFullSlice] using this
  intro buf
  induction buf with
  | nil => intro s l i h; exact .inl ⟨s, rfl, by simpa using h⟩
  | cons x xs ih =>
    intro s l i h
    obtain ⟨s1, ⟨h1, h2⟩ | ⟨e, d, h1, h2, h3⟩⟩ := h.consume x
    · rcases ih s1 (l ++ [x]) (i + 1) h2 with ⟨s', h3, h4⟩ | ⟨s', n, d, e, h3, h4, h5, h6⟩
      · exact .inl ⟨s', by simp [consumeFullSliceFrom, h1, h3], by simpa using h4⟩
      · refine .inr ⟨s', n + 1, d, e, ?_, by simp; omega, by simpa using h5, h6⟩
        simp [consumeFullSliceFrom, h1, h3]; omega
    · exact .inr ⟨s1, 0, d, e, by simp [consumeFullSliceFrom, h1], by simp, by simpa using h2, h3⟩

/-- Three items fit, though the consumer accepts only one: two are still in the queue, or the third already has failed. -/
example : (∃ s', consumeFullSlice Case.B.toConsumer (Case.del 1) [5, 6, 7] = ok (s', .ok ()) ∧
      Defers Case.B.toConsumer Case.SeenInside (Case.policy 1).faults s' [5, 6, 7]) ∨
    (∃ s' n d e, consumeFullSlice Case.B.toConsumer (Case.del 1) [5, 6, 7] = ok (s', .error ⟨n, e⟩) ∧ n < 3 ∧
      (Case.policy 1).faults.during ([5, 6, 7].take (n + 1)) d e ∧ Case.SeenInside s' d none) :=
  consume_full_slice_deferred (Case.defers 1).toDefers [5, 6, 7]

/-- **C57**: `bulk_consume_full_slice` of a delaying consumer always returns; it succeeds with all of the slice passed, or
fails with the number of items that the earlier calls took. -/
theorem bulk_consume_full_slice_deferred {C : BulkConsumer σ I F E₁} {D : σ → List I → Option F → Prop} {X : Faults I F E₁}
    {s : σ} {l : List I} (h : BulkDefers C D X s l) (buf : List I) :
    (∃ s', bulkConsumeFullSlice C s buf = ok (s', .ok ()) ∧ BulkDefers C D X s' (l ++ buf)) ∨
    (∃ s' n d e, bulkConsumeFullSlice C s buf = ok (s', .error ⟨n, e⟩) ∧ n < buf.length ∧
      X.during (l ++ buf) d e ∧ D s' d none ∧
      ∃ s₁, BulkDefers C D X s₁ (l ++ buf.take n) ∧ C.bulkConsume s₁ (buf.drop n) = ok (s', .error e)) := by
  have := loop_ok (body := bulkConsumeFullSliceBody C buf)
    (fun a _ st => st.2 ≤ buf.length ∧ a = buf.length - st.2 ∧ BulkDefers C D X st.1 (l ++ buf.take st.2))
    (fun r => (r.2 = .ok () ∧ BulkDefers C D X r.1 (l ++ buf)) ∨
      ∃ n d e, r.2 = .error ⟨n, e⟩ ∧ n < buf.length ∧ X.during (l ++ buf) d e ∧ D r.1 d none ∧
        ∃ s₁, BulkDefers C D X s₁ (l ++ buf.take n) ∧ C.bulkConsume s₁ (buf.drop n) = ok (r.1, .error e))
    ?_ (a := buf.length) (b := 0) (s := (s, 0)) ⟨by simp, by simp, by simpa using h⟩
  · obtain ⟨⟨s', res⟩, h1, ⟨h2, h3⟩ | ⟨n, d, e, h2, h3⟩⟩ := this
    · subst h2; exact .inl ⟨s', h1, h3⟩
    · subst h2; exact .inr ⟨s', n, d, e, h1, h3⟩
  · rintro a b ⟨s, n⟩ ⟨hn, ha, hC⟩
    simp only at hn ha hC
    by_cases hlt : n < buf.length
    · have hne : buf.drop n ≠ [] := by intro h0; have := congrArg List.length h0; simp at this; omega
      obtain ⟨s1, ⟨k, hk0, hkl, hbc, hC'⟩ | ⟨e, d, hbc, h2, h3⟩⟩ := hC.bulkConsume hne
      · rw [List.length_drop] at hkl
        rw [List.append_assoc, ← List.take_add] at hC'
        exact .inr ⟨(s1, n + k), a - k, 0, by simp [bulkConsumeFullSliceBody, hlt, hbc], .inl (by omega),
          by simp; omega, by simp; omega, hC'⟩
      · rw [List.append_assoc, List.take_append_drop] at h2
        exact .inl ⟨(s1, .error ⟨n, e⟩), by simp [bulkConsumeFullSliceBody, hlt, hbc],
          .inr ⟨n, d, e, rfl, hlt, h2, h3, s, hC, hbc⟩⟩
    · have heq : n = buf.length := by omega
      subst heq
      rw [List.take_length] at hC
      exact .inl ⟨(s, .ok ()), by simp [bulkConsumeFullSliceBody], .inl ⟨rfl, hC⟩⟩

example : ∃ s', bulkConsumeFullSlice Case.B (Case.del 5) [5, 6, 7] = ok (s', .ok ()) ∧
    BulkDefers Case.B Case.SeenInside (Case.policy 5).faults s' [5, 6, 7] := by
  rcases bulk_consume_full_slice_deferred (Case.defers 5) [5, 6, 7] with h | ⟨_, _, d, e, _, _, h, _⟩
  · exact h
  · exact absurd h (Case.no_faults (by decide) d e)

/-! ### Copying from a reader to a writer -/

/-- **C57**, for the adaptors of C35 and C36: copying from any buffered reader to any writer, with any queue as its buffer. If
`bulk_pipe` succeeds, then exactly the bytes of the reader have been written, and then the writer has been closed; if it fails, then a
prefix of them has been written. It returns unless the reader is endless. -/
theorem copy_reader_to_writer {ρ ω κ : Type} {Rd : AsyncBufRead ρ} {r : ρ} {c : Script UInt8 Unit IoError}
    (hr : BufReads Rd r c) (hc : c.NoUnexpectedEof) {W : AsyncWrite ω} {D : ω → List UInt8 → Option Unit → Prop}
    {X : WriterFaults} {w : ω} (hw : Writes W D X w []) {Q : Queue κ UInt8} {cap : Nat}
    {RQ : κ → List UInt8 → List UInt8 → Nat → Prop} (hQ : FifoLaw Q cap RQ) (hcap : 0 < cap) {q : κ} (hq : RQ q [] [] 0) :
    (∃ r' s', bulkPipe (bufReaderProducer Rd) (writerConsumer W Q) r ⟨w, q⟩ = ok ((r', s'), .ok ()) ∧
      ∃ xs, c.StartsWith xs ∧ c xs.length = .ok (.inr ()) ∧ D s'.writer xs (some ())) ∨
    (∃ r' s' e, bulkPipe (bufReaderProducer Rd) (writerConsumer W Q) r ⟨w, q⟩ = ok ((r', s'), .error e) ∧
      ∃ d, c.StartsWith d ∧ D s'.writer d none) ∨
    (bulkPipe (bufReaderProducer Rd) (writerConsumer W Q) r ⟨w, q⟩ = .diverge ∧
      ∀ n, ∃ xs, xs.length = n ∧ c.StartsWith xs) := by
  have hreg : X.faults.Regular := X.regular
  rcases bulk_pipe_deferred (buf_reader_plays hr hc) (writer_defers hw hQ hcap hq) with ⟨r', s', res, h1, h2⟩ | h
  · have hpre : ∀ {xs d : List UInt8}, c.StartsWith xs → d <+: [] ++ xs → c.StartsWith d := by
      rintro xs d hx ⟨m, hm⟩
      rw [List.nil_append] at hm
      rw [← hm] at hx
      exact hx.left
    cases h2 with
    | closed g1 g2 g3 => exact .inl ⟨r', s', h1, _, g1, g2, by simpa using g3⟩
    | producerFailed g1 g2 g3 =>
      obtain ⟨R, hR, hs⟩ := g3.toDefers
      obtain ⟨d, hd, hD⟩ := hR.observe _ _ hs
      exact .inr (.inl ⟨r', s', _, h1, d, hpre g1 hd, hD⟩)
    | itemFailed g0 g1 g2 g3 => exact .inr (.inl ⟨r', s', _, h1, _, hpre g1 (hreg.during_prefix _ _ _ g2), g3⟩)
    | closeFailed g1 g2 g3 g4 => exact .inr (.inl ⟨r', s', _, h1, _, hpre g1 (hreg.closing_prefix _ _ _ _ g3), g4⟩)
  · exact .inr (.inr h)

/-- Five bytes, from a reader that delivers two at a time to a writer that takes one at a time and has room for nine. -/
example : ∃ r' s', bulkPipe (bufReaderProducer (chunkReader 1 (.ok ())))
      (writerConsumer (chunkWriter 0 9 ⟨.other 3, none⟩) (Fixed.queue UInt8)) [1, 2, 3, 4, 5] ⟨([], none), Fixed.new 3 fun _ => 0⟩ =
      ok ((r', s'), .ok ()) ∧ s'.writer = ([1, 2, 3, 4, 5], some ()) := by
  have h := pipe_deferred_ok (l := []) (WriterFaults.regular _)
    (buf_reader_plays ⟨_, chunkReader_reads 1 (.ok ()), 0, rfl, by simp⟩ (ofList_noUnexpectedEof [1, 2, 3, 4, 5]))
    (writer_defers ⟨_, chunkWriter_writes 0 9 ⟨.other 3, none⟩, rfl⟩ (Fixed.fifoLaw UInt8 3) (by decide)
      (Fixed.holds_new 3 fun _ => 0)) (Script.ofList_startsWith _ _) (f := ()) (Script.ofList_end _ _) ?_ ?_
  · exact h.2
  · rintro d e ⟨h1, (⟨h2, _⟩ | ⟨h2, _⟩) | h2⟩
    · have := h1.length_le; simp at this; omega
    · exact h2
    · exact h2
  · rintro d e ⟨h1, (⟨h2, _⟩ | ⟨h2, _⟩) | h2 | ⟨_, h2⟩⟩
    · have := h1.length_le; simp at this; omega
    · exact h2
    · exact h2
    · exact h2

end

end Verif
