import Verif.Lemmas.AsyncMerge
import Verif.Props.Merge
import Verif.Props.AsyncTransfer

/-!
# `Merge`, poll by poll (C62)
-/

namespace Verif.Async

open Outcome

variable {σ₁ σ₂ I F E : Type} {P₁ : Producer σ₁ I F E} {P₂ : Producer σ₂ I F E}

/-! ## An instance: two test producers with different patterns -/

/-- Produces 4; every third poll is pending. -/
def otherProducer : TestProducer Nat Unit String := TestProducer.new [4] (.ok ()) [] (some [false, false, true])

noncomputable abbrev Case.testProducer : Producer (TestProducer Nat Unit String) Nat Unit String :=
  (TestProducer.producer false Nat Unit String).toProducer

theorem Case.slow_plays : Plays Case.testProducer.seq slowProducer (Script.ofList [1, 2, 3] (.ok ())) :=
  have h : BulkPlays (TestProducer.producer false Nat Unit String).seq slowProducer (Script.ofList [1, 2, 3] (.ok ())) := by
    rw [testProducer_seq]; exact test_producer_plays false [1, 2, 3] (.ok ()) [] _
  h.toPlays

theorem Case.other_plays : Plays Case.testProducer.seq otherProducer (Script.ofList [4] (.ok ())) :=
  have h : BulkPlays (TestProducer.producer false Nat Unit String).seq otherProducer (Script.ofList [4] (.ok ())) := by
    rw [testProducer_seq]; exact test_producer_plays false [4] (.ok ()) [] _
  h.toPlays

/-! ## Polls and schedules -/

/-- The model with schedules is adequate: whenever and however often the two producers are pending, there are schedules under
which the model gives the same answers, and at any time the next call returns the same answer, or panics, or does not return,
just the same. -/
theorem merge_scheduled (P₁ : Producer σ₁ I F E) (P₂ : Producer σ₂ I F E) (p₁ : σ₁) (p₂ : σ₂) :
    ∃ ready₁ ready₂, ∀ rs s, Answers (Merge.producer P₁ P₂).seq (.new P₁ P₂ p₁ p₂) rs s →
      ∃ t, Answers (Verif.Merge.producer P₁.seq P₂.seq ready₁ ready₂) (.new p₁ p₂) rs t ∧
        ((∀ r ∈ rs, ∃ x, r = .ok (.inl x)) →
          ((Merge.producer P₁ P₂).seq.produce s).bind (fun x => ok x.2) =
            ((Verif.Merge.producer P₁.seq P₂.seq ready₁ ready₂).produce t).bind fun x => ok x.2) := by
  refine ⟨Merge.ready₁ (.new P₁ P₂ p₁ p₂), Merge.ready₂ (.new P₁ P₂ p₁ p₂), fun rs s h => ?_⟩
  obtain ⟨t, h1, h2⟩ := Merge.same_answers h
  refine ⟨t, h1, fun hrs => ?_⟩
  have h3 := Merge.same_produce (h2 hrs)
  generalize (Merge.producer P₁ P₂).seq.produce s = x at h3 ⊢
  generalize (Verif.Merge.producer P₁.seq P₂.seq _ _).produce t = y at h3 ⊢
  cases h3 with
  | ok h => exact congrArg ok h.1
  | panic => rfl
  | diverge => rfl

/-- C33, C34, poll by poll: all answers result from an order in which entries of the two sequences have been received. -/
theorem merge_polled_trace {p₁ : σ₁} {p₂ : σ₂} {c₁ c₂ : Script I F E} (h₁ : Plays P₁.seq p₁ c₁) (h₂ : Plays P₂.seq p₂ c₂)
    {rs : List (Except E (I ⊕ F))} {s : Merge P₁ P₂} (h : Answers (Merge.producer P₁ P₂).seq (.new P₁ P₂ p₁ p₂) rs s) :
    ∃ events, MergeTrace c₁ c₂ events rs := by
  obtain ⟨t, h3, _⟩ := Merge.same_answers h
  exact merge_trace h₁ h₂ _ _ h3

/-- Every call returns, if the calls of the producers do. No fairness needs to be assumed: a future of the one producer that is
pending never keeps the other one from being polled. -/
theorem merge_polled_returns {p₁ : σ₁} {p₂ : σ₂} {c₁ c₂ : Script I F E} (h₁ : Plays P₁.seq p₁ c₁) (h₂ : Plays P₂.seq p₂ c₂)
    {rs : List (Except E (I ⊕ F))} {s : Merge P₁ P₂} (h : Answers (Merge.producer P₁ P₂).seq (.new P₁ P₂ p₁ p₂) rs s)
    (hrs : ∀ r ∈ rs, ∃ x, r = .ok (.inl x)) : ∃ s' r, (Merge.producer P₁ P₂).seq.produce s = ok (s', r) := by
  obtain ⟨t, h3, h4⟩ := Merge.same_answers h
  have ha := Merge.alive_new h₁ h₂
  obtain ⟨t', r, h5⟩ := merge_returns h₁ h₂ (Merge.fair₁ ha) (Merge.fair₂ ha) h3 hrs
  have h6 := Merge.same_produce (h4 hrs)
  rw [h5] at h6
  generalize hx : (Merge.producer P₁ P₂).seq.produce s = x at h6 ⊢
  cases h6 with
  | @ok a _ _ => exact ⟨a.1, a.2, rfl⟩

/-- A merge of two producers is a producer. -/
theorem merge_polled_plays {p₁ : σ₁} {p₂ : σ₂} {c₁ c₂ : Script I F E} (h₁ : Plays P₁.seq p₁ c₁) (h₂ : Plays P₂.seq p₂ c₂) :
    ∃ c, Plays (Merge.producer P₁ P₂).seq (.new P₁ P₂ p₁ p₂) c ∧
      ∀ n, (∀ i, i < n → ∃ x, c i = .ok (.inl x)) → ∃ events, MergeTrace c₁ c₂ events ((List.range (n + 1)).map c) := by
  obtain ⟨c, h3, h4⟩ := plays_of_answers fun rs s' h hrs => merge_polled_returns h₁ h₂ h hrs
  refine ⟨c, h3, fun n hn => ?_⟩
  obtain ⟨s', h5⟩ := h4 n hn
  exact merge_polled_trace h₁ h₂ h5

/-- The two test producers that yield. -/
example : ∃ c, Plays (Merge.producer Case.testProducer Case.testProducer).seq (.new _ _ slowProducer otherProducer) c ∧
    ∀ n, (∀ i, i < n → ∃ x, c i = .ok (.inl x)) →
      ∃ events, MergeTrace (Script.ofList [1, 2, 3] (.ok ())) (Script.ofList [4] (.ok ())) events ((List.range (n + 1)).map c) :=
  merge_polled_plays Case.slow_plays Case.other_plays

/-! ## Being pending -/

/-- The iterations of the loop within one poll. -/
inductive Merge.Iterates (s : Merge P₁ P₂) : Merge P₁ P₂ → Prop where
  | refl : Iterates s s
  | snoc {s₁ s₂} : Iterates s s₁ → Merge.pollBody s₁ = ok (.continue s₂) → Iterates s s₂

theorem Merge.poll_inv {s : Merge P₁ P₂} {a : Poll (Merge P₁ P₂) (Merge P₁ P₂ × Except E (I ⊕ F))}
    (h : (Merge.produce s).poll s = ok a) : ∃ s', Merge.Iterates s s' ∧ Merge.pollBody s' = ok (.done a) := by
  have hf : ∀ n s₁, Merge.Iterates s s₁ → loopFuel Merge.pollBody n s₁ = ok a →
      ∃ s', Merge.Iterates s s' ∧ Merge.pollBody s' = ok (.done a) := by
    intro n
    induction n with
    | zero => exact fun _ _ h => nomatch h
    | succ n ih =>
      intro s₁ hi h
      rw [loopFuel] at h
      rcases hb : Merge.pollBody s₁ with (s' | r) | _ | _ <;> simp only [hb] at h
      · exact ih s' (hi.snoc hb) h
      · cases h; exact ⟨s₁, hi, hb⟩
      · cases h
      · cases h
  obtain ⟨n, hn⟩ := loop_ok_fuel (show Verif.loop Merge.pollBody s = ok a from h)
  exact hf n s .refl hn

/-- `produce` is pending only if all futures in progress are: in the last iteration of the loop, all of the futures that are left
have been polled and are pending, so that the task will be woken when one of them can go on. -/
theorem merge_pending {s k : Merge P₁ P₂} (h : (Merge.produce s).poll s = ok (.pending k)) :
    ∃ s', Merge.Iterates s s' ∧ (s'.produceFuture₁.isSome ∨ s'.produceFuture₂.isSome) ∧
      (s'.produceFuture₁ = none ∧ k.produceFuture₁ = none ∨
        ∃ f f', s'.produceFuture₁ = some f ∧ InProgress.poll f = ok (.pending f') ∧ k.produceFuture₁ = some f') ∧
      (s'.produceFuture₂ = none ∧ k.produceFuture₂ = none ∨
        ∃ f f', s'.produceFuture₂ = some f ∧ InProgress.poll f = ok (.pending f') ∧ k.produceFuture₂ = some f') := by
  obtain ⟨⟨f₁, f₂⟩, hi, h⟩ := Merge.poll_inv h
  rcases f₁ with _ | f₁ <;> rcases f₂ with _ | f₂
  · simp [Merge.pollBody] at h
  · rcases hf : InProgress.poll f₂ with (f' | ⟨p, r⟩) | _ | _ <;> simp only [Merge.pollBody, hf] at h <;> cases h
    exact ⟨_, hi, .inr rfl, .inl ⟨rfl, rfl⟩, .inr ⟨f₂, f', rfl, hf, rfl⟩⟩
  · rcases hf : InProgress.poll f₁ with (f' | ⟨p, r⟩) | _ | _ <;> simp only [Merge.pollBody, hf] at h <;> cases h
    exact ⟨_, hi, .inl rfl, .inr ⟨f₁, f', rfl, hf, rfl⟩, .inl ⟨rfl, rfl⟩⟩
  · rcases hf : InProgress.poll f₁ with (f' | ⟨p, e | i | fin⟩) | _ | _ <;> simp only [Merge.pollBody, hf, bind_eq, bind_ok] at h
    · rcases hg : InProgress.poll f₂ with (g' | ⟨p, e | i | fin⟩) | _ | _ <;> simp only [hg, bind_ok] at h <;> cases h
      exact ⟨_, hi, .inl rfl, .inr ⟨f₁, f', rfl, hf, rfl⟩, .inr ⟨f₂, g', rfl, hg, rfl⟩⟩
    all_goals cases h

/-- Both are pending at first. -/
example : ∃ k, (Merge.produce (.new Case.testProducer Case.testProducer slowProducer slowProducer)).poll
    (.new Case.testProducer Case.testProducer slowProducer slowProducer) = ok (.pending k) :=
  ⟨_, loop_eq_of_fuel (n := 1) nofun⟩

/-- A future of `produce` that is pending can be dropped: nothing is lost, the next call goes on where it was. -/
theorem merge_drop {s k : Merge P₁ P₂} (h : (Merge.produce s).poll s = ok (.pending k)) :
    (Merge.producer P₁ P₂).seq.produce k = (Merge.producer P₁ P₂).seq.produce s := by
  show (Merge.produce k).run = (Merge.produce s).run
  rw [Fut.run_eq, Fut.run_eq, Fut.runFrom_eq (Merge.produce s).poll]
  have h : (Merge.produce s).poll (Merge.produce s).start = ok (.pending k) := h
  rw [h]
  rfl

/-- A call that was pending has been dropped, and the next one yields what the first one would have. -/
example : ∃ k, (Merge.produce (.new Case.testProducer Case.testProducer slowProducer slowProducer)).poll
      (.new Case.testProducer Case.testProducer slowProducer slowProducer) = ok (.pending k) ∧
    (Merge.producer Case.testProducer Case.testProducer).seq.produce k =
      (Merge.producer Case.testProducer Case.testProducer).seq.produce
        (.new Case.testProducer Case.testProducer slowProducer slowProducer) :=
  have h : (Merge.produce (.new Case.testProducer Case.testProducer slowProducer slowProducer)).poll
      (.new Case.testProducer Case.testProducer slowProducer slowProducer) = ok (.pending _) := loop_eq_of_fuel (n := 1) nofun
  ⟨_, h, merge_drop h⟩

end Verif.Async
