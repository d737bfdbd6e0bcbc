import Verif.Lemmas.Async
import Verif.Model.AsyncMerge
import Verif.Model.Merge
import Verif.MergeSpec
import Verif.Lemmas.Spec

/-!
# `Merge`, poll by poll
-/

namespace Verif

open Outcome

/-! ## Related loops -/

/-- Both are `ok` with related values, or both panic, or both never end. -/
inductive Outcome.Rel {A B : Type} (Q : A → B → Prop) : Outcome A → Outcome B → Prop where
  | ok {a b} : Q a b → Rel Q (ok a) (ok b)
  | panic : Rel Q panic panic
  | diverge : Rel Q diverge diverge

inductive Step.Rel {σ τ A B : Type} (R : σ → τ → Prop) (Q : A → B → Prop) : Step σ A → Step τ B → Prop where
  | continue {s t} : R s t → Rel R Q (.continue s) (.continue t)
  | done {a b} : Q a b → Rel R Q (.done a) (.done b)

theorem loopFuel_rel {σ τ A B : Type} {R : σ → τ → Prop} {Q : A → B → Prop} {b₁ : σ → Outcome (Step σ A)}
    {b₂ : τ → Outcome (Step τ B)} (h : ∀ s t, R s t → Outcome.Rel (Step.Rel R Q) (b₁ s) (b₂ t)) (n : Nat) {s : σ} {t : τ}
    (hs : R s t) : Outcome.Rel Q (loopFuel b₁ n s) (loopFuel b₂ n t) := by
  induction n generalizing s t with
  | zero => exact .diverge
  | succ n ih =>
    rw [loopFuel, loopFuel]
    have := h s t hs
    generalize b₁ s = x at this
    generalize b₂ t = y at this
    cases this with
    | ok hq =>
      cases hq with
      | «continue» hr => exact ih hr
      | done hq => exact .ok hq
    | panic => exact .panic
    | diverge => exact .diverge

theorem loop_rel {σ τ A B : Type} {R : σ → τ → Prop} {Q : A → B → Prop} {b₁ : σ → Outcome (Step σ A)}
    {b₂ : τ → Outcome (Step τ B)} (h : ∀ s t, R s t → Outcome.Rel (Step.Rel R Q) (b₁ s) (b₂ t)) {s : σ} {t : τ}
    (hs : R s t) : Outcome.Rel Q (loop b₁ s) (loop b₂ t) := by
  have hf := fun n => loopFuel_rel h n hs
  have hiff : ∀ n, loopFuel b₁ n s ≠ diverge ↔ loopFuel b₂ n t ≠ diverge := by
    intro n
    have := hf n
    generalize loopFuel b₁ n s = x at this
    generalize loopFuel b₂ n t = y at this
    cases this <;> simp
  by_cases hex : ∃ n, loopFuel b₁ n s ≠ diverge
  · obtain ⟨n, hn⟩ := hex
    rw [loop_eq_of_fuel hn, loop_eq_of_fuel ((hiff n).mp hn)]
    exact hf n
  · have h1 : loop b₁ s = diverge := by unfold loop; rw [dif_neg hex]
    have h2 : loop b₂ t = diverge := by
      unfold loop
      rw [dif_neg]
      rintro ⟨n, hn⟩
      exact hex ⟨n, (hiff n).mpr hn⟩
    rw [h1, h2]
    exact .diverge

namespace Async

variable {σ σ₁ σ₂ I F E : Type}

/-! ## Futures in progress -/

/-- Polled to completion, it will do what it would have done if it had been polled to completion from the beginning. -/
def InProgress.Proper {P : Producer σ I F E} (f : InProgress P) : Prop :=
  Fut.runFrom (P.produce f.1).poll f.2 = (P.produce f.1).run

def InProgress.isPending {P : Producer σ I F E} (f : InProgress P) : Bool :=
  match f.poll with
  | ok (.pending _) => true
  | _ => false

theorem InProgress.proper_new (P : Producer σ I F E) (p : σ) : (InProgress.new P p).Proper := rfl

theorem InProgress.pending {P : Producer σ I F E} {f f' : InProgress P} (hf : f.Proper) (h : f.poll = ok (.pending f')) :
    f'.1 = f.1 ∧ f'.Proper := by
  obtain ⟨p, k⟩ := f
  unfold InProgress.poll at h
  rcases hp : (P.produce p).poll k with (k' | a) | _ | _ <;> simp only [hp, bind_ok] at h
  · simp only [Outcome.ok.injEq, Poll.pending.injEq] at h
    subst h
    refine ⟨rfl, ?_⟩
    unfold InProgress.Proper at hf ⊢
    rw [Fut.runFrom_eq, hp] at hf
    exact hf
  · cases h
  · cases h
  · cases h

theorem InProgress.not_pending {P : Producer σ I F E} {f : InProgress P} (hf : f.Proper)
    (h : ∀ f', f.poll ≠ ok (.pending f')) : f.poll = (P.seq.produce f.1).bind fun a => ok (.ready a) := by
  obtain ⟨p, k⟩ := f
  unfold InProgress.Proper at hf
  rw [Fut.runFrom_eq] at hf
  show _ = (P.produce p).run.bind _
  unfold InProgress.poll at h ⊢
  rcases hp : (P.produce p).poll k with (k' | a) | _ | _ <;> simp only [hp, bind_ok] at h hf ⊢
  · exact absurd rfl (h _)
  all_goals
    rw [← hf]
    rfl

theorem InProgress.cases {P : Producer σ I F E} {f : InProgress P} (hf : f.Proper) :
    (f.isPending = true ∧ ∃ f', f.poll = ok (.pending f') ∧ f'.1 = f.1 ∧ f'.Proper) ∨
    (f.isPending = false ∧ f.poll = (P.seq.produce f.1).bind fun a => ok (.ready a)) := by
  by_cases h : ∃ f', f.poll = ok (.pending f')
  · obtain ⟨f', h⟩ := h
    exact .inl ⟨by simp [InProgress.isPending, h], f', h, InProgress.pending hf h⟩
  · refine .inr ⟨?_, InProgress.not_pending hf fun f' h' => h ⟨f', h'⟩⟩
    unfold InProgress.isPending
    split
    · next f' h' => exact absurd ⟨f', h'⟩ h
    · rfl

namespace Merge

variable {P₁ : Producer σ₁ I F E} {P₂ : Producer σ₂ I F E}

/-- One iteration, or one poll if that is pending. -/
def round (s : Merge P₁ P₂) : Outcome (Step (Merge P₁ P₂) (Merge P₁ P₂ × Except E (I ⊕ F))) :=
  (pollBody s).bind fun
    | .continue s => ok (.continue s)
    | .done (.pending s) => ok (.continue s)
    | .done (.ready a) => ok (.done a)

theorem produce_run (s : Merge P₁ P₂) : (produce s).run = Verif.loop round s := by
  show Verif.loop (Fut.runBody (Verif.loop pollBody)) s = _
  have e : Fut.runBody (Verif.loop (pollBody (P₁ := P₁) (P₂ := P₂))) =
      fun x => Verif.loop (fun x => mapDone Fut.pollStep (pollBody x)) x := by
    funext x
    rw [← loop_map]
    simp only [Fut.runBody]
    rcases Verif.loop pollBody x with (k' | a) | _ | _ <;> rfl
  rw [e, loop_flatten]
  congr 1
  funext x
  simp only [flatten, round, mapDone]
  rcases pollBody x with (k' | k' | a) | _ | _ <;> rfl

/-- The state after a round, unless nothing may happen any more. -/
def next (s : Merge P₁ P₂) : Option (Merge P₁ P₂) :=
  match round s with
  | ok (.continue s) => some s
  | ok (.done (s, .ok (.inl _))) => some s
  | _ => none

/-- The state after so many rounds. -/
def orbit (s : Merge P₁ P₂) : Nat → Option (Merge P₁ P₂)
  | 0 => some s
  | n + 1 => (orbit s n).bind next

/-- When the first future is ready. -/
def ready₁ (s : Merge P₁ P₂) (n : Nat) : Bool :=
  match orbit s n with
  | some ⟨some f₁, _⟩ => !f₁.isPending
  | _ => true

/-- When the second future is ready, as far as it is polled. -/
def ready₂ (s : Merge P₁ P₂) (n : Nat) : Bool :=
  match orbit s n with
  | some ⟨some f₁, some f₂⟩ => !f₁.isPending || !f₂.isPending
  | some ⟨none, some f₂⟩ => !f₂.isPending
  | _ => true

/-- Both models are at the same point. -/
structure Same (s₀ : Merge P₁ P₂) (s : Merge P₁ P₂) (t : Verif.Merge σ₁ σ₂) : Prop where
  orbit : orbit s₀ t.clock = some s
  first : s.produceFuture₁.map (·.1) = t.produceFuture₁
  second : s.produceFuture₂.map (·.1) = t.produceFuture₂
  proper₁ : ∀ f, s.produceFuture₁ = some f → f.Proper
  proper₂ : ∀ f, s.produceFuture₂ = some f → f.Proper

/-- The same answer; and the same point if that is not the end. -/
def SameAnswer (s₀ : Merge P₁ P₂) (x : Merge P₁ P₂ × Except E (I ⊕ F)) (y : Verif.Merge σ₁ σ₂ × Except E (I ⊕ F)) : Prop :=
  x.2 = y.2 ∧ ((∃ i, x.2 = .ok (.inl i)) → Same s₀ x.1 y.1)

theorem orbit_succ {s₀ s s' : Merge P₁ P₂} {n : Nat} (h : orbit s₀ n = some s) (h' : next s = some s') :
    orbit s₀ (n + 1) = some s' := by rw [orbit, h]; exact h'

theorem same_round {s₀ s : Merge P₁ P₂} {t : Verif.Merge σ₁ σ₂} (h : Same s₀ s t) :
    Outcome.Rel (Step.Rel (Same s₀) (SameAnswer s₀)) (round s)
      (Verif.Merge.produceBody P₁.seq P₂.seq (ready₁ s₀) (ready₂ s₀) t) := by
  obtain ⟨f₁, f₂⟩ := s
  obtain ⟨t₁, t₂, n⟩ := t
  obtain ⟨ho, h1, h2, hp₁, hp₂⟩ := h
  simp only at ho h1 h2 hp₁ hp₂
  subst h1 h2
  have hnext := fun s' => orbit_succ (s' := s') ho
  rcases f₁ with _ | f₁ <;> rcases f₂ with _ | f₂
  · exact .panic
  · rcases InProgress.cases (hp₂ f₂ rfl) with ⟨hb, f', hf, hf1, hf2⟩ | ⟨hb, hf⟩
    · have hr : round (P₁ := P₁) ⟨none, some f₂⟩ = ok (.continue ⟨none, some f'⟩) := by simp [round, pollBody, hf]
      rw [hr]
      simp only [Verif.Merge.produceBody, ready₂, ho, hb, Option.map]
      exact .ok (.continue ⟨hnext _ (by simp [next, hr]), rfl, by simp [hf1], nofun, by rintro _ ⟨⟩; exact hf2⟩)
    · simp only [Verif.Merge.produceBody, ready₂, ho, hb, Option.map]
      rcases hP : P₂.seq.produce f₂.1 with ⟨p, r⟩ | _ | _
      · have hr : round (P₁ := P₁) ⟨none, some f₂⟩ = ok (.done (⟨none, some (.new P₂ p)⟩, r)) := by
          simp [round, pollBody, hf, hP]
        rw [hr]
        refine .ok (.done ⟨rfl, fun ⟨i, hi⟩ => ⟨hnext _ ?_, rfl, rfl, nofun, by rintro _ ⟨⟩; exact InProgress.proper_new _ _⟩⟩)
        cases hi
        simp [next, hr]
      · simp [round, pollBody, hf, hP]; exact .panic
      · simp [round, pollBody, hf, hP]; exact .diverge
  · rcases InProgress.cases (hp₁ f₁ rfl) with ⟨hb, f', hf, hf1, hf2⟩ | ⟨hb, hf⟩
    · have hr : round (P₂ := P₂) ⟨some f₁, none⟩ = ok (.continue ⟨some f', none⟩) := by simp [round, pollBody, hf]
      rw [hr]
      simp only [Verif.Merge.produceBody, ready₁, ho, hb, Option.map]
      exact .ok (.continue ⟨hnext _ (by simp [next, hr]), by simp [hf1], rfl, by rintro _ ⟨⟩; exact hf2, nofun⟩)
    · simp only [Verif.Merge.produceBody, ready₁, ho, hb, Option.map]
      rcases hP : P₁.seq.produce f₁.1 with ⟨p, r⟩ | _ | _
      · have hr : round (P₂ := P₂) ⟨some f₁, none⟩ = ok (.done (⟨some (.new P₁ p), none⟩, r)) := by
          simp [round, pollBody, hf, hP]
        rw [hr]
        refine .ok (.done ⟨rfl, fun ⟨i, hi⟩ => ⟨hnext _ ?_, rfl, rfl, by rintro _ ⟨⟩; exact InProgress.proper_new _ _, nofun⟩⟩)
        cases hi
        simp [next, hr]
      · simp [round, pollBody, hf, hP]; exact .panic
      · simp [round, pollBody, hf, hP]; exact .diverge
  · rcases InProgress.cases (hp₁ f₁ rfl) with ⟨hb, f', hf, hf1, hf2⟩ | ⟨hb, hf⟩
    · rcases InProgress.cases (hp₂ f₂ rfl) with ⟨gb, g', hg, hg1, hg2⟩ | ⟨gb, hg⟩
      · have hr : round ⟨some f₁, some f₂⟩ = ok (.continue ⟨some f', some g'⟩) := by simp [round, pollBody, hf, hg]
        rw [hr]
        simp only [Verif.Merge.produceBody, ready₁, ready₂, ho, hb, gb, Option.map]
        exact .ok (.continue ⟨hnext _ (by simp [next, hr]), by simp [hf1], by simp [hg1], by rintro _ ⟨⟩; exact hf2,
          by rintro _ ⟨⟩; exact hg2⟩)
      · simp only [Verif.Merge.produceBody, ready₁, ready₂, ho, hb, gb, Option.map]
        rcases hP : P₂.seq.produce f₂.1 with ⟨p, e | i | fin⟩ | _ | _
        · have hr : round ⟨some f₁, some f₂⟩ = ok (.done (⟨some f', some (.new P₂ p)⟩, .error e)) := by
            simp [round, pollBody, hf, hg, hP]
          rw [hr]
          exact .ok (.done ⟨rfl, nofun⟩)
        · have hr : round ⟨some f₁, some f₂⟩ = ok (.done (⟨some f', some (.new P₂ p)⟩, .ok (.inl i))) := by
            simp [round, pollBody, hf, hg, hP]
          rw [hr]
          exact .ok (.done ⟨rfl, fun _ => ⟨hnext _ (by simp [next, hr]), by simp [hf1], rfl, by rintro _ ⟨⟩; exact hf2,
            by rintro _ ⟨⟩; exact InProgress.proper_new _ _⟩⟩)
        · have hr : round ⟨some f₁, some f₂⟩ = ok (.continue ⟨some f', none⟩) := by
            simp [round, pollBody, hf, hg, hP]
          rw [hr]
          exact .ok (.continue ⟨hnext _ (by simp [next, hr]), by simp [hf1], rfl, by rintro _ ⟨⟩; exact hf2, nofun⟩)
        · simp [round, pollBody, hf, hg, hP]; exact .panic
        · simp [round, pollBody, hf, hg, hP]; exact .diverge
    · simp only [Verif.Merge.produceBody, ready₁, ready₂, ho, hb, Option.map]
      rcases hP : P₁.seq.produce f₁.1 with ⟨p, e | i | fin⟩ | _ | _
      · have hr : round ⟨some f₁, some f₂⟩ = ok (.done (⟨some (.new P₁ p), some f₂⟩, .error e)) := by
          simp [round, pollBody, hf, hP]
        rw [hr]
        exact .ok (.done ⟨rfl, nofun⟩)
      · have hr : round ⟨some f₁, some f₂⟩ = ok (.done (⟨some (.new P₁ p), some f₂⟩, .ok (.inl i))) := by
          simp [round, pollBody, hf, hP]
        rw [hr]
        exact .ok (.done ⟨rfl, fun _ => ⟨hnext _ (by simp [next, hr]), rfl, rfl,
          by rintro _ ⟨⟩; exact InProgress.proper_new _ _, hp₂⟩⟩)
      · have hr : round ⟨some f₁, some f₂⟩ = ok (.continue ⟨none, some f₂⟩) := by
          simp [round, pollBody, hf, hP]
        rw [hr]
        exact .ok (.continue ⟨hnext _ (by simp [next, hr]), rfl, rfl, nofun, hp₂⟩)
      · simp [round, pollBody, hf, hP]; exact .panic
      · simp [round, pollBody, hf, hP]; exact .diverge

theorem same_new (P₁ : Producer σ₁ I F E) (P₂ : Producer σ₂ I F E) (p₁ : σ₁) (p₂ : σ₂) :
    Same (new P₁ P₂ p₁ p₂) (new P₁ P₂ p₁ p₂) (.new p₁ p₂) :=
  ⟨rfl, rfl, rfl, by rintro _ ⟨⟩; exact InProgress.proper_new _ _, by rintro _ ⟨⟩; exact InProgress.proper_new _ _⟩

theorem same_produce {s₀ s : Merge P₁ P₂} {t : Verif.Merge σ₁ σ₂} (h : Same s₀ s t) :
    Outcome.Rel (SameAnswer s₀) ((producer P₁ P₂).seq.produce s)
      ((Verif.Merge.producer P₁.seq P₂.seq (ready₁ s₀) (ready₂ s₀)).produce t) := by
  show Outcome.Rel _ (produce s).run _
  rw [produce_run]
  exact loop_rel (fun _ _ h => same_round h) h

theorem same_answers {p₁ : σ₁} {p₂ : σ₂} {rs : List (Except E (I ⊕ F))} {s : Merge P₁ P₂}
    (h : Answers (producer P₁ P₂).seq (new P₁ P₂ p₁ p₂) rs s) :
    ∃ t, Answers (Verif.Merge.producer P₁.seq P₂.seq (ready₁ (new P₁ P₂ p₁ p₂)) (ready₂ (new P₁ P₂ p₁ p₂))) (.new p₁ p₂) rs t ∧
      ((∀ r ∈ rs, ∃ x, r = .ok (.inl x)) → Same (new P₁ P₂ p₁ p₂) s t) := by
  induction h with
  | nil => exact ⟨_, .nil, fun _ => same_new P₁ P₂ p₁ p₂⟩
  | @call rs s s' r h hrs hp ih =>
    obtain ⟨t, h1, h2⟩ := ih
    have h3 := same_produce (h2 hrs)
    rw [hp] at h3
    generalize hy : (Verif.Merge.producer P₁.seq P₂.seq _ _).produce t = y at h3
    cases h3 with
    | @ok _ b hq =>
      obtain ⟨t', r'⟩ := b
      obtain ⟨rfl, hq⟩ := hq
      exact ⟨t', h1.call hrs hy, fun hrs' => hq (hrs' r (by simp))⟩

/-! ### Fairness -/

theorem _root_.Verif.Async.InProgress.fuel {P : Producer σ I F E} {f f' : InProgress P} {n : Nat}
    (h : loopFuel (Fut.runBody (P.produce f.1).poll) (n + 1) f.2 ≠ diverge) (hp : f.poll = ok (.pending f')) :
    loopFuel (Fut.runBody (P.produce f'.1).poll) n f'.2 ≠ diverge := by
  obtain ⟨p, k⟩ := f
  unfold InProgress.poll at hp
  rcases hq : (P.produce p).poll k with (k' | a) | _ | _ <;> simp only [hq, bind_ok] at hp
  · simp only [Outcome.ok.injEq, Poll.pending.injEq] at hp
    subst hp
    rw [loopFuel] at h
    simp only [Fut.runBody, hq, bind_ok] at h
    exact h
  · cases hp
  · cases hp
  · cases hp

/-- The producers have not come to their ends. -/
structure Alive (s : Merge P₁ P₂) : Prop where
  first : ∀ f, s.produceFuture₁ = some f → f.Proper ∧ ∃ c, Plays P₁.seq f.1 c
  second : ∀ f, s.produceFuture₂ = some f → f.Proper ∧ ∃ c, Plays P₂.seq f.1 c

theorem plays_item {P : Verif.Producer σ I F E} {p p' : σ} {x : I} (h : ∃ c, Plays P p c) (hp : P.produce p = ok (p', .ok (.inl x))) :
    ∃ c, Plays P p' c := by
  obtain ⟨c, h⟩ := h
  obtain ⟨p'', h1, h2⟩ := h.step
  rw [hp] at h1
  simp only [Outcome.ok.injEq, Prod.mk.injEq] at h1
  obtain ⟨rfl, h1⟩ := h1
  exact ⟨_, h2 x h1.symm⟩

theorem alive_next {s s' : Merge P₁ P₂} (h : Alive s) (h' : next s = some s') : Alive s' := by
  obtain ⟨f₁, f₂⟩ := s
  obtain ⟨h1, h2⟩ := h
  simp only at h1 h2
  rcases f₁ with _ | f₁ <;> rcases f₂ with _ | f₂
  · simp [next, round, pollBody] at h'
  · obtain ⟨h3, h4⟩ := h2 f₂ rfl
    rcases InProgress.cases h3 with ⟨hb, f', hf, hf1, hf2⟩ | ⟨hb, hf⟩
    · simp [next, round, pollBody, hf] at h'
      subst h'
      exact ⟨nofun, by rintro _ ⟨⟩; exact ⟨hf2, hf1 ▸ h4⟩⟩
    · rcases hP : P₂.seq.produce f₂.1 with ⟨p, e | i | fin⟩ | _ | _ <;> simp [next, round, pollBody, hf, hP] at h'
      subst h'
      exact ⟨nofun, by rintro _ ⟨⟩; exact ⟨InProgress.proper_new _ _, plays_item h4 hP⟩⟩
  · obtain ⟨h3, h4⟩ := h1 f₁ rfl
    rcases InProgress.cases h3 with ⟨hb, f', hf, hf1, hf2⟩ | ⟨hb, hf⟩
    · simp [next, round, pollBody, hf] at h'
      subst h'
      exact ⟨by rintro _ ⟨⟩; exact ⟨hf2, hf1 ▸ h4⟩, nofun⟩
    · rcases hP : P₁.seq.produce f₁.1 with ⟨p, e | i | fin⟩ | _ | _ <;> simp [next, round, pollBody, hf, hP] at h'
      subst h'
      exact ⟨by rintro _ ⟨⟩; exact ⟨InProgress.proper_new _ _, plays_item h4 hP⟩, nofun⟩
  · obtain ⟨h3, h4⟩ := h1 f₁ rfl
    obtain ⟨h5, h6⟩ := h2 f₂ rfl
    rcases InProgress.cases h3 with ⟨hb, f', hf, hf1, hf2⟩ | ⟨hb, hf⟩
    · rcases InProgress.cases h5 with ⟨gb, g', hg, hg1, hg2⟩ | ⟨gb, hg⟩
      · simp [next, round, pollBody, hf, hg] at h'
        subst h'
        exact ⟨by rintro _ ⟨⟩; exact ⟨hf2, hf1 ▸ h4⟩, by rintro _ ⟨⟩; exact ⟨hg2, hg1 ▸ h6⟩⟩
      · rcases hP : P₂.seq.produce f₂.1 with ⟨p, e | i | fin⟩ | _ | _ <;> simp [next, round, pollBody, hf, hg, hP] at h' <;> subst h'
        · exact ⟨by rintro _ ⟨⟩; exact ⟨hf2, hf1 ▸ h4⟩, by rintro _ ⟨⟩; exact ⟨InProgress.proper_new _ _, plays_item h6 hP⟩⟩
        · exact ⟨by rintro _ ⟨⟩; exact ⟨hf2, hf1 ▸ h4⟩, nofun⟩
    · rcases hP : P₁.seq.produce f₁.1 with ⟨p, e | i | fin⟩ | _ | _ <;> simp [next, round, pollBody, hf, hP] at h' <;> subst h'
      · exact ⟨by rintro _ ⟨⟩; exact ⟨InProgress.proper_new _ _, plays_item h4 hP⟩, h2⟩
      · exact ⟨nofun, h2⟩

theorem alive_orbit {s₀ s : Merge P₁ P₂} (h₀ : Alive s₀) {n : Nat} (h : orbit s₀ n = some s) : Alive s := by
  induction n generalizing s with
  | zero => cases h; exact h₀
  | succ n ih =>
    rw [orbit] at h
    rcases ho : orbit s₀ n with _ | s'
    · rw [ho] at h; cases h
    · rw [ho] at h
      exact alive_next (ih ho) h

theorem fuel_exists {P : Producer σ I F E} {f : InProgress P} (hf : f.Proper) (h : ∃ c, Plays P.seq f.1 c) :
    ∃ n, loopFuel (Fut.runBody (P.produce f.1).poll) n f.2 ≠ diverge := by
  obtain ⟨c, h⟩ := h
  obtain ⟨p', h1, _⟩ := h.step
  by_cases hex : ∃ n, loopFuel (Fut.runBody (P.produce f.1).poll) n f.2 ≠ diverge
  · exact hex
  · have : Fut.runFrom (P.produce f.1).poll f.2 = diverge := by
      unfold Fut.runFrom Verif.loop
      rw [dif_neg hex]
    rw [hf] at this
    rw [show P.seq.produce f.1 = (P.produce f.1).run from rfl, this] at h1
    cases h1

theorem fair₁ {s₀ : Merge P₁ P₂} (h₀ : Alive s₀) : Fair (ready₁ s₀) := by
  have key : ∀ k n f f₂, orbit s₀ n = some ⟨some f, f₂⟩ → loopFuel (Fut.runBody (P₁.produce f.1).poll) k f.2 ≠ diverge →
      ∃ m, n ≤ m ∧ ready₁ s₀ m = true := by
    intro k
    induction k with
    | zero => exact fun _ _ _ _ h => absurd rfl h
    | succ k ih =>
      intro n f f₂ ho hk
      have ha := alive_orbit h₀ ho
      obtain ⟨h3, h4⟩ := ha.first f rfl
      rcases InProgress.cases h3 with ⟨hb, f', hf, hf1, hf2⟩ | ⟨hb, hf⟩
      · have hk' := InProgress.fuel hk hf
        have hn : next ⟨some f, f₂⟩ = none ∨ ∃ f₂', next ⟨some f, f₂⟩ = some ⟨some f', f₂'⟩ := by
          rcases f₂ with _ | f₂
          · exact .inr ⟨none, by simp [next, round, pollBody, hf]⟩
          · rcases InProgress.cases (ha.second f₂ rfl).1 with ⟨gb, g', hg, hg1, hg2⟩ | ⟨gb, hg⟩
            · exact .inr ⟨some g', by simp [next, round, pollBody, hf, hg]⟩
            · rcases hP : P₂.seq.produce f₂.1 with ⟨p, e | i | fin⟩ | _ | _
              · exact .inl (by simp [next, round, pollBody, hf, hg, hP])
              · exact .inr ⟨_, by simp [next, round, pollBody, hf, hg, hP]; rfl⟩
              · exact .inr ⟨_, by simp [next, round, pollBody, hf, hg, hP]; rfl⟩
              · exact .inl (by simp [next, round, pollBody, hf, hg, hP])
              · exact .inl (by simp [next, round, pollBody, hf, hg, hP])
        rcases hn with hn | ⟨f₂', hn⟩
        · exact ⟨n + 1, by omega, by simp [ready₁, orbit, ho, hn]⟩
        · obtain ⟨m, hm, hr⟩ := ih (n + 1) f' f₂' (orbit_succ ho hn) hk'
          exact ⟨m, by omega, hr⟩
      · exact ⟨n, by omega, by simp [ready₁, ho, hb]⟩
  intro n
  rcases ho : orbit s₀ n with _ | ⟨_ | f₁, f₂⟩
  · exact ⟨n, by omega, by simp [ready₁, ho]⟩
  · exact ⟨n, by omega, by simp [ready₁, ho]⟩
  · obtain ⟨h3, h4⟩ := (alive_orbit h₀ ho).first f₁ rfl
    obtain ⟨k, hk⟩ := fuel_exists h3 h4
    exact key k n f₁ f₂ ho hk

theorem fair₂ {s₀ : Merge P₁ P₂} (h₀ : Alive s₀) : Fair (ready₂ s₀) := by
  have key : ∀ k n f₁ f, orbit s₀ n = some ⟨f₁, some f⟩ → loopFuel (Fut.runBody (P₂.produce f.1).poll) k f.2 ≠ diverge →
      ∃ m, n ≤ m ∧ ready₂ s₀ m = true := by
    intro k
    induction k with
    | zero => exact fun _ _ _ _ h => absurd rfl h
    | succ k ih =>
      intro n f₁ f ho hk
      have ha := alive_orbit h₀ ho
      obtain ⟨h3, h4⟩ := ha.second f rfl
      rcases InProgress.cases h3 with ⟨hb, f', hf, hf1, hf2⟩ | ⟨hb, hf⟩
      · have hk' := InProgress.fuel hk hf
        rcases f₁ with _ | f₁
        · obtain ⟨m, hm, hr⟩ := ih (n + 1) none f' (orbit_succ ho (by simp [next, round, pollBody, hf])) hk'
          exact ⟨m, by omega, hr⟩
        · rcases InProgress.cases (ha.first f₁ rfl).1 with ⟨gb, g', hg, hg1, hg2⟩ | ⟨gb, hg⟩
          · obtain ⟨m, hm, hr⟩ := ih (n + 1) (some g') f' (orbit_succ ho (by simp [next, round, pollBody, hf, hg])) hk'
            exact ⟨m, by omega, hr⟩
          · exact ⟨n, by omega, by simp [ready₂, ho, gb]⟩
      · rcases f₁ with _ | f₁
        · exact ⟨n, by omega, by simp [ready₂, ho, hb]⟩
        · exact ⟨n, by omega, by simp [ready₂, ho, hb]⟩
  intro n
  rcases ho : orbit s₀ n with _ | ⟨f₁, _ | f₂⟩
  · exact ⟨n, by omega, by simp [ready₂, ho]⟩
  · exact ⟨n, by omega, by rcases f₁ with _ | f₁ <;> simp [ready₂, ho]⟩
  · obtain ⟨h3, h4⟩ := (alive_orbit h₀ ho).second f₂ rfl
    obtain ⟨k, hk⟩ := fuel_exists h3 h4
    exact key k n f₁ f₂ ho hk

theorem alive_new {p₁ : σ₁} {p₂ : σ₂} {c₁ c₂ : Script I F E} (h₁ : Plays P₁.seq p₁ c₁) (h₂ : Plays P₂.seq p₂ c₂) :
    Alive (new P₁ P₂ p₁ p₂) :=
  ⟨by rintro _ ⟨⟩; exact ⟨InProgress.proper_new _ _, c₁, h₁⟩, by rintro _ ⟨⟩; exact ⟨InProgress.proper_new _ _, c₂, h₂⟩⟩

end Merge

end Async

end Verif
