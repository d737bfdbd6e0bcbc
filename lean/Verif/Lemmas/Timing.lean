import Verif.TimingSpec
import Verif.Lemmas.Pace

/-!
# Lemmas for C97
-/

namespace Verif

open Outcome

namespace Timeline

variable {E I F J G φ : Type}

theorem result_after (n : Nat) (t : Timeline E I F) : (t.after n).result = t.result := by
  cases t <;> rfl

theorem wait_after (n : Nat) (t : Timeline E I F) : (t.after n).wait = t.wait - n := by
  cases t <;> rfl

theorem after_zero (t : Timeline E I F) : t.after 0 = t := by
  cases t <;> rfl

theorem after_after (n m : Nat) (t : Timeline E I F) : (t.after n).after m = t.after (n + m) := by
  cases t <;> simp only [after, Nat.sub_sub]

theorem time_after {n : Nat} {t : Timeline E I F} (h : n ≤ t.wait) : (t.after n).time = t.time - n := by
  cases t with
  | last => rfl
  | item d x t => simp only [after, time, wait] at *; omega

theorem wait_le_time (t : Timeline E I F) : t.wait ≤ t.time := by
  cases t <;> simp only [wait, time] <;> omega

end Timeline

namespace Async

open Fut

variable {σ I F E : Type}

/-- As `Timed`, from a future on that may have been polled before. -/
inductive TimedFrom (P : Producer σ I F E) : InProgress P → Timeline E I F → Prop where
  | last {f s' n r} : Ends InProgress.poll f n (s', r.map .inr) → TimedFrom P f (.last n r)
  | item {f s' n x t} : Ends InProgress.poll f n (s', .ok (.inl x)) → Timed P s' t → TimedFrom P f (.item n x t)

theorem timedFrom_new {P : Producer σ I F E} {s : σ} {t : Timeline E I F} : TimedFrom P (.new P s) t ↔ Timed P s t := by
  constructor
  · intro h
    cases h with
    | last h => exact .last (InProgress.ends.mp h)
    | item h h' => exact .item (InProgress.ends.mp h) h'
  · intro h
    cases h with
    | last h => exact .last (InProgress.ends.mpr h)
    | item h h' => exact .item (InProgress.ends.mpr h) h'

theorem TimedFrom.pending {P : Producer σ I F E} {f : InProgress P} {t : Timeline E I F} (h : TimedFrom P f t) (ht : 0 < t.wait) :
    ∃ f', f.poll = ok (.pending f') ∧ TimedFrom P f' (t.after 1) := by
  cases h with
  | last h =>
    cases h with
    | ready => exact absurd ht (Nat.lt_irrefl _)
    | pending h h' => exact ⟨_, h, .last h'⟩
  | item h h'' =>
    cases h with
    | ready => exact absurd ht (Nat.lt_irrefl _)
    | pending h h' => exact ⟨_, h, .item h' h''⟩

/-! ### Merges -/

namespace Merge

variable {σ₁ σ₂ : Type} {P₁ : Producer σ₁ I F E} {P₂ : Producer σ₂ I F E} {t₁ t₂ : Timeline E I F}

private theorem poll_done {s : Merge P₁ P₂} {a : Poll (Merge P₁ P₂) (Merge P₁ P₂ × Except E (I ⊕ F))}
    (h : pollBody s = ok (.done a)) : Verif.loop pollBody s = ok a := by
  rw [loop_unfold, h]

private theorem poll_continue {s s' : Merge P₁ P₂} (h : pollBody s = ok (.continue s')) :
    Verif.loop pollBody s = Verif.loop pollBody s' := by
  rw [loop_unfold, h]

/-- An answer of the first producer that is passed on. -/
theorem timed_first {a : Except E (I ⊕ F)} (ha : ∀ f, a ≠ .ok (.inr f)) {s₁ : σ₁} : ∀ {d : Nat} {f₁ : InProgress P₁} {f₂ : InProgress P₂}
    {t₂ : Timeline E I F}, Ends InProgress.poll f₁ d (s₁, a) → TimedFrom P₂ f₂ t₂ → d ≤ t₂.wait →
    ∃ f₂', Ends (Verif.loop pollBody) (⟨some f₁, some f₂⟩ : Merge P₁ P₂) d (⟨some (.new P₁ s₁), some f₂'⟩, a) ∧
      TimedFrom P₂ f₂' (t₂.after d) := by
  intro d
  induction d with
  | zero =>
    intro f₁ f₂ t₂ h₁ h₂ _
    rw [Timeline.after_zero]
    cases h₁ with
    | ready h₁ =>
      refine ⟨f₂, .ready (poll_done ?_), h₂⟩
      rcases a with e | x | f
      · simp [pollBody, h₁]
      · simp [pollBody, h₁]
      · exact absurd rfl (ha f)
  | succ d ih =>
    intro f₁ f₂ t₂ h₁ h₂ hd
    obtain ⟨f₂', h3, h4⟩ := h₂.pending (by omega)
    cases h₁ with
    | pending h₁ h₁' =>
      obtain ⟨f₂'', h5, h6⟩ := ih h₁' h4 (by rw [Timeline.wait_after]; omega)
      refine ⟨f₂'', .pending (poll_done (by simp [pollBody, h₁, h3])) h5, ?_⟩
      rwa [Timeline.after_after, Nat.add_comm] at h6

/-- An answer of the second producer that is passed on. -/
theorem timed_second {a : Except E (I ⊕ F)} (ha : ∀ f, a ≠ .ok (.inr f)) {s₂ : σ₂} : ∀ {d : Nat} {f₁ : InProgress P₁} {f₂ : InProgress P₂}
    {t₁ : Timeline E I F}, TimedFrom P₁ f₁ t₁ → Ends InProgress.poll f₂ d (s₂, a) → d < t₁.wait →
    ∃ f₁', Ends (Verif.loop pollBody) (⟨some f₁, some f₂⟩ : Merge P₁ P₂) d (⟨some f₁', some (.new P₂ s₂)⟩, a) ∧
      TimedFrom P₁ f₁' (t₁.after (d + 1)) := by
  intro d
  induction d with
  | zero =>
    intro f₁ f₂ t₁ h₁ h₂ hd
    obtain ⟨f₁', h3, h4⟩ := h₁.pending hd
    cases h₂ with
    | ready h₂ =>
      refine ⟨f₁', .ready (poll_done ?_), h4⟩
      rcases a with e | x | f
      · simp [pollBody, h₂, h3]
      · simp [pollBody, h₂, h3]
      · exact absurd rfl (ha f)
  | succ d ih =>
    intro f₁ f₂ t₁ h₁ h₂ hd
    obtain ⟨f₁', h3, h4⟩ := h₁.pending (by omega)
    cases h₂ with
    | pending h₂ h₂' =>
      obtain ⟨f₁'', h5, h6⟩ := ih h4 h₂' (by rw [Timeline.wait_after]; omega)
      refine ⟨f₁'', .pending (poll_done (by simp [pollBody, h₂, h3])) h5, ?_⟩
      rwa [Timeline.after_after, Nat.add_comm 1] at h6

/-- Only the second future is left. -/
theorem ends_only₂ {f₂ : InProgress P₂} {n : Nat} {a : σ₂ × Except E (I ⊕ F)} (h : Ends InProgress.poll f₂ n a) :
    Ends (Verif.loop pollBody) (⟨none, some f₂⟩ : Merge P₁ P₂) n (⟨none, some (.new P₂ a.1)⟩, a.2) := by
  induction h with
  | ready h => exact .ready (poll_done (by simp [pollBody, h]))
  | pending h _ ih => exact .pending (poll_done (by simp [pollBody, h])) ih

/-- Only the first future is left. -/
theorem ends_only₁ {f₁ : InProgress P₁} {n : Nat} {a : σ₁ × Except E (I ⊕ F)} (h : Ends InProgress.poll f₁ n a) :
    Ends (Verif.loop pollBody) (⟨some f₁, none⟩ : Merge P₁ P₂) n (⟨some (.new P₁ a.1), none⟩, a.2) := by
  induction h with
  | ready h => exact .ready (poll_done (by simp [pollBody, h]))
  | pending h _ ih => exact .pending (poll_done (by simp [pollBody, h])) ih

theorem timed_only₂ {s₂ : σ₂} {t : Timeline E I F} (h : Timed P₂ s₂ t) :
    Timed (Merge.producer P₁ P₂) (⟨none, some (.new P₂ s₂)⟩ : Merge P₁ P₂) t := by
  induction h with
  | last h => exact .last (ends_only₂ (InProgress.ends.mpr h))
  | item h _ ih => exact .item (ends_only₂ (InProgress.ends.mpr h)) ih

theorem timed_only₁ {s₁ : σ₁} {t : Timeline E I F} (h : Timed P₁ s₁ t) :
    Timed (Merge.producer P₁ P₂) (⟨some (.new P₁ s₁), none⟩ : Merge P₁ P₂) t := by
  induction h with
  | last h => exact .last (ends_only₁ (InProgress.ends.mpr h))
  | item h _ ih => exact .item (ends_only₁ (InProgress.ends.mpr h)) ih

/-- The first producer ends, with a final value. -/
theorem ends_final₁ {s₁ : σ₁} {g : F} {a : σ₂ × Except E (I ⊕ F)} : ∀ {d m : Nat} {f₁ : InProgress P₁} {f₂ : InProgress P₂},
    Ends InProgress.poll f₁ d (s₁, .ok (.inr g)) → Ends InProgress.poll f₂ m a → d ≤ m →
    Ends (Verif.loop pollBody) (⟨some f₁, some f₂⟩ : Merge P₁ P₂) m (⟨none, some (.new P₂ a.1)⟩, a.2) := by
  intro d
  induction d with
  | zero =>
    intro m f₁ f₂ h₁ h₂ _
    cases h₁ with
    | ready h₁ =>
      have hc : Verif.loop pollBody (⟨some f₁, some f₂⟩ : Merge P₁ P₂) = Verif.loop pollBody ⟨none, some f₂⟩ :=
        poll_continue (by simp [pollBody, h₁])
      cases ends_only₂ (P₁ := P₁) h₂ with
      | ready h => exact .ready (hc.trans h)
      | pending h h' => exact .pending (hc.trans h) h'
  | succ d ih =>
    intro m f₁ f₂ h₁ h₂ hd
    cases h₁ with
    | pending h₁ h₁' =>
      cases h₂ with
      | ready => omega
      | pending h₂ h₂' =>
        exact .pending (poll_done (by simp [pollBody, h₁, h₂])) (ih h₁' h₂' (by omega))

/-- The second producer ends, with a final value. -/
theorem ends_final₂ {s₂ : σ₂} {g : F} {a : σ₁ × Except E (I ⊕ F)} : ∀ {d m : Nat} {f₁ : InProgress P₁} {f₂ : InProgress P₂},
    Ends InProgress.poll f₁ (m + 1) a → Ends InProgress.poll f₂ d (s₂, .ok (.inr g)) → d ≤ m →
    Ends (Verif.loop pollBody) (⟨some f₁, some f₂⟩ : Merge P₁ P₂) m (⟨some (.new P₁ a.1), none⟩, a.2) := by
  intro d
  induction d with
  | zero =>
    intro m f₁ f₂ h₁ h₂ _
    cases h₂ with
    | ready h₂ =>
      cases h₁ with
      | @pending _ f₁' _ _ h₁ h₁' =>
        have hc : Verif.loop pollBody (⟨some f₁, some f₂⟩ : Merge P₁ P₂) = Verif.loop pollBody ⟨some f₁', none⟩ :=
          poll_continue (by simp [pollBody, h₁, h₂])
        cases ends_only₁ (P₂ := P₂) h₁' with
        | ready h => exact .ready (hc.trans h)
        | pending h h' => exact .pending (hc.trans h) h'
  | succ d ih =>
    intro m f₁ f₂ h₁ h₂ hd
    cases h₂ with
    | pending h₂ h₂' =>
      rcases m with _ | m
      · omega
      · cases h₁ with
        | pending h₁ h₁' =>
          exact .pending (poll_done (by simp [pollBody, h₁, h₂])) (ih h₁' h₂' (by omega))

theorem timed (k : Nat) : ∀ {t₁ t₂ : Timeline E I F} {f₁ : InProgress P₁} {f₂ : InProgress P₂}, t₁.items.length + t₂.items.length = k →
    TimedFrom P₁ f₁ t₁ → TimedFrom P₂ f₂ t₂ → Timed (Merge.producer P₁ P₂) (⟨some f₁, some f₂⟩ : Merge P₁ P₂) (t₁.merge t₂) := by
  induction k with
  | zero => ?_
  | succ k ih => ?_
  all_goals
    intro t₁ t₂ f₁ f₂ hk h₁ h₂
    rw [Timeline.merge.eq_def]
    split
    · rename_i hd
      cases h₁ with
      | @last s₁ d r h₁ =>
        rcases r with e | g
        · obtain ⟨f₂', h3, -⟩ := timed_first (by intro f; simp [Except.map]) h₁ h₂ hd
          exact .last h3
        · cases h₂ with
          | last h₂ => exact .last (ends_final₁ h₁ h₂ hd)
          | item h₂ h₂' => exact .item (ends_final₁ h₁ h₂ hd) (timed_only₂ h₂')
      | @item s₁ d x t h₁ h₁' =>
        obtain ⟨f₂', h3, h4⟩ := timed_first (by intro f; simp) h₁ h₂ hd
        first
          | (simp only [Timeline.items, List.length_cons] at hk; omega)
          | exact .item h3 (ih (by simp only [Timeline.items, Timeline.items_after, List.length_cons] at *; omega)
              (timedFrom_new.mpr h₁') h4)
    · rename_i hd
      cases h₂ with
      | @last s₂ d r h₂ =>
        rcases r with e | g
        · obtain ⟨f₁', h3, -⟩ := timed_second (by intro f; simp [Except.map]) h₁ h₂ (Nat.lt_of_not_le hd)
          exact .last h3
        · cases h₁ with
          | @last _ m _ h₁ =>
            obtain ⟨m, rfl⟩ : ∃ m', m = m' + 1 := ⟨m - 1, by simp only [Timeline.wait] at hd; omega⟩
            exact .last (ends_final₂ h₁ h₂ (by simp only [Timeline.wait] at hd; omega))
          | @item _ m _ _ h₁ h₁' =>
            obtain ⟨m, rfl⟩ : ∃ m', m = m' + 1 := ⟨m - 1, by simp only [Timeline.wait] at hd; omega⟩
            exact .item (ends_final₂ h₁ h₂ (by simp only [Timeline.wait] at hd; omega)) (timed_only₁ h₁')
      | @item s₂ d x t h₂ h₂' =>
        obtain ⟨f₁', h3, h4⟩ := timed_second (by intro f; simp) h₁ h₂ (Nat.lt_of_not_le hd)
        first
          | (simp only [Timeline.items, List.length_cons] at hk; omega)
          | exact .item h3 (ih (by simp only [Timeline.items, Timeline.items_after, List.length_cons] at *; omega)
              h4 (timedFrom_new.mpr h₂'))

end Merge

/-! ### Adaptors -/

theorem Timed.limit {P : Producer σ I F E} {t : Timeline E I F} : ∀ {n : Nat} {s : σ}, Timed P s t →
    Timed (limitProducer P) ⟨s, n⟩ (t.limit n) := by
  intro n
  induction n generalizing t with
  | zero =>
    intro s _
    exact .last (s' := ⟨s, 0⟩) (.ready rfl)
  | succ n ih =>
    intro s h
    cases h with
    | @last _ s' d r h =>
      refine .last (s' := ⟨s', n⟩) ?_
      cases r <;> exact Ends.bind_pure h rfl
    | @item _ s' d x t h h' => exact .item (s' := ⟨s', n⟩) (Ends.bind_pure h rfl) (ih h')

theorem Timed.mapItem {φ J : Type} (f : φ → I → φ × J) {P : Producer σ I F E} {s : σ} {t : Timeline E I F} (h : Timed P s t) :
    ∀ a, Timed (mapItemProducer f P) ⟨s, a⟩ (t.mapItem f a) := by
  induction h with
  | @last _ s' d r h =>
    intro a
    refine .last (s' := ⟨s', a⟩) ?_
    cases r <;> exact Ends.bind_pure h rfl
  | @item _ s' d x t h _ ih => exact fun a => .item (s' := ⟨s', (f a x).1⟩) (Ends.bind_pure h rfl) (ih _)

theorem Timed.mapFinal {G : Type} (g : F → G) {P : Producer σ I F E} {s : σ} {t : Timeline E I F} (h : Timed P s t) :
    Timed (mapFinalProducer P) ⟨s, some g⟩ (t.mapFinal g) := by
  induction h with
  | @last _ s' d r h =>
    rcases r with e | f
    · exact .last (s' := ⟨s', some g⟩) (Ends.bind_pure h rfl)
    · exact .last (s' := ⟨s', none⟩) (Ends.bind_ready h rfl)
  | @item _ s' d x t h _ ih => exact .item (s' := ⟨s', some g⟩) (Ends.bind_pure h rfl) ih

theorem Timed.invariant {P : Producer σ I F E} {s : σ} {t : Timeline E I F} (h : Timed P s t) :
    ∀ k, Timed (invariantProducer P) ⟨s, true, k⟩ t := by
  induction h with
  | @last _ s' d r h =>
    intro k
    refine .last (s' := ⟨s', false, k⟩) (Ends.lift_bind (a := ()) rfl ?_)
    cases r <;> exact Ends.bind_pure h rfl
  | @item _ s' d x t h _ ih =>
    exact fun k => .item (s' := ⟨s', true, k⟩) (Ends.lift_bind (a := ()) rfl (Ends.bind_pure h rfl)) (ih k)

theorem Timed.stack {P : Producer σ I F E} {s : σ} {t : Timeline E I F} (h : Timed P s t) {J G : Type} (L : SourceLayers I F J G) :
    Timed (L.applyAsync P) (L.wrap s) (L.timeline t) := by
  induction L with
  | nil => exact h
  | limit L n ih => exact ih.limit
  | mapItem L f a ih => exact ih.mapItem f a
  | mapFinal L g ih => exact ih.mapFinal g
  | invariant L ih => exact ih.invariant _

/-! ### Leaves -/

/-- Every finite producer has a timeline. -/
theorem Timed.of_plays {P : Producer σ I F E} {xs : List I} {r : Except E F} : ∀ {s : σ} {c : Script I F E}, Plays P.seq s c → c.Is xs r →
    ∃ t, Timed P s t ∧ t.items = xs ∧ t.result = r := by
  induction xs with
  | nil =>
    intro s c h hc
    obtain ⟨s', h1, -⟩ := h.step
    obtain ⟨n, h2⟩ := run_ok_ends (f := P.produce s) h1
    have h3 : c 0 = r.map .inr := hc.2
    rw [h3] at h2
    exact ⟨.last n r, .last h2, rfl, rfl⟩
  | cons x xs ih =>
    intro s c h hc
    obtain ⟨s', h1, h2⟩ := h.step
    have h3 : c 0 = .ok (.inl x) := hc.1 0 x (by simp)
    obtain ⟨n, h4⟩ := run_ok_ends (f := P.produce s) h1
    rw [h3] at h4
    obtain ⟨t, h5, h6, h7⟩ := ih (h2 x h3) (c := c.drop 1) ⟨fun i y hi => by
      have := hc.1 (i + 1) y (by simpa using hi)
      simpa [Script.drop, Nat.add_comm] using this, by
      have := hc.2
      simpa [Script.drop, Nat.add_comm] using this⟩
    exact ⟨.item n x t, .item h4 h5, by rw [Timeline.items, h6], h7⟩

/-- A timeline determines what is played. -/
theorem Timed.plays {P : Producer σ I F E} {s : σ} {t : Timeline E I F} (h : Timed P s t) :
    Plays P.seq s (Script.ofList t.items t.result) := by
  refine ⟨fun s c => ∃ t, Timed P s t ∧ c = Script.ofList t.items t.result, ⟨?_⟩, t, h, rfl⟩
  rintro s _ ⟨t, h, rfl⟩
  cases h with
  | @last _ s' n r h =>
    refine ⟨s', ?_, ?_⟩
    · show (P.produce s).run = _
      rw [run_eq, runFrom_ok_iff]
      exact ⟨n, by simpa [Script.ofList, Timeline.items, Timeline.result] using h⟩
    · intro x hx
      cases r <;> simp [Script.ofList, Timeline.items, Timeline.result] at hx <;> cases hx
  | @item _ s' n x t h h' =>
    refine ⟨s', ?_, fun y hy => ⟨t, h', ?_⟩⟩
    · show (P.produce s).run = _
      rw [run_eq, runFrom_ok_iff]
      exact ⟨n, h⟩
    · rw [Timeline.items, Script.ofList_drop _ _ 1 (by simp)]
      rfl

/-- A timeline is determined. -/
theorem Timed.unique {P : Producer σ I F E} {s : σ} {t t' : Timeline E I F} (h : Timed P s t) (h' : Timed P s t') : t = t' := by
  induction h generalizing t' with
  | @last _ _ _ r h =>
    cases h' with
    | @last _ _ _ r' h' =>
      obtain ⟨rfl, h2⟩ := h.unique h'
      injection h2 with _ h2
      cases r <;> cases r' <;> cases h2 <;> rfl
    | item h' =>
      obtain ⟨-, h2⟩ := h.unique h'
      injection h2 with _ h2
      cases r <;> cases h2
  | item h _ ih =>
    cases h' with
    | @last _ _ _ r' h' =>
      obtain ⟨-, h2⟩ := h.unique h'
      injection h2 with _ h2
      cases r' <;> cases h2
    | item h' h'' =>
      obtain ⟨rfl, h2⟩ := h.unique h'
      injection h2 with h2 h3
      cases h2; cases h3
      rw [ih h'']

/-- The answer that comes next, and what is left of the timeline. -/
def timedNext : Timeline E I F → Timeline E I F × Except E (I ⊕ F)
  | .last _ r => (.last 0 r, r.map .inr)
  | .item _ x t => (t, .ok (.inl x))

/-- A producer (not from the repository) that follows any timeline. -/
def timedProducer (E I F : Type) : Producer (Timeline E I F) I F E where
  produce t := {
    κ := Nat
    start := t.wait
    poll := fun
      | 0 => ok (.ready (timedNext t))
      | k + 1 => ok (.pending k) }

theorem timedProducer_timed (t : Timeline E I F) : Timed (timedProducer E I F) t t := by
  have h : ∀ (t : Timeline E I F) (k : Nat), Ends ((timedProducer E I F).produce t).poll k k (timedNext t) := by
    intro t k
    induction k with
    | zero => exact .ready rfl
    | succ k ih => exact .pending rfl ih
  induction t with
  | last n r => exact .last (h (.last n r) n)
  | item n x t ih => exact .item (h (.item n x t) n) ih

end Async

namespace Fut

variable {σ A : Type}

/-- An iteration of a loop that is not the last one. -/
theorem Ends.loop_continue {body : σ → Fut (Step σ A)} {s s' : σ} {k : (body s).κ} {n m : Nat} {a : A}
    (h : Ends (body s).poll k n (.continue s')) (h' : Ends (loop body s').poll (loop body s').start m a) :
    Ends (loop body s).poll ⟨s, k⟩ (n + m) a := by
  generalize hr : Step.continue s' = r at h
  induction h with
  | @ready k _ h =>
    subst hr
    rw [Nat.zero_add]
    have hc : Verif.loop (loopPollBody body) ⟨s, k⟩ = Verif.loop (loopPollBody body) ⟨s', (body s').start⟩ := by
      rw [loop_unfold]; simp [loopPollBody, h]
    cases h' with
    | ready h' => exact .ready (hc.trans h')
    | pending h' h'' => exact .pending (hc.trans h') h''
  | @pending k k' n _ h _ ih =>
    rw [Nat.add_right_comm]
    refine .pending (k' := ⟨s, k'⟩) ?_ (ih hr)
    show Verif.loop (loopPollBody body) ⟨s, k⟩ = _
    rw [loop_unfold]; simp only [loopPollBody, h, bind_ok]; rfl

/-- The last iteration of a loop. -/
theorem Ends.loop_done {body : σ → Fut (Step σ A)} {s : σ} {k : (body s).κ} {n : Nat} {a : A}
    (h : Ends (body s).poll k n (.done a)) : Ends (loop body s).poll ⟨s, k⟩ n a := by
  generalize hr : Step.done a = r at h
  induction h with
  | @ready k _ h =>
    subst hr
    refine .ready ?_
    show Verif.loop (loopPollBody body) ⟨s, k⟩ = _
    rw [loop_unfold]; simp only [loopPollBody, h, bind_ok]; rfl
  | @pending k k' n _ h _ ih =>
    refine .pending (k' := ⟨s, k'⟩) ?_ (ih hr)
    show Verif.loop (loopPollBody body) ⟨s, k⟩ = _
    rw [loop_unfold]; simp only [loopPollBody, h, bind_ok]; rfl

end Fut

end Verif
