import Verif.PaceSpec
import Verif.Lemmas.Poll
import Verif.Lemmas.PollCount
import Verif.Lemmas.AsyncMerge
import Verif.Lemmas.Adaptors

/-!
# Lemmas for C93
-/

namespace Verif

open Outcome

namespace Fut

variable {A B : Type}

theorem Ends.andThen_inr {f : Fut A} {g : A → Fut B} {a : A} {k : (g a).κ} {n : Nat} {b : B} (h : Ends (g a).poll k n b) :
    Ends (andThenPoll f g) (.inr ⟨a, k⟩) n b := by
  induction h with
  | ready h => exact .ready (by simp [andThenPoll, pollIn, h])
  | pending h _ ih => exact .pending (by simp only [andThenPoll, pollIn, h, bind_ok]) ih

theorem Ends.andThen {f : Fut A} {g : A → Fut B} {k : f.κ} {n : Nat} {a : A} (h : Ends f.poll k n a) {m : Nat} {b : B}
    (h' : Ends (g a).poll (g a).start m b) : Ends (andThenPoll f g) (.inl k) (n + m) b := by
  induction h with
  | ready h =>
    rw [Nat.zero_add]
    cases h' with
    | ready h' => exact .ready (by simp [andThenPoll, pollIn, h, h'])
    | pending h' h'' => exact .pending (by simp only [andThenPoll, pollIn, h, h', bind_ok]) h''.andThen_inr
  | @pending k k' n a h _ ih =>
    rw [Nat.add_right_comm]
    exact .pending (by simp only [andThenPoll, pollIn, h, bind_ok]) (ih h')

/-- Awaiting a future and going on without awaiting anything else. -/
theorem Ends.bind_pure {f : Fut A} {g : A → Fut B} {n : Nat} {a : A} {b : B} (h : Ends f.poll f.start n a) (h' : g a = pure b) :
    Ends (f >>= g).poll (f >>= g).start n b := by
  refine Ends.andThen (m := 0) h ?_
  rw [h']
  exact .ready rfl

theorem Ends.bind_ready {f : Fut A} {g : A → Fut B} {n : Nat} {a : A} {b : B} (h : Ends f.poll f.start n a)
    (h' : (g a).poll (g a).start = ok (.ready b)) : Ends (f >>= g).poll (f >>= g).start n b :=
  Ends.andThen (m := 0) h (.ready h')

/-- Awaiting a future after doing something without awaiting anything. -/
theorem Ends.lift_bind {o : Outcome A} {g : A → Fut B} {n : Nat} {a : A} {b : B} (h : o = ok a) (h' : Ends (g a).poll (g a).start n b) :
    Ends (Fut.lift o >>= g).poll (Fut.lift o >>= g).start n b := by
  subst h
  have := Ends.andThen (f := Fut.lift (ok a)) (g := g) (k := ()) (n := 0) (.ready rfl) h'
  rwa [Nat.zero_add] at this

end Fut

namespace Async

open Fut

variable {σ I F E : Type}

/-- Polled from here on, the producer emits the items of `l`, each after being pending as often as is listed, and then `r` after being
pending `n` times. -/
inductive Paced (P : Producer σ I F E) : InProgress P → List (Nat × I) → Nat → Except E F → Prop where
  | last {f n r s'} : Ends InProgress.poll f n (s', r.map .inr) → Paced P f [] n r
  | item {f d x l n r s'} : Ends InProgress.poll f d (s', .ok (.inl x)) → Paced P (.new P s') l n r → Paced P f ((d, x) :: l) n r

theorem InProgress.ends {P : Producer σ I F E} {s : σ} {k : (P.produce s).κ} {n : Nat} {a : σ × Except E (I ⊕ F)} :
    Ends InProgress.poll (⟨s, k⟩ : InProgress P) n a ↔ Ends (P.produce s).poll k n a := by
  constructor
  · intro h
    generalize hf : (⟨s, k⟩ : InProgress P) = f at h
    induction h generalizing k with
    | ready h =>
      subst hf
      simp only [InProgress.poll] at h
      rcases hq : (P.produce s).poll k with (k' | b') | _ | _ <;> rw [hq] at h <;> cases h
      exact .ready hq
    | pending h _ ih =>
      subst hf
      simp only [InProgress.poll] at h
      rcases hq : (P.produce s).poll k with (k' | b') | _ | _ <;> rw [hq] at h <;> cases h
      exact .pending hq (ih rfl)
  · intro h
    induction h with
    | ready h => exact .ready (by simp [InProgress.poll, h])
    | pending h _ ih => exact .pending (by simp only [InProgress.poll, h, bind_ok]) ih

/-- How often it is pending makes no difference to what is emitted. -/
theorem Paced.plays {P : Producer σ I F E} {s : σ} {l : List (Nat × I)} {n : Nat} {r : Except E F} (h : Paced P (.new P s) l n r) :
    Plays P.seq s (Script.ofList (l.map Prod.snd) r) := by
  refine ⟨fun s c => ∃ l n r, Paced P (.new P s) l n r ∧ c = Script.ofList (l.map Prod.snd) r, ⟨?_⟩, l, n, r, h, rfl⟩
  rintro s _ ⟨l, n, r, h, rfl⟩
  cases h with
  | @last _ _ _ s' h =>
    refine ⟨s', ?_, ?_⟩
    · show (P.produce s).run = _
      rw [run_eq, runFrom_ok_iff]
      refine ⟨n, ?_⟩
      have := InProgress.ends.mp h
      simpa [Script.ofList] using this
    · intro x hx
      cases r <;> simp [Script.ofList] at hx <;> cases hx
  | @item _ d x l _ _ s' h h' =>
    refine ⟨s', ?_, fun y hy => ⟨l, n, r, h', ?_⟩⟩
    · show (P.produce s).run = _
      rw [run_eq, runFrom_ok_iff]
      exact ⟨d, InProgress.ends.mp h⟩
    · rw [List.map_cons, Script.ofList_drop _ _ 1 (by simp)]
      rfl

/-- Being pending `d` more times before the next answer. -/
def bump (d : Nat) : List (Nat × I) × Nat → List (Nat × I) × Nat
  | ([], n) => ([], n + d)
  | ((d', x) :: l, n) => ((d' + d, x) :: l, n)

theorem bump_map (d : Nat) (l : List (Nat × I)) (n : Nat) : (bump d (l, n)).1.map Prod.snd = l.map Prod.snd := by
  cases l <;> rfl

theorem bump_zero (l : List (Nat × I)) (n : Nat) : bump 0 (l, n) = (l, n) := by
  cases l <;> rfl

theorem Paced.bump_succ {P : Producer σ I F E} {f : InProgress P} {d : Nat} {l : List (Nat × I)} {n : Nat} {r : Except E F}
    (h : Paced P f (bump (d + 1) (l, n)).1 (bump (d + 1) (l, n)).2 r) :
    ∃ f', f.poll = ok (.pending f') ∧ Paced P f' (bump d (l, n)).1 (bump d (l, n)).2 r := by
  cases l with
  | nil =>
    cases h with
    | last h =>
      cases h with
      | pending h h' => exact ⟨_, h, .last h'⟩
  | cons x l =>
    obtain ⟨d', x⟩ := x
    cases h with
    | item h h'' =>
      cases h with
      | pending h h' => exact ⟨_, h, .item h' h''⟩

/-! ### Merges -/

namespace Merge

variable {σ₁ σ₂ : Type} {P₁ : Producer σ₁ I F E} {P₂ : Producer σ₂ I F E}

private theorem poll_done {s : Merge P₁ P₂} {a : Poll (Merge P₁ P₂) (Merge P₁ P₂ × Except E (I ⊕ F))}
    (h : pollBody s = ok (.done a)) : Verif.loop pollBody s = ok a := by
  rw [loop_unfold, h]

private theorem poll_continue {s s' : Merge P₁ P₂} (h : pollBody s = ok (.continue s')) :
    Verif.loop pollBody s = Verif.loop pollBody s' := by
  rw [loop_unfold, h]

variable {l₁ l₂ : List (Nat × I)} {n₁ n₂ : Nat} {r₁ r₂ : Except E F}

/-- An answer of the first producer that is passed on. -/
theorem paced_first {a : Except E (I ⊕ F)} (ha : ∀ f, a ≠ .ok (.inr f)) {s₁ : σ₁} : ∀ {d : Nat} {f₁ : InProgress P₁} {f₂ : InProgress P₂},
    Ends InProgress.poll f₁ d (s₁, a) → Paced P₂ f₂ (bump d (l₂, n₂)).1 (bump d (l₂, n₂)).2 r₂ →
    ∃ f₂', Ends (Verif.loop pollBody) (⟨some f₁, some f₂⟩ : Merge P₁ P₂) d (⟨some (.new P₁ s₁), some f₂'⟩, a) ∧ Paced P₂ f₂' l₂ n₂ r₂ := by
  intro d
  induction d with
  | zero =>
    intro f₁ f₂ h₁ h₂
    rw [bump_zero] at h₂
    cases h₁ with
    | ready h₁ =>
      refine ⟨f₂, .ready (poll_done ?_), h₂⟩
      rcases a with e | x | f
      · simp [pollBody, h₁]
      · simp [pollBody, h₁]
      · exact absurd rfl (ha f)
  | succ d ih =>
    intro f₁ f₂ h₁ h₂
    obtain ⟨f₂', h3, h4⟩ := h₂.bump_succ
    cases h₁ with
    | pending h₁ h₁' =>
      obtain ⟨f₂'', h5, h6⟩ := ih h₁' h4
      exact ⟨f₂'', .pending (poll_done (by simp [pollBody, h₁, h3])) h5, h6⟩

/-- An answer of the second producer that is passed on. -/
theorem paced_second {a : Except E (I ⊕ F)} (ha : ∀ f, a ≠ .ok (.inr f)) {s₂ : σ₂} : ∀ {d : Nat} {f₁ : InProgress P₁} {f₂ : InProgress P₂},
    Paced P₁ f₁ (bump (d + 1) (l₁, n₁)).1 (bump (d + 1) (l₁, n₁)).2 r₁ → Ends InProgress.poll f₂ d (s₂, a) →
    ∃ f₁', Ends (Verif.loop pollBody) (⟨some f₁, some f₂⟩ : Merge P₁ P₂) d (⟨some f₁', some (.new P₂ s₂)⟩, a) ∧ Paced P₁ f₁' l₁ n₁ r₁ := by
  intro d
  induction d with
  | zero =>
    intro f₁ f₂ h₁ h₂
    obtain ⟨f₁', h3, h4⟩ := h₁.bump_succ
    rw [bump_zero] at h4
    cases h₂ with
    | ready h₂ =>
      refine ⟨f₁', .ready (poll_done ?_), h4⟩
      rcases a with e | x | f
      · simp [pollBody, h₂, h3]
      · simp [pollBody, h₂, h3]
      · exact absurd rfl (ha f)
  | succ d ih =>
    intro f₁ f₂ h₁ h₂
    obtain ⟨f₁', h3, h4⟩ := h₁.bump_succ
    cases h₂ with
    | pending h₂ h₂' =>
      obtain ⟨f₁'', h5, h6⟩ := ih h4 h₂'
      exact ⟨f₁'', .pending (poll_done (by simp [pollBody, h₂, h3])) h5, h6⟩

/-- Both end, the second producer last. -/
theorem paced_final₂ {s₁ : σ₁} {s₂ : σ₂} {g₁ g₂ : F} : ∀ {d : Nat} {f₁ : InProgress P₁} {f₂ : InProgress P₂},
    Ends InProgress.poll f₁ d (s₁, .ok (.inr g₁)) → Ends InProgress.poll f₂ d (s₂, .ok (.inr g₂)) →
    ∃ s', Ends (Verif.loop pollBody) (⟨some f₁, some f₂⟩ : Merge P₁ P₂) d (s', .ok (.inr g₂)) := by
  intro d
  induction d with
  | zero =>
    intro f₁ f₂ h₁ h₂
    cases h₁ with
    | ready h₁ =>
      cases h₂ with
      | ready h₂ =>
        refine ⟨⟨none, some (.new P₂ s₂)⟩, .ready ?_⟩
        rw [poll_continue (s' := ⟨none, some f₂⟩) (by simp [pollBody, h₁])]
        exact poll_done (by simp [pollBody, h₂])
  | succ d ih =>
    intro f₁ f₂ h₁ h₂
    cases h₁ with
    | pending h₁ h₁' =>
      cases h₂ with
      | pending h₂ h₂' =>
        obtain ⟨s', h5⟩ := ih h₁' h₂'
        exact ⟨s', .pending (poll_done (by simp [pollBody, h₁, h₂])) h5⟩

/-- Both end, the first producer last. -/
theorem paced_final₁ {s₁ : σ₁} {s₂ : σ₂} {g₁ g₂ : F} : ∀ {d : Nat} {f₁ : InProgress P₁} {f₂ : InProgress P₂},
    Ends InProgress.poll f₁ (d + 1) (s₁, .ok (.inr g₁)) → Ends InProgress.poll f₂ d (s₂, .ok (.inr g₂)) →
    ∃ s', Ends (Verif.loop pollBody) (⟨some f₁, some f₂⟩ : Merge P₁ P₂) d (s', .ok (.inr g₁)) := by
  intro d
  induction d with
  | zero =>
    intro f₁ f₂ h₁ h₂
    cases h₁ with
    | @pending _ f₁' _ _ h₁ h₁' =>
      cases h₁' with
      | ready h₁' =>
        cases h₂ with
        | ready h₂ =>
          refine ⟨⟨some (.new P₁ s₁), none⟩, .ready ?_⟩
          rw [poll_continue (s' := ⟨some f₁', none⟩) (by simp [pollBody, h₁, h₂])]
          exact poll_done (by simp [pollBody, h₁'])
  | succ d ih =>
    intro f₁ f₂ h₁ h₂
    cases h₁ with
    | pending h₁ h₁' =>
      cases h₂ with
      | pending h₂ h₂' =>
        obtain ⟨s', h5⟩ := ih h₁' h₂'
        exact ⟨s', .pending (poll_done (by simp [pollBody, h₁, h₂])) h5⟩

/-- Whatever a merge may emit, and however often it is to be pending before each answer: there are delays for the two producers that
make it do so. -/
theorem paced {xs₁ xs₂ zs : List I} {r : Except E F} (h : Merged xs₁ r₁ xs₂ r₂ zs r) (l : List (Nat × I)) (hl : l.map Prod.snd = zs)
    (n : Nat) : ∃ l₁ n₁ l₂ n₂, l₁.map Prod.snd = xs₁ ∧ l₂.map Prod.snd = xs₂ ∧
      ∀ {σ₁ σ₂ : Type} (P₁ : Producer σ₁ I F E) (P₂ : Producer σ₂ I F E) f₁ f₂, Paced P₁ f₁ l₁ n₁ r₁ → Paced P₂ f₂ l₂ n₂ r₂ →
        Paced (Merge.producer P₁ P₂) (.new _ ⟨some f₁, some f₂⟩) l n r := by
  have items : ∀ {ys₁ ys₂ rest₁ rest₂ zs : List I}, Interleaving ys₁ ys₂ zs → ∀ l : List (Nat × I), l.map Prod.snd = zs →
      (∃ l₁ n₁ l₂ n₂, l₁.map Prod.snd = rest₁ ∧ l₂.map Prod.snd = rest₂ ∧
        ∀ {σ₁ σ₂ : Type} (P₁ : Producer σ₁ I F E) (P₂ : Producer σ₂ I F E) f₁ f₂, Paced P₁ f₁ l₁ n₁ r₁ → Paced P₂ f₂ l₂ n₂ r₂ →
          Paced (Merge.producer P₁ P₂) (.new _ ⟨some f₁, some f₂⟩) [] n r) →
      ∃ l₁ n₁ l₂ n₂, l₁.map Prod.snd = ys₁ ++ rest₁ ∧ l₂.map Prod.snd = ys₂ ++ rest₂ ∧
        ∀ {σ₁ σ₂ : Type} (P₁ : Producer σ₁ I F E) (P₂ : Producer σ₂ I F E) f₁ f₂, Paced P₁ f₁ l₁ n₁ r₁ → Paced P₂ f₂ l₂ n₂ r₂ →
          Paced (Merge.producer P₁ P₂) (.new _ ⟨some f₁, some f₂⟩) l n r := by
    intro ys₁ ys₂ rest₁ rest₂ zs hz
    induction hz with
    | nil =>
      intro l hl hend
      obtain rfl : l = [] := by simpa using hl
      exact hend
    | @left x _ _ _ _ ih =>
      intro l hl hend
      rcases l with _ | ⟨⟨d, y⟩, l⟩
      · cases hl
      · simp only [List.map_cons, List.cons.injEq] at hl
        obtain ⟨rfl, hl⟩ := hl
        obtain ⟨l₁, n₁, l₂, n₂, h1, h2, h3⟩ := ih l hl hend
        refine ⟨(d, y) :: l₁, n₁, (bump d (l₂, n₂)).1, (bump d (l₂, n₂)).2, by simp [h1], by rw [bump_map, h2], ?_⟩
        intro σ₁ σ₂ P₁ P₂ f₁ f₂ hf₁ hf₂
        cases hf₁ with
        | item h4 h5 =>
          obtain ⟨f₂', h6, h7⟩ := paced_first (fun _ => by simp) h4 hf₂
          exact .item (InProgress.ends.mpr h6) (h3 _ _ _ _ h5 h7)
    | @right x _ _ _ _ ih =>
      intro l hl hend
      rcases l with _ | ⟨⟨d, y⟩, l⟩
      · cases hl
      · simp only [List.map_cons, List.cons.injEq] at hl
        obtain ⟨rfl, hl⟩ := hl
        obtain ⟨l₁, n₁, l₂, n₂, h1, h2, h3⟩ := ih l hl hend
        refine ⟨(bump (d + 1) (l₁, n₁)).1, (bump (d + 1) (l₁, n₁)).2, (d, y) :: l₂, n₂, by rw [bump_map, h1], by simp [h2], ?_⟩
        intro σ₁ σ₂ P₁ P₂ f₁ f₂ hf₁ hf₂
        cases hf₂ with
        | item h4 h5 =>
          obtain ⟨f₁', h6, h7⟩ := paced_second (fun _ => by simp) hf₁ h4
          exact .item (InProgress.ends.mpr h6) (h3 _ _ _ _ h7 h5)
  have zero : ∀ rest : List I, (rest.map fun x => (0, x)).map Prod.snd = rest := by
    intro rest; simp [List.map_map, Function.comp_def]
  cases h with
  | @final _ f₁ f₂ f h1 h2 hf hz =>
    subst h1 h2
    have := items (rest₁ := []) (rest₂ := []) hz l hl (by
      rcases hf with rfl | rfl
      · refine ⟨[], n + 1, [], n, rfl, rfl, ?_⟩
        intro σ₁ σ₂ P₁ P₂ f₁ f₂ hf₁ hf₂
        cases hf₁ with
        | last h4 =>
          cases hf₂ with
          | last h5 =>
            obtain ⟨s', h6⟩ := paced_final₁ h4 h5
            exact .last (InProgress.ends.mpr h6)
      · refine ⟨[], n, [], n, rfl, rfl, ?_⟩
        intro σ₁ σ₂ P₁ P₂ f₁ f₂ hf₁ hf₂
        cases hf₁ with
        | last h4 =>
          cases hf₂ with
          | last h5 =>
            obtain ⟨s', h6⟩ := paced_final₂ h4 h5
            exact .last (InProgress.ends.mpr h6))
    simpa using this
  | @first ys _ e h1 hy hz =>
    subst h1
    obtain ⟨rest, rfl⟩ := hy
    have := items (rest₁ := []) (rest₂ := rest) hz l hl (by
      refine ⟨[], n, (bump n (rest.map fun x => (0, x), 0)).1, (bump n (rest.map fun x => (0, x), 0)).2, rfl,
        by rw [bump_map, zero], ?_⟩
      intro σ₁ σ₂ P₁ P₂ f₁ f₂ hf₁ hf₂
      cases hf₁ with
      | last h4 =>
        obtain ⟨f₂', h6, -⟩ := paced_first (fun _ => by simp [Except.map]) h4 hf₂
        exact .last (InProgress.ends.mpr h6))
    simpa using this
  | @second ys _ e h1 hy hz =>
    subst h1
    obtain ⟨rest, rfl⟩ := hy
    have := items (rest₁ := rest) (rest₂ := []) hz l hl (by
      refine ⟨(bump (n + 1) (rest.map fun x => (0, x), 0)).1, (bump (n + 1) (rest.map fun x => (0, x), 0)).2, [], n,
        by rw [bump_map, zero], rfl, ?_⟩
      intro σ₁ σ₂ P₁ P₂ f₁ f₂ hf₁ hf₂
      cases hf₂ with
      | last h4 =>
        obtain ⟨f₁', h6, -⟩ := paced_second (fun _ => by simp [Except.map]) hf₁ h4
        exact .last (InProgress.ends.mpr h6))
    simpa using this

end Merge

/-! ### Adaptors -/

theorem Paced.mapItem {φ B : Type} (f : φ → I → φ × B) {P : Producer σ I F E} {n : Nat} {r : Except E F} :
    ∀ {l : List (Nat × I)} {s : σ} {a : φ}, Paced P (.new P s) l n r → ∀ l' : List (Nat × B), l'.map Prod.fst = l.map Prod.fst →
      l'.map Prod.snd = results f a (l.map Prod.snd) → Paced (mapItemProducer f P) (.new _ ⟨s, a⟩) l' n r := by
  intro l
  induction l with
  | nil =>
    intro s a h l' h1 _
    obtain rfl : l' = [] := by simpa using h1
    cases h with
    | @last _ _ _ s' h =>
      have h := InProgress.ends.mp h
      refine .last (s' := ⟨s', a⟩) (InProgress.ends.mpr ?_)
      cases r <;> exact Ends.bind_pure h rfl
  | cons x l ih =>
    intro s a h l' h1 h2
    rcases l' with _ | ⟨⟨d, y⟩, l'⟩
    · cases h1
    · obtain ⟨d', x⟩ := x
      simp only [List.map_cons, List.cons.injEq, results] at h1 h2
      obtain ⟨rfl, h1⟩ := h1
      obtain ⟨rfl, h2⟩ := h2
      cases h with
      | @item _ _ _ _ _ _ s' h h' =>
        have h := InProgress.ends.mp h
        exact .item (s' := ⟨s', (f a x).1⟩) (InProgress.ends.mpr (Ends.bind_pure h rfl)) (ih h' l' h1 h2)

theorem Paced.mapFinal {B : Type} (g : F → B) {P : Producer σ I F E} {n : Nat} {r : Except E F} :
    ∀ {l : List (Nat × I)} {s : σ}, Paced P (.new P s) l n r → Paced (mapFinalProducer P) (.new _ ⟨s, some g⟩) l n (r.map g) := by
  intro l
  induction l with
  | nil =>
    intro s h
    cases h with
    | @last _ _ _ s' h =>
      have h := InProgress.ends.mp h
      rcases r with e | fin
      · exact .last (s' := ⟨s', some g⟩) (InProgress.ends.mpr (Ends.bind_pure h rfl))
      · refine .last (s' := ⟨s', none⟩) (InProgress.ends.mpr ?_)
        exact Ends.bind_ready h rfl
  | cons x l ih =>
    intro s h
    cases h with
    | @item _ _ x _ _ _ s' h h' =>
      have h := InProgress.ends.mp h
      exact .item (s' := ⟨s', some g⟩) (InProgress.ends.mpr (Ends.bind_pure h rfl)) (ih h')

theorem Paced.invariant {P : Producer σ I F E} {n : Nat} {r : Except E F} :
    ∀ {l : List (Nat × I)} {s : σ} {k : Nat}, Paced P (.new P s) l n r →
      Paced (invariantProducer P) (.new _ ⟨s, true, k⟩) l n r := by
  intro l
  induction l with
  | nil =>
    intro s k h
    cases h with
    | @last _ _ _ s' h =>
      have h := InProgress.ends.mp h
      refine .last (s' := ⟨s', false, k⟩) (InProgress.ends.mpr ?_)
      refine Ends.lift_bind (a := ()) rfl ?_
      cases r <;> exact Ends.bind_pure h rfl
  | cons x l ih =>
    intro s k h
    cases h with
    | @item _ _ x _ _ _ s' h h' =>
      have h := InProgress.ends.mp h
      refine .item (s' := ⟨s', true, k⟩) (InProgress.ends.mpr ?_) (ih h')
      exact Ends.lift_bind (a := ()) rfl (Ends.bind_pure h rfl)

/-- Whatever a stack without `Limit` emits, and however often it is to be pending: there are delays for the wrapped producer. -/
theorem Paced.stack {J G : Type} (L : SourceLayers I F J G) (hL : L.Unlimited) {xs : List I} {r : Except E F} {n : Nat} :
    ∀ l' : List (Nat × J), l'.map Prod.snd = L.items xs → ∃ l : List (Nat × I), l.map Prod.snd = xs ∧
      ∀ {σ : Type} (P : Producer σ I F E) (s : σ), Paced P (.new P s) l n r →
        Paced (L.applyAsync P) (.new _ (L.wrap s)) l' n (L.last xs r) := by
  induction L with
  | nil => exact fun l' hl => ⟨l', hl, fun P s h => h⟩
  | limit => exact hL.elim
  | mapItem L f a ih =>
    intro l' hl
    have hlen : l'.length = (L.items xs).length := by
      have := congrArg List.length hl
      simpa [SourceLayers.items, results_length] using this
    obtain ⟨l, h1, h2⟩ := ih hL ((l'.map Prod.fst).zip (L.items xs)) (List.map_snd_zip (by simp [hlen]))
    refine ⟨l, h1, fun P s h => ?_⟩
    refine (h2 P s h).mapItem f l' ?_ ?_
    · rw [List.map_fst_zip (by simp [hlen])]
    · rw [List.map_snd_zip (by simp [hlen])]; exact hl
  | mapFinal L f ih =>
    intro l' hl
    obtain ⟨l, h1, h2⟩ := ih hL l' hl
    exact ⟨l, h1, fun P s h => (h2 P s h).mapFinal f⟩
  | invariant L ih =>
    intro l' hl
    obtain ⟨l, h1, h2⟩ := ih hL l' hl
    exact ⟨l, h1, fun P s h => (h2 P s h).invariant⟩

/-! ### Leaves -/

/-- The answer that comes next, and what remains. -/
def pacedNext (r : Except E F) : List (Nat × I) × Nat → Nat × (List (Nat × I) × Nat) × Except E (I ⊕ F)
  | ([], n) => (n, ([], n), r.map .inr)
  | ((d, x) :: l, n) => (d, (l, n), .ok (.inl x))

/-- A producer (not from the repository) of the listed items and then `r`, which is pending before each answer as often as is
listed. -/
def pacedProducer (r : Except E F) : Producer (List (Nat × I) × Nat) I F E where
  produce s := {
    κ := Nat
    start := (pacedNext r s).1
    poll := fun
      | 0 => ok (.ready (pacedNext r s).2)
      | k + 1 => ok (.pending k) }

theorem pacedProducer_paced (r : Except E F) (n : Nat) : ∀ l : List (Nat × I), Paced (pacedProducer r) (.new _ (l, n)) l n r := by
  have h : ∀ (s : List (Nat × I) × Nat) (k : Nat), Ends ((pacedProducer r).produce s).poll k k (pacedNext r s).2 := by
    intro s k
    induction k with
    | zero => exact .ready rfl
    | succ k ih => exact .pending rfl ih
  intro l
  induction l with
  | nil => exact .last (InProgress.ends.mpr (h ([], n) n))
  | cons x l ih => exact .item (InProgress.ends.mpr (h (x :: l, n) x.1)) ih

end Async

end Verif
