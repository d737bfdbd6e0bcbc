import Verif.PaceSpec
import Verif.Lemmas.Pace
import Verif.Props.Network
import Verif.Props.MergeExact

/-!
# C93: what networks of adaptors and merges can emit
-/

namespace Verif

open Outcome

variable {σ I F J G E : Type}

theorem Shape.Built.network {N : Shape E I F} {P : Async.Producer σ I F E} {s : σ} (h : N.Built P s) :
    Async.Network P s N.Allows := by
  induction h with
  | leaf h1 h2 => exact .leaf h1 h2
  | stack L _ ih => exact .stack L ih
  | merge _ _ ih₁ ih₂ => exact .merge ih₁ ih₂

/-- Whatever a network without `Limit` may emit, and however often it is to be pending before each answer: some network of this shape
does so. -/
theorem Shape.paced {N : Shape E I F} (hN : N.Unlimited) : ∀ {xs : List I} {r : Except E F}, N.Allows xs r →
    ∀ (l : List (Nat × I)) (n : Nat), l.map Prod.snd = xs →
    ∃ (σ : Type) (P : Async.Producer σ I F E) (s : σ), N.Built P s ∧ Async.Paced P (.new P s) l n r := by
  induction N with
  | leaf xs r =>
    rintro _ r ⟨rfl, rfl⟩ l n rfl
    have h := Async.pacedProducer_paced r n l
    exact ⟨_, _, _, .leaf h.plays (Script.is_ofList _ _), h⟩
  | stack L N ih =>
    rintro _ _ ⟨xs, r, h, rfl, rfl⟩ l n hl
    obtain ⟨l', h1, h2⟩ := Async.Paced.stack L hN.1 (r := r) (n := n) l hl
    obtain ⟨σ, P, s, h3, h4⟩ := ih hN.2 h l' n h1
    exact ⟨_, _, _, .stack L h3, h2 P s h4⟩
  | merge N₁ N₂ ih₁ ih₂ =>
    rintro zs r ⟨xs₁, r₁, xs₂, r₂, h₁, h₂, h⟩ l n hl
    obtain ⟨l₁, n₁, l₂, n₂, h1, h2, h3⟩ := Async.Merge.paced h l hl n
    obtain ⟨_, P₁, s₁, h4, h5⟩ := ih₁ hN.1 h₁ l₁ n₁ h1
    obtain ⟨_, P₂, s₂, h6, h7⟩ := ih₂ hN.2 h₂ l₂ n₂ h2
    exact ⟨_, _, _, .merge h4 h6, h3 _ _ _ _ h5 h7⟩

theorem Shape.Unlimited.canEmit {N : Shape E I F} (hN : N.Unlimited) {xs : List I} {r : Except E F} (h : N.Allows xs r) :
    N.CanEmit xs r := by
  obtain ⟨σ, P, s, h1, h2⟩ := Shape.paced hN h (xs.map fun x => (0, x)) 0 (by simp [List.map_map, Function.comp_def])
  refine ⟨σ, P, s, _, h1, h2.plays, ?_⟩
  have h3 : (xs.map fun x => (0, x)).map Prod.snd = xs := by simp [List.map_map, Function.comp_def]
  rw [h3]
  exact Script.is_ofList _ _

/-- **C93, one direction for all networks.** -/
theorem network_allowed {N : Shape E I F} {xs : List I} {r : Except E F} (h : N.CanEmit xs r) : N.Allows xs r := by
  obtain ⟨σ, P, s, c, h1, h2, h3⟩ := h
  obtain ⟨c', xs', r', h4, h5, h6⟩ := Async.network_plays h1.network
  obtain ⟨rfl, rfl⟩ := h2.is_unique h4 h3 h5
  exact h6

/-- **C93.** A network with no `Limit` below a merge can emit exactly the sequences that composing the transformations and interleaving
at the merges allows: no others, and each of them for some ways in which the leaves are pending. -/
theorem network_exact {N : Shape E I F} (hN : N.LimitedOnTop) (xs : List I) (r : Except E F) : N.CanEmit xs r ↔ N.Allows xs r := by
  constructor
  · exact network_allowed
  · intro h
    induction N with
    | leaf xs' r' => exact Shape.Unlimited.canEmit (N := .leaf xs' r') (by trivial) h
    | stack L N ih =>
      obtain ⟨xs, r, h, rfl, rfl⟩ := h
      obtain ⟨σ, P, s, c, h1, h2, h3⟩ := ih hN xs r h
      refine ⟨_, _, _, _, .stack L h1, ?_, source_stack_is h3 L⟩
      rw [Async.source_stack_seq]
      exact source_stack_plays h2 L
    | merge N₁ N₂ => exact Shape.Unlimited.canEmit (N := .merge N₁ N₂) hN h

/-- Two merges on top of each other can let the leaves take turns in any way; here the items of the leaves `[1, 2]` and `[3]`,
doubled, and `[5]`. -/
example : (Shape.merge (.stack ((SourceLayers.nil (I := Nat) (F := Unit)).mapItem (fun (_ : Unit) x => ((), 2 * x)) ())
      (.merge (.leaf [1, 2] (.ok ())) (.leaf [3] (.ok ())))) (.leaf [5] (.error "e"))).CanEmit [2, 6, 5] (.error "e") := by
  refine (network_exact (by exact ⟨⟨trivial, trivial, trivial⟩, trivial⟩) _ _).mpr ?_
  refine ⟨[2, 6, 4], .ok (), [5], .error "e", ⟨[1, 3, 2], .ok (), ⟨_, _, _, _, ⟨rfl, rfl⟩, ⟨rfl, rfl⟩, ?_⟩, rfl, rfl⟩, ⟨rfl, rfl⟩, ?_⟩
  · exact .final rfl rfl (.inl rfl) (.left (.right (.left .nil)))
  · exact .second (ys := [2, 6]) rfl ⟨[4], rfl⟩ (.left (.left (.right .nil)))

/-- … but not in one that swaps the items of a leaf. -/
example : ¬ (Shape.merge (.leaf [1, 2] (.ok ())) (.leaf (E := String) [3] (.ok ()))).CanEmit [2, 1, 3] (.ok ()) := by
  rw [network_exact (by exact ⟨trivial, trivial⟩)]
  rintro ⟨_, _, _, _, ⟨rfl, rfl⟩, ⟨rfl, rfl⟩, h⟩
  cases h with
  | final _ _ _ h => cases h

/-- While only the second future is left, the merge does what that does. -/
theorem Async.Merge.only_second {σ₁ σ₂ : Type} {P₁ : Async.Producer σ₁ I F E} {P₂ : Async.Producer σ₂ I F E} {f₂ : Async.InProgress P₂}
    {n : Nat} {a : σ₂ × Except E (I ⊕ F)} (h : Fut.Ends Async.InProgress.poll f₂ n a) :
    Fut.Ends (loop Async.Merge.pollBody) (⟨none, some f₂⟩ : Async.Merge P₁ P₂) n (⟨none, some (.new P₂ a.1)⟩, a.2) := by
  induction h with
  | ready h => exact .ready (by rw [loop_unfold]; simp [pollBody, h])
  | pending h _ ih => exact .pending (by rw [loop_unfold]; simp [pollBody, h]) ih

/-- A merge never emits the `None` of a `Limit` on its first side whose limit is 0 if the second side emits no item. -/
theorem limit_zero_first :
    ¬ (Shape.merge (.stack (.limit .nil 0) (.leaf (E := Empty) (I := Nat) [] (.ok ())))
      (.stack (.mapFinal .nil some) (.leaf [] (.ok ())))).CanEmit [] (.ok none) := by
  rintro ⟨σ, P, s, c, h1, h2, h3⟩
  cases h1 with
  | @merge _ _ _ _ _ P₂ _ s₂ _ _ ha hb =>
    cases ha with
    | @stack _ _ _ _ _ P₁ s₁ _ _ _ =>
      obtain ⟨c', _, _, h4, h5, xs, r, ⟨rfl, rfl⟩, rfl, rfl⟩ := Async.network_plays hb.network
      obtain ⟨t, h6, -⟩ := h4.step
      have h7 : c' 0 = .ok (.inr (some ())) := h5.2
      rw [h7] at h6
      obtain ⟨n, h8⟩ := Fut.run_ok_ends (f := P₂.produce s₂) h6
      have h9 := Async.Merge.only_second (P₁ := (SourceLayers.limit .nil 0).applyAsync P₁) (Async.InProgress.ends.mpr h8)
      have h10 : loop Async.Merge.pollBody (.new ((SourceLayers.limit .nil 0).applyAsync P₁) P₂
          ((SourceLayers.limit .nil 0).wrap s₁) s₂) =
          loop Async.Merge.pollBody (⟨none, some (.new P₂ s₂)⟩ : Async.Merge ((SourceLayers.limit .nil 0).applyAsync P₁) P₂) := by
        rw [loop_unfold]
        rfl
      have h11 : Fut.Ends (loop Async.Merge.pollBody) (.new ((SourceLayers.limit .nil 0).applyAsync P₁) P₂
          ((SourceLayers.limit .nil 0).wrap s₁) s₂) n
          (⟨none, some (.new P₂ t)⟩, .ok (.inr (some ()))) := by
        cases h9 with
        | ready h => exact .ready (h10.trans h)
        | pending h h' => exact .pending (h10.trans h) h'
      have h12 := (Fut.runFrom_ok_iff (poll := loop Async.Merge.pollBody)).mpr ⟨n, h11⟩
      obtain ⟨_, h13, -⟩ := h2.step
      have h14 : c 0 = .ok (.inr none) := h3.2
      rw [h14] at h13
      cases h13.symm.trans h12

/-- **C93, `Limit` below a merge.** There the description is not exact: a `Limit` at its limit answers at once, so a merge never emits
the `None` of a `Limit` on its first side whose limit is 0, although that is one of its final values. -/
theorem network_limit_not_exact : ∃ N : Shape Empty Nat (Option Unit), N.Allows [] (.ok none) ∧ ¬ N.CanEmit [] (.ok none) :=
  ⟨.merge (.stack (.limit .nil 0) (.leaf [] (.ok ()))) (.stack (.mapFinal .nil some) (.leaf [] (.ok ()))),
    ⟨[], .ok none, [], .ok (some ()), ⟨[], .ok (), ⟨rfl, rfl⟩, rfl, rfl⟩, ⟨[], .ok (), ⟨rfl, rfl⟩, rfl, rfl⟩,
      .final rfl rfl (.inl rfl) .nil⟩, limit_zero_first⟩

end Verif
