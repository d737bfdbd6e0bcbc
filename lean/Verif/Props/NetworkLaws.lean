import Verif.Props.NetworkExact
import Verif.Lemmas.Merged

/-!
# C94: laws of networks
-/

namespace Verif

open Outcome

variable {E I F J G : Type}

/-! ## Stacks -/

/-- **C94, stacks.** Whatever is below it, a stack can emit exactly the results of what can be emitted below. -/
theorem stack_canEmit (L : SourceLayers I F J G) (N : Shape E I F) (ys : List J) (r' : Except E G) :
    (Shape.stack L N).CanEmit ys r' ↔ ∃ xs r, N.CanEmit xs r ∧ ys = L.items xs ∧ r' = L.last xs r := by
  constructor
  · rintro ⟨σ, P, s, c, h1, h2, h3⟩
    cases h1 with
    | @stack _ _ _ _ _ P s _ _ h1 =>
      obtain ⟨c', xs, r, h4, h5, -⟩ := Async.network_plays h1.network
      refine ⟨xs, r, ⟨_, P, s, c', h1, h4, h5⟩, ?_⟩
      rw [Async.source_stack_seq] at h2
      exact h2.is_unique (source_stack_plays h4 L) h3 (source_stack_is h5 L)
  · rintro ⟨xs, r, ⟨σ, P, s, c, h1, h2, h3⟩, rfl, rfl⟩
    refine ⟨_, _, _, _, .stack L h1, ?_, source_stack_is h3 L⟩
    rw [Async.source_stack_seq]
    exact source_stack_plays h2 L


/-- Two items of a merge of `[1, 2]` and `[3]`. -/
example : (Shape.stack (.limit .nil 2) (.merge (.leaf (E := String) [1, 2] (.ok ())) (.leaf [3] (.ok ())))).CanEmit [3, 1] (.ok none) := by
  refine (stack_canEmit _ _ _ _).mpr ⟨[3, 1, 2], .ok (), (network_exact (N := .merge _ _) (by exact ⟨trivial, trivial⟩) _ _).mpr ?_, rfl, rfl⟩
  exact ⟨_, _, _, _, ⟨rfl, rfl⟩, ⟨rfl, rfl⟩, .final rfl rfl (.inl rfl) (.right (.left (.left .nil)))⟩

/-- **C94, stacks respect equivalence.** -/
theorem Shape.Equiv.stack {N N' : Shape E I F} (h : N.Equiv N') (L : SourceLayers I F J G) : (Shape.stack L N).Equiv (.stack L N') := by
  intro ys r'
  simp only [stack_canEmit, h _ _]

/-- **C94.** Two `MapItem`s are one with the composed function, which keeps the states of both. -/
theorem map_item_map_item {φ ψ K : Type} (f : φ → I → φ × J) (a : φ) (g : ψ → J → ψ × K) (b : ψ) (N : Shape E I F) :
    (Shape.stack (.mapItem .nil g b) (.stack (.mapItem .nil f a) N)).Equiv
      (.stack (.mapItem .nil (fun p x => (((f p.1 x).1, (g p.2 (f p.1 x).2).1), (g p.2 (f p.1 x).2).2)) (a, b)) N) := by
  have key : ∀ (xs : List I) a b, results g b (results f a xs) =
      results (fun p x => (((f p.1 x).1, (g p.2 (f p.1 x).2).1), (g p.2 (f p.1 x).2).2)) (a, b) xs := by
    intro xs
    induction xs with
    | nil => intro a b; rfl
    | cons x xs ih => intro a b; simp [results, ih]
  intro ys r'
  simp only [stack_canEmit, SourceLayers.items, SourceLayers.last]
  constructor
  · rintro ⟨_, _, ⟨xs, r, h, rfl, rfl⟩, rfl, rfl⟩
    exact ⟨_, _, h, key _ _ _, rfl⟩
  · rintro ⟨xs, r, h, rfl, rfl⟩
    exact ⟨_, _, ⟨_, _, h, rfl, rfl⟩, (key _ _ _).symm, rfl⟩


/-- Doubled, and then summed up. -/
example : (Shape.stack (.mapItem .nil (fun a x => (a + x, a + x)) 0) (.stack (.mapItem .nil (fun (_ : Unit) x => ((), 2 * x)) ())
      (.leaf (E := String) [1, 2, 3] (.ok ())))).CanEmit [2, 6, 12] (.ok ()) :=
  (map_item_map_item _ _ _ _ _ _ _).mpr ((stack_canEmit _ _ _ _).mpr
    ⟨_, _, (network_exact (N := .leaf _ _) (by trivial) _ _).mpr ⟨rfl, rfl⟩, rfl, rfl⟩)

/-- **C94.** Two `MapFinal`s are one with the composed function. -/
theorem map_final_map_final {H : Type} (f : F → G) (g : G → H) (N : Shape E I F) :
    (Shape.stack (.mapFinal .nil g) (.stack (.mapFinal .nil f) N)).Equiv (.stack (.mapFinal .nil (g ∘ f)) N) := by
  intro ys r'
  simp only [stack_canEmit, SourceLayers.items, SourceLayers.last]
  constructor
  · rintro ⟨_, _, ⟨_, r, h, rfl, rfl⟩, rfl, rfl⟩
    exact ⟨_, r, h, rfl, by cases r <;> rfl⟩
  · rintro ⟨_, r, h, rfl, rfl⟩
    exact ⟨_, _, ⟨_, r, h, rfl, rfl⟩, rfl, by cases r <;> rfl⟩

/-- **C94.** Two `Limit`s are one with the smaller limit. -/
theorem limit_limit (n m : Nat) (N : Shape E I F) :
    (Shape.stack (.mapFinal .nil Option.join) (.stack (.limit .nil m) (.stack (.limit .nil n) N))).Equiv
      (.stack (.limit .nil (min n m)) N) := by
  have key : ∀ (xs : List I) (r : Except E F),
      (if (xs.take n).length < m then (if xs.length < n then r.map some else .ok none).map some else Except.ok none).map Option.join =
        if xs.length < min n m then r.map some else .ok none := by
    intro xs r
    rw [List.length_take]
    by_cases h1 : xs.length < n
    · by_cases h2 : xs.length < m
      · rw [if_pos (by omega), if_pos h1, if_pos (by omega)]; cases r <;> rfl
      · rw [if_neg (by omega), if_neg (by omega)]; rfl
    · rw [if_neg h1, if_neg (c := xs.length < min n m) (by omega)]
      split <;> rfl
  intro ys r'
  simp only [stack_canEmit, SourceLayers.items, SourceLayers.last]
  constructor
  · rintro ⟨_, _, ⟨_, _, ⟨xs, r, h, rfl, rfl⟩, rfl, rfl⟩, rfl, rfl⟩
    exact ⟨xs, r, h, by rw [List.take_take, Nat.min_comm], key _ _⟩
  · rintro ⟨xs, r, h, rfl, rfl⟩
    exact ⟨_, _, ⟨_, _, ⟨xs, r, h, rfl, rfl⟩, rfl, rfl⟩, by rw [List.take_take, Nat.min_comm], (key _ _).symm⟩


example : (Shape.stack (.mapFinal .nil Option.join) (.stack (.limit .nil 3) (.stack (.limit .nil 2)
      (.leaf (E := String) [1, 2, 3, 4] (.ok ()))))).CanEmit [1, 2] (.ok none) :=
  (limit_limit _ _ _ _ _).mpr ((stack_canEmit _ _ _ _).mpr
    ⟨_, _, (network_exact (N := .leaf _ _) (by trivial) _ _).mpr ⟨rfl, rfl⟩, rfl, rfl⟩)

/-- **C94.** `Limit` and `MapItem` commute. -/
theorem limit_map_item {φ : Type} (f : φ → I → φ × J) (a : φ) (n : Nat) (N : Shape E I F) :
    (Shape.stack (.limit .nil n) (.stack (.mapItem .nil f a) N)).Equiv (.stack (.mapItem .nil f a) (.stack (.limit .nil n) N)) := by
  have key : ∀ (xs : List I) a n, (results f a xs).take n = results f a (xs.take n) := by
    intro xs
    induction xs with
    | nil => intro a n; simp [results]
    | cons x xs ih => intro a n; cases n <;> simp [results, ih]
  have hlen : ∀ (xs : List I) a, (results f a xs).length = xs.length := by
    intro xs
    induction xs with
    | nil => intro a; rfl
    | cons x xs ih => intro a; simp [results, ih]
  have hlast : ∀ (xs : List I) a (r : Except E F), (if (results f a xs).length < n then r.map some else Except.ok none) =
      if xs.length < n then r.map some else .ok none := fun xs a r => by rw [hlen]
  intro ys r'
  simp only [stack_canEmit, SourceLayers.items, SourceLayers.last]
  constructor
  · rintro ⟨_, _, ⟨xs, r, h, rfl, rfl⟩, rfl, rfl⟩
    exact ⟨_, _, ⟨_, _, h, rfl, rfl⟩, key _ _ _, hlast _ _ _⟩
  · rintro ⟨_, _, ⟨xs, r, h, rfl, rfl⟩, rfl, rfl⟩
    exact ⟨_, _, ⟨_, _, h, rfl, rfl⟩, (key _ _ _).symm, (hlast _ _ _).symm⟩

/-! ## Merges -/

/-- **C94, merges respect equivalence**, without `Limit`s. -/
theorem Shape.Equiv.merge {N₁ N₁' N₂ N₂' : Shape E I F} (h₁ : N₁.Equiv N₁') (h₂ : N₂.Equiv N₂') (hN₁ : N₁.Unlimited) (hN₁' : N₁'.Unlimited)
    (hN₂ : N₂.Unlimited) (hN₂' : N₂'.Unlimited) : (Shape.merge N₁ N₂).Equiv (.merge N₁' N₂') := by
  intro zs r
  rw [network_exact (N := .merge N₁ N₂) ⟨hN₁, hN₂⟩, network_exact (N := .merge N₁' N₂') ⟨hN₁', hN₂'⟩]
  simp only [Shape.Allows, ← network_exact hN₁.limitedOnTop, ← network_exact hN₁'.limitedOnTop, ← network_exact hN₂.limitedOnTop,
    ← network_exact hN₂'.limitedOnTop, h₁ _ _, h₂ _ _]


example : (Shape.merge (.merge (.leaf (E := String) [1] (.ok ())) (.leaf [2] (.ok ()))) (.leaf [3] (.ok ()))).Equiv
    (.merge (.merge (.leaf [2] (.ok ())) (.leaf [1] (.ok ()))) (.leaf [3] (.ok ()))) := by
  have h : (Shape.merge (.leaf (E := String) [1] (.ok ())) (.leaf [2] (.ok ()))).Equiv (.merge (.leaf [2] (.ok ())) (.leaf [1] (.ok ()))) := by
    intro zs r
    rw [network_exact (N := .merge _ _) (by exact ⟨trivial, trivial⟩), network_exact (N := .merge _ _) (by exact ⟨trivial, trivial⟩)]
    exact ⟨fun ⟨_, _, _, _, h1, h2, h⟩ => ⟨_, _, _, _, h2, h1, h.symm⟩, fun ⟨_, _, _, _, h1, h2, h⟩ => ⟨_, _, _, _, h2, h1, h.symm⟩⟩
  exact h.merge (fun _ _ => Iff.rfl) ⟨trivial, trivial⟩ ⟨trivial, trivial⟩ trivial trivial

/-- **C94.** What a merge can emit does not depend on the order of the producers. (What it does emit depends on it, C48.) -/
theorem merge_comm {N₁ N₂ : Shape E I F} (h₁ : N₁.Unlimited) (h₂ : N₂.Unlimited) : (Shape.merge N₁ N₂).Equiv (.merge N₂ N₁) := by
  intro zs r
  rw [network_exact (N := .merge N₁ N₂) ⟨h₁, h₂⟩, network_exact (N := .merge N₂ N₁) ⟨h₂, h₁⟩]
  constructor
  · rintro ⟨xs₁, r₁, xs₂, r₂, h₁, h₂, h⟩; exact ⟨xs₂, r₂, xs₁, r₁, h₂, h₁, h.symm⟩
  · rintro ⟨xs₁, r₁, xs₂, r₂, h₁, h₂, h⟩; exact ⟨xs₂, r₂, xs₁, r₁, h₂, h₁, h.symm⟩


example : (Shape.merge (.leaf (E := String) [1, 2] (.ok ())) (.leaf [3] (.error "e"))).Equiv (.merge (.leaf [3] (.error "e"))
    (.leaf [1, 2] (.ok ()))) := merge_comm (by trivial) (by trivial)

/-- **C94.** How several producers are merged in pairs does not matter. -/
theorem merge_assoc {N₁ N₂ N₃ : Shape E I F} (h₁ : N₁.Unlimited) (h₂ : N₂.Unlimited) (h₃ : N₃.Unlimited) :
    (Shape.merge (.merge N₁ N₂) N₃).Equiv (.merge N₁ (.merge N₂ N₃)) := by
  intro zs r
  rw [network_exact (N := .merge (.merge N₁ N₂) N₃) ⟨⟨h₁, h₂⟩, h₃⟩, network_exact (N := .merge N₁ (.merge N₂ N₃)) ⟨h₁, h₂, h₃⟩]
  constructor
  · rintro ⟨_, _, xs₃, r₃, ⟨xs₁, r₁, xs₂, r₂, h₁, h₂, h⟩, h₃, h'⟩
    obtain ⟨us, r₂₃, h4, h5⟩ := h.assoc h'
    exact ⟨xs₁, r₁, us, r₂₃, h₁, ⟨xs₂, r₂, xs₃, r₃, h₂, h₃, h4⟩, h5⟩
  · rintro ⟨xs₁, r₁, _, _, h₁, ⟨xs₂, r₂, xs₃, r₃, h₂, h₃, h⟩, h'⟩
    obtain ⟨us, r₁₂, h4, h5⟩ := h.symm.assoc h'.symm
    exact ⟨us, r₁₂, xs₃, r₃, ⟨xs₁, r₁, xs₂, r₂, h₁, h₂, h4.symm⟩, h₃, h5.symm⟩


/-- Three producers, one of which fails when only one item of the first has been emitted. -/
example : (Shape.merge (.leaf [1, 2] (.ok ())) (.merge (.leaf [3] (.error "e")) (.leaf [5] (.ok ())))).CanEmit [5, 1, 3] (.error "e") := by
  refine (merge_assoc (by trivial) (by trivial) (by trivial) _ _).mp ((network_exact (N := .merge _ _)
    (by exact ⟨⟨trivial, trivial⟩, trivial⟩) _ _).mpr ⟨[1, 3], .error "e", [5], .ok (), ⟨_, _, _, _, ⟨rfl, rfl⟩, ⟨rfl, rfl⟩, ?_⟩, ⟨rfl, rfl⟩, ?_⟩)
  · exact .second (ys := [1]) rfl ⟨[2], rfl⟩ (.left (.right .nil))
  · exact .first rfl List.prefix_rfl (.right (.left (.left .nil)))

/-- **C94.** A `MapItem` whose function keeps no state may be moved below a merge … -/
theorem map_item_merge (g : I → J) {N₁ N₂ : Shape E I F} (h₁ : N₁.Unlimited) (h₂ : N₂.Unlimited) :
    (Shape.stack (.mapItem .nil (fun (_ : Unit) x => ((), g x)) ()) (.merge N₁ N₂)).Equiv
      (.merge (.stack (.mapItem .nil (fun (_ : Unit) x => ((), g x)) ()) N₁) (.stack (.mapItem .nil (fun (_ : Unit) x => ((), g x)) ()) N₂)) := by
  have key : ∀ xs : List I, results (fun (_ : Unit) x => ((), g x)) () xs = xs.map g := by
    intro xs
    induction xs with
    | nil => rfl
    | cons x xs ih => simp [results, ih]
  intro zs r
  rw [network_exact (N := .stack _ _) (by exact ⟨h₁, h₂⟩), network_exact (N := .merge _ _) (by exact ⟨⟨trivial, h₁⟩, trivial, h₂⟩)]
  simp only [Shape.Allows, SourceLayers.items, SourceLayers.last, key]
  constructor
  · rintro ⟨_, _, ⟨xs₁, r₁, xs₂, r₂, h₁, h₂, h⟩, rfl, rfl⟩
    exact ⟨_, _, _, _, ⟨_, _, h₁, rfl, rfl⟩, ⟨_, _, h₂, rfl, rfl⟩, h.map g⟩
  · rintro ⟨_, _, _, _, ⟨xs₁, r₁, h₁, rfl, rfl⟩, ⟨xs₂, r₂, h₂, rfl, rfl⟩, h⟩
    obtain ⟨ws, h3, rfl⟩ := h.of_map g
    exact ⟨ws, _, ⟨_, _, _, _, h₁, h₂, h3⟩, rfl, rfl⟩


example : (Shape.merge (.stack (.mapItem .nil (fun (_ : Unit) x => ((), 2 * x)) ()) (.leaf (E := String) [1, 2] (.ok ())))
    (.stack (.mapItem .nil (fun (_ : Unit) x => ((), 2 * x)) ()) (.leaf [3] (.ok ())))).CanEmit [2, 6, 4] (.ok ()) := by
  refine (map_item_merge (2 * ·) (by trivial) (by trivial) _ _).mp ((network_exact (N := .stack _ _) (by exact ⟨trivial, trivial⟩) _ _).mpr
    ⟨[1, 3, 2], .ok (), ⟨_, _, _, _, ⟨rfl, rfl⟩, ⟨rfl, rfl⟩, ?_⟩, rfl, rfl⟩)
  exact .final rfl rfl (.inl rfl) (.left (.right (.left .nil)))

/-- **C94.** A `MapFinal` may be moved below a merge. -/
theorem map_final_merge (g : F → G) {N₁ N₂ : Shape E I F} (h₁ : N₁.Unlimited) (h₂ : N₂.Unlimited) :
    (Shape.stack (.mapFinal .nil g) (.merge N₁ N₂)).Equiv (.merge (.stack (.mapFinal .nil g) N₁) (.stack (.mapFinal .nil g) N₂)) := by
  intro zs r
  rw [network_exact (N := .stack _ _) (by exact ⟨h₁, h₂⟩), network_exact (N := .merge _ _) (by exact ⟨⟨trivial, h₁⟩, trivial, h₂⟩)]
  simp only [Shape.Allows, SourceLayers.items, SourceLayers.last]
  constructor
  · rintro ⟨_, _, ⟨xs₁, r₁, xs₂, r₂, h₁, h₂, h⟩, rfl, rfl⟩
    exact ⟨_, _, _, _, ⟨xs₁, r₁, h₁, rfl, rfl⟩, ⟨xs₂, r₂, h₂, rfl, rfl⟩, (Merged.map_final g).mpr ⟨_, h, rfl⟩⟩
  · rintro ⟨_, _, _, _, ⟨xs₁, r₁, h₁, rfl, rfl⟩, ⟨xs₂, r₂, h₂, rfl, rfl⟩, h⟩
    obtain ⟨r', h3, rfl⟩ := (Merged.map_final g).mp h
    exact ⟨_, r', ⟨_, _, _, _, h₁, h₂, h3⟩, rfl, rfl⟩


example : (Shape.stack (.mapFinal .nil (· + 1)) (.merge (.leaf (E := String) [1] (.ok 7)) (.leaf [3] (.ok 9)))).Equiv
    (.merge (.stack (.mapFinal .nil (· + 1)) (.leaf [1] (.ok 7))) (.stack (.mapFinal .nil (· + 1)) (.leaf [3] (.ok 9)))) :=
  map_final_merge _ (by trivial) (by trivial)

/-! ## Laws that fail -/

/-- **C94, limits below merges.** With a `Limit` the order of the producers matters even for what can be emitted. -/
theorem merge_comm_limit_fails : ∃ N₁ N₂ : Shape Empty Nat (Option Unit), ¬ (Shape.merge N₁ N₂).Equiv (.merge N₂ N₁) := by
  refine ⟨.stack (.limit .nil 0) (.leaf [] (.ok ())), .stack (.mapFinal .nil some) (.leaf [] (.ok ())),
    fun h => limit_zero_first ((h [] (.ok none)).mpr ?_)⟩
  have hleaf : (Shape.leaf [] (.ok ()) : Shape Empty Nat Unit).Built (Async.pacedProducer (.ok ())) ([], 0) :=
    .leaf (Async.pacedProducer_paced (.ok ()) 0 []).plays (Script.is_ofList _ _)
  have hb := Shape.Built.merge (.stack (.mapFinal .nil some) hleaf) (.stack (.limit .nil 0) hleaf)
  obtain ⟨c, xs, r, h1, h2, _, _, _, _, ⟨_, _, ⟨rfl, rfl⟩, rfl, rfl⟩, ⟨_, _, ⟨rfl, rfl⟩, rfl, rfl⟩, h3⟩ := Async.network_plays hb.network
  refine ⟨_, _, _, c, hb, h1, ?_⟩
  obtain ⟨t, h4, -⟩ := h1.step
  have h5 : ∃ t', (Async.Merge.producer ((SourceLayers.mapFinal .nil some).applyAsync (Async.pacedProducer (E := Empty) (I := Nat) (.ok ())))
      ((SourceLayers.limit .nil 0).applyAsync (Async.pacedProducer (.ok ())))).seq.produce
      (.new _ _ ((SourceLayers.mapFinal .nil some).wrap ([], 0)) ((SourceLayers.limit .nil 0).wrap ([], 0))) =
      ok (t', .ok (.inr none)) :=
    ⟨_, Fut.runFrom_ok_iff.mpr ⟨0, .ready (loop_eq_of_fuel (n := 3) (fun h => by cases h))⟩⟩
  obtain ⟨t', h5⟩ := h5
  have h6 := h5.symm.trans h4
  cases h3 with
  | first h => cases h
  | second h => cases h
  | final h7 h8 h9 h10 =>
    cases h10
    cases h7
    cases h8
    rcases h9 with rfl | rfl
    · have h11 : c 0 = .ok (.inr (some ())) := h2.2
      rw [h11] at h6; cases h6
    · exact h2

/-- **C94, functions with state.** A `MapItem` that numbers the items cannot be moved below a merge. -/
theorem map_item_merge_fails : ∃ (f : Nat → Nat → Nat × Nat) (N₁ N₂ : Shape Empty Nat Unit), N₁.Unlimited ∧ N₂.Unlimited ∧
    ¬ (Shape.stack (.mapItem .nil f 0) (.merge N₁ N₂)).Equiv
      (.merge (.stack (.mapItem .nil f 0) N₁) (.stack (.mapItem .nil f 0) N₂)) := by
  refine ⟨fun n x => (n + 1, n), .leaf [7] (.ok ()), .leaf [8] (.ok ()), trivial, trivial, fun h => ?_⟩
  have h1 := (h [0, 1] (.ok ())).mp ((network_exact (N := .stack _ _) (by exact ⟨trivial, trivial⟩) _ _).mpr
    ⟨[7, 8], .ok (), ⟨_, _, _, _, ⟨rfl, rfl⟩, ⟨rfl, rfl⟩, .final rfl rfl (.inl rfl) (.left (.right .nil))⟩, rfl, rfl⟩)
  obtain ⟨_, _, _, _, ⟨_, _, ⟨rfl, rfl⟩, rfl, rfl⟩, ⟨_, _, ⟨rfl, rfl⟩, rfl, rfl⟩, h2⟩ := network_allowed h1
  cases h2 with
  | final _ _ _ h => rcases h with _ | h | h <;> cases h

/-- **C94, limits.** Nor can a `Limit`: the merge emits more items. -/
theorem limit_merge_fails : ∃ (n : Nat) (N₁ N₂ : Shape Empty Nat Unit), N₁.Unlimited ∧ N₂.Unlimited ∧
    ¬ (Shape.stack (.limit .nil n) (.merge N₁ N₂)).Equiv (.merge (.stack (.limit .nil n) N₁) (.stack (.limit .nil n) N₂)) := by
  refine ⟨1, .leaf [7] (.ok ()), .leaf [8] (.ok ()), trivial, trivial, fun h => ?_⟩
  have h1 := (h [7] (.ok none)).mp ((network_exact (N := .stack _ _) (by exact ⟨trivial, trivial⟩) _ _).mpr
    ⟨[7, 8], .ok (), ⟨_, _, _, _, ⟨rfl, rfl⟩, ⟨rfl, rfl⟩, .final rfl rfl (.inl rfl) (.left (.right .nil))⟩, rfl, rfl⟩)
  obtain ⟨_, _, _, _, ⟨_, _, ⟨rfl, rfl⟩, rfl, rfl⟩, ⟨_, _, ⟨rfl, rfl⟩, rfl, rfl⟩, h2⟩ := network_allowed h1
  cases h2 with
  | final _ _ _ h => rcases h with _ | h | h <;> cases h

end Verif
