import Verif.NetworkSpec

/-!
# Lemmas about interleavings and what merges may emit
-/

namespace Verif

section

variable {I J F E : Type}

theorem Interleaving.symm {xs ys zs : List I} (h : Interleaving xs ys zs) : Interleaving ys xs zs := by
  induction h with
  | nil => exact .nil
  | left _ ih => exact .right ih
  | right _ ih => exact .left ih

theorem Interleaving.assoc {xs ys zs ws vs : List I} (h : Interleaving xs ys ws) (h' : Interleaving ws zs vs) :
    ∃ us, Interleaving ys zs us ∧ Interleaving xs us vs := by
  induction h' generalizing xs ys with
  | nil => cases h; exact ⟨_, .nil, .nil⟩
  | left _ ih =>
    cases h with
    | left h => obtain ⟨us, h1, h2⟩ := ih h; exact ⟨us, h1, .left h2⟩
    | right h => obtain ⟨us, h1, h2⟩ := ih h; exact ⟨_, .left h1, .right h2⟩
  | right _ ih => obtain ⟨us, h1, h2⟩ := ih h; exact ⟨_, .right h1, .right h2⟩

theorem Interleaving.prefix {xs ys zs ws : List I} (h : Interleaving xs ys zs) (hp : ws <+: zs) :
    ∃ xs' ys', xs' <+: xs ∧ ys' <+: ys ∧ Interleaving xs' ys' ws := by
  induction h generalizing ws with
  | nil => obtain rfl := List.prefix_nil.mp hp; exact ⟨[], [], List.prefix_rfl, List.prefix_rfl, .nil⟩
  | left _ ih =>
    rcases List.prefix_cons_iff.mp hp with rfl | ⟨ws, rfl, hp'⟩
    · exact ⟨[], [], List.nil_prefix, List.nil_prefix, .nil⟩
    · obtain ⟨xs', ys', h1, h2, h3⟩ := ih hp'
      exact ⟨_, _, List.cons_prefix_cons.mpr ⟨rfl, h1⟩, h2, .left h3⟩
  | right _ ih =>
    rcases List.prefix_cons_iff.mp hp with rfl | ⟨ws, rfl, hp'⟩
    · exact ⟨[], [], List.nil_prefix, List.nil_prefix, .nil⟩
    · obtain ⟨xs', ys', h1, h2, h3⟩ := ih hp'
      exact ⟨_, _, h1, List.cons_prefix_cons.mpr ⟨rfl, h2⟩, .right h3⟩

theorem Interleaving.append {xs ys zs xs' ys' zs' : List I} (h : Interleaving xs ys zs) (h' : Interleaving xs' ys' zs') :
    Interleaving (xs ++ xs') (ys ++ ys') (zs ++ zs') := by
  induction h with
  | nil => exact h'
  | left _ ih => exact .left ih
  | right _ ih => exact .right ih

theorem Interleaving.of_left : ∀ xs : List I, Interleaving xs [] xs
  | [] => .nil
  | _ :: xs => .left (of_left xs)

theorem Interleaving.map (g : I → J) {xs ys zs : List I} (h : Interleaving xs ys zs) :
    Interleaving (xs.map g) (ys.map g) (zs.map g) := by
  induction h with
  | nil => exact .nil
  | left _ ih => exact .left ih
  | right _ ih => exact .right ih

theorem Interleaving.of_map (g : I → J) {us vs ws : List J} (h : Interleaving us vs ws) :
    ∀ {xs ys : List I}, us = xs.map g → vs = ys.map g → ∃ zs, Interleaving xs ys zs ∧ ws = zs.map g := by
  induction h with
  | nil =>
    intro xs ys h1 h2
    obtain rfl := List.map_eq_nil_iff.mp h1.symm
    obtain rfl := List.map_eq_nil_iff.mp h2.symm
    exact ⟨[], .nil, rfl⟩
  | left _ ih =>
    intro xs ys h1 h2
    obtain ⟨x, xs, rfl, rfl, rfl⟩ := List.map_eq_cons_iff.mp h1.symm
    obtain ⟨zs, h3, rfl⟩ := ih rfl h2
    exact ⟨_, .left h3, rfl⟩
  | right _ ih =>
    intro xs ys h1 h2
    obtain ⟨y, ys, rfl, rfl, rfl⟩ := List.map_eq_cons_iff.mp h2.symm
    obtain ⟨zs, h3, rfl⟩ := ih h1 rfl
    exact ⟨_, .right h3, rfl⟩

theorem Merged.symm {xs₁ xs₂ zs : List I} {r₁ r₂ r : Except E F} (h : Merged xs₁ r₁ xs₂ r₂ zs r) : Merged xs₂ r₂ xs₁ r₁ zs r := by
  cases h with
  | final h1 h2 h3 h4 => exact .final h2 h1 h3.symm h4.symm
  | first h1 h2 h3 => exact .second h1 h2 h3.symm
  | second h1 h2 h3 => exact .first h1 h2 h3.symm

/-- Whatever has been emitted so far, the merge can go on. -/
theorem Merged.extend {p₁ p₂ xs₁ xs₂ ws : List I} (h₁ : p₁ <+: xs₁) (h₂ : p₂ <+: xs₂) (h : Interleaving p₁ p₂ ws) (r₁ r₂ : Except E F) :
    ∃ zs r, Merged xs₁ r₁ xs₂ r₂ zs r ∧ ws <+: zs := by
  obtain ⟨q₁, rfl⟩ := h₁
  cases r₁ with
  | error e =>
    refine ⟨ws ++ q₁, .error e, .first rfl h₂ ?_, List.prefix_append _ _⟩
    simpa using h.append (.of_left q₁)
  | ok f₁ =>
    obtain ⟨q₂, rfl⟩ := h₂
    cases r₂ with
    | error e =>
      refine ⟨ws ++ q₂, .error e, .second rfl (List.prefix_append _ _) ?_, List.prefix_append _ _⟩
      simpa using h.append (Interleaving.of_left q₂).symm
    | ok f₂ =>
      refine ⟨ws ++ (q₁ ++ q₂), .ok f₁, .final rfl rfl (.inl rfl) ?_, List.prefix_append _ _⟩
      refine h.append ?_
      simpa using (Interleaving.of_left q₁).append (Interleaving.of_left q₂).symm

theorem Merged.assoc {xs₁ xs₂ xs₃ ws zs : List I} {r₁ r₂ r₃ r₁₂ r : Except E F} (h : Merged xs₁ r₁ xs₂ r₂ ws r₁₂)
    (h' : Merged ws r₁₂ xs₃ r₃ zs r) : ∃ us r₂₃, Merged xs₂ r₂ xs₃ r₃ us r₂₃ ∧ Merged xs₁ r₁ us r₂₃ zs r := by
  cases h' with
  | @final _ f₁₂ f₃ f h1 h2 h3 h4 =>
    subst h1
    cases h with
    | @final _ f₁ f₂ _ h5 h6 h7 h8 =>
      obtain ⟨us, h9, h10⟩ := h8.assoc h4
      rcases h3 with rfl | rfl
      · refine ⟨us, .ok f₂, .final h6 h2 (.inl rfl) h9, .final h5 rfl h7 h10⟩
      · exact ⟨us, .ok f, .final h6 h2 (.inr rfl) h9, .final h5 rfl (.inr rfl) h10⟩
  | first h1 h2 h3 =>
    subst h1
    cases h with
    | first h5 h6 h7 =>
      obtain ⟨us, h8, h9⟩ := h7.assoc h3
      obtain ⟨us', r, h10, h11⟩ := Merged.extend h6 h2 h8 r₂ r₃
      exact ⟨us', r, h10, .first h5 h11 h9⟩
    | second h5 h6 h7 =>
      obtain ⟨us, h8, h9⟩ := h7.assoc h3
      exact ⟨us, _, .first h5 h2 h8, .second rfl h6 h9⟩
  | @second _ _ e h1 h2 h3 =>
    have key : ∀ {p₁ p₂ : List I}, p₁ <+: xs₁ → p₂ <+: xs₂ → Interleaving p₁ p₂ ws →
        ∃ us r₂₃, Merged xs₂ r₂ xs₃ r₃ us r₂₃ ∧ Merged xs₁ r₁ us r₂₃ zs (.error e) := by
      intro p₁ p₂ hp₁ hp₂ hi
      obtain ⟨p₁', p₂', h4, h5, h6⟩ := hi.prefix h2
      obtain ⟨us, h7, h8⟩ := h6.assoc h3
      exact ⟨us, _, .second h1 (h5.trans hp₂) h7, .second rfl (h4.trans hp₁) h8⟩
    cases h with
    | final h5 h6 h7 h8 => exact key List.prefix_rfl List.prefix_rfl h8
    | first h5 h6 h7 => exact key List.prefix_rfl h6 h7
    | second h5 h6 h7 => exact key h6 List.prefix_rfl h7

theorem Merged.map (g : I → J) {xs₁ xs₂ zs : List I} {r₁ r₂ r : Except E F} (h : Merged xs₁ r₁ xs₂ r₂ zs r) :
    Merged (xs₁.map g) r₁ (xs₂.map g) r₂ (zs.map g) r := by
  cases h with
  | final h1 h2 h3 h4 => exact .final h1 h2 h3 (h4.map g)
  | first h1 h2 h3 => exact .first h1 (h2.map g) (h3.map g)
  | second h1 h2 h3 => exact .second h1 (h2.map g) (h3.map g)

theorem Merged.of_map (g : I → J) {xs₁ xs₂ : List I} {zs : List J} {r₁ r₂ r : Except E F}
    (h : Merged (xs₁.map g) r₁ (xs₂.map g) r₂ zs r) : ∃ ws, Merged xs₁ r₁ xs₂ r₂ ws r ∧ zs = ws.map g := by
  have hp : ∀ {ys : List J} {xs : List I}, ys <+: xs.map g → ∃ xs', xs' <+: xs ∧ ys = xs'.map g := by
    intro ys xs h
    rw [List.prefix_iff_eq_take.mp h, ← List.map_take]
    exact ⟨_, List.take_prefix _ _, rfl⟩
  cases h with
  | final h1 h2 h3 h4 =>
    obtain ⟨ws, h5, rfl⟩ := h4.of_map g rfl rfl
    exact ⟨ws, .final h1 h2 h3 h5, rfl⟩
  | first h1 h2 h3 =>
    obtain ⟨ys, h4, rfl⟩ := hp h2
    obtain ⟨ws, h5, rfl⟩ := h3.of_map g rfl rfl
    exact ⟨ws, .first h1 h4 h5, rfl⟩
  | second h1 h2 h3 =>
    obtain ⟨ys, h4, rfl⟩ := hp h2
    obtain ⟨ws, h5, rfl⟩ := h3.of_map g rfl rfl
    exact ⟨ws, .second h1 h4 h5, rfl⟩

theorem Merged.map_final {G : Type} (g : F → G) {xs₁ xs₂ zs : List I} {r₁ r₂ : Except E F} {r : Except E G} :
    Merged xs₁ (r₁.map g) xs₂ (r₂.map g) zs r ↔ ∃ r', Merged xs₁ r₁ xs₂ r₂ zs r' ∧ r = r'.map g := by
  constructor
  · rintro (⟨h1, h2, h3, h4⟩ | ⟨h1, h2, h3⟩ | ⟨h1, h2, h3⟩)
    · rcases r₁ with e₁ | f₁ <;> cases h1
      rcases r₂ with e₂ | f₂ <;> cases h2
      rcases h3 with rfl | rfl
      · exact ⟨.ok f₁, .final rfl rfl (.inl rfl) h4, rfl⟩
      · exact ⟨.ok f₂, .final rfl rfl (.inr rfl) h4, rfl⟩
    · rcases r₁ with e₁ | f₁ <;> cases h1
      exact ⟨_, .first rfl h2 h3, rfl⟩
    · rcases r₂ with e₂ | f₂ <;> cases h1
      exact ⟨_, .second rfl h2 h3, rfl⟩
  · rintro ⟨_, (⟨rfl, rfl, h3, h4⟩ | ⟨rfl, h2, h3⟩ | ⟨rfl, h2, h3⟩), rfl⟩
    · exact .final rfl rfl (h3.imp (congrArg g) (congrArg g)) h4
    · exact .first rfl h2 h3
    · exact .second rfl h2 h3

end

end Verif
