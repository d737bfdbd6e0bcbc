import Verif.Lemmas.Network
import Verif.Lemmas.Traces

/-!
# C33, C34, exactly

Everything that a merge of finite producers is allowed to emit is emitted under some schedules.
-/

namespace Verif

open Outcome

section

variable {σ₁ σ₂ I F E : Type} {P₁ : Producer σ₁ I F E} {P₂ : Producer σ₂ I F E} {R₁ : σ₁ → Script I F E → Prop}
  {R₂ : σ₂ → Script I F E → Prop}

/-- The first producer is ready where the list says `true`; afterwards it is always ready. -/
def Merge.follow₁ (schedule : List Bool) (n : Nat) : Bool := schedule.getD n true

/-- The second producer is ready where the list says `false`; afterwards it is always ready. -/
def Merge.follow₂ (schedule : List Bool) (n : Nat) : Bool := !schedule.getD n false

theorem Merge.follow₁_fair (schedule : List Bool) : Fair (Merge.follow₁ schedule) := fun n =>
  ⟨n + schedule.length, by omega, by simp [Merge.follow₁]⟩

theorem Merge.follow₂_fair (schedule : List Bool) : Fair (Merge.follow₂ schedule) := fun n =>
  ⟨n + schedule.length, by omega, by simp [Merge.follow₂]⟩

/-- After `pre`, following `schedule` makes the merge emit `zs` and then `r`. -/
private def Follows (P₁ : Producer σ₁ I F E) (P₂ : Producer σ₂ I F E) (p₁ : σ₁) (p₂ : σ₂) (schedule : List Bool) (zs : List I)
    (r : Except E F) : Prop :=
  ∀ pre, ∃ s s', Emits (Merge.producer P₁ P₂ (Merge.follow₁ (pre ++ schedule)) (Merge.follow₂ (pre ++ schedule)))
      ⟨some p₁, some p₂, pre.length⟩ zs s ∧
    (Merge.producer P₁ P₂ (Merge.follow₁ (pre ++ schedule)) (Merge.follow₂ (pre ++ schedule))).produce s = ok (s', r.map .inr)

private theorem follows_items (h₁ : PlaysLaw P₁ R₁) (h₂ : PlaysLaw P₂ R₂) {l₁ l₂ zs : List I} {r : Except E F}
    (h : Interleaving l₁ l₂ zs) : ∀ {p₁ p₂} {c₁ c₂ : Script I F E}, R₁ p₁ c₁ → R₂ p₂ c₂ → c₁.StartsWith l₁ → c₂.StartsWith l₂ →
      (∀ p₁' p₂', R₁ p₁' (c₁.drop l₁.length) → R₂ p₂' (c₂.drop l₂.length) → ∃ schedule, Follows P₁ P₂ p₁' p₂' schedule [] r) →
      ∃ schedule, Follows P₁ P₂ p₁ p₂ schedule zs r := by
  induction h with
  | nil =>
    intro p₁ p₂ c₁ c₂ hp₁ hp₂ _ _ hend
    exact hend p₁ p₂ (by simpa using hp₁) (by simpa using hp₂)
  | @left x xs ys zs _ ih =>
    intro p₁ p₂ c₁ c₂ hp₁ hp₂ hs₁ hs₂ hend
    rw [Script.startsWith_cons] at hs₁
    obtain ⟨p₁', h3, h4⟩ := h₁.produce p₁ c₁ hp₁
    obtain ⟨schedule, hs⟩ := ih (h4 x hs₁.1) hp₂ hs₁.2 hs₂ fun q₁ q₂ hq₁ hq₂ => hend q₁ q₂ (by simpa [Nat.add_comm] using hq₁) hq₂
    refine ⟨true :: schedule, fun pre => ?_⟩
    obtain ⟨s, s', h5, h6⟩ := hs (pre ++ [true])
    rw [List.append_assoc, List.singleton_append] at h5 h6
    refine ⟨s, s', .cons ?_ h5, h6⟩
    show loop _ _ = _
    rw [loop_unfold]
    simp [Merge.produceBody, Merge.follow₁, h3, hs₁.1]
  | @right x xs ys zs _ ih =>
    intro p₁ p₂ c₁ c₂ hp₁ hp₂ hs₁ hs₂ hend
    rw [Script.startsWith_cons] at hs₂
    obtain ⟨p₂', h3, h4⟩ := h₂.produce p₂ c₂ hp₂
    obtain ⟨schedule, hs⟩ := ih hp₁ (h4 x hs₂.1) hs₁ hs₂.2 fun q₁ q₂ hq₁ hq₂ => hend q₁ q₂ hq₁ (by simpa [Nat.add_comm] using hq₂)
    refine ⟨false :: schedule, fun pre => ?_⟩
    obtain ⟨s, s', h5, h6⟩ := hs (pre ++ [false])
    rw [List.append_assoc, List.singleton_append] at h5 h6
    refine ⟨s, s', .cons ?_ h5, h6⟩
    show loop _ _ = _
    rw [loop_unfold]
    simp [Merge.produceBody, Merge.follow₁, Merge.follow₂, h3, hs₂.1]

/-- What a producer emits is unique. -/
theorem Plays.is_unique {σ : Type} {P : Producer σ I F E} {s : σ} {c c' : Script I F E} (h : Plays P s c) (h' : Plays P s c')
    {xs ys : List I} {r r' : Except E F} (hc : c.Is xs r) (hc' : c'.Is ys r') : xs = ys ∧ r = r' := by
  obtain ⟨s', h1, h2⟩ := h.emits hc.1
  obtain ⟨h3, h4⟩ := h1.startsWith h'
  obtain ⟨t, h5, -⟩ := h2.step
  obtain ⟨t', h6, -⟩ := h4.step
  rw [h5] at h6
  injection h6 with h6
  injection h6 with _ h6
  exact hc'.exhausted ⟨h3, (show c xs.length = c' xs.length from h6) ▸ hc.2⟩

/-- **C33, C34, exactly.** A merge of two finite producers emits the items `zs` and then `r` under some (fair) schedules if and only if
`zs` and `r` are among what is allowed. -/
theorem merge_exact {s₁ : σ₁} {s₂ : σ₂} {c₁ c₂ : Script I F E} (h₁ : Plays P₁ s₁ c₁) (h₂ : Plays P₂ s₂ c₂) {xs₁ xs₂ : List I}
    {r₁ r₂ : Except E F} (hc₁ : c₁.Is xs₁ r₁) (hc₂ : c₂.Is xs₂ r₂) (zs : List I) (r : Except E F) :
    (∃ ready₁ ready₂ c, Fair ready₁ ∧ Fair ready₂ ∧ Plays (Merge.producer P₁ P₂ ready₁ ready₂) (.new s₁ s₂) c ∧ c.Is zs r) ↔
      Merged xs₁ r₁ xs₂ r₂ zs r := by
  constructor
  · rintro ⟨ready₁, ready₂, c, hr₁, hr₂, h3, h4⟩
    obtain ⟨c', h5, h6⟩ := merge_plays h₁ h₂ hr₁ hr₂
    obtain ⟨zs', r', h7, h8⟩ := Merged.of_trace hc₁ hc₂ h6
    obtain ⟨rfl, rfl⟩ := h3.is_unique h5 h4 h7
    exact h8
  · intro hm
    obtain ⟨R₁, hR₁, hs₁⟩ := h₁
    obtain ⟨R₂, hR₂, hs₂⟩ := h₂
    have key : ∃ schedule, Follows P₁ P₂ s₁ s₂ schedule zs r := by
      cases hm with
      | @final _ f₁ f₂ f e₁ e₂ hf hi =>
        subst e₁ e₂
        refine follows_items hR₁ hR₂ hi hs₁ hs₂ hc₁.1 hc₂.1 fun p₁ p₂ hp₁ hp₂ => ?_
        obtain ⟨p₁', h3, -⟩ := hR₁.produce p₁ _ hp₁
        obtain ⟨p₂', h4, -⟩ := hR₂.produce p₂ _ hp₂
        have h5 : (c₁.drop xs₁.length) 0 = .ok (.inr f₁) := hc₁.2
        have h6 : (c₂.drop xs₂.length) 0 = .ok (.inr f₂) := hc₂.2
        rw [h5] at h3
        rw [h6] at h4
        rcases hf with rfl | rfl
        · refine ⟨[false, true], fun pre => ⟨_, ⟨some p₁', none, pre.length + 1 + 1⟩, .nil _, ?_⟩⟩
          show loop _ _ = _
          rw [loop_unfold]
          simp [Merge.produceBody, Merge.follow₁, Merge.follow₂, h4]
          rw [loop_unfold]
          simp [Merge.produceBody, Merge.follow₁, Merge.follow₂, h3]
          rfl
        · refine ⟨[true, false], fun pre => ⟨_, ⟨none, some p₂', pre.length + 1 + 1⟩, .nil _, ?_⟩⟩
          show loop _ _ = _
          rw [loop_unfold]
          simp [Merge.produceBody, Merge.follow₁, Merge.follow₂, h3]
          rw [loop_unfold]
          simp [Merge.produceBody, Merge.follow₁, Merge.follow₂, h4]
          rfl
      | @first ys _ e e₁ hy hi =>
        subst e₁
        refine follows_items hR₁ hR₂ hi hs₁ hs₂ hc₁.1 (by obtain ⟨_, rfl⟩ := hy; exact hc₂.1.left) fun p₁ p₂ hp₁ hp₂ => ?_
        obtain ⟨p₁', h3, -⟩ := hR₁.produce p₁ _ hp₁
        have h5 : (c₁.drop xs₁.length) 0 = .error e := hc₁.2
        rw [h5] at h3
        refine ⟨[true], fun pre => ⟨_, ⟨some p₁', some p₂, pre.length + 1⟩, .nil _, ?_⟩⟩
        show loop _ _ = _
        rw [loop_unfold]
        simp [Merge.produceBody, Merge.follow₁, h3]
        rfl
      | @second ys _ e e₂ hy hi =>
        subst e₂
        refine follows_items hR₁ hR₂ hi hs₁ hs₂ (by obtain ⟨_, rfl⟩ := hy; exact hc₁.1.left) hc₂.1 fun p₁ p₂ hp₁ hp₂ => ?_
        obtain ⟨p₂', h4, -⟩ := hR₂.produce p₂ _ hp₂
        have h6 : (c₂.drop xs₂.length) 0 = .error e := hc₂.2
        rw [h6] at h4
        refine ⟨[false], fun pre => ⟨_, ⟨some p₁, some p₂', pre.length + 1⟩, .nil _, ?_⟩⟩
        show loop _ _ = _
        rw [loop_unfold]
        simp [Merge.produceBody, Merge.follow₁, Merge.follow₂, h4]
        rfl
    obtain ⟨schedule, hk⟩ := key
    obtain ⟨s, s', h5, h6⟩ := hk []
    rw [List.nil_append] at h5 h6
    obtain ⟨c, h7, -⟩ := merge_plays ⟨R₁, hR₁, hs₁⟩ ⟨R₂, hR₂, hs₂⟩ (Merge.follow₁_fair schedule) (Merge.follow₂_fair schedule)
    obtain ⟨h8, h9⟩ := h5.startsWith h7
    refine ⟨_, _, c, Merge.follow₁_fair schedule, Merge.follow₂_fair schedule, h7, h8, ?_⟩
    obtain ⟨R, hR, hs⟩ := h9
    obtain ⟨s'', h10, -⟩ := hR.produce _ _ hs
    rw [h6] at h10
    injection h10 with h10
    injection h10 with _ h10
    exact h10.symm

/-- The merges of two slices. -/
example : (∃ ready₁ ready₂ c, Fair ready₁ ∧ Fair ready₂ ∧ Plays (Merge.producer (FromSlice.producer Nat).toProducer
      (FromSlice.producer Nat).toProducer ready₁ ready₂) (.new (.new [1, 2]) (.new [3])) c ∧ c.Is [1, 3, 2] (.ok ())) ∧
    ¬ ∃ ready₁ ready₂ c, Fair ready₁ ∧ Fair ready₂ ∧ Plays (Merge.producer (FromSlice.producer Nat).toProducer
      (FromSlice.producer Nat).toProducer ready₁ ready₂) (.new (.new [1, 2]) (.new [3])) c ∧ c.Is [2, 1, 3] (.ok ()) := by
  have h := merge_exact (from_slice_plays [1, 2]).toPlays (from_slice_plays [3]).toPlays (Script.is_ofList _ _) (Script.is_ofList _ _)
  refine ⟨(h _ _).mpr (.final rfl rfl (.inl rfl) (.left (.right (.left .nil)))), fun h' => ?_⟩
  cases (h _ _).mp h' with
  | final _ _ _ h => cases h

/-- Two producers which fail: either error may come first, but not before the items of its producer. -/
example (zs : List Nat) : (∃ ready₁ ready₂ c, Fair ready₁ ∧ Fair ready₂ ∧ Plays (Merge.producer Case.P.toProducer Case.P.toProducer
      ready₁ ready₂) (.new (Case.pro (.error "first")) (Case.pro (.error "second"))) c ∧ c.Is zs (.error "second")) ↔
    ∃ ys, ys <+: [1, 2, 3] ∧ Interleaving ys [1, 2, 3] zs := by
  rw [merge_exact (Case.plays (.error "first")).toPlays (Case.plays (.error "second")).toPlays (Script.is_ofList _ _)
    (Script.is_ofList _ _)]
  constructor
  · intro h
    cases h with
    | first h => simp at h
    | second _ h1 h2 => exact ⟨_, h1, h2⟩
  · rintro ⟨ys, h1, h2⟩
    exact .second rfl h1 h2

end

end Verif
