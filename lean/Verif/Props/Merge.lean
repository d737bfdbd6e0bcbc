import Verif.Lemmas.Merge
import Verif.Lemmas.Slices
import Verif.Props.Slices

/-!
# C33, C34: `Merge`
-/

namespace Verif

open Outcome

section

variable {σ σ₁ σ₂ I F E : Type}

/-- The merge of two slices; their producers are ready by turns. -/
noncomputable abbrev Case.merge : Producer (Merge (FromSlice Nat) (FromSlice Nat)) Nat Unit Empty :=
  Merge.producer (FromSlice.producer Nat).toProducer (FromSlice.producer Nat).toProducer (fun n => n % 2 == 0) (fun n => n % 2 == 1)

/-- The slices are 1, 2 and 3. The first three answers are 1, 3, 2. -/
theorem Case.merge_items : Answers Case.merge (.new (.new [1, 2]) (.new [3])) [.ok (.inl 1), .ok (.inl 3), .ok (.inl 2)]
    ⟨some ⟨[1, 2], 2⟩, some ⟨[3], 1⟩, 3⟩ := by
  have h1 : Case.merge.produce (.new (.new [1, 2]) (.new [3])) = ok (⟨some ⟨[1, 2], 1⟩, some ⟨[3], 0⟩, 1⟩, .ok (.inl 1)) :=
    loop_eq_of_fuel (n := 1) (fun h => by cases h)
  have h2 : Case.merge.produce ⟨some ⟨[1, 2], 1⟩, some ⟨[3], 0⟩, 1⟩ = ok (⟨some ⟨[1, 2], 1⟩, some ⟨[3], 1⟩, 2⟩, .ok (.inl 3)) :=
    loop_eq_of_fuel (n := 1) (fun h => by cases h)
  have h3 : Case.merge.produce ⟨some ⟨[1, 2], 1⟩, some ⟨[3], 1⟩, 2⟩ = ok (⟨some ⟨[1, 2], 2⟩, some ⟨[3], 1⟩, 3⟩, .ok (.inl 2)) :=
    loop_eq_of_fuel (n := 1) (fun h => by cases h)
  exact ((Answers.nil.call (by simp) h1).call (by simp) h2).call (by simp) h3

/-- Then the second producer ends, then the first one, whose final value is the answer. -/
theorem Case.merge_all : Answers Case.merge (.new (.new [1, 2]) (.new [3]))
    [.ok (.inl 1), .ok (.inl 3), .ok (.inl 2), .ok (.inr ())] ⟨some ⟨[1, 2], 2⟩, none, 5⟩ := by
  have h4 : Case.merge.produce ⟨some ⟨[1, 2], 2⟩, some ⟨[3], 1⟩, 3⟩ = ok (⟨some ⟨[1, 2], 2⟩, none, 5⟩, .ok (.inr ())) :=
    loop_eq_of_fuel (n := 2) (fun h => by cases h)
  exact Case.merge_items.call (by simp) h4

/-- **C33, C34.** Under every schedule, the answers of a merge result from an order in which entries of the two sequences have
been received. -/
theorem merge_trace {P₁ : Producer σ₁ I F E} {P₂ : Producer σ₂ I F E} {s₁ : σ₁} {s₂ : σ₂} {c₁ c₂ : Script I F E}
    (h₁ : Plays P₁ s₁ c₁) (h₂ : Plays P₂ s₂ c₂) (ready₁ ready₂ : Nat → Bool) {rs : List (Except E (I ⊕ F))}
    {s : Merge σ₁ σ₂} (h : Answers (Merge.producer P₁ P₂ ready₁ ready₂) (.new s₁ s₂) rs s) :
    ∃ events, MergeTrace c₁ c₂ events rs := by
  obtain ⟨R₁, hR₁, hs₁⟩ := h₁
  obtain ⟨R₂, hR₂, hs₂⟩ := h₂
  obtain ⟨ev, h1, _⟩ := Merge.answers_inv hR₁ hR₂ hs₁ hs₂ h
  exact ⟨ev, h1⟩

example : ∃ events, MergeTrace (E := Empty) (Script.ofList [1, 2] (.ok ())) (Script.ofList [3] (.ok ())) events
    [.ok (.inl 1), .ok (.inl 3), .ok (.inl 2), .ok (.inr ())] :=
  merge_trace (from_slice_plays [1, 2]).toPlays (from_slice_plays [3]).toPlays _ _ Case.merge_all

theorem Script.IsPrefix.items {c : Script I F E} {rs : List (Except E (I ⊕ F))} (h : c.IsPrefix rs) :
    c.StartsWith (itemsOf rs) := by
  obtain ⟨l, h1, h2⟩ := h
  have : itemsOf rs = l := by
    rcases h2 with rfl | ⟨hne, rfl⟩
    · exact itemsOf_items l
    · rw [itemsOf_append, itemsOf_items]
      rcases hc : c l.length with e | x | f
      · simp [itemsOf]
      · exact absurd hc (hne x)
      · simp [itemsOf]
  rw [this]; exact h1

theorem Script.IsPrefix.final {c : Script I F E} {pre post : List (Except E (I ⊕ F))} {r : Except E (I ⊕ F)}
    (h : c.IsPrefix (pre ++ r :: post)) (hr : ∀ x, r ≠ .ok (.inl x)) :
    post = [] ∧ c (itemsOf pre).length = r ∧ ∀ r' ∈ pre, ∃ x, r' = .ok (.inl x) := by
  obtain ⟨l, h1, h2⟩ := h
  have hitems : ∀ r' ∈ l.map (fun x => (.ok (.inl x) : Except E (I ⊕ F))), ∃ x, r' = .ok (.inl x) := by
    intro r' hr'
    obtain ⟨x, _, rfl⟩ := List.mem_map.mp hr'
    exact ⟨x, rfl⟩
  have hpost : post = [] := by
    rcases List.eq_nil_or_concat post with rfl | ⟨post', z, rfl⟩
    · rfl
    · have hmem : r ∈ l.map (fun x => (.ok (.inl x) : Except E (I ⊕ F))) := by
        rcases h2 with h2 | ⟨_, h2⟩
        · rw [← h2]; simp
        · have h2' : (pre ++ r :: post') ++ [z] = l.map (fun x => .ok (.inl x)) ++ [c l.length] := by simpa using h2
          rw [← List.append_inj_left' h2' (by simp)]; simp
      obtain ⟨x, hx⟩ := hitems r hmem
      exact absurd hx (hr x)
  subst hpost
  rcases h2 with h2 | ⟨_, h2⟩
  · obtain ⟨x, hx⟩ := hitems r (by rw [← h2]; simp)
    exact absurd hx (hr x)
  · have h3 := List.append_inj_left' h2 (by simp)
    have h4 := List.append_inj_right' h2 (by simp)
    subst h3
    refine ⟨rfl, ?_, hitems⟩
    rw [itemsOf_items]
    exact (List.cons.inj h4).1.symm

/-- **C33.** Under every schedule, the items emitted by a merge are an interleaving of items of the two sources: of the first
items of one and the first items of the other, each in order. -/
theorem merge_interleaves {P₁ : Producer σ₁ I F E} {P₂ : Producer σ₂ I F E} {s₁ : σ₁} {s₂ : σ₂} {c₁ c₂ : Script I F E}
    (h₁ : Plays P₁ s₁ c₁) (h₂ : Plays P₂ s₂ c₂) (ready₁ ready₂ : Nat → Bool) {rs : List (Except E (I ⊕ F))}
    {s : Merge σ₁ σ₂} (h : Answers (Merge.producer P₁ P₂ ready₁ ready₂) (.new s₁ s₂) rs s) :
    ∃ l₁ l₂, c₁.StartsWith l₁ ∧ c₂.StartsWith l₂ ∧ Interleaving l₁ l₂ (itemsOf rs) := by
  obtain ⟨ev, ht⟩ := merge_trace h₁ h₂ ready₁ ready₂ h
  refine ⟨_, _, ht.first.items, ht.second.items, ?_⟩
  rw [ht.emitted, itemsOf_dropFirstFinal]
  exact interleaving_received ev

example : ∃ l₁ l₂, (Script.ofList [1, 2] (.ok ()) : Script Nat Unit Empty).StartsWith l₁ ∧
    (Script.ofList [3] (.ok ()) : Script Nat Unit Empty).StartsWith l₂ ∧ Interleaving l₁ l₂ [1, 3, 2] :=
  merge_interleaves (from_slice_plays [1, 2]).toPlays (from_slice_plays [3]).toPlays _ _ Case.merge_all

theorem dropFirstFinal_split {rs : List (Except E (I ⊕ F))} {f : F} {init : List (Except E (I ⊕ F))}
    (h : dropFirstFinal rs = init ++ [.ok (.inr f)]) :
    ∃ a b f', rs = a ++ .ok (.inr f') :: b ++ [.ok (.inr f)] ∧ init = a ++ b := by
  induction rs generalizing init with
  | nil => simp [dropFirstFinal] at h
  | cons r rs ih =>
    have hcons : ∀ r' : Except E (I ⊕ F), (∀ f, r' ≠ .ok (.inr f)) → r' :: dropFirstFinal rs = init ++ [.ok (.inr f)] →
        ∃ a b f', r' :: rs = a ++ .ok (.inr f') :: b ++ [.ok (.inr f)] ∧ init = a ++ b := by
      clear h
      intro r' hne h
      rcases init with _ | ⟨i, init⟩
      · simp only [List.nil_append, List.cons.injEq] at h
        exact absurd h.1 (hne f)
      · simp only [List.cons_append, List.cons.injEq] at h
        obtain ⟨rfl, h⟩ := h
        obtain ⟨a, b, f', h1, h2⟩ := ih h
        exact ⟨r' :: a, b, f', by simp [h1], by simp [h2]⟩
    rcases r with e | x | f''
    · exact hcons _ (by simp) h
    · exact hcons _ (by simp) h
    · simp only [dropFirstFinal] at h
      exact ⟨[], init, f'', by simp [h], rfl⟩

/-- **C33, C34.** If a merge emits a final value, then both sources have emitted theirs, everything they emitted before that
has been emitted, the final value is that of the source whose final value was received last, and the other one is dropped. -/
theorem merge_final {c₁ c₂ : Script I F E} {events : List (Bool × Except E (I ⊕ F))} {init : List (Except E (I ⊕ F))} {f : F}
    (h : MergeTrace c₁ c₂ events (init ++ [.ok (.inr f)])) :
    ∃ l₁ l₂ f₁ f₂, c₁.StartsWith l₁ ∧ c₁ l₁.length = .ok (.inr f₁) ∧ c₂.StartsWith l₂ ∧ c₂ l₂.length = .ok (.inr f₂) ∧
      Interleaving l₁ l₂ (itemsOf init) ∧ (∀ r ∈ init, ∃ x, r = .ok (.inl x)) ∧
      ((f = f₁ ∧ ∃ pre mid, events = pre ++ (false, .ok (.inr f₂)) :: mid ++ [(true, .ok (.inr f₁))]) ∨
       (f = f₂ ∧ ∃ pre mid, events = pre ++ (true, .ok (.inr f₁)) :: mid ++ [(false, .ok (.inr f₂))])) := by
  obtain ⟨a, b, f', h1, h2⟩ := dropFirstFinal_split h.emitted.symm
  obtain ⟨evab, evl, rfl, h3, h4⟩ := List.map_eq_append_iff.mp h1
  obtain ⟨pre, rest, rfl, h5, h6⟩ := List.map_eq_append_iff.mp h3
  obtain ⟨⟨src, r⟩, mid, rfl, h7, h8⟩ := List.map_eq_cons_iff.mp h6
  obtain ⟨⟨src', r'⟩, mid', rfl, h9, h10⟩ := List.map_eq_cons_iff.mp h4
  obtain rfl : mid' = [] := by simpa using h10
  simp only at h7 h9
  subst h7 h9
  have hitems : ∀ (l : List (Bool × Except E (I ⊕ F))), (∀ r ∈ received true l, ∃ x, r = .ok (.inl x)) →
      (∀ r ∈ received false l, ∃ x, r = .ok (.inl x)) → ∀ r ∈ l.map (·.2), ∃ x, r = .ok (.inl x) := by
    intro l ht hf r hr
    obtain ⟨⟨b, r⟩, hm, rfl⟩ := List.mem_map.mp hr
    have : r ∈ received b l := List.mem_map.mpr ⟨(b, r), List.mem_filter.mpr ⟨hm, by simp⟩, rfl⟩
    cases b
    · exact hf r this
    · exact ht r this
  have hint := interleaving_received (pre ++ mid)
  have hpm : itemsOf ((pre ++ mid).map (·.2)) = itemsOf init := by rw [h2, ← h5, ← h8, List.map_append]
  have hrec : ∀ b, received b (pre ++ (src, .ok (.inr f')) :: mid ++ [(src', .ok (.inr f))]) =
      received b pre ++ (received b [(src, .ok (.inr f'))] ++ (received b mid ++ received b [(src', .ok (.inr f))])) := by
    intro b
    rw [← List.singleton_append, received_append, received_append, received_append]
    simp
  have h11 := h.first
  have h12 := h.second
  rw [hrec] at h11 h12
  rcases src with _ | _ <;> rcases src' with _ | _
  · simp only [received_same] at h12
    have := (h12.final (by simp)).1
    simp at this
  · rw [received_other (by simp), received_same, List.nil_append, ← List.append_assoc] at h11
    rw [received_other (b' := true) (by simp), received_same, List.append_nil] at h12
    obtain ⟨_, g1, g2⟩ := h11.final (by simp)
    obtain ⟨g3, g4, g5⟩ := Script.IsPrefix.final (post := received false mid) h12 (by simp)
    have e1 : itemsOf (received true pre ++ received true mid) = itemsOf (received true (pre ++ mid)) := by rw [received_append]
    have e2 : itemsOf (received false pre) = itemsOf (received false (pre ++ mid)) := by rw [received_append, g3]; simp
    have hst1 := h11.items
    rw [itemsOf_append, show itemsOf [(.ok (.inr f) : Except E (I ⊕ F))] = [] from rfl, List.append_nil] at hst1
    have hst2 := h12.items
    rw [g3, itemsOf_append, show itemsOf ([(.ok (.inr f') : Except E (I ⊕ F))] ++ []) = [] from rfl, List.append_nil] at hst2
    refine ⟨_, _, f, f', hst1, g1, hst2, g4, ?_, ?_, .inl ⟨rfl, pre, mid, rfl⟩⟩
    · rw [e1, e2, ← hpm]; exact hint
    · rw [h2, ← h5, ← h8, ← List.map_append]
      refine hitems _ ?_ ?_
      · rw [received_append]; exact g2
      · rw [received_append, g3, List.append_nil]; exact g5
  · rw [received_other (by simp), received_same, List.nil_append, ← List.append_assoc] at h12
    rw [received_other (b' := false) (by simp), received_same, List.append_nil] at h11
    obtain ⟨_, g1, g2⟩ := h12.final (by simp)
    obtain ⟨g3, g4, g5⟩ := Script.IsPrefix.final (post := received true mid) h11 (by simp)
    have e1 : itemsOf (received false pre ++ received false mid) = itemsOf (received false (pre ++ mid)) := by
      rw [received_append]
    have e2 : itemsOf (received true pre) = itemsOf (received true (pre ++ mid)) := by rw [received_append, g3]; simp
    have hst2 := h12.items
    rw [itemsOf_append, show itemsOf [(.ok (.inr f) : Except E (I ⊕ F))] = [] from rfl, List.append_nil] at hst2
    have hst1 := h11.items
    rw [g3, itemsOf_append, show itemsOf ([(.ok (.inr f') : Except E (I ⊕ F))] ++ []) = [] from rfl, List.append_nil] at hst1
    refine ⟨_, _, f', f, hst1, g4, hst2, g1, ?_, ?_, .inr ⟨rfl, pre, mid, rfl⟩⟩
    · rw [e1, e2, ← hpm]; exact hint
    · rw [h2, ← h5, ← h8, ← List.map_append]
      refine hitems _ ?_ ?_
      · rw [received_append, g3, List.append_nil]; exact g5
      · rw [received_append]; exact g2
  · simp only [received_same] at h11
    have := (h11.final (by simp)).1
    simp at this

/-- A concrete trace: the first final value (here that of the second producer) is dropped. -/
example : MergeTrace (Script.ofList [1, 2] (.ok "a")) (Script.ofList [3] (.ok "b"))
    ([(true, .ok (.inl 1)), (false, .ok (.inl 3)), (false, .ok (.inr "b")), (true, .ok (.inl 2)), (true, .ok (.inr "a"))] :
      List (Bool × Except Empty (Nat ⊕ String)))
    [.ok (.inl 1), .ok (.inl 3), .ok (.inl 2), .ok (.inr "a")] where
  first := ⟨[1, 2], Script.ofList_startsWith _ _, .inr ⟨by simp [Script.ofList, Except.map], rfl⟩⟩
  second := ⟨[3], Script.ofList_startsWith _ _, .inr ⟨by simp [Script.ofList, Except.map], rfl⟩⟩
  error_last := by
    intro pre post source e h
    exact e.elim
  emitted := rfl

/-- **C34.** If a merge emits an error, then it is the error of a source, received after the items emitted so far (and possibly
the final value of the other source). -/
theorem merge_error {c₁ c₂ : Script I F E} {events : List (Bool × Except E (I ⊕ F))} {init : List (Except E (I ⊕ F))} {e : E}
    (h : MergeTrace c₁ c₂ events (init ++ [.error e])) :
    ∃ pre source, events = pre ++ [(source, .error e)] ∧ init = dropFirstFinal (pre.map (·.2)) ∧
      (source = true → c₁ (itemsOf (received true pre)).length = .error e) ∧
      (source = false → c₂ (itemsOf (received false pre)).length = .error e) := by
  have hmem : ∀ {rs : List (Except E (I ⊕ F))}, .error e ∈ dropFirstFinal rs → .error e ∈ rs := by
    intro rs
    induction rs with
    | nil => exact id
    | cons r rs ih =>
      intro h
      rcases r with e' | x | f
      · simp only [dropFirstFinal, List.mem_cons] at h ⊢
        exact h.imp_right ih
      · simp only [dropFirstFinal, List.mem_cons] at h ⊢
        exact h.imp_right ih
      · exact List.mem_cons_of_mem _ h
  have happ : ∀ rs : List (Except E (I ⊕ F)), dropFirstFinal (rs ++ [.error e]) = dropFirstFinal rs ++ [.error e] := by
    intro rs
    induction rs with
    | nil => rfl
    | cons r rs ih => rcases r with e' | x | f <;> simp [dropFirstFinal, ih]
  have h1 : .error e ∈ events.map (·.2) := hmem (by rw [← h.emitted]; simp)
  obtain ⟨⟨source, r⟩, h2, h3⟩ := List.mem_map.mp h1
  simp only at h3
  subst h3
  obtain ⟨pre, post, rfl⟩ := List.append_of_mem h2
  obtain rfl := h.error_last pre post source e rfl
  have h4 := h.emitted
  rw [List.map_append, List.map_singleton, happ] at h4
  refine ⟨pre, source, rfl, List.append_inj_left' h4 rfl, ?_, ?_⟩
  · rintro rfl
    have := h.first
    rw [received_append, received_same] at this
    exact (this.final (by simp)).2.1
  · rintro rfl
    have := h.second
    rw [received_append, received_same] at this
    exact (this.final (by simp)).2.1

/-- A concrete trace with an error. -/
example : MergeTrace (Script.ofList [1, 2] (.error "e")) (Script.ofList [3] (.ok ()))
    ([(true, .ok (.inl 1)), (false, .ok (.inl 3)), (true, .ok (.inl 2)), (true, .error "e")] :
      List (Bool × Except String (Nat ⊕ Unit)))
    ([.ok (.inl 1), .ok (.inl 3), .ok (.inl 2)] ++ [.error "e"]) where
  first := ⟨[1, 2], Script.ofList_startsWith _ _, .inr ⟨by simp [Script.ofList, Except.map], rfl⟩⟩
  second := ⟨[3], Script.ofList_startsWith _ _, .inl rfl⟩
  error_last := by
    intro pre post source e h
    rcases pre with _ | ⟨_, _ | ⟨_, _ | ⟨_, _ | ⟨_, pre⟩⟩⟩⟩ <;> simp at h
    exact h.2.2.2.2
  emitted := rfl

/-- **C34.** Until it has emitted a final value or an error, a merge does not panic, under any schedule. -/
theorem merge_no_panic {P₁ : Producer σ₁ I F E} {P₂ : Producer σ₂ I F E} {s₁ : σ₁} {s₂ : σ₂} {c₁ c₂ : Script I F E}
    (h₁ : Plays P₁ s₁ c₁) (h₂ : Plays P₂ s₂ c₂) (ready₁ ready₂ : Nat → Bool) {rs : List (Except E (I ⊕ F))}
    {s : Merge σ₁ σ₂} (h : Answers (Merge.producer P₁ P₂ ready₁ ready₂) (.new s₁ s₂) rs s)
    (hrs : ∀ r ∈ rs, ∃ x, r = .ok (.inl x)) : (Merge.producer P₁ P₂ ready₁ ready₂).produce s ≠ .panic := by
  obtain ⟨R₁, hR₁, hs₁⟩ := h₁
  obtain ⟨R₂, hR₂, hs₂⟩ := h₂
  obtain ⟨ev, h1, h2⟩ := Merge.answers_inv hR₁ hR₂ hs₁ hs₂ h
  intro hp
  rcases Merge.produce_partial hR₁ hR₂ ready₁ ready₂ (h2 hrs) with ⟨out, h3, _⟩ | h3
  · rw [hp] at h3; cases h3
  · rw [hp] at h3; cases h3

example : Case.merge.produce ⟨some ⟨[1, 2], 2⟩, some ⟨[3], 1⟩, 3⟩ ≠ .panic :=
  merge_no_panic (from_slice_plays [1, 2]).toPlays (from_slice_plays [3]).toPlays _ _ Case.merge_items (by simp)

/-- **C34.** Under fair schedules, a merge answers every call until it has emitted a final value or an error. -/
theorem merge_returns {P₁ : Producer σ₁ I F E} {P₂ : Producer σ₂ I F E} {s₁ : σ₁} {s₂ : σ₂} {c₁ c₂ : Script I F E}
    (h₁ : Plays P₁ s₁ c₁) (h₂ : Plays P₂ s₂ c₂) {ready₁ ready₂ : Nat → Bool} (hr₁ : Fair ready₁) (hr₂ : Fair ready₂)
    {rs : List (Except E (I ⊕ F))} {s : Merge σ₁ σ₂}
    (h : Answers (Merge.producer P₁ P₂ ready₁ ready₂) (.new s₁ s₂) rs s) (hrs : ∀ r ∈ rs, ∃ x, r = .ok (.inl x)) :
    ∃ s' r, (Merge.producer P₁ P₂ ready₁ ready₂).produce s = ok (s', r) := by
  obtain ⟨R₁, hR₁, hs₁⟩ := h₁
  obtain ⟨R₂, hR₂, hs₂⟩ := h₂
  obtain ⟨ev, h1, h2⟩ := Merge.answers_inv hR₁ hR₂ hs₁ hs₂ h
  obtain ⟨out, h3, _⟩ := Merge.produce_total hR₁ hR₂ hr₁ hr₂ (h2 hrs)
  exact ⟨out.1, out.2, h3⟩

example : ∃ s' r, (Merge.producer Case.P.toProducer Case.P.toProducer (fun n => n % 3 == 2) (fun n => n % 2 == 1)).produce
    (.new (Case.pro (.error "broken")) (Case.pro (.ok ()))) = ok (s', r) :=
  merge_returns (Case.plays _).toPlays (Case.plays _).toPlays (fun n => ⟨3 * n + 2, by omega, by simp⟩)
    (fun n => ⟨2 * n + 1, by omega, by simp⟩) .nil (by simp)

/-- Apply a function again and again. -/
def iter (f : σ → σ) : Nat → σ → σ
  | 0, s => s
  | n + 1, s => iter f n (f s)

theorem iter_succ (f : σ → σ) (n : Nat) (s : σ) : iter f (n + 1) s = f (iter f n s) := by
  induction n generalizing s with
  | zero => rfl
  | succ n ih => rw [iter, ih, iter]

/-- A producer that answers every call emits some sequence. -/
theorem plays_of_answers {P : Producer σ I F E} {s : σ}
    (h : ∀ rs s', Answers P s rs s' → (∀ r ∈ rs, ∃ x, r = .ok (.inl x)) → ∃ s'' r, P.produce s' = ok (s'', r)) :
    ∃ c, Plays P s c ∧ ∀ n, (∀ i, i < n → ∃ x, c i = .ok (.inl x)) → ∃ s', Answers P s ((List.range (n + 1)).map c) s' := by
  obtain ⟨_, r₀, _⟩ := h [] s .nil (by simp)
  let step : σ → σ := fun s => match P.produce s with | ok (s', _) => s' | _ => s
  let answer : σ → Except E (I ⊕ F) := fun s => match P.produce s with | ok (_, r) => r | _ => r₀
  let st : Nat → σ → σ := fun n s => iter step n s
  let script : σ → Script I F E := fun s n => answer (st n s)
  have hdrop : ∀ s, (script s).drop 1 = script (step s) := by
    intro s; funext i
    show answer (st (1 + i) s) = answer (st i (step s))
    rw [Nat.add_comm]; rfl
  let R : σ → Script I F E → Prop := fun s' c => c = script s' ∧
    ∃ rs, Answers P s rs s' ∧ ∀ r ∈ rs, ∃ x, r = .ok (.inl x)
  have hR : PlaysLaw P R := by
    constructor
    rintro s' c ⟨rfl, rs, h1, h2⟩
    obtain ⟨s'', r, h3⟩ := h rs s' h1 h2
    have ha : script s' 0 = r := by show answer s' = r; simp [answer, h3]
    have hst : step s' = s'' := by simp [step, h3]
    refine ⟨s'', by rw [ha]; exact h3, fun x hx => ⟨by rw [hdrop, hst], rs ++ [r], .call h1 h2 h3, ?_⟩⟩
    intro r' hr'
    rcases List.mem_append.mp hr' with hr' | hr'
    · exact h2 r' hr'
    · rw [List.mem_singleton] at hr'
      exact ⟨x, by rw [hr', ← ha, hx]⟩
  refine ⟨script s, ⟨R, hR, rfl, [], .nil, by simp⟩, ?_⟩
  intro n hn
  have key : ∀ n, (∀ i, i < n → ∃ x, script s i = .ok (.inl x)) → Answers P s ((List.range n).map (script s)) (st n s) := by
    intro n
    induction n with
    | zero => exact fun _ => .nil
    | succ n ih =>
      intro hn
      have h1 := ih fun i hi => hn i (by omega)
      have hall : ∀ a ∈ (List.range n).map (script s), ∃ x, a = .ok (.inl x) := by
        intro a ha
        obtain ⟨i, hi, rfl⟩ := List.mem_map.mp ha
        exact hn i (by have := List.mem_range.mp hi; omega)
      obtain ⟨s'', r, h3⟩ := h _ _ h1 hall
      have ha : script s n = r := by show answer (st n s) = r; simp [answer, h3]
      have hst : st (n + 1) s = s'' := by
        show iter step (n + 1) s = s''
        rw [iter_succ]
        show step (st n s) = s''
        simp only [step, h3]
      rw [List.range_succ, List.map_append, List.map_singleton, show answer (st n s) = r from ha, hst]
      exact .call h1 hall h3
  have h1 := key n hn
  have hall : ∀ a ∈ (List.range n).map (script s), ∃ x, a = .ok (.inl x) := by
    intro a ha
    obtain ⟨i, hi, rfl⟩ := List.mem_map.mp ha
    exact hn i (List.mem_range.mp hi)
  obtain ⟨s'', r, h3⟩ := h _ _ h1 hall
  have ha : script s n = r := by show answer (st n s) = r; simp [answer, h3]
  refine ⟨s'', ?_⟩
  rw [List.range_succ, List.map_append, List.map_singleton, show answer (st n s) = r from ha]
  exact .call h1 hall h3

/-- **C33, C34.** Under fair schedules, a merge is a lawful producer that emits a merge of the two sequences. -/
theorem merge_plays {P₁ : Producer σ₁ I F E} {P₂ : Producer σ₂ I F E} {s₁ : σ₁} {s₂ : σ₂} {c₁ c₂ : Script I F E}
    (h₁ : Plays P₁ s₁ c₁) (h₂ : Plays P₂ s₂ c₂) {ready₁ ready₂ : Nat → Bool} (hr₁ : Fair ready₁) (hr₂ : Fair ready₂) :
    ∃ c, Plays (Merge.producer P₁ P₂ ready₁ ready₂) (.new s₁ s₂) c ∧
      ∀ n, (∀ i, i < n → ∃ x, c i = .ok (.inl x)) → ∃ events, MergeTrace c₁ c₂ events ((List.range (n + 1)).map c) := by
  obtain ⟨c, h1, h2⟩ := plays_of_answers fun rs s' h hrs => merge_returns h₁ h₂ hr₁ hr₂ h hrs
  refine ⟨c, h1, fun n hn => ?_⟩
  obtain ⟨s', h3⟩ := h2 n hn
  exact merge_trace h₁ h₂ ready₁ ready₂ h3

/-- Two slices, merged alternatingly. -/
example : ∃ c, Plays (Merge.producer (FromSlice.producer Nat).toProducer (FromSlice.producer Nat).toProducer
      (fun n => n % 2 == 0) (fun n => n % 2 == 1)) (.new (.new [1, 2]) (.new [3])) c ∧
    ∀ n, (∀ i, i < n → ∃ x, c i = .ok (.inl x)) → ∃ events,
      MergeTrace (Script.ofList [1, 2] (.ok ())) (Script.ofList [3] (.ok ())) events ((List.range (n + 1)).map c) := by
  refine merge_plays (from_slice_plays [1, 2]).toPlays (from_slice_plays [3]).toPlays ?_ ?_
  · exact fun n => ⟨2 * n, by omega, by simp⟩
  · exact fun n => ⟨2 * n + 1, by omega, by simp⟩

/-- `Merge` prefers the first producer: as long as that is always ready, nothing of the second one is ever emitted. -/
theorem merge_starves {P₁ : Producer σ₁ I F E} {P₂ : Producer σ₂ I F E} {s₁ : σ₁} {s₂ : σ₂} {c₁ : Script I F E}
    (h₁ : Plays P₁ s₁ c₁) (hc : ∀ i, ∃ x, c₁ i = .ok (.inl x)) {ready₁ ready₂ : Nat → Bool} (hr₁ : ∀ n, ready₁ n = true) :
    Plays (Merge.producer P₁ P₂ ready₁ ready₂) (.new s₁ s₂) c₁ := by
  obtain ⟨R₁, hR₁, hs₁⟩ := h₁
  refine ⟨fun s c => ∃ p n, s = ⟨some p, some s₂, n⟩ ∧ R₁ p c ∧ ∀ i, ∃ x, c i = .ok (.inl x), ⟨?_⟩, s₁, 0, rfl, hs₁, hc⟩
  rintro _ c ⟨p, n, rfl, h1, h2⟩
  obtain ⟨p', h3, h4⟩ := hR₁.produce p c h1
  obtain ⟨x, hx⟩ := h2 0
  refine ⟨⟨some p', some s₂, n + 1⟩, ?_, fun y hy => ⟨p', n + 1, rfl, h4 y hy, fun i => h2 (1 + i)⟩⟩
  show loop _ _ = _
  rw [loop_unfold]
  simp [Merge.produceBody, hr₁, h3, hx]

example : Plays (Merge.producer Case.endless.toProducer Case.P.toProducer (fun _ => true) (fun n => n % 2 == 0))
    (.new 7 (Case.pro (.ok ()))) (Case.endlessScript 7) :=
  merge_starves (Case.endless_plays 7).toPlays (fun i => ⟨7 + i, rfl⟩) (fun _ => rfl)

end

end Verif
