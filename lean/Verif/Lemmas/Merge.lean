import Verif.Model.Merge
import Verif.MergeSpec
import Verif.Lemmas.Spec
import Verif.Lemmas.Loop

namespace Verif

open Outcome

/-- Loops that may or may not end. -/
theorem loop_partial {σ : Type u} {ρ : Type v} {body : σ → Outcome (Step σ ρ)} (Inv : σ → Prop) (Post : ρ → Prop)
    (h : ∀ s, Inv s → (∃ r, body s = ok (.done r) ∧ Post r) ∨ (∃ s', body s = ok (.continue s') ∧ Inv s') ∨ body s = diverge)
    {s : σ} (hs : Inv s) : (∃ r, loop body s = ok r ∧ Post r) ∨ loop body s = diverge := by
  have hf : ∀ n s, Inv s → (∃ r, loopFuel body n s = ok r ∧ Post r) ∨ loopFuel body n s = diverge := by
    intro n
    induction n with
    | zero => exact fun _ _ => .inr rfl
    | succ n ih =>
      intro s hs
      rcases h s hs with ⟨r, h1, h2⟩ | ⟨s', h1, h2⟩ | h1
      · exact .inl ⟨r, by simp [loopFuel, h1], h2⟩
      · simpa [loopFuel, h1] using ih s' h2
      · exact .inr (by simp [loopFuel, h1])
  by_cases hex : ∃ n, loopFuel body n s ≠ diverge
  · obtain ⟨n, hn⟩ := hex
    rw [loop_eq_of_fuel hn]
    exact hf n s hs
  · exact .inr (by unfold loop; rw [dif_neg hex])

section

variable {σ σ₁ σ₂ I F E : Type}

theorem startsWith_snoc {c : Script I F E} {l : List I} {x : I} (h : c.StartsWith l) (hx : c l.length = .ok (.inl x)) :
    c.StartsWith (l ++ [x]) := by
  intro i y hy
  rw [List.getElem?_append] at hy
  split at hy
  · exact h i y hy
  · rename_i hlt
    rcases hi : i - l.length with _ | k
    · rw [hi] at hy
      obtain rfl : x = y := by simpa using hy
      rw [show i = l.length by omega]; exact hx
    · rw [hi] at hy; simp at hy

theorem received_append (b : Bool) (ev ev' : List (Bool × Except E (I ⊕ F))) :
    received b (ev ++ ev') = received b ev ++ received b ev' := by simp [received]

theorem received_same (b : Bool) (r : Except E (I ⊕ F)) : received b [(b, r)] = [r] := by simp [received]

theorem received_other {b b' : Bool} (h : b' ≠ b) (r : Except E (I ⊕ F)) : received b [(b', r)] = [] := by
  simp [received, h]

theorem dropFirstFinal_items {rs : List (Except E (I ⊕ F))} (h : ∀ r ∈ rs, ∀ f, r ≠ .ok (.inr f)) : dropFirstFinal rs = rs := by
  induction rs with
  | nil => rfl
  | cons r rs ih =>
    have ih := ih fun a ha => h a (List.mem_cons_of_mem _ ha)
    rcases r with e | x | f
    · simp [dropFirstFinal, ih]
    · simp [dropFirstFinal, ih]
    · exact absurd rfl (h _ (List.mem_cons_self) f)

theorem dropFirstFinal_append_of_mem {rs rs' : List (Except E (I ⊕ F))} (h : ∃ f, .ok (.inr f) ∈ rs) :
    dropFirstFinal (rs ++ rs') = dropFirstFinal rs ++ rs' := by
  obtain ⟨f, h⟩ := h
  induction rs with
  | nil => simp at h
  | cons r rs ih =>
    rcases r with e | x | f'
    · simp only [List.cons_append, dropFirstFinal]
      rw [ih (by simpa using h)]
    · simp only [List.cons_append, dropFirstFinal]
      rw [ih (by simpa using h)]
    · simp [dropFirstFinal]

theorem dropFirstFinal_append_final {rs : List (Except E (I ⊕ F))} (f : F) (h : ∀ r ∈ rs, ∀ f, r ≠ .ok (.inr f)) :
    dropFirstFinal (rs ++ [.ok (.inr f)]) = rs := by
  induction rs with
  | nil => rfl
  | cons r rs ih =>
    have ih := ih fun a ha => h a (List.mem_cons_of_mem _ ha)
    rcases r with e | x | f
    · simp [dropFirstFinal, ih]
    · simp [dropFirstFinal, ih]
    · exact absurd rfl (h _ (List.mem_cons_self) f)

theorem itemsOf_append (xs ys : List (Except E (I ⊕ F))) : itemsOf (xs ++ ys) = itemsOf xs ++ itemsOf ys := by
  induction xs with
  | nil => rfl
  | cons r rs ih => rcases r with e | x | f <;> simp [itemsOf, ih]

theorem itemsOf_items (l : List I) : itemsOf (l.map (fun x => (.ok (.inl x) : Except E (I ⊕ F)))) = l := by
  induction l with
  | nil => rfl
  | cons x l ih => simp [itemsOf, ih]

theorem itemsOf_dropFirstFinal (rs : List (Except E (I ⊕ F))) : itemsOf (dropFirstFinal rs) = itemsOf rs := by
  induction rs with
  | nil => rfl
  | cons r rs ih => rcases r with e | x | f <;> simp [itemsOf, dropFirstFinal, ih]

theorem interleaving_received (ev : List (Bool × Except E (I ⊕ F))) :
    Interleaving (itemsOf (received true ev)) (itemsOf (received false ev)) (itemsOf (ev.map (·.2))) := by
  induction ev with
  | nil => exact .nil
  | cons a ev ih =>
    have h1 : ∀ b, received b (a :: ev) = received b [a] ++ received b ev := fun b => received_append b [a] ev
    obtain ⟨b, r⟩ := a
    rw [h1, h1, itemsOf_append, itemsOf_append]
    cases b
    · rw [received_same, received_other (by simp)]
      rcases r with e | x | f
      · exact ih
      · exact .right ih
      · exact ih
    · rw [received_same, received_other (by simp)]
      rcases r with e | x | f
      · exact ih
      · exact .left ih
      · exact ih

namespace Merge

/-- One of the two sources: still being asked for the next entry of its sequence, or finished. -/
def Side (R : σ → Script I F E → Prop) (c : Script I F E) (rs : List (Except E (I ⊕ F))) : Option σ → Prop
  | some p => ∃ l : List I, c.StartsWith l ∧ rs = l.map (fun x => .ok (.inl x)) ∧ R p (c.drop l.length)
  | none => ∃ (l : List I) (f : F), c.StartsWith l ∧ rs = l.map (fun x => .ok (.inl x)) ++ [.ok (.inr f)] ∧
      c l.length = .ok (.inr f)

theorem Side.isPrefix {R : σ → Script I F E → Prop} {c : Script I F E} {rs : List (Except E (I ⊕ F))} {o : Option σ}
    (h : Side R c rs o) : c.IsPrefix rs := by
  cases o with
  | some p => obtain ⟨l, h1, h2, _⟩ := h; exact ⟨l, h1, .inl h2⟩
  | none => obtain ⟨l, f, h1, h2, h3⟩ := h; exact ⟨l, h1, .inr ⟨by simp [h3], by rw [h3]; exact h2⟩⟩

/-- Asking a source. -/
theorem Side.produce {P : Producer σ I F E} {R : σ → Script I F E → Prop} (hP : PlaysLaw P R) {c : Script I F E}
    {rs : List (Except E (I ⊕ F))} {p : σ} (h : Side R c rs (some p)) :
    ∃ p' r, P.produce p = ok (p', r) ∧ c.IsPrefix (rs ++ [r]) ∧
      ((∃ x, r = .ok (.inl x) ∧ Side R c (rs ++ [r]) (some p')) ∨
       (∃ f, r = .ok (.inr f) ∧ Side R c (rs ++ [r]) (none : Option σ)) ∨ ∃ e, r = .error e) := by
  obtain ⟨l, h1, rfl, h2⟩ := h
  obtain ⟨p', h3, h4⟩ := hP.produce p _ h2
  have h0 : c.drop l.length 0 = c l.length := by simp [Script.drop]
  rw [h0] at h3 h4
  refine ⟨p', _, h3, ?_, ?_⟩
  · rcases hc : c l.length with e | x | f
    · exact ⟨l, h1, .inr ⟨by simp [hc], by rw [hc]⟩⟩
    · exact ⟨l ++ [x], startsWith_snoc h1 hc, .inl (by simp)⟩
    · exact ⟨l, h1, .inr ⟨by simp [hc], by rw [hc]⟩⟩
  · rcases hc : c l.length with e | x | f
    · exact .inr (.inr ⟨e, rfl⟩)
    · refine .inl ⟨x, rfl, l ++ [x], startsWith_snoc h1 hc, by simp, ?_⟩
      have := h4 x hc
      rw [Script.drop_drop] at this
      simpa using this
    · exact .inr (.inl ⟨f, rfl, l, f, h1, rfl, hc⟩)

/-- The invariant: everything that has been received so far, before the end. -/
structure Inv (R₁ : σ₁ → Script I F E → Prop) (R₂ : σ₂ → Script I F E → Prop) (c₁ c₂ : Script I F E) (s : Merge σ₁ σ₂)
    (ev : List (Bool × Except E (I ⊕ F))) : Prop where
  first : Side R₁ c₁ (received true ev) s.produceFuture₁
  second : Side R₂ c₂ (received false ev) s.produceFuture₂
  no_error : ∀ a ∈ ev, ∀ e, a.2 ≠ .error e
  finals : (s.produceFuture₁.isSome ∧ s.produceFuture₂.isSome ∧ ∀ r ∈ ev.map (·.2), ∀ f, r ≠ .ok (.inr f)) ∨
    ((s.produceFuture₁.isSome ∨ s.produceFuture₂.isSome) ∧ ¬ (s.produceFuture₁.isSome ∧ s.produceFuture₂.isSome) ∧
      ∃ f, .ok (.inr f) ∈ ev.map (·.2))

/-- How many sources have not finished. -/
def live (s : Merge σ₁ σ₂) : Nat := s.produceFuture₁.toList.length + s.produceFuture₂.toList.length

theorem error_last_snoc {ev : List (Bool × Except E (I ⊕ F))} (h : ∀ a ∈ ev, ∀ e, a.2 ≠ .error e) (a : Bool × Except E (I ⊕ F)) :
    ∀ pre post source e, ev ++ [a] = pre ++ (source, .error e) :: post → post = [] := by
  intro pre post source e heq
  rcases List.eq_nil_or_concat post with rfl | ⟨post', z, rfl⟩
  · rfl
  · have h1 : ev ++ [a] = (pre ++ (source, .error e) :: post') ++ [z] := by simpa using heq
    have h2 := (List.append_inj_left' h1 (by simp))
    exact absurd rfl (h (source, .error e) (by rw [h2]; simp) e)

/-- What a call leads to. -/
def Post (R₁ : σ₁ → Script I F E → Prop) (R₂ : σ₂ → Script I F E → Prop) (c₁ c₂ : Script I F E)
    (rs : List (Except E (I ⊕ F))) (out : Merge σ₁ σ₂ × Except E (I ⊕ F)) : Prop :=
  ∃ ev, MergeTrace c₁ c₂ ev (rs ++ [out.2]) ∧ ((∃ x, out.2 = .ok (.inl x)) → Inv R₁ R₂ c₁ c₂ out.1 ev)

variable {P₁ : Producer σ₁ I F E} {P₂ : Producer σ₂ I F E} {R₁ : σ₁ → Script I F E → Prop} {R₂ : σ₂ → Script I F E → Prop}

theorem body_step (h₁ : PlaysLaw P₁ R₁) (h₂ : PlaysLaw P₂ R₂) (ready₁ ready₂ : Nat → Bool) {c₁ c₂ : Script I F E}
    {s : Merge σ₁ σ₂} {ev : List (Bool × Except E (I ⊕ F))} (hs : Inv R₁ R₂ c₁ c₂ s ev) :
    (∃ out, produceBody P₁ P₂ ready₁ ready₂ s = ok (.done out) ∧
      Post R₁ R₂ c₁ c₂ (dropFirstFinal (ev.map (·.2))) out) ∨
    (∃ s' ev', produceBody P₁ P₂ ready₁ ready₂ s = ok (.continue s') ∧ Inv R₁ R₂ c₁ c₂ s' ev' ∧
      dropFirstFinal (ev'.map (·.2)) = dropFirstFinal (ev.map (·.2)) ∧
      (s'.live < s.live ∨ (s' = { s with clock := s.clock + 1 } ∧
        (s.produceFuture₁.isSome → ready₁ s.clock = false) ∧ (s.produceFuture₂.isSome → ready₂ s.clock = false)))) := by
  obtain ⟨f1, f2, clock⟩ := s
  obtain ⟨hf, hsec, hne, hfin⟩ := hs
  simp only at hf hsec hfin
  have hstart : (∀ r ∈ ev.map (·.2), ∀ f, r ≠ .ok (.inr f)) → dropFirstFinal (ev.map (·.2)) = ev.map (·.2) :=
    dropFirstFinal_items
  rcases f1 with _ | p1 <;> rcases f2 with _ | p2
  · simp at hfin
  · -- only the second is left
    have hmem : ∃ f, .ok (.inr f) ∈ ev.map (·.2) := by simpa using hfin
    rcases hr : ready₂ clock with _ | _
    · exact .inr ⟨⟨none, some p2, clock + 1⟩, ev, by simp [produceBody, hr], ⟨hf, hsec, hne, hfin⟩, rfl,
        .inr ⟨rfl, by simp, fun _ => rfl⟩⟩
    · obtain ⟨p', r, h1, h2, h3⟩ := Side.produce h₂ hsec
      refine .inl ⟨(⟨none, some p', clock + 1⟩, r), by simp [produceBody, hr, h1], ev ++ [(false, r)], ⟨?_, ?_, ?_, ?_⟩, ?_⟩
      · rw [received_append, received_other (by simp), List.append_nil]; exact hf.isPrefix
      · rw [received_append, received_same]; exact h2
      · exact error_last_snoc hne _
      · rw [List.map_append, dropFirstFinal_append_of_mem hmem]; rfl
      · rintro ⟨x, rfl⟩
        rcases h3 with ⟨x', hx, h4⟩ | ⟨f, hx, _⟩ | ⟨e, hx⟩
        · refine ⟨?_, ?_, ?_, .inr ⟨by simp, by simp, ?_⟩⟩
          · rw [received_append, received_other (by simp), List.append_nil]; exact hf
          · rw [received_append, received_same]; exact h4
          · intro a ha e
            rcases List.mem_append.mp ha with ha | ha
            · exact hne a ha e
            · simp at ha; simp [ha]
          · obtain ⟨f, hm⟩ := hmem
            exact ⟨f, by rw [List.map_append]; exact List.mem_append_left _ hm⟩
        · cases hx
        · cases hx
  · -- only the first is left
    have hmem : ∃ f, .ok (.inr f) ∈ ev.map (·.2) := by simpa using hfin
    rcases hr : ready₁ clock with _ | _
    · exact .inr ⟨⟨some p1, none, clock + 1⟩, ev, by simp [produceBody, hr], ⟨hf, hsec, hne, hfin⟩, rfl,
        .inr ⟨rfl, fun _ => rfl, by simp⟩⟩
    · obtain ⟨p', r, h1, h2, h3⟩ := Side.produce h₁ hf
      refine .inl ⟨(⟨some p', none, clock + 1⟩, r), by simp [produceBody, hr, h1], ev ++ [(true, r)], ⟨?_, ?_, ?_, ?_⟩, ?_⟩
      · rw [received_append, received_same]; exact h2
      · rw [received_append, received_other (by simp), List.append_nil]; exact hsec.isPrefix
      · exact error_last_snoc hne _
      · rw [List.map_append, dropFirstFinal_append_of_mem hmem]; rfl
      · rintro ⟨x, rfl⟩
        rcases h3 with ⟨x', hx, h4⟩ | ⟨f, hx, _⟩ | ⟨e, hx⟩
        · refine ⟨?_, ?_, ?_, .inr ⟨by simp, by simp, ?_⟩⟩
          · rw [received_append, received_same]; exact h4
          · rw [received_append, received_other (by simp), List.append_nil]; exact hsec
          · intro a ha e
            rcases List.mem_append.mp ha with ha | ha
            · exact hne a ha e
            · simp at ha; simp [ha]
          · obtain ⟨f, hm⟩ := hmem
            exact ⟨f, by rw [List.map_append]; exact List.mem_append_left _ hm⟩
        · cases hx
        · cases hx
  · -- both
    have hno : ∀ r ∈ ev.map (·.2), ∀ f, r ≠ .ok (.inr f) := by simpa using hfin
    rcases hr1 : ready₁ clock with _ | _
    · rcases hr2 : ready₂ clock with _ | _
      · exact .inr ⟨⟨some p1, some p2, clock + 1⟩, ev, by simp [produceBody, hr1, hr2], ⟨hf, hsec, hne, hfin⟩, rfl,
          .inr ⟨rfl, fun _ => rfl, fun _ => rfl⟩⟩
      · obtain ⟨p', r, h1, h2, h3⟩ := Side.produce h₂ hsec
        rcases h3 with ⟨x, rfl, h4⟩ | ⟨f, rfl, h4⟩ | ⟨e, rfl⟩
        · have hfin' : ∀ r ∈ (ev ++ [(false, (.ok (.inl x) : Except E (I ⊕ F)))]).map (·.2), ∀ f, r ≠ .ok (.inr f) := by
            intro r hr f
            rw [List.map_append] at hr
            rcases List.mem_append.mp hr with hr | hr
            · exact hno r hr f
            · simp at hr; simp [hr]
          refine .inl ⟨(⟨some p1, some p', clock + 1⟩, .ok (.inl x)), by simp [produceBody, hr1, hr2, h1],
            ev ++ [(false, .ok (.inl x))], ⟨?_, ?_, error_last_snoc hne _, ?_⟩, fun _ => ⟨?_, ?_, ?_, .inl ⟨rfl, rfl, hfin'⟩⟩⟩
          · rw [received_append, received_other (by simp), List.append_nil]; exact hf.isPrefix
          · rw [received_append, received_same]; exact h2
          · rw [dropFirstFinal_items hfin', dropFirstFinal_items hno, List.map_append]; rfl
          · rw [received_append, received_other (by simp), List.append_nil]; exact hf
          · rw [received_append, received_same]; exact h4
          · intro a ha e
            rcases List.mem_append.mp ha with ha | ha
            · exact hne a ha e
            · simp at ha; simp [ha]
        · refine .inr ⟨⟨some p1, none, clock + 1⟩, ev ++ [(false, .ok (.inr f))], by simp [produceBody, hr1, hr2, h1],
            ⟨?_, ?_, ?_, .inr ⟨by simp, by simp, f, by simp⟩⟩, ?_, .inl (by simp [live])⟩
          · rw [received_append, received_other (by simp), List.append_nil]; exact hf
          · rw [received_append, received_same]; exact h4
          · intro a ha e
            rcases List.mem_append.mp ha with ha | ha
            · exact hne a ha e
            · simp at ha; simp [ha]
          · rw [List.map_append, dropFirstFinal_items hno]
            exact dropFirstFinal_append_final f hno
        · have hfin' : ∀ r ∈ (ev ++ [(false, (.error e : Except E (I ⊕ F)))]).map (·.2), ∀ f, r ≠ .ok (.inr f) := by
            intro r hr f
            rw [List.map_append] at hr
            rcases List.mem_append.mp hr with hr | hr
            · exact hno r hr f
            · simp at hr; simp [hr]
          refine .inl ⟨(⟨some p1, some p', clock + 1⟩, .error e), by simp [produceBody, hr1, hr2, h1],
            ev ++ [(false, .error e)], ⟨?_, ?_, error_last_snoc hne _, ?_⟩, by simp⟩
          · rw [received_append, received_other (by simp), List.append_nil]; exact hf.isPrefix
          · rw [received_append, received_same]; exact h2
          · rw [dropFirstFinal_items hfin', dropFirstFinal_items hno, List.map_append]; rfl
    · obtain ⟨p', r, h1, h2, h3⟩ := Side.produce h₁ hf
      rcases h3 with ⟨x, rfl, h4⟩ | ⟨f, rfl, h4⟩ | ⟨e, rfl⟩
      · have hfin' : ∀ r ∈ (ev ++ [(true, (.ok (.inl x) : Except E (I ⊕ F)))]).map (·.2), ∀ f, r ≠ .ok (.inr f) := by
          intro r hr f
          rw [List.map_append] at hr
          rcases List.mem_append.mp hr with hr | hr
          · exact hno r hr f
          · simp at hr; simp [hr]
        refine .inl ⟨(⟨some p', some p2, clock + 1⟩, .ok (.inl x)), by simp [produceBody, hr1, h1],
          ev ++ [(true, .ok (.inl x))], ⟨?_, ?_, error_last_snoc hne _, ?_⟩, fun _ => ⟨?_, ?_, ?_, .inl ⟨rfl, rfl, hfin'⟩⟩⟩
        · rw [received_append, received_same]; exact h2
        · rw [received_append, received_other (by simp), List.append_nil]; exact hsec.isPrefix
        · rw [dropFirstFinal_items hfin', dropFirstFinal_items hno, List.map_append]; rfl
        · rw [received_append, received_same]; exact h4
        · rw [received_append, received_other (by simp), List.append_nil]; exact hsec
        · intro a ha e
          rcases List.mem_append.mp ha with ha | ha
          · exact hne a ha e
          · simp at ha; simp [ha]
      · refine .inr ⟨⟨none, some p2, clock + 1⟩, ev ++ [(true, .ok (.inr f))], by simp [produceBody, hr1, h1],
          ⟨?_, ?_, ?_, .inr ⟨by simp, by simp, f, by simp⟩⟩, ?_, .inl (by simp [live])⟩
        · rw [received_append, received_same]; exact h4
        · rw [received_append, received_other (by simp), List.append_nil]; exact hsec
        · intro a ha e
          rcases List.mem_append.mp ha with ha | ha
          · exact hne a ha e
          · simp at ha; simp [ha]
        · rw [List.map_append, dropFirstFinal_items hno]
          exact dropFirstFinal_append_final f hno
      · have hfin' : ∀ r ∈ (ev ++ [(true, (.error e : Except E (I ⊕ F)))]).map (·.2), ∀ f, r ≠ .ok (.inr f) := by
          intro r hr f
          rw [List.map_append] at hr
          rcases List.mem_append.mp hr with hr | hr
          · exact hno r hr f
          · simp at hr; simp [hr]
        refine .inl ⟨(⟨some p', some p2, clock + 1⟩, .error e), by simp [produceBody, hr1, h1],
          ev ++ [(true, .error e)], ⟨?_, ?_, error_last_snoc hne _, ?_⟩, by simp⟩
        · rw [received_append, received_same]; exact h2
        · rw [received_append, received_other (by simp), List.append_nil]; exact hsec.isPrefix
        · rw [dropFirstFinal_items hfin', dropFirstFinal_items hno, List.map_append]; rfl

/-- A call, under arbitrary schedules. -/
theorem produce_partial (h₁ : PlaysLaw P₁ R₁) (h₂ : PlaysLaw P₂ R₂) (ready₁ ready₂ : Nat → Bool) {c₁ c₂ : Script I F E}
    {s : Merge σ₁ σ₂} {ev : List (Bool × Except E (I ⊕ F))} (hs : Inv R₁ R₂ c₁ c₂ s ev) :
    (∃ out, (producer P₁ P₂ ready₁ ready₂).produce s = ok out ∧ Post R₁ R₂ c₁ c₂ (dropFirstFinal (ev.map (·.2))) out) ∨
    (producer P₁ P₂ ready₁ ready₂).produce s = diverge := by
  refine loop_partial (fun s => ∃ ev', Inv R₁ R₂ c₁ c₂ s ev' ∧
    dropFirstFinal (ev'.map (·.2)) = dropFirstFinal (ev.map (·.2))) _ ?_ ⟨ev, hs, rfl⟩
  rintro s ⟨ev', h1, h2⟩
  rcases body_step h₁ h₂ ready₁ ready₂ h1 with ⟨out, h3, h4⟩ | ⟨s', ev'', h3, h4, h5, _⟩
  · exact .inl ⟨out, h3, by rw [← h2]; exact h4⟩
  · exact .inr (.inl ⟨s', h3, ev'', h4, h5.trans h2⟩)

/-- A call, under fair schedules. -/
theorem produce_total (h₁ : PlaysLaw P₁ R₁) (h₂ : PlaysLaw P₂ R₂) {ready₁ ready₂ : Nat → Bool} (hr₁ : Fair ready₁)
    (hr₂ : Fair ready₂) {c₁ c₂ : Script I F E} {s : Merge σ₁ σ₂} {ev : List (Bool × Except E (I ⊕ F))}
    (hs : Inv R₁ R₂ c₁ c₂ s ev) :
    ∃ out, (producer P₁ P₂ ready₁ ready₂).produce s = ok out ∧ Post R₁ R₂ c₁ c₂ (dropFirstFinal (ev.map (·.2))) out := by
  have hex : ∀ {s : Merge σ₁ σ₂} {ev}, Inv R₁ R₂ c₁ c₂ s ev → ∃ b, (s.produceFuture₁.isSome ∧ ready₁ (s.clock + b) = true) ∨
      (s.produceFuture₂.isSome ∧ ready₂ (s.clock + b) = true) := by
    intro s ev hs
    have : s.produceFuture₁.isSome ∨ s.produceFuture₂.isSome := by
      rcases hs.finals with ⟨h, _⟩ | ⟨h, _⟩
      · exact .inl h
      · exact h
    rcases this with h | h
    · obtain ⟨m, h1, h2⟩ := hr₁ s.clock
      exact ⟨m - s.clock, .inl ⟨h, by rw [show s.clock + (m - s.clock) = m by omega]; exact h2⟩⟩
    · obtain ⟨m, h1, h2⟩ := hr₂ s.clock
      exact ⟨m - s.clock, .inr ⟨h, by rw [show s.clock + (m - s.clock) = m by omega]; exact h2⟩⟩
  obtain ⟨b, hb⟩ := hex hs
  refine loop_ok (fun a b s => a = s.live ∧
    ((s.produceFuture₁.isSome ∧ ready₁ (s.clock + b) = true) ∨ (s.produceFuture₂.isSome ∧ ready₂ (s.clock + b) = true)) ∧
    ∃ ev', Inv R₁ R₂ c₁ c₂ s ev' ∧ dropFirstFinal (ev'.map (·.2)) = dropFirstFinal (ev.map (·.2))) _ ?_
    (a := s.live) (b := b) ⟨rfl, hb, ev, hs, rfl⟩
  rintro a b s ⟨rfl, hb, ev', h1, h2⟩
  rcases body_step h₁ h₂ ready₁ ready₂ h1 with ⟨out, h3, h4⟩ | ⟨s', ev'', h3, h4, h5, h6⟩
  · exact .inl ⟨out, h3, by rw [← h2]; exact h4⟩
  · refine .inr ?_
    rcases h6 with h6 | ⟨rfl, h7, h8⟩
    · obtain ⟨b', hb'⟩ := hex h4
      exact ⟨s', s'.live, b', h3, .inl h6, rfl, hb', ev'', h4, h5.trans h2⟩
    · rcases b with _ | b
      · rcases hb with ⟨h9, h10⟩ | ⟨h9, h10⟩
        · have := h7 h9
          simp only [Nat.add_zero] at h10
          rw [this] at h10; cases h10
        · have := h8 h9
          simp only [Nat.add_zero] at h10
          rw [this] at h10; cases h10
      · refine ⟨_, s.live, b, h3, .inr ⟨rfl, Nat.lt_succ_self _⟩, rfl, ?_, ev'', h4, h5.trans h2⟩
        simp only [show s.clock + 1 + b = s.clock + (b + 1) by omega]
        exact hb

theorem inv_new {c₁ c₂ : Script I F E} {s₁ : σ₁} {s₂ : σ₂} (h₁ : R₁ s₁ c₁) (h₂ : R₂ s₂ c₂) :
    Inv R₁ R₂ c₁ c₂ (new s₁ s₂) [] :=
  ⟨⟨[], by intro i x h; simp at h, rfl, by simpa [Script.drop_zero] using h₁⟩,
    ⟨[], by intro i x h; simp at h, rfl, by simpa [Script.drop_zero] using h₂⟩, by simp, .inl ⟨rfl, rfl, by simp⟩⟩

/-- After any number of calls. -/
theorem answers_inv (h₁ : PlaysLaw P₁ R₁) (h₂ : PlaysLaw P₂ R₂) {ready₁ ready₂ : Nat → Bool} {c₁ c₂ : Script I F E}
    {s₁ : σ₁} {s₂ : σ₂} (hs₁ : R₁ s₁ c₁) (hs₂ : R₂ s₂ c₂) {rs : List (Except E (I ⊕ F))} {s : Merge σ₁ σ₂}
    (h : Answers (producer P₁ P₂ ready₁ ready₂) (new s₁ s₂) rs s) :
    ∃ ev, MergeTrace c₁ c₂ ev rs ∧ ((∀ a ∈ rs, ∃ x, a = .ok (.inl x)) → Inv R₁ R₂ c₁ c₂ s ev) := by
  induction h with
  | nil =>
    have := inv_new hs₁ hs₂
    exact ⟨[], ⟨this.first.isPrefix, this.second.isPrefix, by simp, rfl⟩, fun _ => this⟩
  | @call rs s s' r h hitems hp ih =>
    obtain ⟨ev, ht, hinv⟩ := ih
    rcases produce_partial h₁ h₂ ready₁ ready₂ (hinv hitems) with ⟨out, h3, ev', h4, h5⟩ | h3
    · rw [hp] at h3
      obtain ⟨⟩ := h3
      rw [← ht.emitted] at h4
      exact ⟨ev', h4, fun hall => h5 (hall r (by simp))⟩
    · rw [hp] at h3; cases h3

end Merge

end

end Verif
