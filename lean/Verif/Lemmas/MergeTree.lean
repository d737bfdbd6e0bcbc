import Verif.MergeTreeSpec
import Verif.MergeSpec
import Verif.Props.Merge

/-!
# Lemmas for C85
-/

namespace Verif

open Outcome

variable {A I F E : Type}

namespace Shuffle

theorem append_left {ls : List (List A)} {xs : List A} (h : Shuffle ls xs) :
    ∀ {ls' : List (List A)}, (∀ l ∈ ls', l = []) → Shuffle (ls ++ ls') xs := by
  induction h with
  | nil h0 =>
    intro ls' h
    refine .nil fun l hl => ?_
    rcases List.mem_append.mp hl with hl | hl
    · exact h0 l hl
    · exact h l hl
  | @cons pre post x l zs _ ih =>
    intro ls' h
    have := ih h
    rw [List.append_assoc, List.cons_append] at this ⊢
    exact .cons this

/-- Interleaving two shuffles gives a shuffle. -/
theorem interleave {xs ys zs : List A} (h : Interleaving xs ys zs) :
    ∀ {ls ls' : List (List A)}, Shuffle ls xs → Shuffle ls' ys → Shuffle (ls ++ ls') zs := by
  induction h with
  | nil =>
    intro ls ls' h1 h2
    cases h1 with
    | nil h1 =>
      cases h2 with
      | nil h2 => exact Shuffle.append_left (.nil h1) h2
  | left _ ih =>
    intro ls ls' h1 h2
    cases h1 with
    | @cons pre post x l _ h1 =>
      have := ih h1 h2
      rw [List.append_assoc, List.cons_append] at this ⊢
      exact .cons this
  | right _ ih =>
    intro ls ls' h1 h2
    cases h2 with
    | @cons pre post x l _ h2 =>
      have := ih h1 h2
      rw [← List.append_assoc] at this ⊢
      exact .cons this

/-- A shuffle is a permutation of the concatenation. -/
theorem perm {ls : List (List A)} {zs : List A} (h : Shuffle ls zs) : zs.Perm ls.flatten := by
  induction h with
  | nil h => rw [List.flatten_eq_nil_iff.mpr h]
  | @cons pre post x l zs _ ih =>
    have h1 : (pre ++ (x :: l) :: post).flatten = pre.flatten ++ x :: (l ++ post.flatten) := by simp
    have h2 : (pre ++ l :: post).flatten = pre.flatten ++ (l ++ post.flatten) := by simp
    rw [h1]
    rw [h2] at ih
    exact (List.Perm.cons x ih).trans List.perm_middle.symm

/-- A shuffle of a single list. -/
theorem self (xs : List A) : Shuffle [xs] xs := by
  induction xs with
  | nil => exact .nil (by simp)
  | cons x xs ih => exact .cons (pre := []) ih

/-- Each of the lists is a sublist. -/
theorem sublist {ls : List (List A)} {zs : List A} (h : Shuffle ls zs) : ∀ l ∈ ls, l.Sublist zs := by
  induction h with
  | nil h => intro l hl; rw [h l hl]; exact List.Sublist.refl []
  | @cons pre post x l zs _ ih =>
    intro l' hl'
    rcases List.mem_append.mp hl' with h | h
    · exact (ih l' (List.mem_append_left _ h)).cons x
    · rcases List.mem_cons.mp h with rfl | h
      · exact (ih l (by simp)).cons₂ x
      · exact (ih l' (by simp [h])).cons x

end Shuffle

theorem range_map_of_items (c : Nat → Except E (I ⊕ F)) {zs : List I} (h : ∀ i x, zs[i]? = some x → c i = .ok (.inl x)) :
    (List.range zs.length).map c = zs.map (fun x => .ok (.inl x)) ∧
      (List.range (zs.length + 1)).map c = zs.map (fun x => .ok (.inl x)) ++ [c zs.length] := by
  have h1 : (List.range zs.length).map c = zs.map fun x => .ok (.inl x) := by
    apply List.ext_getElem
    · simp
    · intro i h1 h2
      simp only [List.getElem_map, List.getElem_range]
      exact h i _ (List.getElem?_eq_getElem (by simpa using h2))
  exact ⟨h1, by rw [List.range_succ, List.map_append, h1, List.map_singleton]⟩

/-- What the traces of a merge say about its items and its end. -/
theorem MergeTrace.parts {c₁ c₂ c : Script I F E}
    (h : ∀ n, (∀ i, i < n → ∃ x, c i = .ok (.inl x)) → ∃ events, MergeTrace c₁ c₂ events ((List.range (n + 1)).map c))
    {zs : List I} (hz : c.StartsWith zs) :
    ∃ l₁ l₂, c₁.StartsWith l₁ ∧ c₂.StartsWith l₂ ∧ Interleaving l₁ l₂ zs ∧
      (∀ f, c zs.length = .ok (.inr f) → ∃ f₁ f₂, c₁ l₁.length = .ok (.inr f₁) ∧ c₂ l₂.length = .ok (.inr f₂) ∧
        (f = f₁ ∨ f = f₂)) ∧
      (∀ e, c zs.length = .error e → c₁ l₁.length = .error e ∨ c₂ l₂.length = .error e) := by
  have hitems : ∀ i, i < zs.length → ∃ x, c i = .ok (.inl x) := fun i hi => ⟨zs[i], hz i _ (List.getElem?_eq_getElem hi)⟩
  obtain ⟨hrs, hrs'⟩ := range_map_of_items c hz
  rcases hc : c zs.length with e | x | f
  · obtain ⟨ev, ht⟩ := h zs.length hitems
    rw [hrs', hc] at ht
    obtain ⟨pre, source, rfl, h2, h3, h4⟩ := merge_error ht
    have hi := congrArg itemsOf h2
    rw [itemsOf_items, itemsOf_dropFirstFinal] at hi
    have hrec : ∀ b, itemsOf (received b (pre ++ [(source, (.error e : Except E (I ⊕ F)))])) = itemsOf (received b pre) := by
      intro b
      simp only [received, List.filter_append, List.map_append, itemsOf_append]
      cases source <;> cases b <;> simp [itemsOf]
    refine ⟨itemsOf (received true pre), itemsOf (received false pre), ?_, ?_, ?_, nofun, ?_⟩
    · rw [← hrec]; exact ht.first.items
    · rw [← hrec]; exact ht.second.items
    · rw [hi]; exact interleaving_received pre
    · intro e' he
      cases he
      cases source with
      | true => exact .inl (h3 rfl)
      | false => exact .inr (h4 rfl)
  · cases hzs : zs.length with
    | zero =>
      obtain rfl := List.eq_nil_of_length_eq_zero hzs
      exact ⟨[], [], by simp, by simp, .nil, nofun, nofun⟩
    | succ n =>
      obtain ⟨ev, ht⟩ := h n fun i hi => hitems i (by omega)
      rw [← hzs, hrs] at ht
      refine ⟨_, _, ht.first.items, ht.second.items, ?_, nofun, nofun⟩
      have hi := congrArg itemsOf ht.emitted
      rw [itemsOf_items, itemsOf_dropFirstFinal] at hi
      rw [hi]
      exact interleaving_received ev
  · obtain ⟨ev, ht⟩ := h zs.length hitems
    rw [hrs', hc] at ht
    obtain ⟨l₁, l₂, f₁, f₂, h1, h2, h3, h4, h5, _, h6⟩ := merge_final ht
    rw [itemsOf_items] at h5
    refine ⟨l₁, l₂, h1, h3, h5, ?_, nofun⟩
    intro f' hf
    cases hf
    exact ⟨f₁, f₂, h2, h4, h6.imp (·.1) (·.1)⟩

/-- A merge of merges is a merge of all. -/
theorem MergeOf.merge {cs₁ cs₂ : List (Script I F E)} {c₁ c₂ c : Script I F E} (h₁ : MergeOf cs₁ c₁) (h₂ : MergeOf cs₂ c₂)
    (h : ∀ n, (∀ i, i < n → ∃ x, c i = .ok (.inl x)) → ∃ events, MergeTrace c₁ c₂ events ((List.range (n + 1)).map c)) :
    MergeOf (cs₁ ++ cs₂) c := by
  intro zs hz
  obtain ⟨l₁, l₂, hs₁, hs₂, hi, hf, he⟩ := MergeTrace.parts h hz
  obtain ⟨p₁, hp₁, hq₁, hr₁, hf₁, he₁⟩ := h₁ l₁ hs₁
  obtain ⟨p₂, hp₂, hq₂, hr₂, hf₂, he₂⟩ := h₂ l₂ hs₂
  refine ⟨p₁ ++ p₂, by rw [List.map_append, hp₁, hp₂], ?_, ?_, ?_, ?_⟩
  · intro p hp
    exact (List.mem_append.mp hp).elim (hq₁ p) (hq₂ p)
  · rw [List.map_append]
    exact Shuffle.interleave hi hr₁ hr₂
  · intro f hc
    obtain ⟨f₁, f₂, h1, h2, h3⟩ := hf f hc
    obtain ⟨ha₁, p, hp, hpf⟩ := hf₁ f₁ h1
    obtain ⟨ha₂, p', hp', hpf'⟩ := hf₂ f₂ h2
    refine ⟨fun p hp => (List.mem_append.mp hp).elim (ha₁ p) (ha₂ p), ?_⟩
    rcases h3 with rfl | rfl
    · exact ⟨p, List.mem_append_left _ hp, hpf⟩
    · exact ⟨p', List.mem_append_right _ hp', hpf'⟩
  · intro e hc
    rcases he e hc with h1 | h1
    · obtain ⟨p, hp, hpe⟩ := he₁ e h1
      exact ⟨p, List.mem_append_left _ hp, hpe⟩
    · obtain ⟨p, hp, hpe⟩ := he₂ e h1
      exact ⟨p, List.mem_append_right _ hp, hpe⟩

/-- Every sequence is a merge of itself alone. -/
theorem MergeOf.self (c : Script I F E) : MergeOf [c] c := by
  intro zs hz
  refine ⟨[(c, zs)], rfl, by simpa using hz, by simpa using Shuffle.self zs, ?_, ?_⟩
  · intro f hf
    exact ⟨by simpa using ⟨f, hf⟩, _, List.mem_singleton.mpr rfl, hf⟩
  · intro e he
    exact ⟨_, List.mem_singleton.mpr rfl, he⟩

/-- A merge of sequences that end has no more items than they have together. -/
theorem MergeOf.bounded {cs : List (Script I F E)} {c : Script I F E} (h : MergeOf cs c)
    (hend : ∀ c' ∈ cs, ∃ n, ∀ x, c' n ≠ .ok (.inl x)) : ∃ N, ∀ zs, c.StartsWith zs → zs.length ≤ N := by
  have hb : ∀ cs : List (Script I F E), (∀ c' ∈ cs, ∃ n, ∀ x, c' n ≠ .ok (.inl x)) →
      ∃ N, ∀ parts : List (Script I F E × List I), parts.map (·.1) = cs → (∀ p ∈ parts, p.1.StartsWith p.2) →
        (parts.map (·.2)).flatten.length ≤ N := by
    intro cs
    induction cs with
    | nil => exact fun _ => ⟨0, fun parts hp _ => by rw [List.map_eq_nil_iff.mp hp]; simp⟩
    | cons c' cs ih =>
      intro hend
      obtain ⟨n, hn⟩ := hend c' (by simp)
      obtain ⟨N, hN⟩ := ih fun c'' h => hend c'' (by simp [h])
      refine ⟨n + N, fun parts hp hs => ?_⟩
      cases parts with
      | nil => simp at hp
      | cons p parts =>
        simp only [List.map_cons, List.cons.injEq] at hp
        have h1 := hN parts hp.2 fun q hq => hs q (by simp [hq])
        have h2 : p.2.length ≤ n := by
          refine Nat.le_of_not_lt fun hlt => ?_
          exact hn p.2[n] (by rw [← hp.1]; exact hs p (by simp) n _ (List.getElem?_eq_getElem hlt))
        simp only [List.map_cons, List.flatten_cons, List.length_append]
        omega
  obtain ⟨N, hN⟩ := hb cs hend
  refine ⟨N, fun zs hz => ?_⟩
  obtain ⟨parts, h1, h2, h3, _⟩ := h zs hz
  rw [h3.perm.length_eq]
  exact hN parts h1 h2

/-- A prefix of a finite sequence consists of items of the list. -/
theorem Script.ofList_prefix {xs l : List I} {last : Except E F} (hs : (Script.ofList xs last).StartsWith l) : l <+: xs := by
  rw [List.prefix_iff_getElem?]
  intro i hi
  have := hs i _ (List.getElem?_eq_getElem hi)
  rcases hx : xs[i]? with _ | y
  · rcases last with e | f <;> simp [Script.ofList, hx] at this <;> cases this
  · simp [Script.ofList, hx] at this
    rw [this]

/-- A prefix of a finite sequence that is followed by something else than an item is all of it. -/
theorem Script.ofList_exhausted {xs l : List I} {last : Except E F} (hs : (Script.ofList xs last).StartsWith l)
    (hne : ∀ x, Script.ofList xs last l.length ≠ .ok (.inl x)) :
    l = xs ∧ Script.ofList xs last l.length = last.map .inr := by
  have hlen : xs.length ≤ l.length := by
    refine Nat.le_of_not_lt fun hlt => hne xs[l.length] ?_
    simp [Script.ofList, hlt]
  obtain rfl := (Script.ofList_prefix hs).eq_of_length_le hlen
  exact ⟨rfl, by simp [Script.ofList]⟩

end Verif
