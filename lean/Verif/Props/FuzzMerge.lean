import Verif.Lemmas.Fuzz
import Verif.Props.Merge

/-!
# C55: the fuzz target for merging producers
-/

namespace Verif

open Outcome

namespace Fuzz

section

variable {I F E : Type}

/-- The items of an interleaving tell where they come from. -/
theorem interleaving_filter {A : Type} {p : A → Bool} {xs ys zs : List A} (h : Interleaving xs ys zs)
    (hx : ∀ x ∈ xs, p x = true) (hy : ∀ y ∈ ys, p y = false) : zs.filter p = xs ∧ zs.filter (fun a => !p a) = ys := by
  induction h with
  | nil => exact ⟨rfl, rfl⟩
  | @left x xs ys zs _ ih =>
    obtain ⟨h1, h2⟩ := ih (fun a ha => hx a (List.mem_cons_of_mem _ ha)) hy
    have := hx x (List.mem_cons_self ..)
    simp [this, h1, h2]
  | @right y xs ys zs _ ih =>
    obtain ⟨h1, h2⟩ := ih hx (fun a ha => hy a (List.mem_cons_of_mem _ ha))
    have := hy y (List.mem_cons_self ..)
    simp [this, h1, h2]

/-- The sequence of one of the producers. -/
def MergeInput.script (d : MergeInput I F E) (b : Bool) : Script (I × Bool) F E := Script.ofList (d.items.map fun x => (x, b)) d.last

theorem MergeInput.prefix {d : MergeInput I F E} {b : Bool} {l : List (I × Bool)} (h : (d.script b).StartsWith l) :
    l = (d.items.take l.length).map fun x => (x, b) := by
  rw [List.map_take]
  exact (startsWith_ofList h).1

theorem MergeInput.tags {d : MergeInput I F E} {b : Bool} {l : List (I × Bool)} (h : (d.script b).StartsWith l) :
    ∀ x ∈ l, x.2 = b := by
  rw [MergeInput.prefix h]
  intro x hx
  obtain ⟨_, _, rfl⟩ := List.mem_map.mp hx
  rfl

theorem MergeInput.ended {d : MergeInput I F E} {b : Bool} {l : List (I × Bool)} (h : (d.script b).StartsWith l)
    {r : Except E F} (hr : (d.script b) l.length = r.map .inr) : l.length = d.items.length ∧ d.last = r := by
  have h1 : l.length ≤ d.items.length := by
    have := congrArg List.length (MergeInput.prefix h); simp at this; omega
  rcases Nat.lt_or_ge l.length d.items.length with hlt | hge
  · rcases r <;> simp [MergeInput.script, Script.ofList, hlt, Except.map] at hr
  · refine ⟨by omega, ?_⟩
    have hn : d.items[l.length]? = none := by simp; omega
    rcases hd : d.last with e | f <;> rcases r with e' | f' <;>
      simp [MergeInput.script, Script.ofList, hn, hd, Except.map] at hr <;> simp [hr]

theorem MergeInput.item {d : MergeInput I F E} {b : Bool} {l : List (I × Bool)} {x : I} {c : Bool}
    (h : (d.script b).StartsWith (l ++ [(x, c)])) : Outcome.index d.items l.length = ok x ∧ l.length < d.items.length := by
  have h1 := MergeInput.prefix h
  have hlt : l.length < d.items.length := by
    have := congrArg List.length h1; simp at this; omega
  refine ⟨?_, hlt⟩
  rw [index_of_lt hlt]
  have h2 := congrArg (fun l' => l'[l.length]?) h1
  simp [List.getElem?_eq_getElem hlt] at h2
  rw [h2.1]

/-- The states of one of the producers. -/
def MergeInput.At (d : MergeInput I F E) (b : Bool) (s : Pro (I × Bool) F E) (c : Script (I × Bool) F E) : Prop :=
  ∃ n, POf (d.items.map fun x => (x, b)) d.last s c n

theorem MergeInput.plays (d : MergeInput I F E) (b : Bool) : PlaysLaw (pro (I × Bool) F E).toProducer (d.At b) :=
  (pro_law _ _).base.toPlaysLaw

theorem MergeInput.at_build (d : MergeInput I F E) (b : Bool) : d.At b (d.build b) (d.script b) := ⟨0, pro_new ..⟩

/-- The offsets that belong to the answers so far. -/
def offset (b : Bool) (rs : List (Except E ((I × Bool) ⊕ F))) : Nat := ((itemsOf rs).filter (fun x => x.2 == b)).length

theorem trace_offsets {d₁ d₂ : MergeInput I F E} {ev : List (Bool × Except E ((I × Bool) ⊕ F))}
    {rs : List (Except E ((I × Bool) ⊕ F))} (h : MergeTrace (d₁.script true) (d₂.script false) ev rs) :
    (itemsOf rs).filter (fun x => x.2 == true) = itemsOf (received true ev) ∧
    (itemsOf rs).filter (fun x => x.2 == false) = itemsOf (received false ev) := by
  have h1 := interleaving_received ev
  rw [← itemsOf_dropFirstFinal (ev.map (·.2)), ← h.emitted] at h1
  have h2 := interleaving_filter (p := fun x => x.2 == true) h1
    (fun x hx => by simp [MergeInput.tags h.first.items x hx]) (fun x hx => by simp [MergeInput.tags h.second.items x hx])
  refine ⟨h2.1, ?_⟩
  rw [← h2.2]
  congr 1
  funext x
  rcases x.2 <;> rfl

variable [DecidableEq I] [DecidableEq F] [DecidableEq E]

/-- What the target does with an answer of the merge. -/
theorem merge_step {ready₁ ready₂ : Nat → Bool} {d₁ d₂ : MergeInput I F E}
    {R₁ R₂ : Pro (I × Bool) F E → Script (I × Bool) F E → Prop} {s : Merge (Pro (I × Bool) F E) (Pro (I × Bool) F E)}
    {rs : List (Except E ((I × Bool) ⊕ F))} {out : Merge (Pro (I × Bool) F E) (Pro (I × Bool) F E) × Except E ((I × Bool) ⊕ F)}
    (h : (Merge.producer (pro (I × Bool) F E).toProducer (pro (I × Bool) F E).toProducer ready₁ ready₂).produce s = ok out)
    (hp : Merge.Post R₁ R₂ (d₁.script true) (d₂.script false) rs out) :
    mergeLoop ready₁ ready₂ d₁ d₂ (s, offset true rs, offset false rs) = ok (.done ()) ∨
    ∃ ev, Merge.Inv R₁ R₂ (d₁.script true) (d₂.script false) out.1 ev ∧
      mergeLoop ready₁ ready₂ d₁ d₂ (s, offset true rs, offset false rs) =
        ok (.continue (out.1, offset true (dropFirstFinal (ev.map (·.2))), offset false (dropFirstFinal (ev.map (·.2))))) ∧
      offset true (dropFirstFinal (ev.map (·.2))) + offset false (dropFirstFinal (ev.map (·.2))) =
        offset true rs + offset false rs + 1 ∧
      offset true (dropFirstFinal (ev.map (·.2))) ≤ d₁.items.length ∧
      offset false (dropFirstFinal (ev.map (·.2))) ≤ d₂.items.length := by
  obtain ⟨m, r⟩ := out
  obtain ⟨ev, ht, hinv⟩ := hp
  rcases r with e | ⟨x, b⟩ | f
  · refine .inl ?_
    obtain ⟨pre, source, h1, _, h2, h3⟩ := merge_error ht
    have hlast : Except.error e = d₁.last ∨ Except.error e = d₂.last := by
      cases source with
      | true =>
        have h4 := ht.first
        rw [h1, received_append, received_same] at h4
        have h5 := h4.items
        rw [itemsOf_append] at h5
        exact .inl (MergeInput.ended (by simpa [itemsOf] using h5) (r := .error e) (h2 rfl)).2.symm
      | false =>
        have h4 := ht.second
        rw [h1, received_append, received_same] at h4
        have h5 := h4.items
        rw [itemsOf_append] at h5
        exact .inr (MergeInput.ended (by simpa [itemsOf] using h5) (r := .error e) (h3 rfl)).2.symm
    simp [mergeLoop, h, assert, hlast]
  · refine .inr ⟨ev, hinv ⟨_, rfl⟩, ?_⟩
    obtain ⟨h1, h2⟩ := trace_offsets ht
    rw [← ht.emitted]
    rw [itemsOf_append] at h1 h2
    have h3 := ht.first.items
    have h4 := ht.second.items
    rw [← h1] at h3
    rw [← h2] at h4
    have h5 := congrArg List.length (MergeInput.prefix h3)
    have h6 := congrArg List.length (MergeInput.prefix h4)
    cases b with
    | true =>
      simp only [itemsOf, List.filter_append] at h3
      obtain ⟨h7, _⟩ := MergeInput.item (by simpa using h3)
      simp [itemsOf] at h5 h6 h7
      simp [mergeLoop, h, offset, itemsOf_append, itemsOf, h7, assertEq]
      omega
    | false =>
      simp only [itemsOf, List.filter_append] at h4
      obtain ⟨h7, _⟩ := MergeInput.item (by simpa using h4)
      simp [itemsOf] at h5 h6 h7
      simp [mergeLoop, h, offset, itemsOf_append, itemsOf, h7, assertEq]
      omega
  · refine .inl ?_
    obtain ⟨l₁, l₂, f₁, f₂, h1, h2, h3, h4, h5, _, h6⟩ := merge_final ht
    obtain ⟨h7, h8⟩ := MergeInput.ended h1 (r := .ok f₁) h2
    obtain ⟨h9, h10⟩ := MergeInput.ended h3 (r := .ok f₂) h4
    obtain ⟨h11, h12⟩ := interleaving_filter (p := fun x => x.2 == true) h5
      (fun x hx => by simp [MergeInput.tags h1 x hx]) (fun x hx => by simp [MergeInput.tags h3 x hx])
    have ho₁ : offset true rs = d₁.items.length := by rw [offset, h11, h7]
    have ho₂ : offset false rs = d₂.items.length := by
      rw [offset, ← h9, ← h12]
      congr 2
      funext x
      rcases x.2 <;> rfl
    have hlast : (Except.ok f : Except E F) = d₁.last ∨ Except.ok f = d₂.last := by
      rcases h6 with ⟨rfl, _⟩ | ⟨rfl, _⟩
      · exact .inl h8.symm
      · exact .inr h10.symm
    simp [mergeLoop, h, assert, hlast, assertEq, ho₁, ho₂]

/-- **C55**, producer_merge.rs: if the futures of both producers are ready again and again, the target passes. -/
theorem merge_passes {ready₁ ready₂ : Nat → Bool} (hr₁ : Fair ready₁) (hr₂ : Fair ready₂) (d₁ d₂ : MergeInput I F E) :
    mergeTarget ready₁ ready₂ d₁ d₂ = ok () := by
  obtain ⟨_, h, _⟩ : ∃ r, mergeTarget ready₁ ready₂ d₁ d₂ = ok r ∧ True := by
    refine loop_ok (fun a _ s => ∃ ev, Merge.Inv (d₁.At true) (d₂.At false) (d₁.script true) (d₂.script false) s.1 ev ∧
        s.2 = (offset true (dropFirstFinal (ev.map (·.2))), offset false (dropFirstFinal (ev.map (·.2)))) ∧
        a + offset true (dropFirstFinal (ev.map (·.2))) + offset false (dropFirstFinal (ev.map (·.2))) =
          d₁.items.length + d₂.items.length) (fun _ => True) ?_
      (a := d₁.items.length + d₂.items.length) (b := 0)
      ⟨[], Merge.inv_new (d₁.at_build true) (d₂.at_build false), rfl, rfl⟩
    rintro a _ ⟨s, o₁, o₂⟩ ⟨ev, h1, h2, h3⟩
    cases h2
    obtain ⟨out, h4, h5⟩ := Merge.produce_total (d₁.plays true) (d₂.plays false) hr₁ hr₂ h1
    rcases merge_step h4 h5 with h6 | ⟨ev', h6, h7, h8, h9, h10⟩
    · exact .inl ⟨(), h6, trivial⟩
    · exact .inr ⟨_, a - 1, 0, h7, .inl (by omega), ev', h6, rfl, by omega⟩
  exact h

example : mergeTarget (fun n => n % 3 == 0) (fun n => n % 2 == 1) ⟨[1, 2, 3], .ok 7, [], []⟩ ⟨[4, 5], .error 8, [], []⟩ =
    (ok () : Outcome Unit) :=
  merge_passes (fun n => ⟨3 * n, by omega, by simp⟩) (fun n => ⟨2 * n + 1, by omega, by simp⟩) _ _

/-- **C55**, producer_merge.rs, with arbitrary schedules: the target passes or waits forever. -/
theorem merge_passes_or_waits (ready₁ ready₂ : Nat → Bool) (d₁ d₂ : MergeInput I F E) :
    mergeTarget ready₁ ready₂ d₁ d₂ = ok () ∨ mergeTarget ready₁ ready₂ d₁ d₂ = diverge := by
  have hloop : (∃ r, mergeTarget ready₁ ready₂ d₁ d₂ = ok r ∧ True) ∨ mergeTarget ready₁ ready₂ d₁ d₂ = diverge := by
    refine loop_partial (fun s => ∃ ev, Merge.Inv (d₁.At true) (d₂.At false) (d₁.script true) (d₂.script false) s.1 ev ∧
        s.2 = (offset true (dropFirstFinal (ev.map (·.2))), offset false (dropFirstFinal (ev.map (·.2))))) (fun _ => True) ?_
      ⟨[], Merge.inv_new (d₁.at_build true) (d₂.at_build false), rfl⟩
    rintro ⟨s, o₁, o₂⟩ ⟨ev, h1, h2⟩
    cases h2
    rcases Merge.produce_partial (d₁.plays true) (d₂.plays false) ready₁ ready₂ h1 with ⟨out, h4, h5⟩ | h4
    · rcases merge_step h4 h5 with h6 | ⟨ev', h6, h7, _⟩
      · exact .inl ⟨(), h6, trivial⟩
      · exact .inr (.inl ⟨_, h7, ev', h6, rfl⟩)
    · exact .inr (.inr (by simp [mergeLoop, h4]))
  rcases hloop with ⟨_, h, _⟩ | h
  · exact .inl h
  · exact .inr h

/-- It does wait forever if no future is ever ready. -/
example : mergeTarget (fun _ => false) (fun _ => false) (⟨[1], .ok 7, [], []⟩ : MergeInput Nat Nat Nat) ⟨[], .ok 8, [], []⟩ =
    diverge := by
  have h : (Merge.producer (pro (Nat × Bool) Nat Nat).toProducer (pro (Nat × Bool) Nat Nat).toProducer (fun _ => false)
      (fun _ => false)).produce (.new (MergeInput.build ⟨[1], .ok 7, [], []⟩ true) (MergeInput.build ⟨[], .ok 8, [], []⟩ false)) =
      diverge := by
    refine loop_diverge _ (fun s => s.produceFuture₁.isSome ∧ s.produceFuture₂.isSome) ?_ _ ⟨rfl, rfl⟩
    rintro ⟨_ | p₁, _ | p₂, n⟩ ⟨h1, h2⟩ <;> simp_all [Merge.produceBody]
  rw [mergeTarget, loop_unfold]
  simp [mergeLoop, h]

end

end Fuzz

end Verif
