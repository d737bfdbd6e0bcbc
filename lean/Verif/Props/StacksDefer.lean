import Verif.Lemmas.StacksDefer
import Verif.Props.Scramblers
import Verif.Props.PipeDefers
import Verif.Cases

/-!
# C84: stacks of adaptors around consumers that delay their effects
-/

namespace Verif

open Outcome

section

variable {σ τ I F E : Type}

/-- **C84, `Limit`.** -/
theorem limit_defers {C : BulkConsumer τ I F E} {D : τ → List I → Option F → Prop} {X : Faults I F E} (hX : X.Regular) {t : τ}
    {l : List I} (h : BulkDefers C D X t l) (n : Nat) :
    BulkDefers (limitBulkConsumer C) (fun t => D t.inner) (X.limit (l.length + n)) ⟨t, n⟩ l := by
  obtain ⟨R, hR, slots, hs⟩ := h
  exact ⟨_, hR.limit hX (l.length + n), [], rfl, slots, hs, by simp, by simp⟩

/-- A limit of two around a consumer with a buffer that would accept four items. -/
example : BulkDefers (limitBulkConsumer Case.B) (fun t => Case.SeenInside t.inner) ((Case.policy 4).faults.limit 2) ⟨Case.del 4, 2⟩ [] :=
  limit_defers (Policy.regular_faults _) (Case.defers 4) 2

/-- What `Faults.limit` allows: `None` for the third item, but not before; and no error of the wrapped consumer at all. -/
example : (∃ d, ((Case.policy 4).faults.limit 2).during [7, 8, 9] d none) ∧
    (∀ d e, ¬ ((Case.policy 4).faults.limit 2).during [7, 8] d e) := by
  refine ⟨⟨[], List.nil_prefix, by decide⟩, ?_⟩
  rintro d (_ | e)
  · rintro ⟨_, h⟩
    exact absurd h (by decide)
  · exact Case.no_faults (by decide) d e

/-- **C84, `MapFinal`.** -/
theorem map_final_defers {B : Type} (f : B → F) {C : BulkConsumer τ I F E} {D : τ → List I → Option F → Prop} {X : Faults I F E}
    (hX : X.Regular) {t : τ} {l : List I} (h : BulkDefers C D X t l) :
    BulkDefers (mapFinalBulkConsumer C) (fun t l fin => D t.inner l (fin.map f)) (X.mapFinal f) ⟨t, some f⟩ l := by
  obtain ⟨R, hR, sl, hs⟩ := h
  exact ⟨_, hR.mapFinal f hX, sl, hs, rfl⟩

example : BulkDefers (mapFinalBulkConsumer Case.B) (fun t l (fin : Option Nat) => Case.SeenInside t.inner l (fin.map fun _ => ()))
    ((Case.policy 4).faults.mapFinal fun _ => ()) ⟨Case.del 4, some fun _ => ()⟩ [] :=
  map_final_defers _ (Policy.regular_faults _) (Case.defers 4)

theorem DeferringLayers.regular {k : Nat} {X : Faults I F E} (hX : X.Regular) {G E' : Type} (L : DeferringLayers I F E G E') :
    (L.faults k X).Regular := by
  induction L with
  | nil => exact hX
  | limit L n ih => exact ih.limit _
  | mapFinal L f ih => exact ih.mapFinal f
  | invariant L ih => exact ih
  | invariantNoop L ih => exact ih
  | scrambler L ops cap tmp ih => exact ih

/-- **C84.** Every stack of adaptors around a consumer that may delay its effects never panics; at any time the wrapped consumer has
really consumed a prefix of what was passed to the stack, and everything (with the mapped final value) after each successful
`flush` or `close`; it fails only with the errors of the wrapped consumer and at the limits. -/
theorem deferring_stack_defers {G E' : Type} {C : BulkConsumer τ I F E} {D : τ → List I → Option F → Prop} {X : Faults I F E}
    (hX : X.Regular) {t : τ} {l : List I} (h : BulkDefers C D X t l) (L : DeferringLayers I F E G E') :
    BulkDefers (L.apply C) (fun t l fin => D (L.core t) l (fin.map L.final)) (L.faults l.length X) (L.wrap t) l := by
  induction L with
  | nil =>
    have : (fun (t : τ) l (fin : Option F) => D t l (fin.map (DeferringLayers.final (I := I) (E := E) .nil))) = D := by
      funext t l fin; cases fin <;> rfl
    show BulkDefers C (fun (t : τ) l (fin : Option F) => D t l (fin.map (DeferringLayers.final (I := I) (E := E) .nil))) X t l
    rw [this]; exact h
  | limit L n ih => exact limit_defers (L.regular hX) ih n
  | mapFinal L f ih =>
    have := map_final_defers f (L.regular hX) ih
    simp only [Option.map_map] at this
    exact this
  | invariant L ih => exact consumer_invariant_defers (L.regular hX) ih
  | invariantNoop L ih => exact consumer_invariant_noop_defers (L.regular hX) ih
  | scrambler L ops cap tmp ih => exact consumer_scrambler_defers (L.regular hX) ih ops cap.2 tmp

/-- A limit around a scrambler around a limit around a consumer with a buffer. -/
abbrev DeferringLayers.some : DeferringLayers Nat Unit String Unit (Option (Option String)) :=
  ((DeferringLayers.nil.limit 4).scrambler [.flush, .consumeSlots ⟨5, by decide⟩] ⟨2, by decide⟩ (fun _ => 0)).invariant.limit 3

example : BulkDefers (DeferringLayers.some.apply Case.B)
    (fun t l fin => Case.SeenInside (DeferringLayers.some.core t) l (fin.map DeferringLayers.some.final))
    (((Case.policy 5).faults.limit 4).limit 3) (DeferringLayers.some.wrap (Case.del 5)) [] := by
  have := deferring_stack_defers (Policy.regular_faults _) (Case.defers 5) DeferringLayers.some
  simpa [DeferringLayers.some, DeferringLayers.faults] using this

/-- **C84, pipes.** Piping into such a stack never panics; if it succeeds, the wrapped consumer has consumed exactly the items of the
producer and was closed with the mapped final value; if it fails, it has consumed a prefix, and was not closed. It fails to return only
if the producer never ends. -/
theorem bulk_pipe_into_deferring_stack {E₁ G E' : Type} {P : BulkProducer σ I G E₁} {C : BulkConsumer τ I F E}
    {D : τ → List I → Option F → Prop} {c : Script I G E₁} {X : Faults I F E} (hX : X.Regular) {s : σ} {t : τ} {l : List I}
    (hP : BulkPlays P s c) (hC : BulkDefers C D X t l) (L : DeferringLayers I F E G E') :
    (∃ s' t' xs f, bulkPipe P (L.apply C) s (L.wrap t) = ok ((s', t'), .ok ()) ∧ c.StartsWith xs ∧
      c xs.length = .ok (.inr f) ∧ D (L.core t') (l ++ xs) (some (L.final f))) ∨
    (∃ s' t' xs d e, bulkPipe P (L.apply C) s (L.wrap t) = ok ((s', t'), .error e) ∧ c.StartsWith xs ∧
      d <+: l ++ xs ∧ D (L.core t') d none) ∨
    (bulkPipe P (L.apply C) s (L.wrap t) = .diverge ∧ ∀ n, ∃ xs, xs.length = n ∧ c.StartsWith xs) := by
  have hL := deferring_stack_defers hX hC L
  rcases bulk_pipe_deferred hP hL with ⟨s', t', res, h1, h2⟩ | h
  · rcases res with e | ⟨⟩
    · right; left
      cases h2 with
      | producerFailed h3 h4 h5 =>
        obtain ⟨R, hR, sl, hs⟩ := h5
        obtain ⟨d, hd, hD⟩ := hR.base.observe _ _ ⟨sl, hs⟩
        exact ⟨s', t', _, d, _, h1, h3, hd, hD⟩
      | itemFailed h3 h4 h5 h6 => exact ⟨s', t', _, _, _, h1, h4, (L.regular hX).during_prefix _ _ _ h5, h6⟩
      | closeFailed h3 h4 h5 h6 => exact ⟨s', t', _, _, _, h1, h3, (L.regular hX).closing_prefix _ _ _ _ h5, h6⟩
    · obtain ⟨xs, f, h3, h4, h5⟩ := h2.delivered
      exact .inl ⟨s', t', xs, f, h1, h3, h4, h5⟩
  · exact .inr (.inr h)

/-- Three items into the stack above, whose consumer fails after five. -/
example : BulkPlays Case.P (Case.pro (.ok ())) (Case.script (.ok ())) ∧ (Case.policy 5).faults.Regular ∧
    BulkDefers Case.B Case.SeenInside (Case.policy 5).faults (Case.del 5) [] :=
  ⟨Case.plays _, Policy.regular_faults _, Case.defers 5⟩

/-- **C84, pipes that succeed.** If the producer ends with a final value, and the limits and the wrapped consumer leave no reason to
fail, then both pipes succeed. -/
theorem pipe_into_deferring_stack_ok {E₁ G E' : Type} {P : BulkProducer σ I G E₁} {C : BulkConsumer τ I F E}
    {D : τ → List I → Option F → Prop} {c : Script I G E₁} {X : Faults I F E} (hX : X.Regular) {s : σ} {t : τ} {l xs : List I} {f : G}
    (hP : BulkPlays P s c) (hC : BulkDefers C D X t l) (L : DeferringLayers I F E G E') (hxs : c.StartsWith xs)
    (hf : c xs.length = .ok (.inr f)) (h1 : ∀ d e, ¬ (L.faults l.length X).during (l ++ xs) d e)
    (h2 : ∀ d e, ¬ (L.faults l.length X).closing (l ++ xs) f d e) :
    (∃ s' t', pipe P.toProducer (L.apply C).toConsumer s (L.wrap t) = ok ((s', t'), .ok ()) ∧
      D (L.core t') (l ++ xs) (some (L.final f))) ∧
    (∃ s' t', bulkPipe P (L.apply C) s (L.wrap t) = ok ((s', t'), .ok ()) ∧ D (L.core t') (l ++ xs) (some (L.final f))) :=
  pipe_deferred_ok (L.regular hX) hP (deferring_stack_defers hX hC L) hxs hf h1 h2

/-- Three items through limits of three and four. -/
example : ∃ s' t', bulkPipe Case.P (DeferringLayers.some.apply Case.B) (Case.pro (.ok ())) (DeferringLayers.some.wrap (Case.del 5)) =
    ok ((s', t'), .ok ()) ∧ Case.SeenInside (DeferringLayers.some.core t') [1, 2, 3] (some ()) := by
  refine (pipe_into_deferring_stack_ok (Policy.regular_faults _) (Case.plays (.ok ())) (Case.defers 5) DeferringLayers.some
    (Case.script_starts _) (Case.script_end _) ?_ ?_).2
  · rintro d (_ | _ | e)
    · rintro ⟨_, h⟩; exact absurd h (by decide)
    · rintro ⟨_, h⟩; exact absurd h (by decide)
    · exact Case.no_faults (by decide) d e
  · rintro d (_ | _ | e)
    · rintro ⟨_, h⟩; exact absurd h (by decide)
    · rintro ⟨_, h⟩; exact absurd h (by decide)
    · exact Case.no_close_faults (by decide) d e

end

end Verif
