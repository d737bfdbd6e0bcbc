import Verif.Lemmas.Scrambling
import Verif.Props.Stacks
import Verif.Props.Scramblers
import Verif.Props.StacksDefer

/-!
# C86: stacks of producer adaptors with scramblers
-/

namespace Verif

open Outcome

section

variable {σ τ I F G E : Type}

/-- **C86.** Every stack of adaptors and scramblers around a producer emits the transformed sequence, for every mix of `produce`,
`expose_items`/`consider_produced` and `bulk_produce`, if no scrambler has been told to slurp. Only as much is assumed about the
producer. -/
theorem scrambling_stack_plays (debug : Bool) {P : BulkProducer σ I F E} {s : σ} {c : Script I F E} (h : BulkPlays P.noSlurp s c)
    (L : ScramblingLayers I F G) (hL : L.NoSlurps) : BulkPlays (L.apply debug P).noSlurp (L.wrap E s) (L.script c) := by
  induction L with
  | nil => exact h
  | limit L n ih => exact limit_bulk_plays_without_slurp (P := (L.apply debug P).noSlurp) (ih hL) n
  | mapFinal L f ih => have := no_slurp_plays (map_final_plays (P := (L.apply debug P).noSlurp) f (ih hL)); exact this
  | invariant L ih => have := no_slurp_plays (producer_invariant_plays (P := (L.apply debug P).noSlurp) (ih hL)); exact this
  | invariantNoop L ih => have := no_slurp_plays (producer_invariant_noop_plays (P := (L.apply debug P).noSlurp) (ih hL)); exact this
  | scrambler L ops cap tmp ih =>
    exact ProducerScrambler.plays_of_noSlurp debug (ProducerScrambler.new_noSlurp hL.2)
      (producer_scrambler_plays_without_slurp debug (P := (L.apply debug P).noSlurp) (ih hL.1) ops cap.2 tmp)

/-- A scrambler around a checked scrambler around a limit. -/
abbrev ScramblingLayers.some : ScramblingLayers Nat Unit (Option Unit) :=
  ((((ScramblingLayers.nil.limit 3).scrambler [.considerProduced ⟨2, by decide⟩] ⟨4, by decide⟩ fun _ => 0).invariant).scrambler
    [.produce, .considerProduced ⟨5, by decide⟩] ⟨1, by decide⟩ fun _ => 0)

theorem ScramblingLayers.some_noSlurps : ScramblingLayers.some.NoSlurps :=
  ⟨⟨trivial, by decide⟩, by decide⟩

/-- Around a scrambler that does slurp, and a producer whose error is cut off. -/
example : BulkPlays (ScramblingLayers.some.apply true (producerScrambler true Case.P)).noSlurp
    (ScramblingLayers.some.wrap String (ProducerScrambler.new (Case.pro (.error "e")) [.slurp] 2 fun _ => 0))
    ((Case.script (.error "e")).limit 3) :=
  scrambling_stack_plays true (producer_scrambler_plays_without_slurp true (Case.plays _) [.slurp] (by decide) _)
    ScramblingLayers.some ScramblingLayers.some_noSlurps

/-- **C86, with slurping.** The same, if only such scramblers slurp that have neither a `Limit` nor another scrambler below them. -/
theorem scrambling_stack_plays_slurping (debug : Bool) {P : BulkProducer σ I F E} {s : σ} {c : Script I F E} (h : BulkPlays P s c)
    (L : ScramblingLayers I F G) (hL : L.GoodSlurps) : BulkPlays (L.apply debug P).noSlurp (L.wrap E s) (L.script c) := by
  have key : ∀ {G : Type} (L : ScramblingLayers I F G), L.Slurpable → BulkPlays (L.apply debug P) (L.wrap E s) (L.script c) := by
    intro G L hL
    induction L with
    | nil => exact h
    | limit | scrambler => exact hL.elim
    | mapFinal L f ih => exact map_final_plays f (ih hL)
    | invariant L ih => exact producer_invariant_plays (ih hL)
    | invariantNoop L ih => exact producer_invariant_noop_plays (ih hL)
  induction L with
  | nil => exact no_slurp_plays h
  | limit L n ih => exact limit_bulk_plays_without_slurp (P := (L.apply debug P).noSlurp) (ih hL) n
  | mapFinal L f ih => have := no_slurp_plays (map_final_plays (P := (L.apply debug P).noSlurp) f (ih hL)); exact this
  | invariant L ih => have := no_slurp_plays (producer_invariant_plays (P := (L.apply debug P).noSlurp) (ih hL)); exact this
  | invariantNoop L ih => have := no_slurp_plays (producer_invariant_noop_plays (P := (L.apply debug P).noSlurp) (ih hL)); exact this
  | scrambler L ops cap tmp ih =>
    by_cases hs : ScrambleProduce.slurp ∈ ops
    · exact producer_scrambler_plays_without_slurp debug (key L (hL.2 hs)) ops cap.2 tmp
    · exact scrambling_stack_plays debug (ih hL.1) (.scrambler .nil ops cap tmp) ⟨trivial, hs⟩

/-- A slurping scrambler around a checked producer, with a limit and a second scrambler around it. -/
abbrev ScramblingLayers.slurping : ScramblingLayers Nat Unit (Option Unit) :=
  ((ScramblingLayers.nil.invariant.scrambler [.slurp, .produce] ⟨2, by decide⟩ fun _ => 0).limit 2).scrambler
    [.produce] ⟨3, by decide⟩ fun _ => 0

example : BulkPlays (ScramblingLayers.slurping.apply true Case.P).noSlurp
    (ScramblingLayers.slurping.wrap String (Case.pro (.error "e"))) ((Case.script (.error "e")).limit 2) :=
  scrambling_stack_plays_slurping true (Case.plays _) ScramblingLayers.slurping
    ⟨⟨trivial, fun _ => trivial⟩, fun h => absurd h (by decide)⟩

/-- **C86, pipes.** Piping from such a stack gives the transformed sequence, item by item or in bulk, whatever the scramblers do. -/
theorem pipe_from_scrambling_stack (debug : Bool) {E₂ : Type} {P : BulkProducer σ I F E} {s : σ} {c : Script I F E}
    (h : BulkPlays P.noSlurp s c) (L : ScramblingLayers I F G) (hL : L.NoSlurps) {C : BulkConsumer τ I G E₂}
    {D : τ → List I → Option G → Prop} {q : Policy I G E₂} {t : τ} {l : List I} (hC : BulkCollects C D q t l) {xs : List I}
    {fin : Option G} {res : Except (PipeError E E₂) Unit} (hr : PipeResult (L.script c) q l xs fin res) :
    (∃ s' t', pipe (L.apply debug P).toProducer C.toConsumer (L.wrap E s) t = ok ((s', t'), res) ∧ D t' (l ++ xs) fin) ∧
    (∃ s' t', bulkPipe (L.apply debug P) C (L.wrap E s) t = ok ((s', t'), res) ∧ D t' (l ++ xs) fin) := by
  have hP := scrambling_stack_plays debug h L hL
  refine ⟨pipe_spec (P := (L.apply debug P).toProducer) hP.toPlays hC.toCollects hr, ?_⟩
  obtain ⟨s', t', h1, h2, _⟩ := bulk_pipe_spec hP hC hr
  exact ⟨s', t', h1, h2⟩

/-- Three items through the scramblers above, into a vector. -/
example : ∃ s' t', bulkPipe (((ScramblingLayers.some).mapFinal fun _ => ()).apply false (FromSlice.producer Nat)) Case.V
    ((ScramblingLayers.some.mapFinal fun _ => ()).wrap Empty (FromSlice.new [1, 2, 3])) (IntoVec.fromVec [7]) =
      ok ((s', t'), .ok ()) ∧ Case.Contents t' [7, 1, 2, 3] (some ()) :=
  (pipe_from_scrambling_stack false (no_slurp_plays (from_slice_plays [1, 2, 3])) (ScramblingLayers.some.mapFinal fun _ => ())
    ScramblingLayers.some_noSlurps (Case.vec_collects [7]) (xs := [1, 2, 3]) (fin := some ()) (res := .ok ())
    (.closed (by intro i x hi; match i, hi with | 0, hi => cases hi; rfl | 1, hi => cases hi; rfl | 2, hi => cases hi; rfl)
      (by simp) rfl rfl)).2

/-- **C86, from stack to stack.** In a pipe from such a stack into a stack of consumer adaptors with scramblers of their own: nothing
panics; on success, exactly the transformed sequence has arrived, with the final value mapped on both sides; on failure, a beginning of
it; and only an endless sequence is piped for ever. -/
theorem bulk_pipe_between_scramblers (debug : Bool) {F₂ E₂ E' : Type} {P : BulkProducer σ I F E} {s : σ} {c : Script I F E}
    (h : BulkPlays P.noSlurp s c) (L : ScramblingLayers I F G) (hL : L.NoSlurps) {C : BulkConsumer τ I F₂ E₂}
    {D : τ → List I → Option F₂ → Prop} {X : Faults I F₂ E₂} (hX : X.Regular) {t : τ} {l : List I} (hC : BulkDefers C D X t l)
    (M : DeferringLayers I F₂ E₂ G E') :
    (∃ s' t' xs f, bulkPipe (L.apply debug P) (M.apply C) (L.wrap E s) (M.wrap t) = ok ((s', t'), .ok ()) ∧
      (L.script c).StartsWith xs ∧ L.script c xs.length = .ok (.inr f) ∧ D (M.core t') (l ++ xs) (some (M.final f))) ∨
    (∃ s' t' xs d e, bulkPipe (L.apply debug P) (M.apply C) (L.wrap E s) (M.wrap t) = ok ((s', t'), .error e) ∧
      (L.script c).StartsWith xs ∧ d <+: l ++ xs ∧ D (M.core t') d none) ∨
    (bulkPipe (L.apply debug P) (M.apply C) (L.wrap E s) (M.wrap t) = .diverge ∧
      ∀ n, ∃ xs, xs.length = n ∧ (L.script c).StartsWith xs) :=
  bulk_pipe_into_deferring_stack hX (scrambling_stack_plays debug h L hL) hC M

/-- With all the hypotheses: both stacks with scramblers, around a producer that fails and a consumer that delays. -/
example : BulkPlays Case.P.noSlurp (Case.pro (.error "e")) (Case.script (.error "e")) ∧
    (ScramblingLayers.some.mapFinal fun _ => ()).NoSlurps ∧ (Case.policy 5).faults.Regular ∧
    BulkDefers Case.B Case.SeenInside (Case.policy 5).faults (Case.del 5) [] :=
  ⟨no_slurp_plays (Case.plays _), ScramblingLayers.some_noSlurps, Policy.regular_faults _, Case.defers 5⟩

/-- **C86, the restriction is necessary.** A scrambler that slurps a `Limit` emits the error that was to be cut off (because of C20), even
if only `produce` is called. -/
theorem scrambler_slurp_leaks_error (debug : Bool) (e : E) (tmp : Nat → I) :
    BulkPlays (failingProducer I F e) () (fun _ => .error e) ∧
    (∃ s', (producerScrambler debug (limitBulkProducer (failingProducer I F e))).produce (.new ⟨(), 0⟩ [.slurp] 1 tmp) =
      ok (s', .error e)) ∧
    ¬ Plays (producerScrambler debug (limitBulkProducer (failingProducer I F e))).toProducer (.new ⟨(), 0⟩ [.slurp] 1 tmp)
      (Script.limit (fun _ => .error e) 0) := by
  have h : ∃ s', (producerScrambler debug (limitBulkProducer (failingProducer I F e))).produce (.new ⟨(), 0⟩ [.slurp] 1 tmp) =
      ok (s', .error e) := by
    cases debug <;>
    · simp only [producerScrambler, ProducerScrambler.produce, ProducerScrambler.fillQueue]
      rw [loop_eq_of_fuel (n := 2) (by exact nofun)]
      exact ⟨_, rfl⟩
  refine ⟨failing_producer_plays e, h, ?_⟩
  rintro ⟨R, hR, hs⟩
  obtain ⟨s', h1⟩ := h
  obtain ⟨s'', h2, _⟩ := hR.produce _ _ hs
  rw [show (producerScrambler debug (limitBulkProducer (failingProducer I F e))).toProducer.produce _ = _ from h1] at h2
  cases h2

end

end Verif
