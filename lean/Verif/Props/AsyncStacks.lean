import Verif.AsyncStacksSpec
import Verif.Props.ItemStacks
import Verif.Props.Scrambling
import Verif.Props.AsyncCases
import Verif.Props.AsyncScramblers

/-!
# C88: stacks of adaptors, poll by poll
-/

namespace Verif.Async

open Outcome

section

variable {σ τ I J F G E E₁ E₂ E' F₁ F₂ : Type} {w : σ → Nat} {v : τ → Nat}

/-! ## Producers of single items -/

/-- **C88.** Polled to completion, every method of a stack does what the stack does without suspensions. -/
theorem source_stack_seq (P : Producer σ I F E) (L : SourceLayers I F J G) : (L.applyAsync P).seq = L.apply P.seq := by
  induction L with
  | nil => rfl
  | limit L n ih => exact (limitProducer_seq _).trans (congrArg _ ih)
  | mapItem L f a ih => exact (mapItemProducer_seq f _).trans (congrArg _ ih)
  | mapFinal L f ih => exact (mapFinalProducer_seq _).trans (congrArg _ ih)
  | invariant L ih => exact (invariantProducer_seq _).trans (congrArg _ ih)

/-- **C88.** A stack is pending exactly as often as the wrapped producer. -/
theorem source_stack_counts {P : Producer σ I F E} (h : P.Counts w) (L : SourceLayers I F J G) :
    (L.applyAsync P).Counts fun s => w (L.core s) := by
  induction L with
  | nil => exact h
  | limit L n ih => exact limitProducer_counts ih
  | mapItem L f a ih => exact mapItemProducer_counts f ih
  | mapFinal L f ih => exact mapFinalProducer_counts ih
  | invariant L ih => exact invariantProducer_counts ih

/-- **C88.** A stack waits for nothing but the wrapped producer. -/
theorem source_stack_hangs {P : Producer σ I F E} (h : P.Hangs) (L : SourceLayers I F J G) : (L.applyAsync P).Hangs := by
  induction L with
  | nil => exact h
  | limit L n ih => exact limitProducer_hangs ih
  | mapItem L f a ih => exact mapItemProducer_hangs f ih
  | mapFinal L f ih => exact mapFinalProducer_hangs ih
  | invariant L ih => exact invariantProducer_hangs ih

theorem source_stack_core (L : SourceLayers I F J G) (s : σ) : L.core (L.wrap s) = s := by
  induction L with
  | nil => rfl
  | limit L n ih => exact ih
  | mapItem L f a ih => exact ih
  | mapFinal L f ih => exact ih
  | invariant L ih => exact ih

example : (SourceLayers.some.applyAsync Case.pro.toProducer).Counts (fun s => suspensions (SourceLayers.some.core s).yielder) ∧
    (SourceLayers.some.applyAsync (Case.stalled id).toProducer).Hangs :=
  ⟨source_stack_counts Case.pro_counts.toBuffered.toCounts SourceLayers.some,
    source_stack_hangs (Case.stalled_hangs id).toBuffered.toHangs SourceLayers.some⟩

/-! ## Consumers of single items -/

theorem sink_stack_seq (C : BufferedConsumer τ I F E) (M : SinkLayers I F E J G E') : (M.applyAsync C).seq = M.apply C.seq := by
  induction M with
  | nil => rfl
  | limit L n ih => exact (limitBufferedConsumer_seq _).trans (congrArg _ ih)
  | mapItem L f a ih => exact (mapItemBufferedConsumer_seq f _).trans (congrArg _ ih)
  | mapFinal L f ih => exact (mapFinalBufferedConsumer_seq _).trans (congrArg _ ih)
  | invariant L ih => exact (invariantBufferedConsumer_seq _).trans (congrArg _ ih)

theorem sink_stack_counts {C : BufferedConsumer τ I F E} (h : C.Counts v) (M : SinkLayers I F E J G E') :
    (M.applyAsync C).Counts fun s => v (M.core s) := by
  induction M with
  | nil => exact h
  | limit L n ih => exact limitBufferedConsumer_counts ih
  | mapItem L f a ih => exact mapItemBufferedConsumer_counts f ih
  | mapFinal L f ih => exact mapFinalBufferedConsumer_counts ih
  | invariant L ih => exact invariantBufferedConsumer_counts ih

theorem sink_stack_hangs {C : BufferedConsumer τ I F E} (h : C.Hangs) (M : SinkLayers I F E J G E') : (M.applyAsync C).Hangs := by
  induction M with
  | nil => exact h
  | limit L n ih => exact limitBufferedConsumer_hangs ih
  | mapItem L f a ih => exact mapItemBufferedConsumer_hangs f ih
  | mapFinal L f ih => exact mapFinalBufferedConsumer_hangs ih
  | invariant L ih => exact invariantBufferedConsumer_hangs ih

theorem sink_stack_core (M : SinkLayers I F E J G E') (t : τ) : M.core (M.wrap t) = t := by
  induction M with
  | nil => rfl
  | limit L n ih => exact ih
  | mapItem L f a ih => exact ih
  | mapFinal L f ih => exact ih
  | invariant L ih => exact ih

example : (SinkLayers.some.applyAsync Case.con.toBufferedConsumer).Counts
      (fun s => suspensions (SinkLayers.some.core (E := String) s).yielder) ∧
    (SinkLayers.some.applyAsync (Case.stalledConsumer (I := Nat)).toBufferedConsumer).Hangs :=
  ⟨sink_stack_counts Case.con_counts.toBuffered SinkLayers.some,
    sink_stack_hangs Case.stalledConsumer_hangs.toBuffered SinkLayers.some⟩

/-! ## Bulk producers and consumers, with scramblers -/

theorem scrambling_stack_seq (debug : Bool) (P : BulkProducer σ I F E) (L : ScramblingLayers I F G) :
    (L.applyAsync debug P).seq = L.apply debug P.seq := by
  induction L with
  | nil => rfl
  | limit L n ih => exact (limitBulkProducer_seq _).trans (congrArg _ ih)
  | mapFinal L f ih => exact (mapFinalBulkProducer_seq _).trans (congrArg _ ih)
  | invariant L ih => exact (invariantBulkProducer_seq _).trans (congrArg _ ih)
  | invariantNoop L ih => exact (invariantNoopBulkProducer_seq _).trans (congrArg _ ih)
  | scrambler L ops cap tmp ih => exact (producerScrambler_seq debug _).trans (congrArg _ ih)

theorem scrambling_stack_counts (debug : Bool) {P : BulkProducer σ I F E} (h : P.Counts w) (L : ScramblingLayers I F G) :
    (L.applyAsync debug P).Counts fun s => w (L.core s) := by
  induction L with
  | nil => exact h
  | limit L n ih => exact limitBulkProducer_counts ih
  | mapFinal L f ih => exact mapFinalBulkProducer_counts ih
  | invariant L ih => exact invariantBulkProducer_counts ih
  | invariantNoop L ih => exact invariantNoopBulkProducer_counts ih
  | scrambler L ops cap tmp ih => exact producerScrambler_counts ih debug

theorem scrambling_stack_hangs (debug : Bool) {P : BulkProducer σ I F E} (h : P.Hangs) (L : ScramblingLayers I F G) :
    (L.applyAsync debug P).Hangs := by
  induction L with
  | nil => exact h
  | limit L n ih => exact limitBulkProducer_hangs ih
  | mapFinal L f ih => exact mapFinalBulkProducer_hangs ih
  | invariant L ih => exact invariantBulkProducer_hangs ih
  | invariantNoop L ih => exact invariantNoopBulkProducer_hangs ih
  | scrambler L ops cap tmp ih => exact producerScrambler_hangs ih debug

theorem scrambling_stack_core (L : ScramblingLayers I F G) (s : σ) : L.core (L.wrap E s) = s := by
  induction L with
  | nil => rfl
  | limit L n ih => exact ih
  | mapFinal L f ih => exact ih
  | invariant L ih => exact ih
  | invariantNoop L ih => exact ih
  | scrambler L ops cap tmp ih => exact ih

theorem deferring_stack_seq (C : BulkConsumer τ I F E) (M : DeferringLayers I F E G E') : (M.applyAsync C).seq = M.apply C.seq := by
  induction M with
  | nil => rfl
  | limit L n ih => exact (limitBulkConsumer_seq _).trans (congrArg _ ih)
  | mapFinal L f ih => exact (mapFinalBulkConsumer_seq _).trans (congrArg _ ih)
  | invariant L ih => exact (invariantBulkConsumer_seq _).trans (congrArg _ ih)
  | invariantNoop L ih => exact (invariantNoopBulkConsumer_seq _).trans (congrArg _ ih)
  | scrambler L ops cap tmp ih => exact (consumerScrambler_seq false _).trans (congrArg _ ih)

theorem deferring_stack_counts {C : BulkConsumer τ I F E} (h : C.Counts v) (M : DeferringLayers I F E G E') :
    (M.applyAsync C).Counts fun s => v (M.core s) := by
  induction M with
  | nil => exact h
  | limit L n ih => exact limitBulkConsumer_counts ih
  | mapFinal L f ih => exact mapFinalBulkConsumer_counts ih
  | invariant L ih => exact invariantBulkConsumer_counts ih
  | invariantNoop L ih => exact invariantNoopBulkConsumer_counts ih
  | scrambler L ops cap tmp ih => exact consumerScrambler_counts ih false

theorem deferring_stack_hangs {C : BulkConsumer τ I F E} (h : C.Hangs) (M : DeferringLayers I F E G E') : (M.applyAsync C).Hangs := by
  induction M with
  | nil => exact h
  | limit L n ih => exact limitBulkConsumer_hangs ih
  | mapFinal L f ih => exact mapFinalBulkConsumer_hangs ih
  | invariant L ih => exact invariantBulkConsumer_hangs ih
  | invariantNoop L ih => exact invariantNoopBulkConsumer_hangs ih
  | scrambler L ops cap tmp ih => exact consumerScrambler_hangs ih false

theorem deferring_stack_core (M : DeferringLayers I F E G E') (t : τ) : M.core (M.wrap t) = t := by
  induction M with
  | nil => rfl
  | limit L n ih => exact ih
  | mapFinal L f ih => exact ih
  | invariant L ih => exact ih
  | invariantNoop L ih => exact ih
  | scrambler L ops cap tmp ih => exact ih

/-- A checked scrambler around a limit. -/
abbrev DeferringLayers.some : DeferringLayers Nat Unit String Unit (Option String) :=
  (((DeferringLayers.nil.limit 4).scrambler [.consumeSlots ⟨2, by decide⟩, .flush] ⟨3, by decide⟩ fun _ => 0).invariant)

example : (ScramblingLayers.some.applyAsync true Case.pro).Counts (fun s => suspensions (ScramblingLayers.some.core s).yielder) ∧
    (ScramblingLayers.some.applyAsync true (Case.stalled id)).Hangs ∧
    (DeferringLayers.some.applyAsync Case.con).Counts (fun s => suspensions (DeferringLayers.some.core s).yielder) ∧
    (DeferringLayers.some.applyAsync Case.stalledConsumer).Hangs :=
  ⟨scrambling_stack_counts true Case.pro_counts ScramblingLayers.some, scrambling_stack_hangs true (Case.stalled_hangs id) _,
    deferring_stack_counts Case.con_counts DeferringLayers.some, deferring_stack_hangs Case.stalledConsumer_hangs _⟩

/-! ## Pipes -/

/-- **C88, pipes.** Polling the future of `pipe` between two stacks completes it with the result that the transformed sequence and the
transformed policy determine, whatever the two ends are waiting for, after being pending exactly as often as the two ends were (`w`
and `v` count how often they have been pending so far). -/
theorem pipe_stacks_polled {P : Producer σ I F₁ E₁} (hw : P.Counts w) {c : Script I F₁ E₁} {s : σ} (hP : Plays P.seq s c)
    (L : SourceLayers I F₁ J G) {K : Type} {C : BufferedConsumer τ K F₂ E₂} (hv : C.Counts v) {D : τ → List K → Option F₂ → Prop}
    {q : Policy K F₂ E₂} {t : τ} {l : List K} (hC : BufCollects C.seq D q t l) (M : SinkLayers K F₂ E₂ J G E') {xs : List J}
    {fin : Option G} {res : Except (PipeError E₁ E') Unit} (h : PipeResult (L.script c) (M.policy l q) [] xs fin res) :
    ∃ n s' t', Fut.Ends (pipe (L.applyAsync P) (M.applyAsync C).toConsumer (L.wrap s) (M.wrap t)).poll
        (pipe (L.applyAsync P) (M.applyAsync C).toConsumer (L.wrap s) (M.wrap t)).start n ((s', t'), res) ∧
      D (M.core t') (l ++ M.items xs) (fin.map M.final) ∧ w (L.core s') + v (M.core t') = w s + v t + n := by
  obtain ⟨s', t', h1, h2⟩ := pipe_item_stacks hP L hC M h
  rw [← source_stack_seq, ← sink_stack_seq] at h1
  have h1 : (pipe (L.applyAsync P) (M.applyAsync C).toConsumer (L.wrap s) (M.wrap t)).run = ok ((s', t'), res) :=
    (pipe_run _ _ _ _).trans h1
  obtain ⟨n, hn⟩ := Fut.run_ok_ends h1
  have h3 := pipe_counts (source_stack_counts hw L) (sink_stack_counts hv M).toCounts (L.wrap s) (M.wrap t) n _ hn
  rw [source_stack_core, sink_stack_core] at h3
  exact ⟨n, s', t', hn, h2, h3⟩

/-- Three numbers, from a producer that yields through five adaptors and four more into a consumer that yields: the lengths of the
decimal representations of the first two partial sums arrive. -/
example : ∃ n s' t', Fut.Ends (pipe (SourceLayers.some.applyAsync (TestProducer.producer false Nat Unit String).toProducer)
      (SinkLayers.some.applyAsync (TestConsumer.consumer false Nat Unit String).toBufferedConsumer).toConsumer
      (SourceLayers.some.wrap slowProducer) (SinkLayers.some.wrap slowConsumer)).poll
      (pipe (SourceLayers.some.applyAsync (TestProducer.producer false Nat Unit String).toProducer)
      (SinkLayers.some.applyAsync (TestConsumer.consumer false Nat Unit String).toBufferedConsumer).toConsumer
      (SourceLayers.some.wrap slowProducer) (SinkLayers.some.wrap slowConsumer)).start n ((s', t'), .ok ()) ∧
    TestConsumer.Seen (SinkLayers.some.core (E := String) t') [1, 1] (some ()) ∧
    suspensions (SourceLayers.some.core s').yielder + suspensions (SinkLayers.some.core (E := String) t').yielder = n := by
  have hP : BulkPlays (TestProducer.producer false Nat Unit String).seq slowProducer (Script.ofList [1, 2, 3] (.ok ())) := by
    rw [testProducer_seq]; exact test_producer_plays false [1, 2, 3] (.ok ()) [] _
  have hC : BulkCollects (TestConsumer.consumer false Nat Unit String).seq TestConsumer.Seen (Policy.failAfter 5 "full")
      slowConsumer [] := by
    rw [testConsumer_seq]; exact test_consumer_collects false "full" 5 [] _
  obtain ⟨h1, h2⟩ := source_stack_is (Script.is_ofList [1, 2, 3] (.ok ())) SourceLayers.some (E := String)
  obtain ⟨n, s', t', h3, h4, h5⟩ := pipe_stacks_polled (testProducer_counts false).toBuffered.toCounts hP.toPlays SourceLayers.some
    (testConsumer_counts false).toBuffered hC.toBufCollects SinkLayers.some (PipeResult.closed (xs := ["1", "3"]) (f := true) h1
      (fun i x hi => by match i, hi with | 0, hi => cases hi; rfl | 1, hi => cases hi; rfl) h2 rfl)
  exact ⟨n, s', t', h3, h4, h5.trans (by show 0 + 0 + n = n; omega)⟩

/-- **C88, bulk pipes between scramblers.** Polling the future of `bulk_pipe` between two stacks with scramblers comes to one of three
ends: it completes successfully, and exactly the transformed sequence has arrived; it completes with an error, and a beginning of it
has arrived; or the sequence is endless. Where it completes, it has been pending exactly as often as the two ends were. -/
theorem bulk_pipe_stacks_polled (debug : Bool) {P : BulkProducer σ I F E} (hw : P.Counts w) {s : σ} {c : Script I F E}
    (h : BulkPlays P.seq.noSlurp s c) (L : ScramblingLayers I F G) (hL : L.NoSlurps) {C : BulkConsumer τ I F₂ E₂} (hv : C.Counts v)
    {D : τ → List I → Option F₂ → Prop} {X : Faults I F₂ E₂} (hX : X.Regular) {t : τ} {l : List I} (hC : BulkDefers C.seq D X t l)
    (M : DeferringLayers I F₂ E₂ G E') :
    (∃ n s' t' xs f, Fut.Ends (bulkPipe (L.applyAsync debug P) (M.applyAsync C) (L.wrap E s) (M.wrap t)).poll
        (bulkPipe (L.applyAsync debug P) (M.applyAsync C) (L.wrap E s) (M.wrap t)).start n ((s', t'), .ok ()) ∧
      (L.script c).StartsWith xs ∧ L.script c xs.length = .ok (.inr f) ∧ D (M.core t') (l ++ xs) (some (M.final f)) ∧
      w (L.core s') + v (M.core t') = w s + v t + n) ∨
    (∃ n s' t' xs d e, Fut.Ends (bulkPipe (L.applyAsync debug P) (M.applyAsync C) (L.wrap E s) (M.wrap t)).poll
        (bulkPipe (L.applyAsync debug P) (M.applyAsync C) (L.wrap E s) (M.wrap t)).start n ((s', t'), .error e) ∧
      (L.script c).StartsWith xs ∧ d <+: l ++ xs ∧ D (M.core t') d none ∧ w (L.core s') + v (M.core t') = w s + v t + n) ∨
    ((bulkPipe (L.applyAsync debug P) (M.applyAsync C) (L.wrap E s) (M.wrap t)).run = .diverge ∧
      ∀ n, ∃ xs, xs.length = n ∧ (L.script c).StartsWith xs) := by
  have hrun := bulkPipe_run (L.applyAsync debug P) (M.applyAsync C) (L.wrap E s) (M.wrap t)
  rw [scrambling_stack_seq, deferring_stack_seq] at hrun
  have hcount := bulkPipe_counts (scrambling_stack_counts debug hw L) (deferring_stack_counts hv M) (L.wrap E s) (M.wrap t)
  rw [scrambling_stack_core, deferring_stack_core] at hcount
  rcases bulk_pipe_between_scramblers debug h L hL hX hC M with ⟨s', t', xs, f, h1, h2, h3, h4⟩ | ⟨s', t', xs, d, e, h1, h2, h3, h4⟩ |
    ⟨h1, h2⟩
  · obtain ⟨n, hn⟩ := Fut.run_ok_ends (hrun.trans h1)
    exact .inl ⟨n, s', t', xs, f, hn, h2, h3, h4, hcount n _ hn⟩
  · obtain ⟨n, hn⟩ := Fut.run_ok_ends (hrun.trans h1)
    exact .inr (.inl ⟨n, s', t', xs, d, e, hn, h2, h3, h4, hcount n _ hn⟩)
  · exact .inr (.inr ⟨hrun.trans h1, h2⟩)

example : (TestProducer.producer true Nat Unit String).Counts (fun s => suspensions s.yielder) ∧
    BulkPlays (TestProducer.producer true Nat Unit String).seq.noSlurp slowProducer (Script.ofList [1, 2, 3] (.ok ())) ∧
    (ScramblingLayers.some.mapFinal fun _ => ()).NoSlurps ∧ (TestConsumer.consumer true Nat Unit String).Counts (fun s =>
      suspensions s.yielder) ∧ (Policy.failAfter 5 "full" : Policy Nat Unit String).faults.Regular ∧
    BulkDefers (TestConsumer.consumer true Nat Unit String).seq TestConsumer.Seen (Policy.failAfter 5 "full").faults slowConsumer [] :=
  ⟨testProducer_counts true, by rw [testProducer_seq]; exact no_slurp_plays (test_producer_plays true [1, 2, 3] (.ok ()) [] _),
    ScramblingLayers.some_noSlurps, testConsumer_counts true, Policy.regular_faults _,
    by rw [testConsumer_seq]; exact (show BulkCollects _ _ _ _ _ from test_consumer_collects true "full" 5 [] _).toBulkDefers⟩

/-- **C88, waiting.** The pipes between stacks wait for nothing but the two ends: if these stay pending once they are, so do the pipes,
from every state of the stacks. -/
theorem pipe_stacks_hangs {P : Producer σ I F₁ E₁} (hP : P.Hangs) (L : SourceLayers I F₁ J G) {K : Type}
    {C : BufferedConsumer τ K F₂ E₂} (hC : C.Hangs) (M : SinkLayers K F₂ E₂ J G E') (s : L.State σ) (t : M.State τ) :
    (pipe (L.applyAsync P) (M.applyAsync C).toConsumer s t).Hangs :=
  pipe_hangs (source_stack_hangs hP L) (sink_stack_hangs hC M).toHangs s t

theorem bulk_pipe_stacks_hangs (debug : Bool) {P : BulkProducer σ I F E} (hP : P.Hangs) (L : ScramblingLayers I F G)
    {C : BulkConsumer τ I F₂ E₂} (hC : C.Hangs) (M : DeferringLayers I F₂ E₂ G E') (s : L.State σ E) (t : M.State τ) :
    (bulkPipe (L.applyAsync debug P) (M.applyAsync C) s t).Hangs :=
  bulkPipe_hangs (scrambling_stack_hangs debug hP L) (deferring_stack_hangs hC M) s t

example : (pipe (SourceLayers.some.applyAsync (Case.stalled id).toProducer)
      (SinkLayers.some.applyAsync (Case.stalledConsumer (I := Nat)).toBufferedConsumer).toConsumer (SourceLayers.some.wrap 0)
      (SinkLayers.some.wrap [])).Hangs ∧
    (bulkPipe ((ScramblingLayers.some.mapFinal fun _ => ()).applyAsync true (Case.stalled id))
      (DeferringLayers.some.applyAsync Case.stalledConsumer) ((ScramblingLayers.some.mapFinal fun _ => ()).wrap String 0)
      (DeferringLayers.some.wrap [])).Hangs :=
  ⟨pipe_stacks_hangs (Case.stalled_hangs id).toBuffered.toHangs _ Case.stalledConsumer_hangs.toBuffered _ _ _,
    bulk_pipe_stacks_hangs true (Case.stalled_hangs id) _ Case.stalledConsumer_hangs _ _ _⟩

end

end Verif.Async
