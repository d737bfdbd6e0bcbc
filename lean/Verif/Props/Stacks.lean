import Verif.Props.Maps
import Verif.Cases

/-!
# C48: stacks of adaptors
-/

namespace Verif

open Outcome

section

variable {σ τ I : Type}

/-! ## Producers -/

/-- A stack of producer adaptors around a producer of items `I` with errors `E` and final values `F`, resulting in a producer
with final values `G`. The innermost adaptor is applied first. -/
inductive ProducerLayers (F : Type) : Type → Type 1 where
  | nil : ProducerLayers F F
  | limit {G} (L : ProducerLayers F G) (n : Nat) : ProducerLayers F (Option G)
  | mapFinal {G H} (L : ProducerLayers F G) (f : G → H) : ProducerLayers F H
  | invariant {G} (L : ProducerLayers F G) : ProducerLayers F G
  | invariantNoop {G} (L : ProducerLayers F G) : ProducerLayers F G

namespace ProducerLayers

variable {F G E : Type}

/-- The state of the stack. -/
def State (σ : Type) : {G : Type} → ProducerLayers F G → Type
  | _, nil => σ
  | _, limit L _ => LimitSt (L.State σ)
  | _, @mapFinal _ G H L _ => MapFinalSt (L.State σ) G H
  | _, invariant L => InvariantSt (L.State σ)
  | _, invariantNoop L => L.State σ

/-- The stack of adaptors around a producer. -/
def apply (P : BulkProducer σ I F E) : {G : Type} → (L : ProducerLayers F G) → BulkProducer (L.State σ) I G E
  | _, nil => P
  | _, limit L _ => limitBulkProducer (L.apply P)
  | _, mapFinal L _ => mapFinalBulkProducer (L.apply P)
  | _, invariant L => invariantBulkProducer (L.apply P)
  | _, invariantNoop L => invariantNoopBulkProducer (L.apply P)

/-- The initial state of the stack. -/
def wrap (s : σ) : {G : Type} → (L : ProducerLayers F G) → L.State σ
  | _, nil => s
  | _, limit L n => ⟨L.wrap s, n⟩
  | _, mapFinal L f => ⟨L.wrap s, some f⟩
  | _, invariant L => .new (L.wrap s)
  | _, invariantNoop L => L.wrap s

/-- The composition of the transformations of sequences. -/
def script (c : Script I F E) : {G : Type} → ProducerLayers F G → Script I G E
  | _, nil => c
  | _, limit L n => (L.script c).limit n
  | _, mapFinal L f => (L.script c).mapFinal f
  | _, invariant L => L.script c
  | _, invariantNoop L => L.script c

/-- No limit cuts off the sequence directly before an error (see `limit_slurp_leaks_error`). -/
def NoErrorAtLimit (c : Script I F E) : {G : Type} → ProducerLayers F G → Prop
  | _, nil => True
  | _, limit L n => L.NoErrorAtLimit c ∧
      ∀ e, L.script c n = .error e → ∃ i, i < n ∧ ∀ x, L.script c i ≠ .ok (.inl x)
  | _, mapFinal L _ => L.NoErrorAtLimit c
  | _, invariant L => L.NoErrorAtLimit c
  | _, invariantNoop L => L.NoErrorAtLimit c

/-- A sequence without errors is not affected by the restriction. -/
theorem noErrorAtLimit_of_no_error {c : Script I F E} (h : ∀ i e, c i ≠ .error e) {G : Type} (L : ProducerLayers F G) :
    L.NoErrorAtLimit c := by
  have key : ∀ {G : Type} (L : ProducerLayers F G), ∀ i e, L.script c i ≠ .error e := by
    intro G L
    induction L with
    | nil => exact h
    | limit L n ih =>
      intro i e
      simp only [script, Script.limit]
      split
      · rcases hc : L.script c i with e' | x | f
        · exact absurd hc (ih i e')
        · simp
        · simp
      · simp
    | mapFinal L f ih =>
      intro i e
      simp only [script, Script.mapFinal]
      rcases hc : L.script c i with e' | x | f
      · exact absurd hc (ih i e')
      · simp
      · simp
    | invariant L ih => exact ih
    | invariantNoop L ih => exact ih
  induction L with
  | nil => trivial
  | limit L n ih => exact ⟨ih, fun e he => absurd he (key L n e)⟩
  | mapFinal L f ih => exact ih
  | invariant L ih => exact ih
  | invariantNoop L ih => exact ih

end ProducerLayers

/-- **C48, producers, all methods, partial.** Every stack of adaptors around a lawful bulk producer is lawful, and emits the transformed
sequence (unless a limit cuts off the sequence directly before an error, when C20 is false; without `slurp`
there is no such restriction, see `producer_stack_plays_without_slurp`). -/
theorem producer_stack_plays_partial {F G E : Type} {P : BulkProducer σ I F E} {s : σ} {c : Script I F E} (h : BulkPlays P s c)
    (L : ProducerLayers F G) (hL : L.NoErrorAtLimit c) : BulkPlays (L.apply P) (L.wrap s) (L.script c) := by
  induction L with
  | nil => exact h
  | limit L n ih => exact limit_bulk_plays_partial (ih hL.1) n hL.2
  | mapFinal L f ih => exact map_final_plays f (ih hL)
  | invariant L ih => exact producer_invariant_plays (ih hL)
  | invariantNoop L ih => exact producer_invariant_noop_plays (ih hL)

example : BulkPlays ((((ProducerLayers.nil (F := Unit)).limit 2).mapFinal fun o => o.isNone).apply (FromSlice.producer Nat))
    ((((ProducerLayers.nil (F := Unit)).limit 2).mapFinal fun o => o.isNone).wrap (FromSlice.new [1, 2, 3]))
    ((((ProducerLayers.nil (F := Unit)).limit 2).mapFinal fun o => o.isNone).script (Script.ofList [1, 2, 3] (.ok ()))) :=
  producer_stack_plays_partial (from_slice_plays [1, 2, 3]) _
    (ProducerLayers.noErrorAtLimit_of_no_error (fun _ e => nomatch e) _)

/-- **C48, producers, all methods except `slurp`.** Every stack of adaptors around a lawful bulk producer emits the transformed
sequence for every mix of `produce`, `expose_items`/`consider_produced` and `bulk_produce`. -/
theorem producer_stack_plays_without_slurp {F G E : Type} {P : BulkProducer σ I F E} {s : σ} {c : Script I F E}
    (h : BulkPlays P s c) (L : ProducerLayers F G) : BulkPlays (L.apply P).noSlurp (L.wrap s) (L.script c) := by
  induction L with
  | nil => exact no_slurp_plays h
  | limit L n ih => exact limit_bulk_plays_without_slurp (P := (L.apply P).noSlurp) ih n
  | mapFinal L f ih => have := no_slurp_plays (map_final_plays (P := (L.apply P).noSlurp) f ih); exact this
  | invariant L ih => have := no_slurp_plays (producer_invariant_plays (P := (L.apply P).noSlurp) ih); exact this
  | invariantNoop L ih => have := no_slurp_plays (producer_invariant_noop_plays (P := (L.apply P).noSlurp) ih); exact this

/-- Here the sequence ends with an error right at the limit. -/
example : BulkPlays ((((ProducerLayers.nil (F := Unit)).limit 3).invariant).apply Case.P).noSlurp
    ((((ProducerLayers.nil (F := Unit)).limit 3).invariant).wrap (Case.pro (.error "broken")))
    ((((ProducerLayers.nil (F := Unit)).limit 3).invariant).script (Case.script (.error "broken"))) :=
  producer_stack_plays_without_slurp (Case.plays _) _

theorem Plays.mapFinal {F G E : Type} (f : F → G) {P : Producer σ I F E} {s : σ} {c : Script I F E} (h : Plays P s c) :
    Plays (mapFinalProducer P) ⟨s, some f⟩ (c.mapFinal f) := by
  obtain ⟨R, hR, hs⟩ := h
  refine ⟨fun s c' => ∃ c, R s.inner c ∧ s.fn = some f ∧ c' = c.mapFinal f, ⟨?_⟩, c, hs, rfl, rfl⟩
  rintro ⟨s, _⟩ c' ⟨c, hR', rfl, rfl⟩
  obtain ⟨s', h1, h2⟩ := hR.produce s c hR'
  rcases hc : c 0 with e | x | fin <;> rw [hc] at h1
  · exact ⟨⟨s', some f⟩, by simp [mapFinalProducer, h1, Script.mapFinal, hc], by simp [Script.mapFinal, hc]⟩
  · exact ⟨⟨s', some f⟩, by simp [mapFinalProducer, h1, Script.mapFinal, hc],
      fun _ _ => ⟨c.drop 1, h2 x hc, rfl, rfl⟩⟩
  · exact ⟨⟨s', none⟩, by simp [mapFinalProducer, h1, Script.mapFinal, hc], by simp [Script.mapFinal, hc]⟩

theorem Plays.invariant {F E : Type} {P : Producer σ I F E} {s : σ} {c : Script I F E} (h : Plays P s c) :
    Plays (invariantProducer P) (.new s) c := by
  obtain ⟨R, hR, hs⟩ := h
  refine ⟨fun s c => R s.inner c ∧ s.active = true, ⟨?_⟩, hs, rfl⟩
  rintro ⟨s, _, e⟩ c ⟨hR', rfl⟩
  obtain ⟨s', h1, h2⟩ := hR.produce s c hR'
  rcases hc : c 0 with e' | x | fin <;> rw [hc] at h1
  · exact ⟨⟨s', false, e⟩, by simp [invariantProducer, InvariantSt.checkInactive, h1], by simp⟩
  · exact ⟨⟨s', true, e⟩, by simp [invariantProducer, InvariantSt.checkInactive, h1], fun x' hx' => ⟨h2 x hc, rfl⟩⟩
  · exact ⟨⟨s', false, e⟩, by simp [invariantProducer, InvariantSt.checkInactive, h1], by simp⟩

/-- **C48, producers, `produce` only.** Without any restriction. -/
theorem producer_stack_plays_itemwise {F G E : Type} {P : BulkProducer σ I F E} {s : σ} {c : Script I F E}
    (h : Plays P.toProducer s c) (L : ProducerLayers F G) :
    Plays (L.apply P).toProducer (L.wrap s) (L.script c) := by
  induction L with
  | nil => exact h
  | limit L n ih => exact limit_plays ih n
  | mapFinal L f ih => exact ih.mapFinal f
  | invariant L ih => exact ih.invariant
  | invariantNoop L ih => exact ih

example : Plays ((((ProducerLayers.nil (F := Unit)).limit 3).invariant).apply Case.P).toProducer
    ((((ProducerLayers.nil (F := Unit)).limit 3).invariant).wrap (Case.pro (.error "broken")))
    ((((ProducerLayers.nil (F := Unit)).limit 3).invariant).script (Case.script (.error "broken"))) :=
  producer_stack_plays_itemwise (Case.plays _).toPlays _

/-! ## Consumers -/

/-- A stack of consumer adaptors around a consumer with final values `F` and errors `E`, resulting in a consumer with final
values `G` and errors `E'`. -/
inductive ConsumerLayers (F E : Type) : Type → Type → Type 1 where
  | nil : ConsumerLayers F E F E
  | limit {G E'} (L : ConsumerLayers F E G E') (n : Nat) : ConsumerLayers F E G (Option E')
  | mapFinal {G H E'} (L : ConsumerLayers F E G E') (f : H → G) : ConsumerLayers F E H E'
  | invariant {G E'} (L : ConsumerLayers F E G E') : ConsumerLayers F E G E'
  | invariantNoop {G E'} (L : ConsumerLayers F E G E') : ConsumerLayers F E G E'

namespace ConsumerLayers

variable {F E : Type}

def State (τ : Type) : {G E' : Type} → ConsumerLayers F E G E' → Type
  | _, _, nil => τ
  | _, _, limit L _ => LimitSt (L.State τ)
  | _, _, @mapFinal _ _ G H _ L _ => MapFinalSt (L.State τ) H G
  | _, _, invariant L => InvariantSt (L.State τ)
  | _, _, invariantNoop L => L.State τ

def apply (C : BulkConsumer τ I F E) : {G E' : Type} → (L : ConsumerLayers F E G E') → BulkConsumer (L.State τ) I G E'
  | _, _, nil => C
  | _, _, limit L _ => limitBulkConsumer (L.apply C)
  | _, _, mapFinal L _ => mapFinalBulkConsumer (L.apply C)
  | _, _, invariant L => invariantBulkConsumer (L.apply C)
  | _, _, invariantNoop L => invariantNoopBulkConsumer (L.apply C)

def wrap (t : τ) : {G E' : Type} → (L : ConsumerLayers F E G E') → L.State τ
  | _, _, nil => t
  | _, _, limit L n => ⟨L.wrap t, n⟩
  | _, _, mapFinal L f => ⟨L.wrap t, some f⟩
  | _, _, invariant L => .new (L.wrap t)
  | _, _, invariantNoop L => L.wrap t

/-- The wrapped consumer in a state of the stack. -/
def core : {G E' : Type} → (L : ConsumerLayers F E G E') → L.State τ → τ
  | _, _, nil, s => s
  | _, _, limit L _, s => L.core s.inner
  | _, _, mapFinal L _, s => L.core s.inner
  | _, _, invariant L, s => L.core s.inner
  | _, _, invariantNoop L, s => L.core s

/-- The final value with which the wrapped consumer is closed. -/
def final : {G E' : Type} → ConsumerLayers F E G E' → G → F
  | _, _, nil, f => f
  | _, _, limit L _, f => L.final f
  | _, _, mapFinal L g, f => L.final (g f)
  | _, _, invariant L, f => L.final f
  | _, _, invariantNoop L, f => L.final f

/-- The composition of the transformations of policies, for a consumer that has already consumed `k` items. -/
def policy (k : Nat) (q : Policy I F E) : {G E' : Type} → ConsumerLayers F E G E' → Policy I G E'
  | _, _, nil => q
  | _, _, limit L n => (L.policy k q).limit (k + n)
  | _, _, mapFinal L f => (L.policy k q).mapFinal f
  | _, _, invariant L => L.policy k q
  | _, _, invariantNoop L => L.policy k q

end ConsumerLayers

/-- **C48, consumers.** Every stack of adaptors around a lawful bulk consumer is lawful, accepts and refuses according to the
transformed policy, and the wrapped consumer consumes exactly the items (and the mapped final value). -/
theorem consumer_stack_collects {F E G E' : Type} {C : BulkConsumer τ I F E} {D : τ → List I → Option F → Prop}
    {q : Policy I F E} {t : τ} {l : List I} (h : BulkCollects C D q t l) (L : ConsumerLayers F E G E') :
    BulkCollects (L.apply C) (fun t l fin => D (L.core t) l (fin.map L.final)) (L.policy l.length q) (L.wrap t) l := by
  induction L with
  | nil =>
    have : (fun (t : τ) l (fin : Option F) => D t l (fin.map (ConsumerLayers.final (E := E) .nil))) = D := by
      funext t l fin; cases fin <;> rfl
    show BulkCollects C (fun (t : τ) l (fin : Option F) => D t l (fin.map (ConsumerLayers.final (E := E) .nil))) q t l
    rw [this]; exact h
  | limit L n ih => exact limit_collects ih n
  | mapFinal L f ih =>
    have := map_final_collects f ih
    simp only [Option.map_map] at this
    exact this
  | invariant L ih => exact consumer_invariant_collects ih
  | invariantNoop L ih => exact consumer_invariant_noop_collects ih

example : BulkCollects ((((ConsumerLayers.nil (F := Unit) (E := String)).limit 2).mapFinal fun (_ : Bool) => ()).apply Case.C)
    (fun t l fin => TestConsumer.Seen
      ((((ConsumerLayers.nil (F := Unit) (E := String)).limit 2).mapFinal fun (_ : Bool) => ()).core t) l
      (fin.map (((ConsumerLayers.nil (F := Unit) (E := String)).limit 2).mapFinal fun (_ : Bool) => ()).final))
    ((((ConsumerLayers.nil (F := Unit) (E := String)).limit 2).mapFinal fun (_ : Bool) => ()).policy 0 (Case.policy 4))
    ((((ConsumerLayers.nil (F := Unit) (E := String)).limit 2).mapFinal fun (_ : Bool) => ()).wrap (Case.con 4)) [] :=
  consumer_stack_collects (Case.collects 4) _

/-! ## Pipes -/

/-- **C48, `pipe`.** Piping from any stack around a lawful producer into any stack around a lawful consumer has the result that
the transformed sequence and the transformed policy determine, and the innermost consumer has received exactly those items
(and the mapped final value). -/
theorem pipe_stacks {F₁ F₂ E₁ E₂ G E' : Type} {P : BulkProducer σ I F₁ E₁} {C : BulkConsumer τ I F₂ E₂}
    {D : τ → List I → Option F₂ → Prop} {c : Script I F₁ E₁} {q : Policy I F₂ E₂} {s : σ} {t : τ} {l : List I}
    (hP : Plays P.toProducer s c) (hC : BulkCollects C D q t l) (L : ProducerLayers F₁ G) (M : ConsumerLayers F₂ E₂ G E')
    {xs : List I} {fin : Option G} {res : Except (PipeError E₁ E') Unit}
    (h : PipeResult (L.script c) (M.policy l.length q) l xs fin res) :
    ∃ s' t', pipe (L.apply P).toProducer (M.apply C).toConsumer (L.wrap s) (M.wrap t) = ok ((s', t'), res) ∧
      D (M.core t') (l ++ xs) (fin.map M.final) :=
  pipe_spec (producer_stack_plays_itemwise hP L) (consumer_stack_collects hC M).toCollects h

example : ∃ s' t', pipe
    (((((ProducerLayers.nil (F := Unit)).limit 2).mapFinal fun o => o.isNone).invariant).apply (FromSlice.producer Nat)).toProducer
    (((((ConsumerLayers.nil (F := Unit) (E := Empty)).limit 5).mapFinal fun (_ : Bool) => ()).invariant).apply
      (IntoVec.consumer Nat)).toConsumer
    (((((ProducerLayers.nil (F := Unit)).limit 2).mapFinal fun o => o.isNone).invariant).wrap (FromSlice.new [1, 2, 3]))
    (((((ConsumerLayers.nil (F := Unit) (E := Empty)).limit 5).mapFinal fun (_ : Bool) => ()).invariant).wrap
      (IntoVec.fromVec [7]))
    = ok ((s', t'), .ok ()) ∧
    (((((ConsumerLayers.nil (F := Unit) (E := Empty)).limit 5).mapFinal fun (_ : Bool) => ()).invariant).core t').intoVec =
      [7, 1, 2] := by
  obtain ⟨s', t', h1, _, h2⟩ := pipe_stacks (from_slice_plays [1, 2, 3]).toPlays (into_vec_collects [7])
    (((ProducerLayers.nil.limit 2).mapFinal fun o => o.isNone).invariant)
    (((ConsumerLayers.nil.limit 5).mapFinal fun (_ : Bool) => ()).invariant) (xs := [1, 2]) (fin := some true) (res := .ok ())
    (.closed (by intro i x hi; match i, hi with | 0, hi => cases hi; rfl | 1, hi => cases hi; rfl)
      (by intro i x hi; match i with | 0 => rfl | 1 => rfl | _ + 2 => simp at hi) rfl rfl)
  exact ⟨s', t', h1, h2⟩

/-- **C48, `bulk_pipe`.** -/
theorem bulk_pipe_stacks {F₁ F₂ E₁ E₂ G E' : Type} {P : BulkProducer σ I F₁ E₁} {C : BulkConsumer τ I F₂ E₂}
    {D : τ → List I → Option F₂ → Prop} {c : Script I F₁ E₁} {q : Policy I F₂ E₂} {s : σ} {t : τ} {l : List I}
    (hP : BulkPlays P s c) (hC : BulkCollects C D q t l) (L : ProducerLayers F₁ G)
    (M : ConsumerLayers F₂ E₂ G E') {xs : List I} {fin : Option G} {res : Except (PipeError E₁ E') Unit}
    (h : PipeResult (L.script c) (M.policy l.length q) l xs fin res) :
    ∃ s' t', bulkPipe (L.apply P) (M.apply C) (L.wrap s) (M.wrap t) = ok ((s', t'), res) ∧
      D (M.core t') (l ++ xs) (fin.map M.final) := by
  obtain ⟨s', t', h1, h2, _⟩ := bulk_pipe_spec (producer_stack_plays_without_slurp hP L) (consumer_stack_collects hC M) h
  exact ⟨s', t', h1, h2⟩

/-- A vector limited to five items receives the first two of three items through a limit, a changed final value and a
checker. -/
example : ∃ s' t', bulkPipe
    (((((ProducerLayers.nil (F := Unit)).limit 2).mapFinal fun o => o.isNone).invariant).apply (FromSlice.producer Nat))
    (((((ConsumerLayers.nil (F := Unit) (E := Empty)).limit 5).mapFinal fun (_ : Bool) => ()).invariant).apply
      (IntoVec.consumer Nat))
    (((((ProducerLayers.nil (F := Unit)).limit 2).mapFinal fun o => o.isNone).invariant).wrap (FromSlice.new [1, 2, 3]))
    (((((ConsumerLayers.nil (F := Unit) (E := Empty)).limit 5).mapFinal fun (_ : Bool) => ()).invariant).wrap
      (IntoVec.fromVec [7]))
    = ok ((s', t'), .ok ()) ∧
    (((((ConsumerLayers.nil (F := Unit) (E := Empty)).limit 5).mapFinal fun (_ : Bool) => ()).invariant).core t').intoVec =
      [7, 1, 2] := by
  obtain ⟨s', t', h1, _, h2⟩ := bulk_pipe_stacks (from_slice_plays [1, 2, 3]) (into_vec_collects [7])
    (((ProducerLayers.nil.limit 2).mapFinal fun o => o.isNone).invariant)
    (((ConsumerLayers.nil.limit 5).mapFinal fun (_ : Bool) => ()).invariant) (xs := [1, 2]) (fin := some true) (res := .ok ())
    (.closed (by intro i x hi; match i, hi with | 0, hi => cases hi; rfl | 1, hi => cases hi; rfl)
      (by intro i x hi; match i with | 0 => rfl | 1 => rfl | _ + 2 => simp at hi) rfl rfl)
  exact ⟨s', t', h1, h2⟩

end

end Verif
