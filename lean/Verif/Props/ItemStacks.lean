import Verif.Lemmas.ItemStacks
import Verif.Props.Stacks
import Verif.Props.Codec
import Verif.Props.Endian

/-!
# C87: stacks of adaptors that change items
-/

namespace Verif

open Outcome

section

variable {σ τ I J F G E E₁ E₂ E' F₁ F₂ : Type}

/-- **C87, producers.** Every stack of `Limit`, `MapItem`, `MapFinal` and `Invariant` around a producer emits the composition of the
transformations. -/
theorem source_stack_plays {P : Producer σ I F E} {s : σ} {c : Script I F E} (h : Plays P s c) (L : SourceLayers I F J G) :
    Plays (L.apply P) (L.wrap s) (L.script c) := by
  induction L with
  | nil => exact h
  | limit L n ih => exact limit_plays ih n
  | mapItem L f a ih => exact map_item_plays_unbuffered f a ih
  | mapFinal L f ih => exact ih.mapFinal f
  | invariant L ih => exact ih.invariant

/-- **C87, finite sequences.** The composition of the transformations is that of `take` and of mapping lists. -/
theorem source_stack_is {c : Script I F E} {xs : List I} {r : Except E F} (h : c.Is xs r) (L : SourceLayers I F J G) :
    (L.script c).Is (L.items xs) (L.last xs r) := by
  induction L with
  | nil => exact h
  | limit L n ih => exact ih.limit n
  | mapItem L f a ih => exact ih.mapItem f a
  | mapFinal L f ih => exact ih.mapFinal f
  | invariant L ih => exact ih

/-- Sums of the first items, as strings. -/
abbrev SourceLayers.some : SourceLayers Nat Unit String Bool :=
  ((((SourceLayers.nil.mapItem (fun (a x : Nat) => (a + x, a + x)) 0).limit 2).invariant).mapItem
    (fun (_ : Unit) x => ((), toString x)) ()).mapFinal fun o => o.isNone

example : Plays (SourceLayers.some.apply Case.P.toProducer) (SourceLayers.some.wrap (Case.pro (.error "e")))
    (SourceLayers.some.script (Case.script (.error "e"))) :=
  source_stack_plays (Case.plays _).toPlays SourceLayers.some

example : (SourceLayers.some.script (Script.ofList [1, 2, 3] (.error "e"))).Is ["1", "3"] (.ok true) :=
  source_stack_is (Script.is_ofList _ _) SourceLayers.some

/-- **C87, consumers.** Every such stack around a consumer accepts and refuses according to the composition of the transformations,
and the wrapped consumer has received the images of the items that the stack has consumed, and of the final value. -/
theorem sink_stack_collects {C : BufferedConsumer τ I F E} {D : τ → List I → Option F → Prop} {q : Policy I F E} {t : τ} {l : List I}
    (h : BufCollects C D q t l) (M : SinkLayers I F E J G E') :
    BufCollects (M.apply C) (fun t' l' fin => D (M.core t') (l ++ M.items l') (fin.map M.final)) (M.policy l q) (M.wrap t) [] := by
  induction M with
  | nil =>
    have : (fun (t : τ) l' (fin : Option F) => D t (l ++ l') (fin.map (SinkLayers.final (I := I) (E := E) .nil))) =
        fun t l' => D t (l ++ l') := by
      funext t l' fin; cases fin <;> rfl
    show BufCollects C (fun (t : τ) l' (fin : Option F) => D t (l ++ l') (fin.map (SinkLayers.final (I := I) (E := E) .nil)))
      (q.after l) t []
    rw [this]; exact h.after
  | limit M n ih => exact ih.limit n
  | mapItem M f a ih => exact map_item_collects f a ih
  | mapFinal M f ih =>
    have := ih.mapFinal f
    simp only [Option.map_map] at this
    exact this
  | invariant M ih => exact ih.invariant

/-- Lengths of strings, at most four of them. -/
abbrev SinkLayers.some : SinkLayers Nat Unit E String Bool (Option E) :=
  ((SinkLayers.nil.mapItem (fun (_ : Unit) (x : String) => ((), x.length)) ()).limit 4).invariant.mapFinal fun _ => ()

example : BufCollects (SinkLayers.some.apply Case.C.toBufferedConsumer)
    (fun t l fin => TestConsumer.Seen (SinkLayers.some.core t) (SinkLayers.some.items (E := String) l)
      (fin.map (SinkLayers.some (E := String)).final))
    (SinkLayers.some.policy [] (Case.policy 3)) (SinkLayers.some.wrap (Case.con 3)) [] :=
  sink_stack_collects (Case.collects 3).toBufCollects SinkLayers.some

/-- **C87, pipes.** Piping from any stack into any stack has the result that the transformed sequence and the transformed policy
determine; the innermost consumer has received exactly the items that were piped, mapped. -/
theorem pipe_item_stacks {P : Producer σ I F₁ E₁} {c : Script I F₁ E₁} {s : σ} (hP : Plays P s c) (L : SourceLayers I F₁ J G)
    {K : Type} {C : BufferedConsumer τ K F₂ E₂} {D : τ → List K → Option F₂ → Prop} {q : Policy K F₂ E₂} {t : τ} {l : List K}
    (hC : BufCollects C D q t l) (M : SinkLayers K F₂ E₂ J G E') {xs : List J} {fin : Option G}
    {res : Except (PipeError E₁ E') Unit} (h : PipeResult (L.script c) (M.policy l q) [] xs fin res) :
    ∃ s' t', pipe (L.apply P) (M.apply C).toConsumer (L.wrap s) (M.wrap t) = ok ((s', t'), res) ∧
      D (M.core t') (l ++ M.items xs) (fin.map M.final) :=
  pipe_spec (source_stack_plays hP L) (sink_stack_collects hC M).toCollects h

/-- A stack around a consumer that accepts everything refuses exactly the items beyond its smallest limit. -/
theorem sink_stack_answer {q : Policy I F E} (hq : ∀ l x, q.answer l x = none) (l₀ : List I) (M : SinkLayers I F E J G E')
    (l : List J) (x : J) : (M.policy l₀ q).answer l x = none ↔ M.Fits (l.length + 1) := by
  induction M with
  | nil => exact iff_of_true (hq (l₀ ++ l) x) trivial
  | limit M n ih =>
    have ih := ih l x
    simp only [SinkLayers.policy, SinkLayers.Fits, Policy.answer, Policy.limit, Option.or_eq_none_iff] at ih ⊢
    rw [← ih]
    by_cases hn : n ≤ l.length
    · simp [hn]; omega
    · simp only [hn, if_false, Option.map_eq_none_iff]
      constructor
      · exact fun h => ⟨by omega, h⟩
      · exact fun h => h.2
  | mapItem M f a ih =>
    have := ih (results f a l) (f (stateAfter f a l) x).2
    rw [results_length] at this
    exact this
  | mapFinal M f ih => exact ih l x
  | invariant M ih => exact ih l x

theorem sink_stack_close {q : Policy I F E} (hq : ∀ l f, q.refuseClose l f = none) (l₀ : List I) (M : SinkLayers I F E J G E')
    (l : List J) (f : G) : (M.policy l₀ q).refuseClose l f = none := by
  induction M with
  | nil => exact hq _ _
  | limit M n ih => simp [SinkLayers.policy, Policy.limit, ih]
  | mapItem M g a ih => exact ih _ _
  | mapFinal M g ih => exact ih _ _
  | invariant M ih => exact ih _ _

/-- A vector behind a limit of two accepts a second item, but no third one, and can be closed. -/
example : ((SinkLayers.limit (.nil (I := Nat) (F := Unit) (E := Empty)) 2).policy [] Policy.acceptAll).answer [7] 8 = none ∧
    ((SinkLayers.limit (.nil (I := Nat) (F := Unit) (E := Empty)) 2).policy [] Policy.acceptAll).answer [7, 8] 9 ≠ none ∧
    ((SinkLayers.limit (.nil (I := Nat) (F := Unit) (E := Empty)) 2).policy [] Policy.acceptAll).refuseClose [7, 8] () = none :=
  ⟨(sink_stack_answer (fun _ _ => rfl) _ _ _ _).mpr ⟨by decide, trivial⟩,
    fun h => absurd ((sink_stack_answer (fun _ _ => rfl) _ _ _ _).mp h).1 (by decide),
    sink_stack_close (fun _ _ => rfl) _ _ _ _⟩

theorem SinkLayers.Fits.mono {M : SinkLayers I F E J G E'} {k k' : Nat} (h : M.Fits k) (hk : k' ≤ k) : M.Fits k' := by
  induction M with
  | nil => trivial
  | limit M n ih => exact ⟨Nat.le_trans hk h.1, ih h.2⟩
  | mapItem M f a ih => exact ih h
  | mapFinal M f ih => exact ih h
  | invariant M ih => exact ih h

theorem SinkLayers.fits_zero (M : SinkLayers I F E J G E') : M.Fits 0 := by
  induction M with
  | nil => trivial
  | limit M n ih => exact ⟨Nat.zero_le _, ih⟩
  | mapItem M f a ih => exact ih
  | mapFinal M f ih => exact ih
  | invariant M ih => exact ih

/-- **C87, finite sequences, end to end.** From a producer of the items `xs` and then the final value or error `r`, through any two
stacks, into a consumer that accepts everything:
* if all items fit through the limits of the second stack, all are consumed, mapped by both stacks, and then the consumer is closed with
  the mapped final value, or the error of the producer is reported;
* otherwise those that fit are consumed, and the consumer side reports an error. -/
theorem pipe_through_stacks {P : Producer σ I F₁ E₁} {c : Script I F₁ E₁} {s : σ} (hP : Plays P s c) {xs : List I}
    {r : Except E₁ F₁} (hc : c.Is xs r) (L : SourceLayers I F₁ J G) {K : Type} {C : BufferedConsumer τ K F₂ E₂}
    {D : τ → List K → Option F₂ → Prop} {q : Policy K F₂ E₂} {t : τ} {l : List K} (hC : BufCollects C D q t l)
    (hq : ∀ l x, q.answer l x = none) (hq' : ∀ l f, q.refuseClose l f = none) (M : SinkLayers K F₂ E₂ J G E') :
    ∃ s' t' res, pipe (L.apply P) (M.apply C).toConsumer (L.wrap s) (M.wrap t) = ok ((s', t'), res) ∧
      (M.Fits (L.items xs).length →
        (∀ g, L.last xs r = .ok g → res = .ok () ∧ D (M.core t') (l ++ M.items (L.items xs)) (some (M.final g))) ∧
        (∀ e, L.last xs r = .error e → res = .error (.producer e) ∧ D (M.core t') (l ++ M.items (L.items xs)) none)) ∧
      (¬ M.Fits (L.items xs).length → ∃ k e, M.Fits k ∧ ¬ M.Fits (k + 1) ∧ res = .error (.consumer e) ∧
        D (M.core t') (l ++ M.items ((L.items xs).take k)) none) := by
  obtain ⟨hs, he⟩ := source_stack_is hc L
  have acc : ∀ k, M.Fits k → k ≤ (L.items xs).length → (M.policy l q).Accepts [] ((L.items xs).take k) := by
    intro k hk hl i x hi
    rw [List.nil_append, sink_stack_answer hq]
    have : i < ((L.items xs).take k).length := (List.getElem?_eq_some_iff.mp hi).1
    refine hk.mono ?_
    simp at this ⊢
    omega
  by_cases hf : M.Fits (L.items xs).length
  · have hacc := acc _ hf (Nat.le_refl _)
    rw [List.take_length] at hacc
    rcases hl : L.last xs r with e | g
    · rw [hl] at he
      obtain ⟨s', t', h1, h2⟩ := pipe_item_stacks hP L hC M (PipeResult.producerFailed hs hacc he)
      exact ⟨s', t', _, h1, fun _ => ⟨nofun, fun e' h => by cases h; exact ⟨rfl, h2⟩⟩, fun h => absurd hf h⟩
    · rw [hl] at he
      obtain ⟨s', t', h1, h2⟩ := pipe_item_stacks hP L hC M (PipeResult.closed hs hacc he (sink_stack_close hq' _ _ _ _))
      exact ⟨s', t', _, h1, fun _ => ⟨fun g' h => by cases h; exact ⟨rfl, h2⟩, nofun⟩, fun h => absurd hf h⟩
  · obtain ⟨k, hk, h1, h2⟩ : ∃ k, k < (L.items xs).length ∧ M.Fits k ∧ ¬ M.Fits (k + 1) := by
      have h0 : M.Fits 0 := M.fits_zero
      clear acc he hs
      generalize (L.items xs).length = n at hf
      induction n with
      | zero => exact absurd h0 hf
      | succ n ih =>
        by_cases hn : M.Fits n
        · exact ⟨n, by omega, hn, hf⟩
        · obtain ⟨k, h1, h2⟩ := ih hn
          exact ⟨k, by omega, h2⟩
    have hx : (L.items xs)[k]? = some (L.items xs)[k] := List.getElem?_eq_getElem hk
    obtain ⟨e, ha⟩ : ∃ e, (M.policy l q).answer ([] ++ (L.items xs).take k) (L.items xs)[k] = some e := by
      rcases ha : (M.policy l q).answer ([] ++ (L.items xs).take k) (L.items xs)[k] with _ | e
      · rw [List.nil_append, sink_stack_answer hq] at ha
        refine absurd ?_ h2
        rw [List.length_take, Nat.min_eq_left (by omega)] at ha
        exact ha
      · exact ⟨e, rfl⟩
    have hpre : (L.script c).StartsWith ((L.items xs).take k) := by
      intro i x hi
      rw [List.getElem?_take] at hi
      split at hi
      · exact hs i x hi
      · cases hi
    have hlen : ((L.items xs).take k).length = k := by simp; omega
    obtain ⟨s', t', h3, h4⟩ := pipe_item_stacks hP L hC M
      (PipeResult.itemRefused hpre (acc k h1 (by omega)) (by rw [hlen]; exact hs k _ hx) ha)
    exact ⟨s', t', _, h3, fun h => absurd h hf, fun _ => ⟨k, e, h1, h2, rfl, h4⟩⟩

/-- Three numbers: the lengths of the decimal representations of the first two partial sums arrive in the vector. -/
example : ∃ s' t', pipe (SourceLayers.some.apply (FromSlice.producer Nat).toProducer)
    (SinkLayers.some.apply Case.V.toBufferedConsumer).toConsumer (SourceLayers.some.wrap (FromSlice.new [1, 20, 3]))
    (SinkLayers.some.wrap (IntoVec.fromVec [7])) = ok ((s', t'), .ok ()) ∧
    Case.Contents (SinkLayers.some.core (E := Empty) t') [7, 1, 2] (some ()) := by
  obtain ⟨s', t', res, h1, h2, -⟩ := pipe_through_stacks (from_slice_plays [1, 20, 3]).toPlays (Script.is_ofList _ _)
    SourceLayers.some (Case.vec_collects [7]).toBufCollects (fun _ _ => rfl) (fun _ _ => rfl) SinkLayers.some
  obtain ⟨rfl, h3⟩ := (h2 ⟨by decide, trivial⟩).1 true rfl
  exact ⟨s', t', h1, h3⟩

/-- The same with five numbers and a limit of six for the producer: the limit of four of the consumer is exceeded. -/
example : ∃ s' t' e, pipe (((SourceLayers.nil.mapItem (fun (_ : Unit) (x : Nat) => ((), toString x)) ()).limit 6 |>.mapFinal
      fun o => o.isNone).apply (FromSlice.producer Nat).toProducer)
    (SinkLayers.some.apply Case.V.toBufferedConsumer).toConsumer
    (((SourceLayers.nil.mapItem (fun (_ : Unit) (x : Nat) => ((), toString x)) ()).limit 6 |>.mapFinal
      fun o => o.isNone).wrap (FromSlice.new [1, 20, 3, 400, 5]))
    (SinkLayers.some.wrap (IntoVec.fromVec [7])) = ok ((s', t'), .error (.consumer e)) ∧
    Case.Contents (SinkLayers.some.core (E := Empty) t') [7, 1, 2, 1, 3] none := by
  obtain ⟨s', t', res, h1, -, h2⟩ := pipe_through_stacks (from_slice_plays [1, 20, 3, 400, 5]).toPlays (Script.is_ofList _ _)
    ((SourceLayers.nil.mapItem (fun (_ : Unit) (x : Nat) => ((), toString x)) ()).limit 6 |>.mapFinal fun o => o.isNone)
    (Case.vec_collects [7]).toBufCollects (fun _ _ => rfl) (fun _ _ => rfl) SinkLayers.some
  obtain ⟨k, e, h3, h4, rfl, h5⟩ := h2 fun h => absurd h.1 (by decide)
  have : k = 4 := by
    have h3 := h3.1
    have h4 : ¬ k + 1 ≤ 4 := fun h => h4 ⟨h, trivial⟩
    omega
  subst this
  exact ⟨s', t', e, h1, h5⟩

/-- Truth values, counted. -/
abbrev SourceLayers.counting : SourceLayers Bool Nat UInt16 Unit :=
  (SourceLayers.nil.mapItem (fun (n : UInt16) (b : Bool) => (if b then n + 1 else n, if b then n + 1 else n)) 0x0100).mapFinal
    fun _ => ()

/-- From one codec to another: two truth values are decoded, counted, and encoded as numbers of two bytes each, of which the second does
not fit into the last three bytes. -/
example : ∃ s' t', pipe (SourceLayers.counting.apply (decoder Case.flagDecodable.toDecodable Case.bytes).toProducer)
    ((SinkLayers.nil (E := String).invariant).apply (encoder U16BE.encodable.toEncodable Case.sink)).toConsumer
    (SourceLayers.counting.wrap (Case.from_ [1, 0] (.ok 5))) ((SinkLayers.nil (E := String).invariant).wrap (Case.upTo 3)) =
      ok ((s', t'), .error (.consumer "full")) ∧
    Encoded TestConsumer.Seen (u16.toBytes .big) [] ((SinkLayers.nil (E := String).invariant).core t') [0x0101] none :=
  pipe_item_stacks (decoder_plays Case.flag_decodes rfl (Case.from_plays _ _) (Case.flag_decodes_both 5)).toPlays
    SourceLayers.counting (encoder_collects (u16.encodesLaw .big) (Case.upTo_collects 3)) SinkLayers.nil.invariant
    (PipeResult.itemRefused (xs := [0x0101]) (x := 0x0101) (source_stack_is (Script.is_ofList [true, false] (.ok 5))
      SourceLayers.counting).1.left (fun i x hi => by
        match i, hi with
        | 0, hi => cases hi; rfl) rfl rfl)

end

end Verif
