import Verif.Lemmas.IntoInner
import Verif.Lemmas.Maps
import Verif.Props.Limit
import Verif.Props.Io
import Verif.Props.Scramblers
import Verif.Cases

/-!
# C68: `into_inner` gives back a value that continues where the adaptor stopped
-/

namespace Verif

open Outcome

section

variable {σ I F E : Type}

/-! ## Producers -/

/-- **C68, `producer::Limit`.** After every history of calls, also one that has reached the limit, the recovered producer
emits exactly the items that have not been handed out. (Items that were exposed but not considered produced are among
them.) -/
theorem limit_into_inner {P : BulkProducer σ I F E} {s : σ} {c : Script I F E} (hP : BulkPlays P s c) {n : Nat}
    {handed : List I} {t : LimitSt σ} {shown : List I} {ended : Option (Except E (Option F))}
    (h : ProducerRuns (limitBulkProducer P) ⟨s, n⟩ handed t shown ended) (he : ended = none ∨ ended = some (.ok none)) :
    c.StartsWith handed ∧ BulkPlays P t.intoInner (c.drop handed.length) := by
  obtain ⟨shown', ended', h1, -, h2, -⟩ := limit_histories (fun hr => hP.never_empty hr) h
  rcases he with rfl | rfl
  · obtain rfl : ended' = none := h2
    exact hP.afterRun h1
  · obtain ⟨rfl, -⟩ := h2
    exact hP.afterRun h1

/-- Two of three items, then the limit. -/
example : ∃ t, ProducerRuns (limitBulkProducer (FromSlice.producer Nat)) ⟨FromSlice.new [1, 2, 3], 2⟩ [1, 2] t []
      (some (.ok none)) ∧
    BulkPlays (FromSlice.producer Nat) t.intoInner ((Script.ofList [1, 2, 3] (.ok ())).drop 2) := by
  have h0 := ProducerRuns.start (P := limitBulkProducer (FromSlice.producer Nat)) (s₀ := ⟨FromSlice.new [1, 2, 3], 2⟩)
  have h1 := h0.call (op := .exposeItems) (r := ⟨[], [1, 2], none⟩) trivial rfl
  have h2 := h1.call (op := .considerProduced 2) (r := ⟨[1, 2], [], none⟩) ⟨by decide, by decide⟩ rfl
  have h3 := h2.call (op := .produce) (r := ⟨[], [], some (.ok none)⟩) trivial rfl
  exact ⟨_, h3, (limit_into_inner (from_slice_plays _) h3 (.inr rfl)).2⟩

/-- **C68, `producer::MapFinal`**, for arbitrary producers (that do not expose zero items): the recovered producer has gone
through a history of allowed calls that handed out the same items, and it has ended only if the adaptor has. -/
theorem map_final_into_inner {B : Type} {P : BulkProducer σ I F E} {s : σ} {fn : Option (F → B)}
    (hP : ∀ {handed u shown u'}, ProducerRuns P s handed u shown none → P.exposeItems u ≠ ok (u', .ok (.inl [])))
    {handed : List I} {t : MapFinalSt σ F B} {shown : List I} {ended : Option (Except E B)}
    (h : ProducerRuns (mapFinalBulkProducer P) ⟨s, fn⟩ handed t shown ended) :
    ∃ shown' ended', ProducerRuns P s handed t.intoInner shown' ended' ∧ (shown = [] ∨ shown' = shown) ∧
      (ended' = none ↔ ended = none) :=
  (forwards_mapFinal P).histories (t₀ := ⟨s, fn⟩) hP h

/-- So, if it is lawful, it emits exactly the items that have not been handed out. -/
theorem map_final_into_inner_plays {B : Type} {P : BulkProducer σ I F E} {s : σ} {c : Script I F E} (hP : BulkPlays P s c)
    {fn : Option (F → B)} {handed : List I} {t : MapFinalSt σ F B} {shown : List I}
    (h : ProducerRuns (mapFinalBulkProducer P) ⟨s, fn⟩ handed t shown none) :
    c.StartsWith handed ∧ BulkPlays P t.intoInner (c.drop handed.length) := by
  obtain ⟨shown', ended', h1, -, h2⟩ := map_final_into_inner (fun hr => hP.never_empty hr) h
  obtain rfl := h2.mpr rfl
  exact hP.afterRun h1

/-- With an item exposed that is not considered produced. -/
example : ∃ t, ProducerRuns (mapFinalBulkProducer (FromSlice.producer Nat)) ⟨FromSlice.new [1, 2, 3], some fun () => "end"⟩
      [1, 2] t [3] none ∧
    BulkPlays (FromSlice.producer Nat) t.intoInner ((Script.ofList [1, 2, 3] (.ok ())).drop 2) := by
  have h0 := ProducerRuns.start (P := mapFinalBulkProducer (FromSlice.producer Nat))
    (s₀ := ⟨FromSlice.new [1, 2, 3], some fun () => "end"⟩)
  have h1 := h0.call (op := .bulkProduce [0]) (r := ⟨[1], [], none⟩) (by simp [ProducerOp.Allowed]) rfl
  have h2 := h1.call (op := .exposeItems) (r := ⟨[], [2, 3], none⟩) trivial rfl
  have h3 := h2.call (op := .considerProduced 1) (r := ⟨[2], [3], none⟩) ⟨by decide, by decide⟩ rfl
  exact ⟨_, h3, (map_final_into_inner_plays (from_slice_plays _) h3).2⟩

/-- **C68, `producer::MapError`** (whose histories are short, see C24). -/
theorem map_error_into_inner {B : Type} {P : BulkProducer σ I F E} {s : σ} {fn : Option (E → B)}
    (hP : ∀ {handed u shown u'}, ProducerRuns P s handed u shown none → P.exposeItems u ≠ ok (u', .ok (.inl [])))
    {handed : List I} {t : MapErrorSt σ E B} {shown : List I} {ended : Option (Except B F)}
    (h : ProducerRuns (mapErrorBulkProducer P) ⟨s, fn⟩ handed t shown ended) :
    ∃ shown' ended', ProducerRuns P s handed t.intoInner shown' ended' ∧ (shown = [] ∨ shown' = shown) ∧
      (ended' = none ↔ ended = none) :=
  (forwards_mapError P).histories (t₀ := ⟨s, fn⟩) hP h

theorem map_error_into_inner_plays {B : Type} {P : BulkProducer σ I F E} {s : σ} {c : Script I F E} (hP : BulkPlays P s c)
    {fn : Option (E → B)} {handed : List I} {t : MapErrorSt σ E B} {shown : List I}
    (h : ProducerRuns (mapErrorBulkProducer P) ⟨s, fn⟩ handed t shown none) :
    c.StartsWith handed ∧ BulkPlays P t.intoInner (c.drop handed.length) := by
  obtain ⟨shown', ended', h1, -, h2⟩ := map_error_into_inner (fun hr => hP.never_empty hr) h
  obtain rfl := h2.mpr rfl
  exact hP.afterRun h1

example : ∃ t, ProducerRuns (mapErrorBulkProducer (B := String) (FromSlice.producer Nat))
      ⟨FromSlice.new [1, 2, 3], some fun e => nomatch e⟩ [1] t [] none ∧
    BulkPlays (FromSlice.producer Nat) t.intoInner ((Script.ofList [1, 2, 3] (.ok ())).drop 1) := by
  have h0 := ProducerRuns.start (P := mapErrorBulkProducer (B := String) (FromSlice.producer Nat))
    (s₀ := ⟨FromSlice.new [1, 2, 3], some fun e => nomatch e⟩)
  have h1 := h0.call (op := .produce) (r := ⟨[1], [], none⟩) trivial rfl
  exact ⟨_, h1, (map_error_into_inner_plays (from_slice_plays _) h1).2⟩

/-- **C68, `producer::Invariant`** in test builds. -/
theorem producer_invariant_into_inner {P : BulkProducer σ I F E} {t₀ : InvariantSt σ}
    (hP : ∀ {handed u shown u'}, ProducerRuns P t₀.intoInner handed u shown none → P.exposeItems u ≠ ok (u', .ok (.inl [])))
    {handed : List I} {t : InvariantSt σ} {shown : List I} {ended : Option (Except E F)}
    (h : ProducerRuns (invariantBulkProducer P) t₀ handed t shown ended) :
    ∃ shown' ended', ProducerRuns P t₀.intoInner handed t.intoInner shown' ended' ∧ (shown = [] ∨ shown' = shown) ∧
      (ended' = none ↔ ended = none) :=
  (forwards_invariant P).histories hP h

theorem producer_invariant_into_inner_plays {P : BulkProducer σ I F E} {s : σ} {c : Script I F E} (hP : BulkPlays P s c)
    {handed : List I} {t : InvariantSt σ} {shown : List I}
    (h : ProducerRuns (invariantBulkProducer P) (.new s) handed t shown none) :
    c.StartsWith handed ∧ BulkPlays P t.intoInner (c.drop handed.length) := by
  obtain ⟨shown', ended', h1, -, h2⟩ := producer_invariant_into_inner (t₀ := .new s) (fun hr => hP.never_empty (s := s) hr) h
  obtain rfl := h2.mpr rfl
  exact hP.afterRun h1

example : ∃ t, ProducerRuns (invariantBulkProducer (FromSlice.producer Nat)) (.new (FromSlice.new [1, 2, 3])) [1] t [2, 3] none ∧
    BulkPlays (FromSlice.producer Nat) t.intoInner ((Script.ofList [1, 2, 3] (.ok ())).drop 1) := by
  have h0 := ProducerRuns.start (P := invariantBulkProducer (FromSlice.producer Nat)) (s₀ := .new (FromSlice.new [1, 2, 3]))
  have h1 := h0.call (op := .exposeItems) (r := ⟨[], [1, 2, 3], none⟩) trivial rfl
  have h2 := h1.call (op := .considerProduced 1) (r := ⟨[1], [2, 3], none⟩) ⟨by decide, by decide⟩ rfl
  exact ⟨_, h2, (producer_invariant_into_inner_plays (from_slice_plays _) h2).2⟩

/-- **C68, `producer::Invariant`** in other builds (where the state is that of the wrapped producer). -/
theorem producer_noop_into_inner_plays {P : BulkProducer σ I F E} {s : σ} {c : Script I F E} (hP : BulkPlays P s c)
    {handed : List I} {t : σ} {shown : List I} (h : ProducerRuns (invariantNoopBulkProducer P) s handed t shown none) :
    c.StartsWith handed ∧ BulkPlays P t (c.drop handed.length) := by
  obtain ⟨shown', ended', h1, -, h2⟩ := (forwards_noop P).histories (t₀ := s) (fun hr => hP.never_empty hr) h
  obtain rfl := h2.mpr rfl
  exact hP.afterRun h1

example : ∃ t, ProducerRuns (invariantNoopBulkProducer (FromSlice.producer Nat)) (FromSlice.new [1, 2, 3]) [1, 2] t [] none ∧
    BulkPlays (FromSlice.producer Nat) t ((Script.ofList [1, 2, 3] (.ok ())).drop 2) := by
  have h0 := ProducerRuns.start (P := invariantNoopBulkProducer (FromSlice.producer Nat)) (s₀ := FromSlice.new [1, 2, 3])
  have h1 := h0.call (op := .bulkProduce [0, 0]) (r := ⟨[1, 2], [], none⟩) (by simp [ProducerOp.Allowed]) rfl
  exact ⟨_, h1, (producer_noop_into_inner_plays (from_slice_plays _) h1).2⟩

/-! ### `MapItem`

The adaptor implements `Producer` and `BufferedProducer` only. -/

/-- **C68, `producer::MapItem`**, for arbitrary producers: the items handed out are the results of the function on the items
that the recovered producer has handed out. -/
theorem map_item_into_inner {φ B : Type} (f : φ → I → φ × B) {P : BufferedProducer σ I F E} {s : σ} {a : φ} {ys : List B}
    {t : MapItemSt σ φ} {shown : List B} {ended : Option (Except E F)}
    (h : ProducerRuns (mapItemBufferedProducer f P).asBulk ⟨s, a⟩ ys t shown ended) :
    ∃ xs, ProducerRuns P.asBulk s xs t.intoInner [] ended ∧ ys = results f a xs ∧ t.captured = stateAfter f a xs ∧ shown = [] := by
  induction h with
  | start => exact ⟨[], .start, rfl, rfl, rfl⟩
  | @call ys t shown op t' r _ hop hcall ih =>
    obtain ⟨xs, h1, rfl, h2, rfl⟩ := ih
    obtain ⟨u, b⟩ := t
    dsimp only at h2
    subst h2
    simp only [MapItemSt.intoInner] at h1 ⊢
    cases op with
    | produce =>
      simp only [BulkProducer.call, BufferedProducer.asBulk, mapItemBufferedProducer, mapItemProducer] at hcall
      rcases hp : P.produce u with ⟨u', e | x | fin⟩ | _ | _ <;> simp [hp] at hcall <;> obtain ⟨rfl, rfl⟩ := hcall
      · refine ⟨xs, ?_, by simp, rfl, rfl⟩
        simpa using h1.call (op := .produce) (s' := u') (r := ⟨[], [], some (.error e)⟩) trivial
          (by simp [BulkProducer.call, BufferedProducer.asBulk, hp])
      · refine ⟨xs ++ [x], ?_, ?_, ?_, rfl⟩
        · exact h1.call (op := .produce) (s' := u') (r := ⟨[x], [], none⟩) trivial
            (by simp [BulkProducer.call, BufferedProducer.asBulk, hp])
        · rw [results_snoc]
        · rw [stateAfter_snoc]
      · refine ⟨xs, ?_, by simp, rfl, rfl⟩
        simpa using h1.call (op := .produce) (s' := u') (r := ⟨[], [], some (.ok fin)⟩) trivial
          (by simp [BulkProducer.call, BufferedProducer.asBulk, hp])
    | slurp =>
      simp only [BulkProducer.call, BufferedProducer.asBulk, mapItemBufferedProducer] at hcall
      rcases hp : P.slurp u with ⟨u', e | _⟩ | _ | _ <;> simp [hp] at hcall <;> obtain ⟨rfl, rfl⟩ := hcall
      · refine ⟨xs, ?_, by simp, rfl, rfl⟩
        simpa using h1.call (op := .slurp) (s' := u') (r := ⟨[], [], some (.error e)⟩) trivial
          (by simp [BulkProducer.call, BufferedProducer.asBulk, hp])
      · refine ⟨xs, ?_, by simp, rfl, rfl⟩
        simpa using h1.call (op := .slurp) (s' := u') (r := ⟨[], [], none⟩) trivial
          (by simp [BulkProducer.call, BufferedProducer.asBulk, hp])
    | exposeItems => cases hcall
    | considerProduced k => cases hcall
    | bulkProduce buf => cases hcall

/-- So, if it is lawful, it emits exactly the items whose images have not been handed out. -/
theorem map_item_into_inner_plays {φ B : Type} (f : φ → I → φ × B) {P : BufferedProducer σ I F E} {s : σ} {a : φ}
    {c : Script I F E} (hP : BufPlays P s c) {ys : List B} {t : MapItemSt σ φ} {shown : List B}
    (h : ProducerRuns (mapItemBufferedProducer f P).asBulk ⟨s, a⟩ ys t shown none) :
    ∃ xs, c.StartsWith xs ∧ ys = results f a xs ∧ BufPlays P t.intoInner (c.drop xs.length) := by
  obtain ⟨xs, h1, h2, -, -⟩ := map_item_into_inner f h
  exact ⟨xs, (hP.afterRun h1).1, h2, (hP.afterRun h1).2⟩

/-- Running sums. -/
example : ∃ t, ProducerRuns (mapItemBufferedProducer (fun (a x : Nat) => (a + x, a + x))
      (FromSlice.producer Nat).toBufferedProducer).asBulk ⟨FromSlice.new [1, 2, 3], 0⟩ [1, 3] t [] none ∧
    ∃ xs, (Script.ofList [1, 2, 3] (.ok ()) : Script Nat Unit Empty).StartsWith xs ∧ [1, 3] = results (fun (a x : Nat) => (a + x, a + x)) 0 xs ∧
      BufPlays (FromSlice.producer Nat).toBufferedProducer t.intoInner ((Script.ofList [1, 2, 3] (.ok ())).drop xs.length) := by
  have h0 := ProducerRuns.start
    (P := (mapItemBufferedProducer (fun (a x : Nat) => (a + x, a + x)) (FromSlice.producer Nat).toBufferedProducer).asBulk)
    (s₀ := ⟨FromSlice.new [1, 2, 3], 0⟩)
  have h1 := h0.call (op := .produce) (r := ⟨[1], [], none⟩) trivial rfl
  have h2 := h1.call (op := .slurp) (r := ⟨[], [], none⟩) trivial rfl
  have h3 := h2.call (op := .produce) (r := ⟨[3], [], none⟩) trivial rfl
  exact ⟨_, h3, map_item_into_inner_plays _ (from_slice_plays _).toBufPlays h3⟩

/-! ## Consumers -/

/-- **C68, `consumer::Limit`.** After every history of calls, also one that ended because the limit was reached, the
recovered consumer has consumed exactly the items that the adaptor has consumed, and goes on from there. -/
theorem limit_consumer_into_inner {C : BulkConsumer σ I F E} {D : σ → List I → Option F → Prop} {q : Policy I F E} {s : σ}
    {l : List I} (hC : BulkCollects C D q s l) {n : Nat} {taken : List I} {t : LimitSt σ} {slots : List I}
    {ended : Option (ConsumerEnd I F (Option E))} (h : ConsumerRuns (limitBulkConsumer C) ⟨s, n⟩ taken t slots ended)
    (he : ended = none ∨ ∃ xs, ended = some (.failed none xs)) :
    q.Accepts l taken ∧ BulkCollects C D q t.intoInner (l ++ taken) := by
  obtain ⟨slots', ended', h1, -, h2, -⟩ := limit_consumer_histories (fun hr => hC.never_empty hr) h
  rcases he with rfl | ⟨xs, rfl⟩
  · obtain rfl : ended' = none := h2
    exact hC.afterRun h1
  · obtain rfl : ended' = none := h2
    exact hC.afterRun h1

/-- One item, then the limit. -/
example : ∃ t, ConsumerRuns (limitBulkConsumer (IntoVec.consumer Nat)) ⟨IntoVec.fromVec [7], 1⟩ [5] t [] (some (.failed none [6])) ∧
    BulkCollects (IntoVec.consumer Nat) IntoVec.Contents .acceptAll t.intoInner [7, 5] := by
  have h0 := ConsumerRuns.start (C := limitBulkConsumer (IntoVec.consumer Nat)) (s₀ := ⟨IntoVec.fromVec [7], 1⟩)
  have h1 := h0.call (op := .bulkConsume [5, 6]) (r := ⟨[5], [], none⟩) (by simp [ConsumerOp.Allowed]) rfl
  have h2 := h1.call (op := .consume 6) (r := ⟨[], [], some (.failed none [6])⟩) trivial rfl
  exact ⟨_, h2, (limit_consumer_into_inner (into_vec_collects [7]) h2 (.inr ⟨_, rfl⟩)).2⟩

/-- **C68, `consumer::MapFinal`**, for arbitrary consumers (that do not expose zero slots). -/
theorem map_final_consumer_into_inner {B : Type} {C : BulkConsumer σ I F E} {s : σ} {fn : Option (B → F)}
    (hC : ∀ {taken u slots u'}, ConsumerRuns C s taken u slots none → C.exposeSlots u ≠ ok (u', .ok []))
    {taken : List I} {t : MapFinalSt σ B F} {slots : List I} {ended : Option (ConsumerEnd I B E)}
    (h : ConsumerRuns (mapFinalBulkConsumer C) ⟨s, fn⟩ taken t slots ended) :
    ∃ slots' ended', ConsumerRuns C s taken t.intoInner slots' ended' ∧ (slots = [] ∨ slots' = slots) ∧
      (ended' = none ↔ ended = none) :=
  (forwards_mapFinal_consumer C).histories (t₀ := ⟨s, fn⟩) hC h

theorem map_final_consumer_into_inner_collects {B : Type} {C : BulkConsumer σ I F E} {D : σ → List I → Option F → Prop}
    {q : Policy I F E} {s : σ} {l : List I} (hC : BulkCollects C D q s l) {fn : Option (B → F)} {taken : List I}
    {t : MapFinalSt σ B F} {slots : List I} (h : ConsumerRuns (mapFinalBulkConsumer C) ⟨s, fn⟩ taken t slots none) :
    q.Accepts l taken ∧ BulkCollects C D q t.intoInner (l ++ taken) := by
  obtain ⟨slots', ended', h1, -, h2⟩ := map_final_consumer_into_inner (fun hr => hC.never_empty hr) h
  obtain rfl := h2.mpr rfl
  exact hC.afterRun h1

/-- With slots exposed that are not consumed. -/
example : ∃ t slots, ConsumerRuns (mapFinalBulkConsumer (B := Nat) (IntoVec.consumer Nat)) ⟨IntoVec.fromVec [7], some fun _ => ()⟩
      [5] t slots none ∧ BulkCollects (IntoVec.consumer Nat) IntoVec.Contents .acceptAll t.intoInner [7, 5] := by
  have h0 := ConsumerRuns.start (C := mapFinalBulkConsumer (B := Nat) (IntoVec.consumer Nat))
    (s₀ := ⟨IntoVec.fromVec [7], some fun _ => ()⟩)
  have h1 := h0.call (op := .consume 5) (r := ⟨[5], [], none⟩) trivial rfl
  have h2 := h1.call (op := .exposeSlots) trivial rfl
  exact ⟨_, _, h2, (map_final_consumer_into_inner_collects (into_vec_collects [7]) h2).2⟩

/-- **C68, `consumer::MapError`** (whose histories are short, see C24). -/
theorem map_error_consumer_into_inner {B : Type} {C : BulkConsumer σ I F E} {s : σ} {fn : Option (E → B)}
    (hC : ∀ {taken u slots u'}, ConsumerRuns C s taken u slots none → C.exposeSlots u ≠ ok (u', .ok []))
    {taken : List I} {t : MapErrorSt σ E B} {slots : List I} {ended : Option (ConsumerEnd I F B)}
    (h : ConsumerRuns (mapErrorBulkConsumer C) ⟨s, fn⟩ taken t slots ended) :
    ∃ slots' ended', ConsumerRuns C s taken t.intoInner slots' ended' ∧ (slots = [] ∨ slots' = slots) ∧
      (ended' = none ↔ ended = none) :=
  (forwards_mapError_consumer C).histories (t₀ := ⟨s, fn⟩) hC h

theorem map_error_consumer_into_inner_collects {B : Type} {C : BulkConsumer σ I F E} {D : σ → List I → Option F → Prop}
    {q : Policy I F E} {s : σ} {l : List I} (hC : BulkCollects C D q s l) {fn : Option (E → B)} {taken : List I}
    {t : MapErrorSt σ E B} {slots : List I} (h : ConsumerRuns (mapErrorBulkConsumer C) ⟨s, fn⟩ taken t slots none) :
    q.Accepts l taken ∧ BulkCollects C D q t.intoInner (l ++ taken) := by
  obtain ⟨slots', ended', h1, -, h2⟩ := map_error_consumer_into_inner (fun hr => hC.never_empty hr) h
  obtain rfl := h2.mpr rfl
  exact hC.afterRun h1

example : ∃ t, ConsumerRuns (mapErrorBulkConsumer (B := Nat) (IntoVec.consumer Nat)) ⟨IntoVec.fromVec [7], some fun e => nomatch e⟩
      [5] t [] none ∧ BulkCollects (IntoVec.consumer Nat) IntoVec.Contents .acceptAll t.intoInner [7, 5] := by
  have h0 := ConsumerRuns.start (C := mapErrorBulkConsumer (B := Nat) (IntoVec.consumer Nat))
    (s₀ := ⟨IntoVec.fromVec [7], some fun e => nomatch e⟩)
  have h1 := h0.call (op := .consume 5) (r := ⟨[5], [], none⟩) trivial rfl
  exact ⟨_, h1, (map_error_consumer_into_inner_collects (into_vec_collects [7]) h1).2⟩

/-- **C68, `consumer::Invariant`** in test builds. -/
theorem consumer_invariant_into_inner {C : BulkConsumer σ I F E} {t₀ : InvariantSt σ}
    (hC : ∀ {taken u slots u'}, ConsumerRuns C t₀.intoInner taken u slots none → C.exposeSlots u ≠ ok (u', .ok []))
    {taken : List I} {t : InvariantSt σ} {slots : List I} {ended : Option (ConsumerEnd I F E)}
    (h : ConsumerRuns (invariantBulkConsumer C) t₀ taken t slots ended) :
    ∃ slots' ended', ConsumerRuns C t₀.intoInner taken t.intoInner slots' ended' ∧ (slots = [] ∨ slots' = slots) ∧
      (ended' = none ↔ ended = none) :=
  (forwards_invariant_consumer C).histories hC h

theorem consumer_invariant_into_inner_collects {C : BulkConsumer σ I F E} {D : σ → List I → Option F → Prop} {q : Policy I F E}
    {s : σ} {l : List I} (hC : BulkCollects C D q s l) {taken : List I} {t : InvariantSt σ} {slots : List I}
    (h : ConsumerRuns (invariantBulkConsumer C) (.new s) taken t slots none) :
    q.Accepts l taken ∧ BulkCollects C D q t.intoInner (l ++ taken) := by
  obtain ⟨slots', ended', h1, -, h2⟩ := consumer_invariant_into_inner (t₀ := .new s)
    (fun hr => hC.never_empty (s := s) hr) h
  obtain rfl := h2.mpr rfl
  exact hC.afterRun h1

example : ∃ t, ConsumerRuns (invariantBulkConsumer (IntoVec.consumer Nat)) (.new (IntoVec.fromVec [7])) [5] t [] none ∧
    BulkCollects (IntoVec.consumer Nat) IntoVec.Contents .acceptAll t.intoInner [7, 5] := by
  have h0 := ConsumerRuns.start (C := invariantBulkConsumer (IntoVec.consumer Nat)) (s₀ := .new (IntoVec.fromVec [7]))
  have h1 := h0.call (op := .bulkConsume [5]) (r := ⟨[5], [], none⟩) (by simp [ConsumerOp.Allowed]) rfl
  exact ⟨_, h1, (consumer_invariant_into_inner_collects (into_vec_collects [7]) h1).2⟩

/-- **C68, `consumer::Invariant`** in other builds. -/
theorem consumer_noop_into_inner_collects {C : BulkConsumer σ I F E} {D : σ → List I → Option F → Prop} {q : Policy I F E}
    {s : σ} {l : List I} (hC : BulkCollects C D q s l) {taken : List I} {t : σ} {slots : List I}
    (h : ConsumerRuns (invariantNoopBulkConsumer C) s taken t slots none) :
    q.Accepts l taken ∧ BulkCollects C D q t (l ++ taken) := by
  obtain ⟨slots', ended', h1, -, h2⟩ := (forwards_noop_consumer C).histories (t₀ := s) (fun hr => hC.never_empty hr) h
  obtain rfl := h2.mpr rfl
  exact hC.afterRun h1

example : ∃ t, ConsumerRuns (invariantNoopBulkConsumer (IntoVec.consumer Nat)) (IntoVec.fromVec [7]) [5] t [] none ∧
    BulkCollects (IntoVec.consumer Nat) IntoVec.Contents .acceptAll t [7, 5] := by
  have h0 := ConsumerRuns.start (C := invariantNoopBulkConsumer (IntoVec.consumer Nat)) (s₀ := IntoVec.fromVec [7])
  have h1 := h0.call (op := .bulkConsume [5]) (r := ⟨[5], [], none⟩) (by simp [ConsumerOp.Allowed]) rfl
  exact ⟨_, h1, (consumer_noop_into_inner_collects (into_vec_collects [7]) h1).2⟩

/-- **C68, `consumer::MapItem`**, for arbitrary consumers: the recovered consumer has gone through a history of allowed calls in
which it consumed the results of the function on the items that the adaptor consumed. -/
theorem map_item_consumer_into_inner {φ A : Type} (f : φ → A → φ × I) {C : BufferedConsumer σ I F E} {s : σ} {a : φ}
    {taken : List A} {t : MapItemSt σ φ} {slots : List A} {ended : Option (ConsumerEnd A F E)}
    (h : ConsumerRuns (mapItemBufferedConsumer f C).asBulk ⟨s, a⟩ taken t slots ended) :
    ∃ ended', ConsumerRuns C.asBulk s (results f a taken) t.intoInner [] ended' ∧ slots = [] ∧ (ended' = none ↔ ended = none) ∧
      (ended = none → t.captured = stateAfter f a taken) := by
  induction h with
  | start => exact ⟨none, .start, rfl, by simp, fun _ => rfl⟩
  | @call taken t slots op t' r _ hop hcall ih =>
    obtain ⟨ended', h1, rfl, h2, h3⟩ := ih
    obtain rfl : ended' = none := h2.mpr rfl
    obtain ⟨u, b⟩ := t
    obtain rfl : b = _ := h3 rfl
    simp only [MapItemSt.intoInner] at h1 ⊢
    cases op with
    | consume x =>
      simp only [BulkConsumer.call, BufferedConsumer.asBulk, mapItemBufferedConsumer, mapItemConsumer] at hcall
      rcases hp : C.consume u (f (stateAfter f a taken) x).2 with ⟨u', e | _⟩ | _ | _ <;> simp [hp] at hcall <;>
        obtain ⟨rfl, rfl⟩ := hcall
      · refine ⟨some (.failed e [(f (stateAfter f a taken) x).2]), ?_, rfl, by simp, by simp⟩
        simpa using h1.call (op := .consume (f (stateAfter f a taken) x).2) (s' := u')
          (r := ⟨[], [], some (.failed e [(f (stateAfter f a taken) x).2])⟩) trivial
          (by simp [BulkConsumer.call, BufferedConsumer.asBulk, hp])
      · refine ⟨none, ?_, rfl, by simp, fun _ => by simp [stateAfter_snoc]⟩
        rw [results_snoc]
        exact h1.call (op := .consume (f (stateAfter f a taken) x).2) (s' := u')
          (r := ⟨[(f (stateAfter f a taken) x).2], [], none⟩) trivial
          (by simp [BulkConsumer.call, BufferedConsumer.asBulk, hp])
    | flush =>
      simp only [BulkConsumer.call, BufferedConsumer.asBulk, mapItemBufferedConsumer] at hcall
      rcases hp : C.flush u with ⟨u', e | _⟩ | _ | _ <;> simp [hp] at hcall <;> obtain ⟨rfl, rfl⟩ := hcall
      · refine ⟨some (.flushFailed e), ?_, rfl, by simp, by simp⟩
        simpa using h1.call (op := .flush) (s' := u') (r := ⟨[], [], some (.flushFailed e)⟩) trivial
          (by simp [BulkConsumer.call, BufferedConsumer.asBulk, hp])
      · refine ⟨none, ?_, rfl, by simp, by simp⟩
        simpa using h1.call (op := .flush) (s' := u') (r := ⟨[], [], none⟩) trivial
          (by simp [BulkConsumer.call, BufferedConsumer.asBulk, hp])
    | close fin =>
      simp only [BulkConsumer.call, BufferedConsumer.asBulk, mapItemBufferedConsumer, mapItemConsumer] at hcall
      rcases hp : C.close u fin with ⟨u', e | _⟩ | _ | _ <;> simp [hp] at hcall <;> obtain ⟨rfl, rfl⟩ := hcall
      · refine ⟨some (.closeFailed e fin), ?_, rfl, by simp, by simp⟩
        simpa using h1.call (op := .close fin) (s' := u') (r := ⟨[], [], some (.closeFailed e fin)⟩) trivial
          (by simp [BulkConsumer.call, BufferedConsumer.asBulk, hp])
      · refine ⟨some (.closed fin), ?_, rfl, by simp, by simp⟩
        simpa using h1.call (op := .close fin) (s' := u') (r := ⟨[], [], some (.closed fin)⟩) trivial
          (by simp [BulkConsumer.call, BufferedConsumer.asBulk, hp])
    | write ws =>
      obtain rfl : ws = [] := by simpa [ConsumerOp.Allowed] using hop
      simp [BulkConsumer.call, BufferedConsumer.asBulk] at hcall
      obtain ⟨rfl, rfl⟩ := hcall
      exact ⟨none, by simpa using h1, rfl, by simp, by simp⟩
    | exposeSlots => cases hcall
    | consumeSlots k => cases hcall
    | bulkConsume buf => cases hcall

theorem map_item_consumer_into_inner_collects {φ A : Type} (f : φ → A → φ × I) {C : BufferedConsumer σ I F E}
    {D : σ → List I → Option F → Prop} {q : Policy I F E} {s : σ} {l : List I} (hC : BufCollects C D q s l) {a : φ}
    {taken : List A} {t : MapItemSt σ φ} {slots : List A}
    (h : ConsumerRuns (mapItemBufferedConsumer f C).asBulk ⟨s, a⟩ taken t slots none) :
    q.Accepts l (results f a taken) ∧ BufCollects C D q t.intoInner (l ++ results f a taken) := by
  obtain ⟨ended', h1, -, h2, -⟩ := map_item_consumer_into_inner f h
  obtain rfl := h2.mpr rfl
  exact hC.afterRun h1

/-- Differences. -/
example : ∃ t, ConsumerRuns (mapItemBufferedConsumer (fun (a x : Nat) => (x, x - a)) (IntoVec.consumer Nat).toBufferedConsumer).asBulk
      ⟨IntoVec.fromVec [7], 0⟩ [3, 5] t [] none ∧
    BufCollects (IntoVec.consumer Nat).toBufferedConsumer IntoVec.Contents .acceptAll t.intoInner [7, 3, 2] := by
  have h0 := ConsumerRuns.start
    (C := (mapItemBufferedConsumer (fun (a x : Nat) => (x, x - a)) (IntoVec.consumer Nat).toBufferedConsumer).asBulk)
    (s₀ := ⟨IntoVec.fromVec [7], 0⟩)
  have h1 := h0.call (op := .consume 3) (r := ⟨[3], [], none⟩) trivial rfl
  have h2 := h1.call (op := .consume 5) (r := ⟨[5], [], none⟩) trivial rfl
  exact ⟨_, h2, (map_item_consumer_into_inner_collects _ (into_vec_collects [7]).toBufCollects h2).2⟩

/-! ## Readers and writers -/

/-- **C68, `ReaderToBulkProducer`.** For arbitrary readers (that respect the lengths of buffers), under every history of
allowed calls, also after the end or an error: the bytes that the recovered reader has delivered are those handed out followed by
those in the recovered queue. -/
theorem reader_into_inner {ρ κ : Type} {Rd : AsyncRead ρ} (hR : Rd.RespectsBuffers) {Q : Queue κ UInt8} {cap : Nat}
    {RQ : κ → List UInt8 → List UInt8 → Nat → Prop} (hQ : FifoLaw Q cap RQ) (hcap : 0 < cap) {q : κ} (hq : RQ q [] [] 0)
    (r : ρ) {handed shown : List UInt8} {s : QueueReader (ρ × List UInt8) κ} {ended : Option (Except IoError Unit)}
    (h : ProducerRuns (readerProducer Rd.logged Q) ⟨(r, []), q⟩ handed s shown ended) :
    ∃ rest slots n, RQ s.intoInner.2 rest slots n ∧ s.intoInner.1.2 = handed ++ rest := by
  have : Conserved RQ handed s shown := by
    induction h with
    | start => exact ⟨[], [], 0, hq, by simp, by simp, by simp⟩
    | call _ hop hcall ih => exact conserved_call hR hQ hcap ih hop hcall
  obtain ⟨l, slots, n, hl, hlog, _⟩ := this
  exact ⟨l, slots, n, hl, hlog⟩

/-- Two bytes have been read, one of them has been handed out; the other one is in the queue. -/
example : ∃ s, ProducerRuns (readerProducer (chunkReader 1 (.ok ())).toAsyncRead.logged (Fixed.queue UInt8))
      ⟨([1, 2, 3], []), Fixed.new 2 fun _ => 0⟩ [1] s [] none ∧
    s.intoInner = (([3], [1, 2]), ⟨[1, 2], 1, 1⟩) ∧
    ∃ rest slots n, Fixed.Holds 2 s.intoInner.2 rest slots n ∧ s.intoInner.1.2 = [1] ++ rest := by
  have h0 := ProducerRuns.start (P := readerProducer (chunkReader 1 (.ok ())).toAsyncRead.logged (Fixed.queue UInt8))
    (s₀ := ⟨([1, 2, 3], []), Fixed.new 2 fun _ => 0⟩)
  have h1 := h0.call (op := .exposeItems) (s' := ⟨([3], [1, 2]), ⟨[1, 2], 0, 2⟩⟩) (r := ⟨[], [1, 2], none⟩) trivial rfl
  have h2 := h1.call (op := .produce) (s' := ⟨([3], [1, 2]), ⟨[1, 2], 1, 1⟩⟩) (r := ⟨[1], [], none⟩) trivial rfl
  exact ⟨_, h2, rfl, reader_into_inner (chunkReader_respectsBuffers _ _) (Fixed.fifoLaw UInt8 2) (by decide)
    (Fixed.holds_new 2 _) _ h2⟩

/-- **C68, `WriterToBulkConsumer`**, as long as no call has failed: the bytes passed in are those that the recovered writer has
written followed by those in the recovered queue. What is missing compared to C68: after an error the queue also contains bytes
that have been written, see `writer_error_keeps_written`. -/
theorem writer_into_inner_partial {ω κ : Type} {W : AsyncWrite ω} {D : ω → List UInt8 → Option Unit → Prop} {X : WriterFaults}
    {w : ω} {l : List UInt8} (hw : Writes W D X w l) {Q : Queue κ UInt8} {cap : Nat}
    {RQ : κ → List UInt8 → List UInt8 → Nat → Prop} (hQ : FifoLaw Q cap RQ) (hcap : 0 < cap) {q : κ} (hq : RQ q [] [] 0)
    {taken : List UInt8} {s : QueueWriter ω κ} {slots : List UInt8}
    (h : ConsumerRuns (writerConsumer W Q) ⟨w, q⟩ taken s slots none) :
    ∃ written rest slots' n, l ++ taken = written ++ rest ∧ Writes W D X s.intoInner.1 written ∧ RQ s.intoInner.2 rest slots' n := by
  obtain ⟨R, hR, h0⟩ := hw
  obtain ⟨⟨sl, d, rest, n, h1, h2, h3⟩, -⟩ := h.afterDeferring X.regular (writer_law hR hQ hcap)
    (l := l) (sl := []) ⟨l, [], 0, by simp, h0, hq⟩
  exact ⟨d, rest, sl, n, h1, ⟨R, hR, h2⟩, h3⟩

/-- Three bytes wait in the queue. -/
example : ∃ written rest slots' n, [] ++ [5, 6, 7] = written ++ rest ∧
    Writes (chunkWriter 1 9 ⟨.other 3, none⟩) (fun w l closed => w = (l, closed))
      ⟨fun l e' => 9 ≤ l.length ∧ e' = ⟨.other 3, none⟩, fun _ => False, fun _ _ => False, fun _ _ => False⟩ ([], none) written ∧
    Fixed.Holds (T := UInt8) 3 ⟨[5, 6, 7], 0, 3⟩ rest slots' n :=
  writer_into_inner_partial ⟨_, chunkWriter_writes 1 9 ⟨.other 3, none⟩, rfl⟩ (Fixed.fifoLaw UInt8 3) (by decide)
    (Fixed.holds_new 3 _) chunkWriter_runs

/-- **C68 fails for `WriterToBulkConsumer` after an error.** The bytes 5, 6, 7 are in the queue and the writer accepts two bytes
before it fails. `flush` reports the error; the recovered queue still contains all three bytes, so that writing them to the
recovered writer (or retrying) writes 5 and 6 twice. -/
theorem writer_error_keeps_written :
    ∃ s, (writerConsumer (chunkWriter 0 2 ⟨.other 3, none⟩) (Fixed.queue UInt8)).flush ⟨([], none), ⟨[5, 6, 7], 0, 3⟩⟩ =
        ok (s, .error ⟨.other 3, none⟩) ∧
      s.intoInner = (([5, 6], none), ⟨[5, 6, 7], 0, 3⟩) := by
  have hw : writeAll (chunkWriter 0 2 ⟨.other 3, none⟩) ([], none) [5, 6, 7] =
      ok (([5, 6], none), .error ⟨.other 3, none⟩) := by
    rw [writeAll, loop_eq_of_fuel (n := 3)]
    · rfl
    · simp [loopFuel, writeAllBody, chunkWriter]
  have hf : QueueWriter.flushInternalBuffer (chunkWriter 0 2 ⟨.other 3, none⟩) (Fixed.queue UInt8)
      ⟨([], none), ⟨[5, 6, 7], 0, 3⟩⟩ = ok (⟨([5, 6], none), ⟨[5, 6, 7], 0, 3⟩⟩, .error ⟨.other 3, none⟩) := by
    have he : (Fixed.queue UInt8).exposeItems ⟨[5, 6, 7], 0, 3⟩ = ok (⟨[5, 6, 7], 0, 3⟩, some [5, 6, 7]) := rfl
    rw [QueueWriter.flushInternalBuffer, loop_eq_of_fuel (n := 1)] <;> simp [loopFuel, QueueWriter.flushBody, he, hw]
  exact ⟨⟨([5, 6], none), ⟨[5, 6, 7], 0, 3⟩⟩, by simp [writerConsumer, hf], rfl⟩

/-! ## Scramblers -/

/-- **C68, `producer::BulkScrambler`.** The recovered producer continues after the items handed out *and* those in the buffer of
the scrambler. What is missing compared to C68: the latter (at most `cap`) are lost, see
`producer_scrambler_into_inner_loses`. -/
theorem producer_scrambler_into_inner_partial (debug : Bool) {P : BulkProducer σ I F E} {s : σ} {c : Script I F E}
    (h : BulkPlays P s c) (ops : List ScrambleProduce) {cap : Nat} (hcap : 0 < cap) (tmp : Nat → I) {handed shown : List I}
    {t : ProducerScrambler σ I F E}
    (hr : ProducerRuns (producerScrambler debug P).noSlurp (ProducerScrambler.new s ops cap tmp) handed t shown none) :
    ∃ lost, lost.length = t.buffer.len ∧ lost.length ≤ cap ∧ c.StartsWith (handed ++ lost) ∧
      (t.last = none → BulkPlays P t.intoInner (c.drop (handed ++ lost).length)) := by
  obtain ⟨R, hR, m, hm⟩ := h
  have hD := EndsIn.trivial P R
  have hlaw : BulkPlaysLaw (producerScrambler debug P).noSlurp (ProducerScrambler.Plays R (fun _ => True) cap) :=
    .of_default rfl ⟨⟨ProducerScrambler.plays_produce debug hR hD⟩, fun s c hs => ⟨s, .inl ⟨rfl, hs⟩⟩⟩
      (ProducerScrambler.plays_expose debug hR hD) (ProducerScrambler.plays_consider (P := P) debug)
  obtain ⟨h1, h2, -⟩ := hr.after hlaw (c := c) (n := 0) ⟨[], ProducerScrambler.ok_new hcap, by simp,
    .inl ⟨rfl, m, by rw [List.length_nil, Script.drop_zero]; exact hm⟩⟩
  obtain ⟨-, ⟨k, l, hok, hst, hrest⟩, -⟩ := h2 rfl
  have hcapl : l.length ≤ cap := by have := hok.holds.bound; omega
  refine ⟨l, hok.len.symm, hcapl, h1.append hst, fun hlast => ?_⟩
  rcases hrest with ⟨-, m', hm'⟩ | ⟨r, hr', -⟩
  · rw [List.length_append, ← Script.drop_drop]
    exact ⟨R, hR, m', hm'⟩
  · rw [hlast] at hr'; cases hr'

/-- **C68 fails for `producer::BulkScrambler`.** Of the items 1, 2, 3 the scrambler hands out 1; the recovered producer goes on
with 3. -/
theorem producer_scrambler_into_inner_loses (debug : Bool) :
    ∃ t, ProducerRuns (producerScrambler debug (FromSlice.producer Nat)).noSlurp
        (ProducerScrambler.new (FromSlice.new [1, 2, 3]) [] 2 (fun _ => 0)) [1] t [] none ∧ t.last = none ∧
      ∃ u, (FromSlice.producer Nat).produce t.intoInner = ok (u, .ok (.inl 3)) := by
  have h : loopFuel (ProducerScrambler.fillBody debug (FromSlice.producer Nat)) 3
      (ProducerScrambler.new (FromSlice.new [1, 2, 3]) [] 2 (fun _ => 0)) =
        ok ⟨⟨[1, 2, 3], 2⟩, ⟨[1, 2], 0, 2⟩, none, [.produce], 0⟩ := by
    cases debug <;> rfl
  have hc : (producerScrambler debug (FromSlice.producer Nat)).noSlurp.call
      (ProducerScrambler.new (FromSlice.new [1, 2, 3]) [] 2 (fun _ => 0)) [] .produce =
        ok (⟨⟨[1, 2, 3], 2⟩, ⟨[1, 2], 1, 1⟩, none, [.produce], 0⟩, ⟨[1], [], none⟩) := by
    simp only [BulkProducer.call, BulkProducer.noSlurp, producerScrambler, ProducerScrambler.produce,
      ProducerScrambler.fillQueue, bind_eq]
    rw [loop_eq_of_fuel (n := 3) (by rw [h]; simp), h]
    rfl
  exact ⟨_, ProducerRuns.start.call (op := .produce) trivial hc, rfl, _, rfl⟩

/-- In the same situation, `producer_scrambler_into_inner_partial` says that exactly one item is lost. -/
example (debug : Bool) : ∃ t, ProducerRuns (producerScrambler debug (FromSlice.producer Nat)).noSlurp
      (ProducerScrambler.new (FromSlice.new [1, 2, 3]) [] 2 (fun _ => 0)) [1] t [] none ∧
    ∃ lost, lost.length = t.buffer.len ∧ lost.length ≤ 2 ∧
      (Script.ofList [1, 2, 3] (.ok ()) : Script Nat Unit Empty).StartsWith ([1] ++ lost) ∧
      BulkPlays (FromSlice.producer Nat) t.intoInner ((Script.ofList [1, 2, 3] (.ok ())).drop ([1] ++ lost).length) := by
  obtain ⟨t, h1, h2, -⟩ := producer_scrambler_into_inner_loses debug
  obtain ⟨lost, h3, h4, h5, h6⟩ := producer_scrambler_into_inner_partial debug (from_slice_plays _) _ (by decide) _ h1
  exact ⟨t, h1, lost, h3, h4, h5, h6 h2⟩

/-- **C68, `consumer::BulkScrambler`.** The recovered consumer has been passed the items passed to the scrambler except those
in its buffer; none is in the buffer directly after a successful `flush`. What is missing compared to C68: the items in the
buffer are lost, see `consumer_scrambler_into_inner_loses`. -/
theorem consumer_scrambler_into_inner_partial {C : BulkConsumer σ I F E} {D : σ → List I → Option F → Prop} {X : Faults I F E}
    (hX : X.Regular) {s : σ} {l : List I} (h : BulkDefers C D X s l) (ops : List ScrambleConsume) {cap : Nat} (hcap : 0 < cap)
    (tmp : Nat → I) {taken slots : List I} {t : ConsumerScrambler σ I}
    (hr : ConsumerRuns (consumerScrambler false C) (ConsumerScrambler.new s ops cap tmp) taken t slots none) :
    (∃ passed lost, l ++ taken = passed ++ lost ∧ lost.length = t.buffer.len ∧ lost.length ≤ cap ∧
      BulkDefers C D X t.intoInner passed) ∧
    ∀ t', (consumerScrambler false C).flush t = ok (t', .ok ()) → BulkDefers C D X t'.intoInner (l ++ taken) := by
  obtain ⟨R, hR, sl, hs⟩ := h
  obtain ⟨⟨sl', hd⟩, -⟩ := hr.afterDeferring hX (ConsumerScrambler.law hX hR cap) (l := l) (sl := [])
    ⟨l, [], by simp, ConsumerScrambler.ok_new hcap, sl, hs⟩
  refine ⟨?_, fun t' hf => ?_⟩
  · obtain ⟨d, b, h1, hok, sl'', h2⟩ := hd
    exact ⟨d, b, h1, hok.len.symm, by have := hok.holds.bound; omega, R, hR, sl'', h2⟩
  · rcases ConsumerScrambler.drain_loop false hX hR hd with ⟨s', h1, hok, hR'⟩ | ⟨s', e, d', h1, -⟩
    · simp only [consumerScrambler, ConsumerScrambler.flush, h1, bind_eq, bind_ok] at hf
      obtain ⟨inner, ⟨h2, ⟨sl'', h3⟩, -⟩ | ⟨e, d', h2, -⟩⟩ := hR.base.flush _ _ hR'
      · simp [h2] at hf; subst hf
        exact ⟨R, hR, sl'', h3⟩
      · simp [h2] at hf
    · simp [consumerScrambler, ConsumerScrambler.flush, h1] at hf

/-- **C68 fails for `consumer::BulkScrambler`.** A vector that contains 7, in a scrambler that has consumed 5; the recovered
vector contains 7 only, although no call has failed. -/
theorem consumer_scrambler_into_inner_loses :
    ∃ t, ConsumerRuns (consumerScrambler false (IntoVec.consumer Nat))
        (ConsumerScrambler.new (IntoVec.fromVec [7]) [.consume] 1 (fun _ => 0)) [5] t [] none ∧
      t.intoInner.intoVec = [7] := by
  have r := (ConsumerRuns.start (C := consumerScrambler false (IntoVec.consumer Nat))
    (s₀ := ConsumerScrambler.new (IntoVec.fromVec [7]) [.consume] 1 (fun _ => 0))).call (op := .consume 5)
    (s' := ⟨IntoVec.fromVec [7], ⟨[5], 0, 1⟩, [.consume], 0⟩) (r := ⟨[5], [], none⟩) trivial rfl
  exact ⟨_, r, rfl⟩

example : ∃ t, ConsumerRuns (consumerScrambler false (IntoVec.consumer Nat))
      (ConsumerScrambler.new (IntoVec.fromVec [7]) [.consume] 1 (fun _ => 0)) [5] t [] none ∧
    (∃ passed lost, [7] ++ [5] = passed ++ lost ∧ lost.length = t.buffer.len ∧ lost.length ≤ 1 ∧
      BulkDefers (IntoVec.consumer Nat) IntoVec.Contents (Policy.acceptAll : Policy Nat Unit Empty).faults t.intoInner passed) ∧
    ∀ t', (consumerScrambler false (IntoVec.consumer Nat)).flush t = ok (t', .ok ()) →
      BulkDefers (IntoVec.consumer Nat) IntoVec.Contents (Policy.acceptAll : Policy Nat Unit Empty).faults t'.intoInner [7, 5] := by
  obtain ⟨t, h1, -⟩ := consumer_scrambler_into_inner_loses
  exact ⟨t, h1, consumer_scrambler_into_inner_partial (Policy.regular_faults _) (into_vec_collects [7]).toBulkDefers _ (by decide) _ h1⟩

end

end Verif
