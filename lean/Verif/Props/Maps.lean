import Verif.Props.Limit
import Verif.Cases

/-!
# C22–C24: `MapItem`, `MapFinal`, `MapError`
-/

namespace Verif

open Outcome

section

variable {σ I F E : Type}

/-! ## C22 -/

/-- **C22, producers.** `MapItem` emits the images of the items, in order, with the final value or error unchanged, under
every mix of `produce` and `slurp`. -/
theorem map_item_plays {φ B : Type} (f : φ → I → φ × B) (a : φ) {P : BufferedProducer σ I F E} {s : σ} {c : Script I F E}
    (h : BufPlays P s c) : BufPlays (mapItemBufferedProducer f P) ⟨s, a⟩ (c.mapItem f a) := by
  obtain ⟨R, hR, hs⟩ := h
  exact ⟨_, hR.mapItem f, c, hs, rfl⟩

example : BufPlays (mapItemBufferedProducer (fun (a x : Nat) => (a + x, a + x)) Case.P.toBufferedProducer)
    ⟨Case.pro (.error "broken"), 0⟩ ((Case.script (.error "broken")).mapItem (fun (a x : Nat) => (a + x, a + x)) 0) :=
  map_item_plays _ 0 (Case.plays _).toBufPlays

/-- **C22, producers without buffering.** -/
theorem map_item_plays_unbuffered {φ B : Type} (f : φ → I → φ × B) (a : φ) {P : Producer σ I F E} {s : σ}
    {c : Script I F E} (h : Plays P s c) : Plays (mapItemProducer f P) ⟨s, a⟩ (c.mapItem f a) := by
  obtain ⟨R, hR, hs⟩ := h
  exact ⟨_, hR.mapItem f, c, hs, rfl⟩

example : Plays (mapItemProducer (fun (a x : Nat) => (a + x, a + x)) Case.P.toProducer)
    ⟨Case.pro (.error "broken"), 0⟩ ((Case.script (.error "broken")).mapItem (fun (a x : Nat) => (a + x, a + x)) 0) :=
  map_item_plays_unbuffered _ 0 (Case.plays _).toPlays

/-- What `Script.mapItem` is for finite sequences: the results of applying the function to each item once, in order. -/
theorem map_item_script {φ B : Type} (f : φ → I → φ × B) (a : φ) (xs : List I) (last : Except E F) :
    (Script.ofList xs last).mapItem f a = Script.ofList (results f a xs) last := by
  induction xs generalizing a with
  | nil =>
    funext i
    cases i <;> cases last <;> simp [Script.mapItem, Script.ofList, results, Except.map]
  | cons x xs ih =>
    funext i
    cases i with
    | zero => simp [Script.mapItem, Script.ofList, results]
    | succ i =>
      rw [Script.mapItem, Script.ofList_cons_zero, Script.ofList_drop _ _ _ (by simp)]
      simp only [List.drop_succ_cons, List.drop_zero]
      rw [ih]
      simp [Script.ofList, results]

/-- Without state, the results are the images. -/
theorem results_stateless {A B : Type} (g : A → B) (xs : List A) :
    results (fun (u : Unit) x => (u, g x)) () xs = xs.map g := by
  induction xs with
  | nil => rfl
  | cons x xs ih => simp [results, ih]

/-- **C22, producers, for arbitrary producers (lawful or not).** `MapItem` emits `ys` exactly if the wrapped producer emits
some `xs` of which `ys` are the images; the function has then been called exactly once per item, in order. -/
theorem map_item_emits {φ B : Type} (f : φ → I → φ × B) {P : Producer σ I F E} {s s' : σ} {a a' : φ} {ys : List B} :
    Emits (mapItemProducer f P) ⟨s, a⟩ ys ⟨s', a'⟩ ↔
      ∃ xs, Emits P s xs s' ∧ ys = results f a xs ∧ a' = stateAfter f a xs := by
  constructor
  · intro h
    generalize ha : (⟨s, a⟩ : MapItemSt σ φ) = t at h
    generalize hb : (⟨s', a'⟩ : MapItemSt σ φ) = t' at h
    induction h generalizing s a with
    | nil => subst hb; cases ha; exact ⟨[], .nil _, rfl, rfl⟩
    | @cons t t₁ _ y ys hp _ ih =>
      subst ha
      simp only [mapItemProducer] at hp
      rcases hq : P.produce s with ⟨s₁, e | x | fin⟩ | _ | _ <;> simp [hq] at hp
      obtain ⟨rfl, rfl⟩ := hp
      obtain ⟨xs, h1, rfl, rfl⟩ := ih rfl hb
      exact ⟨x :: xs, .cons hq h1, rfl, rfl⟩
  · rintro ⟨xs, h, rfl, rfl⟩
    induction h generalizing a with
    | nil => exact .nil _
    | @cons s s₁ s₂ x xs hp _ ih =>
      exact .cons (s₁ := ⟨s₁, (f a x).1⟩) (by simp [mapItemProducer, hp]) ih

/-- **C22, producers, the end.** When the wrapped producer answers with a final value or error, so does `MapItem`, without
calling the function. -/
theorem map_item_end {φ B : Type} (f : φ → I → φ × B) {P : Producer σ I F E} {s s' : σ} (a : φ) {r : Except E F}
    (h : P.produce s = ok (s', r.map .inr)) :
    (mapItemProducer f P).produce ⟨s, a⟩ = ok (⟨s', a⟩, r.map .inr) := by
  cases r <;> simp_all [mapItemProducer, Except.map]

example : (mapItemProducer (fun (a x : Nat) => (a + x, a + x)) (failingProducer Nat Unit "broken").toProducer).produce ⟨(), 5⟩ =
    ok (⟨(), 5⟩, .error "broken") :=
  map_item_end _ 5 (r := .error "broken") rfl

/-- Running sums. -/
example : BufPlays (mapItemBufferedProducer (fun (a x : Nat) => (a + x, a + x)) (FromSlice.producer Nat).toBufferedProducer)
    ⟨FromSlice.new [1, 2, 3], 0⟩ (Script.ofList [1, 3, 6] (.ok ())) := by
  have := map_item_plays (fun (a x : Nat) => (a + x, a + x)) 0 (from_slice_plays [1, 2, 3]).toBufPlays
  rwa [map_item_script] at this

/-- **C22, consumers.** `MapItem` around a lawful consumer that has consumed `l₀` makes it consume the images of the items in
order; errors, `flush` and `close` are those of the wrapped consumer. -/
theorem map_item_collects {φ A : Type} (f : φ → A → φ × I) (a : φ) {C : BufferedConsumer σ I F E}
    {D : σ → List I → Option F → Prop} {q : Policy I F E} {s : σ} {l₀ : List I} (h : BufCollects C D q s l₀) :
    BufCollects (mapItemBufferedConsumer f C) (fun t l => D t.inner (l₀ ++ results f a l)) (q.mapItem f a l₀) ⟨s, a⟩ [] := by
  obtain ⟨R, hR, hs⟩ := h
  exact ⟨_, hR.mapItem f a l₀, by simpa [results] using hs, rfl⟩

example : BufCollects (mapItemBufferedConsumer (fun (a x : Nat) => (x, x - a)) Case.C.toBufferedConsumer)
    (fun t l => TestConsumer.Seen t.inner (results (fun (a x : Nat) => (x, x - a)) 1 l))
    ((Case.policy 4).mapItem (fun (a x : Nat) => (x, x - a)) 1 []) ⟨Case.con 4, 1⟩ [] :=
  map_item_collects _ 1 (Case.collects 4).toBufCollects

theorem map_item_collects_unbuffered {φ A : Type} (f : φ → A → φ × I) (a : φ) {C : Consumer σ I F E}
    {D : σ → List I → Option F → Prop} {q : Policy I F E} {s : σ} {l₀ : List I} (h : Collects C D q s l₀) :
    Collects (mapItemConsumer f C) (fun t l => D t.inner (l₀ ++ results f a l)) (q.mapItem f a l₀) ⟨s, a⟩ [] := by
  obtain ⟨R, hR, hs⟩ := h
  exact ⟨_, hR.mapItem f a l₀, by simpa [results] using hs, rfl⟩

example : Collects (mapItemConsumer (fun (a x : Nat) => (x, x - a)) Case.C.toConsumer)
    (fun t l => TestConsumer.Seen t.inner (results (fun (a x : Nat) => (x, x - a)) 1 l))
    ((Case.policy 4).mapItem (fun (a x : Nat) => (x, x - a)) 1 []) ⟨Case.con 4, 1⟩ [] :=
  map_item_collects_unbuffered _ 1 (Case.collects 4).toCollects

/-- **C22, consumers that delay their effects.** -/
theorem map_item_delays {φ A : Type} (f : φ → A → φ × I) (a : φ) {C : BufferedConsumer σ I F E}
    {D : σ → List I → Option F → Prop} {s : σ} (h : BufDelays C D s []) :
    BufDelays (mapItemBufferedConsumer f C) (fun t l => D t.inner (results f a l)) ⟨s, a⟩ [] := by
  obtain ⟨R, hR, hs⟩ := h
  exact ⟨_, BufDelaysLaw.mapItem f a hR, hs, rfl⟩

example : BufDelays (mapItemBufferedConsumer (fun (a x : Nat) => (x, x - a)) Case.B.toBufferedConsumer)
    (fun t l => Case.SeenInside t.inner (results (fun (a x : Nat) => (x, x - a)) 1 l)) ⟨Case.del 4, 1⟩ [] :=
  map_item_delays _ 1 (BulkDelays.toBufDelays (Case.delays 4))

/-- **C22, consumers, for arbitrary consumers.** `MapItem` consumes `xs` exactly if the wrapped consumer consumes the images;
the function has then been called exactly once per item, in order. -/
theorem map_item_consumes {φ A : Type} (f : φ → A → φ × I) {C : Consumer σ I F E} {s s' : σ} {a a' : φ} {xs : List A} :
    Consumes (mapItemConsumer f C) ⟨s, a⟩ xs ⟨s', a'⟩ ↔ Consumes C s (results f a xs) s' ∧ a' = stateAfter f a xs := by
  induction xs generalizing s a with
  | nil =>
    constructor
    · intro h; cases h; exact ⟨.nil _, rfl⟩
    · rintro ⟨h, rfl⟩; cases h; exact .nil _
  | cons x xs ih =>
    constructor
    · intro h
      cases h with
      | @cons _ t₁ _ _ _ hp h =>
        simp only [mapItemConsumer] at hp
        rcases hq : C.consume s (f a x).2 with ⟨s₁, e | _⟩ | _ | _ <;> simp [hq] at hp
        subst hp
        obtain ⟨h1, h2⟩ := ih.mp h
        exact ⟨.cons hq h1, h2⟩
    · rintro ⟨h, h2⟩
      cases h with
      | @cons _ s₁ _ _ _ hp h =>
        exact .cons (s₁ := ⟨s₁, (f a x).1⟩) (by simp [mapItemConsumer, hp]) (ih.mpr ⟨h, h2⟩)

/-- Differences of successive items end up in a vector. -/
example : Consumes (mapItemConsumer (fun (a x : Nat) => (x, x - a)) (IntoVec.consumer Nat).toConsumer) ⟨IntoVec.new, 1⟩
    [4, 9] ⟨⟨[3, 5, 0], 2⟩, 9⟩ :=
  (map_item_consumes _).mpr ⟨.cons (s₁ := ⟨[3], 1⟩) rfl (.cons (s₁ := ⟨[3, 5, 0], 2⟩) rfl (.nil _)), rfl⟩

example : BufCollects (mapItemBufferedConsumer (fun (a x : Nat) => (x, x - a)) (IntoVec.consumer Nat).toBufferedConsumer)
    (fun t l _ => t.inner.asRef = ok ([7] ++ results (fun (a x : Nat) => (x, x - a)) 1 l) ∧
      t.inner.intoVec = [7] ++ results (fun (a x : Nat) => (x, x - a)) 1 l)
    (Policy.acceptAll.mapItem (fun (a x : Nat) => (x, x - a)) 1 [7]) ⟨IntoVec.fromVec [7], 1⟩ [] :=
  map_item_collects _ 1 (into_vec_collects [7]).toBufCollects

/-! ## C23 -/

/-- **C23, producers.** Items and errors are unchanged, the final value is mapped; no call panics. -/
theorem map_final_plays {B : Type} (f : F → B) {P : BulkProducer σ I F E} {s : σ} {c : Script I F E} (h : BulkPlays P s c) :
    BulkPlays (mapFinalBulkProducer P) ⟨s, some f⟩ (c.mapFinal f) := by
  obtain ⟨R, hR, n, hn⟩ := h
  exact ⟨_, hR.mapFinal f, n, c, hn, rfl, rfl⟩

example : BulkPlays (mapFinalBulkProducer Case.P) ⟨Case.pro (.error "broken"), some fun () => 42⟩
    ((Case.script (.error "broken")).mapFinal fun () => 42) :=
  map_final_plays _ (Case.plays _)

/-- **C23, consumers.** Items and errors are unchanged, the wrapped consumer is closed with the mapped final value. -/
theorem map_final_collects {B : Type} (f : B → F) {C : BulkConsumer σ I F E} {D : σ → List I → Option F → Prop}
    {q : Policy I F E} {s : σ} {l : List I} (h : BulkCollects C D q s l) :
    BulkCollects (mapFinalBulkConsumer C) (fun t l fin => D t.inner l (fin.map f)) (q.mapFinal f) ⟨s, some f⟩ l := by
  obtain ⟨R, hR, sl, hs⟩ := h
  exact ⟨_, hR.mapFinal f, sl, hs, rfl⟩

example : BulkCollects (mapFinalBulkConsumer Case.C) (fun t l (fin : Option Nat) => TestConsumer.Seen t.inner l (fin.map fun _ => ()))
    ((Case.policy 4).mapFinal fun _ => ()) ⟨Case.con 4, some fun _ => ()⟩ [] :=
  map_final_collects _ (Case.collects 4)

theorem map_final_delays {B : Type} (f : B → F) {C : BulkConsumer σ I F E} {D : σ → List I → Option F → Prop}
    {s : σ} {l : List I} (h : BulkDelays C D s l) :
    BulkDelays (mapFinalBulkConsumer C) (fun t l fin => D t.inner l (fin.map f)) ⟨s, some f⟩ l := by
  obtain ⟨R, hR, sl, hs⟩ := h
  exact ⟨_, BulkDelaysLaw.mapFinal f hR, sl, hs, rfl⟩

example : BulkDelays (mapFinalBulkConsumer Case.B) (fun t l (fin : Option Nat) => Case.SeenInside t.inner l (fin.map fun _ => ()))
    ⟨Case.del 4, some fun _ => ()⟩ [] :=
  map_final_delays _ (Case.delays 4)

theorem map_final_script {B : Type} (f : F → B) (xs : List I) (last : Except E F) :
    (Script.ofList xs last).mapFinal f = Script.ofList xs (last.map f) := by
  funext i
  simp only [Script.mapFinal, Script.ofList]
  cases xs[i]? <;> cases last <;> rfl

example : BulkPlays (mapFinalBulkProducer (FromSlice.producer Nat)) ⟨FromSlice.new [1, 2], some fun () => 42⟩
    (Script.ofList [1, 2] (.ok 42)) := by
  have := map_final_plays (fun () => 42) (from_slice_plays [1, 2])
  rwa [map_final_script] at this

example : BulkCollects (mapFinalBulkConsumer (IntoVec.consumer Nat))
    (fun t l (_ : Option Nat) => t.inner.asRef = ok l ∧ t.inner.intoVec = l)
    (Policy.acceptAll.mapFinal fun _ => ()) ⟨IntoVec.fromVec [7], some fun _ => ()⟩ [7] :=
  map_final_collects _ (into_vec_collects [7])

/-! ## C24 -/

/-- Map the error of the answer to a producer call. -/
def Handout.mapError {B : Type} (f : E → B) (r : Handout I F E) : Handout I F B :=
  ⟨r.items, r.shown, r.ended.map (Except.mapError f)⟩

/-- **C24, producers, partial.** The first call of `produce`, `slurp`, `expose_items` or `consider_produced` behaves like that
of the wrapped producer, with a mapped error (for arbitrary producers, lawful or not). Missing: every later call panics
(`map_error_panics`), and so does `bulk_produce` when there is an item (`map_error_bulk_produce_panics`). -/
theorem map_error_first_call_partial {B : Type} (f : E → B) (P : BulkProducer σ I F E) (s : σ) (shown : List I)
    (op : ProducerOp I) (hop : ∀ buf, op ≠ .bulkProduce buf) :
    (mapErrorBulkProducer P).call ⟨s, some f⟩ shown op =
      (P.call s shown op).bind fun x => ok (⟨x.1, none⟩, x.2.mapError f) := by
  cases op with
  | bulkProduce buf => exact absurd rfl (hop buf)
  | produce =>
    simp only [BulkProducer.call, mapErrorBulkProducer, mapErrorBufferedProducer, mapErrorProducer]
    rcases hp : P.produce s with ⟨s', e | x | fin⟩ | _ | _ <;> simp [mapErrTake, Handout.mapError, Except.mapError]
  | slurp =>
    simp only [BulkProducer.call, mapErrorBulkProducer, mapErrorBufferedProducer]
    rcases hp : P.slurp s with ⟨s', e | _⟩ | _ | _ <;> simp [mapErrTake, Handout.mapError, Except.mapError]
  | exposeItems =>
    simp only [BulkProducer.call, mapErrorBulkProducer]
    rcases hp : P.exposeItems s with ⟨s', e | x | fin⟩ | _ | _ <;> simp [mapErrTake, Handout.mapError, Except.mapError]
  | considerProduced k =>
    simp only [BulkProducer.call, mapErrorBulkProducer]
    rcases hp : P.considerProduced s k with ⟨s', e | _⟩ | _ | _ <;> simp [mapErrTake, Handout.mapError, Except.mapError]

example (s : TestProducer Nat Unit String) : (mapErrorBulkProducer Case.P).call ⟨s, some String.length⟩ [] .exposeItems =
    (Case.P.call s [] .exposeItems).bind fun x => ok (⟨x.1, none⟩, x.2.mapError String.length) :=
  map_error_first_call_partial _ _ _ _ _ (by simp)

/-- **C24, producers, partial.** If the wrapped producer starts with its final value or error, `produce` answers with it
(mapped). -/
theorem map_error_plays_partial {B : Type} (f : E → B) {P : Producer σ I F E} {s : σ} {c : Script I F E} (h : Plays P s c)
    (hc : ∀ x, c 0 ≠ .ok (.inl x)) : Plays (mapErrorProducer P) ⟨s, some f⟩ (c.mapError f) := by
  obtain ⟨s', h1, _⟩ := h.step
  refine ⟨fun t c' => t = ⟨s, some f⟩ ∧ c' = c.mapError f, ⟨?_⟩, rfl, rfl⟩
  rintro _ _ ⟨rfl, rfl⟩
  rcases hc' : c 0 with e | x | fin
  · exact ⟨⟨s', none⟩, by simp [mapErrorProducer, h1, mapErrTake, Script.mapError, hc', Except.mapError],
      by simp [Script.mapError, hc']⟩
  · exact absurd hc' (hc x)
  · exact ⟨⟨s', none⟩, by simp [mapErrorProducer, h1, mapErrTake, Script.mapError, hc', Except.mapError],
      by simp [Script.mapError, hc']⟩

example : Plays (mapErrorProducer (failingProducer Nat Unit 3).toProducer) ⟨(), some fun (e : Nat) => e + 1⟩
    (Script.mapError (fun e => e + 1) fun _ => .error 3) :=
  map_error_plays_partial _ (failing_producer_plays 3).toPlays (by simp)

/-- **C24 is false: the second call panics.** After any call, the function is gone; then every call on which the wrapped
producer returns (whatever it returns) panics. -/
theorem map_error_panics {B : Type} {P : BulkProducer σ I F E} {s : σ} {shown : List I} {op : ProducerOp I} {x}
    (h : P.call s shown op = ok x) (hop : ∀ buf, op ≠ .bulkProduce buf) :
    (mapErrorBulkProducer P).call (⟨s, none⟩ : MapErrorSt σ E B) shown op = .panic := by
  cases op with
  | bulkProduce buf => exact absurd rfl (hop buf)
  | produce =>
    simp only [BulkProducer.call, mapErrorBulkProducer, mapErrorBufferedProducer, mapErrorProducer] at h ⊢
    rcases hp : P.produce s with ⟨s', e | x | fin⟩ | _ | _ <;> simp [hp, mapErrTake] at h ⊢
  | slurp =>
    simp only [BulkProducer.call, mapErrorBulkProducer, mapErrorBufferedProducer] at h ⊢
    rcases hp : P.slurp s with ⟨s', e | _⟩ | _ | _ <;> simp [hp, mapErrTake] at h ⊢
  | exposeItems =>
    simp only [BulkProducer.call, mapErrorBulkProducer] at h ⊢
    rcases hp : P.exposeItems s with ⟨s', e | x | fin⟩ | _ | _ <;> simp [hp, mapErrTake] at h ⊢
  | considerProduced k =>
    simp only [BulkProducer.call, mapErrorBulkProducer] at h ⊢
    rcases hp : P.considerProduced s k with ⟨s', e | _⟩ | _ | _ <;> simp [hp, mapErrTake] at h ⊢

example : (mapErrorBulkProducer Case.P).call (⟨Case.pro (.ok ()), none⟩ : MapErrorSt _ String Nat) [] .produce = .panic :=
  map_error_panics (x := (_, ⟨[1], [], none⟩)) rfl (by simp)

/-- **C24 is false.** Around every producer that emits at least one item, `MapError` emits no sequence at all: it panics on the
second call of `produce`. -/
theorem map_error_never_plays {B : Type} (f : E → B) {P : Producer σ I F E} {s : σ} {c : Script I F E} (h : Plays P s c)
    {x : I} (hc : c 0 = .ok (.inl x)) :
    (∃ t, (mapErrorProducer P).produce ⟨s, some f⟩ = ok (t, .ok (.inl x)) ∧ (mapErrorProducer P).produce t = .panic) ∧
    ∀ c', ¬ Plays (mapErrorProducer P) ⟨s, some f⟩ c' := by
  obtain ⟨s₁, h1, h2⟩ := h.step
  obtain ⟨s₂, h3, _⟩ := (h2 x hc).step
  rw [hc] at h1
  have h4 : (mapErrorProducer P).produce ⟨s, some f⟩ = ok (⟨s₁, none⟩, .ok (.inl x)) := by
    simp [mapErrorProducer, h1, mapErrTake, Except.mapError]
  have h5 : (mapErrorProducer P).produce (⟨s₁, none⟩ : MapErrorSt σ E B) = .panic := by
    simp [mapErrorProducer, h3, mapErrTake]
  refine ⟨⟨_, h4, h5⟩, fun c' h' => ?_⟩
  obtain ⟨t, h6, h7⟩ := h'.step
  rw [h4] at h6
  injection h6 with h6
  injection h6 with h6 h8
  subst h6
  obtain ⟨t', h9, _⟩ := (h7 x h8.symm).step
  rw [h5] at h9
  cases h9

example : ∀ c', ¬ Plays (mapErrorProducer Case.P.toProducer) ⟨Case.pro (.ok ()), some String.length⟩ c' :=
  (map_error_never_plays _ (Case.plays _).toPlays (x := 1) rfl).2

/-- **C24 is false for `bulk_produce`.** Around every lawful producer whose next answer is an item, the very first
`bulk_produce` panics. -/
theorem map_error_bulk_produce_panics {B : Type} (f : E → B) {P : BulkProducer σ I F E} {s : σ} {c : Script I F E}
    (h : BulkPlays P s c) {x : I} (hc : c 0 = .ok (.inl x)) (buf : List I) :
    (mapErrorBulkProducer P).bulkProduce ⟨s, some f⟩ buf = .panic := by
  obtain ⟨R, hR, n, hn⟩ := h
  obtain ⟨s', ⟨xs, h1, h2, h3, h4⟩ | ⟨fin, h1, h2⟩ | ⟨e, h1, h2⟩⟩ := hR.expose s c n hn
  · obtain ⟨s'', h5, _⟩ := hR.consider s' c xs.length (min xs.length buf.length) h4 (List.length_pos_iff.mpr h1)
      (Nat.min_le_left _ _)
    simp [mapErrorBulkProducer, bulkProduceDefault, h3, mapErrTake, Except.mapError, h5]
  · rw [hc] at h1; cases h1
  · rw [hc] at h1; cases h1

example : (mapErrorBulkProducer Case.P).bulkProduce ⟨Case.pro (.ok ()), some String.length⟩ [0, 0] = .panic :=
  map_error_bulk_produce_panics _ (Case.plays _) (x := 1) rfl _

/-- Concretely: producing twice from a slice with two items, with the identity as the function. -/
example : (mapErrorProducer (FromSlice.producer Nat).toProducer).produce ⟨FromSlice.new [1, 2], some fun (e : Empty) => e⟩ =
      ok (⟨⟨[1, 2], 1⟩, none⟩, .ok (.inl 1)) ∧
    (mapErrorProducer (FromSlice.producer Nat).toProducer).produce (⟨⟨[1, 2], 1⟩, none⟩ : MapErrorSt _ Empty Empty) = .panic :=
  ⟨rfl, rfl⟩

/-- Map the error of the answer to a consumer call. -/
def Receipt.mapError {B : Type} (f : E → B) (r : Receipt I F E) : Receipt I F B :=
  ⟨r.items, r.slots, r.ended.map fun
    | .closed fin => .closed fin
    | .failed e xs => .failed (f e) xs
    | .closeFailed e fin => .closeFailed (f e) fin
    | .flushFailed e => .flushFailed (f e)⟩

/-- A single method call: neither the writing to slots (which is not a method call) nor `bulk_consume` (which makes two
calls). -/
def ConsumerOp.IsPlain : ConsumerOp I F → Prop
  | .write _ => False
  | .bulkConsume _ => False
  | _ => True

/-- **C24, consumers, partial.** The first call of `consume`, `flush`, `close`, `expose_slots` or `consume_slots` behaves like
that of the wrapped consumer, with a mapped error (for arbitrary consumers). Missing: every later call panics
(`map_error_consumer_panics`), and so does `bulk_consume` when slots are available
(`map_error_bulk_consume_panics`). -/
theorem map_error_consumer_first_call_partial {B : Type} (f : E → B) (C : BulkConsumer σ I F E) (s : σ) (slots : List I)
    (op : ConsumerOp I F) (hop : op.IsPlain) :
    (mapErrorBulkConsumer C).call ⟨s, some f⟩ slots op =
      (C.call s slots op).bind fun x => ok (⟨x.1, none⟩, x.2.mapError f) := by
  cases op with
  | bulkConsume buf => exact hop.elim
  | write ws => exact hop.elim
  | consume x =>
    simp only [BulkConsumer.call, mapErrorBulkConsumer, mapErrorBufferedConsumer, mapErrorConsumer]
    rcases hp : C.consume s x with ⟨s', e | _⟩ | _ | _ <;> simp [mapErrTake, Receipt.mapError, Except.mapError]
  | close fin =>
    simp only [BulkConsumer.call, mapErrorBulkConsumer, mapErrorBufferedConsumer, mapErrorConsumer]
    rcases hp : C.close s fin with ⟨s', e | _⟩ | _ | _ <;> simp [mapErrTake, Receipt.mapError, Except.mapError]
  | flush =>
    simp only [BulkConsumer.call, mapErrorBulkConsumer, mapErrorBufferedConsumer]
    rcases hp : C.flush s with ⟨s', e | _⟩ | _ | _ <;> simp [mapErrTake, Receipt.mapError, Except.mapError]
  | exposeSlots =>
    simp only [BulkConsumer.call, mapErrorBulkConsumer]
    rcases hp : C.exposeSlots s with ⟨s', e | _⟩ | _ | _ <;> simp [mapErrTake, Receipt.mapError, Except.mapError]
  | consumeSlots k =>
    simp only [BulkConsumer.call, mapErrorBulkConsumer]
    rcases hp : C.consumeSlots s k with ⟨s', e | _⟩ | _ | _ <;> simp [mapErrTake, Receipt.mapError, Except.mapError]

example (s : TestConsumer Nat Unit String) : (mapErrorBulkConsumer Case.C).call ⟨s, some String.length⟩ [] .exposeSlots =
    (Case.C.call s [] .exposeSlots).bind fun x => ok (⟨x.1, none⟩, x.2.mapError String.length) :=
  map_error_consumer_first_call_partial _ _ _ _ _ trivial

/-- **C24 is false: the second call panics**, whatever the wrapped consumer answers. -/
theorem map_error_consumer_panics {B : Type} {C : BulkConsumer σ I F E} {s : σ} {slots : List I} {op : ConsumerOp I F} {x}
    (h : C.call s slots op = ok x) (hop : op.IsPlain) :
    (mapErrorBulkConsumer C).call (⟨s, none⟩ : MapErrorSt σ E B) slots op = .panic := by
  cases op with
  | bulkConsume buf => exact hop.elim
  | write ws => exact hop.elim
  | consume x =>
    simp only [BulkConsumer.call, mapErrorBulkConsumer, mapErrorBufferedConsumer, mapErrorConsumer] at h ⊢
    rcases hp : C.consume s x with ⟨s', e | _⟩ | _ | _ <;> simp [hp, mapErrTake] at h ⊢
  | close fin =>
    simp only [BulkConsumer.call, mapErrorBulkConsumer, mapErrorBufferedConsumer, mapErrorConsumer] at h ⊢
    rcases hp : C.close s fin with ⟨s', e | _⟩ | _ | _ <;> simp [hp, mapErrTake] at h ⊢
  | flush =>
    simp only [BulkConsumer.call, mapErrorBulkConsumer, mapErrorBufferedConsumer] at h ⊢
    rcases hp : C.flush s with ⟨s', e | _⟩ | _ | _ <;> simp [hp, mapErrTake] at h ⊢
  | exposeSlots =>
    simp only [BulkConsumer.call, mapErrorBulkConsumer] at h ⊢
    rcases hp : C.exposeSlots s with ⟨s', e | _⟩ | _ | _ <;> simp [hp, mapErrTake] at h ⊢
  | consumeSlots k =>
    simp only [BulkConsumer.call, mapErrorBulkConsumer] at h ⊢
    rcases hp : C.consumeSlots s k with ⟨s', e | _⟩ | _ | _ <;> simp [hp, mapErrTake] at h ⊢

example : (mapErrorBulkConsumer Case.C).call (⟨Case.con 4, none⟩ : MapErrorSt _ String Nat) [] (.consume 5) = .panic :=
  map_error_consumer_panics (x := (_, ⟨[5], [], none⟩)) rfl trivial

/-- **C24 is false for consumers.** Around every lawful consumer, after one consumed item the next `consume` and the next
`close` panic. -/
theorem map_error_consumer_second_panics {B : Type} (f : E → B) {C : Consumer σ I F E} {D : σ → List I → Option F → Prop}
    {q : Policy I F E} {s : σ} {l : List I} (h : Collects C D q s l) {x : I} (hx : q.answer l x = none) :
    ∃ t, (mapErrorConsumer C).consume ⟨s, some f⟩ x = ok (t, .ok ()) ∧
      (∀ y, (mapErrorConsumer C).consume t y = .panic) ∧ ∀ fin, (mapErrorConsumer C).close t fin = .panic := by
  obtain ⟨s', h1, h2⟩ := h.consume_ok x hx
  refine ⟨⟨s', none⟩, by simp [mapErrorConsumer, h1, mapErrTake, Except.mapError], fun y => ?_, fun fin => ?_⟩
  · rcases hq : q.answer (l ++ [x]) y with _ | e
    · obtain ⟨s'', h3, _⟩ := h2.consume_ok y hq
      simp [mapErrorConsumer, h3, mapErrTake]
    · obtain ⟨s'', h3, _⟩ := h2.consume_err y hq
      simp [mapErrorConsumer, h3, mapErrTake]
  · rcases hq : q.refuseClose (l ++ [x]) fin with _ | e
    · obtain ⟨s'', h3, _⟩ := h2.close_ok fin hq
      simp [mapErrorConsumer, h3, mapErrTake]
    · obtain ⟨s'', h3, _⟩ := h2.close_err fin hq
      simp [mapErrorConsumer, h3, mapErrTake]

example : ∃ t, (mapErrorConsumer Case.C.toConsumer).consume ⟨Case.con 4, some String.length⟩ 5 = ok (t, .ok ()) ∧
    (∀ y, (mapErrorConsumer Case.C.toConsumer).consume t y = .panic) ∧
    ∀ fin, (mapErrorConsumer Case.C.toConsumer).close t fin = .panic :=
  map_error_consumer_second_panics _ (Case.collects 4).toCollects rfl

/-- **C24 is false for `bulk_consume`.** The very first `bulk_consume` panics if the wrapped consumer has slots. -/
theorem map_error_bulk_consume_panics {B : Type} (f : E → B) {C : BulkConsumer σ I F E} {D : σ → List I → Option F → Prop}
    {q : Policy I F E} {s : σ} {l : List I} (h : BulkCollects C D q s l) (hq : q.refuse l = none) (buf : List I) :
    (mapErrorBulkConsumer C).bulkConsume ⟨s, some f⟩ buf = .panic := by
  obtain ⟨R, hR, slots, hs⟩ := h
  obtain ⟨s', slots', h1, h2, h3⟩ := hR.expose_ok s l slots hs hq
  have h4 := hR.write s' l slots' (buf.take (min slots'.length buf.length)) h3 (by simp; omega)
  have hpos := List.length_pos_iff.mpr h1
  have hlen : (buf.take (min slots'.length buf.length) ++
      slots'.drop (buf.take (min slots'.length buf.length)).length).length = slots'.length := by simp; omega
  have hne : buf.take (min slots'.length buf.length) ++
      slots'.drop (buf.take (min slots'.length buf.length)).length ≠ [] := by
    intro h0; rw [h0] at hlen; simp at hlen; omega
  have hk : min slots'.length buf.length ≤ (buf.take (min slots'.length buf.length) ++
      slots'.drop (buf.take (min slots'.length buf.length)).length).length := by rw [hlen]; omega
  have hstep : ∃ s'' r, C.consumeSlots (C.writeSlots s' (buf.take (min slots'.length buf.length)))
      (min slots'.length buf.length) = ok (s'', r) := by
    rcases q.accepts_or_failsAt l ((buf.take (min slots'.length buf.length) ++
      slots'.drop (buf.take (min slots'.length buf.length)).length).take (min slots'.length buf.length)) with ha | ⟨i, e, hf⟩
    · obtain ⟨s'', h5, _⟩ := hR.consumeSlots_ok _ l _ _ h4 hne hk ha
      exact ⟨s'', _, h5⟩
    · obtain ⟨s'', h5, _⟩ := hR.consumeSlots_err _ l _ _ i e h4 hne hk hf
      exact ⟨s'', _, h5⟩
  obtain ⟨s'', r, h5⟩ := hstep
  simp [mapErrorBulkConsumer, bulkConsumeDefault, h2, mapErrTake, Except.mapError, h5]

example : (mapErrorBulkConsumer Case.C).bulkConsume ⟨Case.con 4, some String.length⟩ [5, 6] = .panic :=
  map_error_bulk_consume_panics _ (Case.collects 4) rfl _

example : (mapErrorBulkConsumer (IntoVec.consumer Nat)).bulkConsume ⟨IntoVec.new, some fun (e : Empty) => e⟩ [1, 2] = .panic :=
  map_error_bulk_consume_panics _ into_vec_new_collects rfl _

end

end Verif
