import Verif.Lemmas.Clone
import Verif.Props.PipeAtMost
import Verif.Props.FullSlice
import Verif.Props.Slices
import Verif.Props.Queue

/-!
# C77, C78: clones, and panics of `clone`
-/

namespace Verif

open Outcome

variable {σ τ I F E E₁ E₂ T : Type}

/-! ## Copies -/

/-- **C77, copies.** When `clone` copies, the functions of this file are those of the rest of the model. -/
theorem cloning_copies :
    FromSlice.cloningProducer (some : T → Option T) = FromSlice.producer T ∧
    FromBoxedSlice.cloningProducer (some : T → Option T) = FromBoxedSlice.producer T ∧
    (∀ [Inhabited T], IntoVec.cloningConsumer (some : T → Option T) = IntoVec.consumer T) ∧
    Fixed.cloningQueue (some : T → Option T) = Fixed.queue T ∧
    (∀ N, Static.cloningQueue (some : T → Option T) N = Static.queue T N) := by
  refine ⟨?_, ?_, ?_, ?_, ?_⟩
  · simp only [FromSlice.cloningProducer, BulkProducer.cloning]
    congr 1
    · congr 2
      funext s
      simp only [FromSlice.produceCloning, FromSlice.produce, uncaught]
      split
      · rfl
      · rcases index s.data s.pos with x | _ | _ <;> rfl
    · funext s buf
      simp only [FromSlice.producer, bulkProduceCloning, bulkProduceDefault, uncaught, cloneSlice_some, bind_eq]
      rcases s.exposeItems with ⟨s, e | slots | f⟩ | _ | _ <;> try rfl
      simp only [bind_ok, List.length_take]
      rw [show min (min slots.length buf.length) slots.length = min slots.length buf.length by omega]
      rcases s.considerProduced _ with ⟨s, e | ⟨⟩⟩ | _ | _ <;> rfl
  · simp only [FromBoxedSlice.cloningProducer, BulkProducer.cloning]
    congr 1
    · congr 2
      funext s
      simp only [FromBoxedSlice.produceCloning, FromBoxedSlice.produce, uncaught]
      split
      · rfl
      · rcases index s.data s.pos with x | _ | _ <;> rfl
    · funext s buf
      simp only [FromBoxedSlice.producer, bulkProduceCloning, bulkProduceDefault, uncaught, cloneSlice_some, bind_eq]
      rcases s.exposeItems with ⟨s, e | slots | f⟩ | _ | _ <;> try rfl
      simp only [bind_ok, List.length_take]
      rw [show min (min slots.length buf.length) slots.length = min slots.length buf.length by omega]
      rcases s.considerProduced _ with ⟨s, e | ⟨⟩⟩ | _ | _ <;> rfl
  · intro _
    have h : (IntoVec.cloningConsumer (some : T → Option T)).bulkConsume = (IntoVec.consumer T).bulkConsume := by
      funext s buf
      simpa [IntoVec.cloningConsumer] using bulkConsume_cloning id (IntoVec.consumer T) rfl s buf
    show { IntoVec.consumer T with bulkConsume := (IntoVec.cloningConsumer (some : T → Option T)).bulkConsume } = _
    rw [h]
  · simp only [Fixed.cloningQueue, Queue.cloning]
    congr 1
    · funext q buf
      simp only [Fixed.queue, bulkEnqueueCloning, bulkEnqueueDefault, uncaught, cloneSlice_some, bind_eq]
      rcases q.exposeSlots with ⟨q, _ | slots⟩ | _ | _ <;> rfl
    · funext q
      simp only [Fixed.dequeueCloning_eq, uncaught]
      rcases q.dequeue with ⟨q, _ | x⟩ | _ | _ <;> rfl
    · funext q buf
      simp only [Fixed.queue, bulkDequeueCloning, bulkDequeueDefault, uncaught, cloneSlice_some, bind_eq]
      rcases q.exposeItems with ⟨q, _ | slots⟩ | _ | _ <;> try rfl
      simp only [bind_ok, List.length_take]
      rw [show min (min slots.length buf.length) slots.length = min slots.length buf.length by omega]
      rcases Fixed.considerDequeued _ _ with q | _ | _ <;> rfl
  · intro N
    simp only [Static.cloningQueue, Queue.cloning]
    congr 1
    · funext q buf
      simp only [Static.queue, bulkEnqueueCloning, bulkEnqueueDefault, uncaught, cloneSlice_some, bind_eq]
      rcases q.exposeSlots with ⟨q, _ | slots⟩ | _ | _ <;> rfl
    · funext q
      simp only [Static.dequeueCloning_eq, uncaught]
      rcases q.dequeue with ⟨q, _ | x⟩ | _ | _ <;> rfl
    · funext q buf
      simp only [Static.queue, bulkDequeueCloning, bulkDequeueDefault, uncaught, cloneSlice_some, bind_eq]
      rcases q.exposeItems with ⟨q, _ | slots⟩ | _ | _ <;> try rfl
      simp only [bind_ok, List.length_take]
      rw [show min (min slots.length buf.length) slots.length = min slots.length buf.length by omega]
      rcases Static.considerDequeued _ _ with q | _ | _ <;> rfl

/-! ## Producers -/

/-- **C77, slices.** Whatever `clone` makes of an item, `produce` and `bulk_produce` of a slice yield what one `clone` makes of it;
and so does a client that clones what `expose_items` shows. -/
theorem from_slice_clones_once (cl : T → T) (xs : List T) :
    BulkPlays ((FromSlice.cloningProducer fun x => some (cl x)).exposingClones cl) (FromSlice.new xs)
      (Script.ofList (xs.map cl) (.ok ())) := by
  have hx : ∀ s : FromSlice T, (FromSlice.producer T).exposeItems (s.clones cl) =
      (((FromSlice.cloningProducer fun x => some (cl x)).exposingClones cl).exposeItems s).onState (FromSlice.clones cl) := by
    intro s
    simp only [FromSlice.clones, FromSlice.producer, FromSlice.exposeItems, BulkProducer.exposingClones, FromSlice.cloningProducer,
      BulkProducer.cloning, slice_map, List.length_map]
    rcases slice s.data s.pos s.data.length with (_ | ⟨x, xs⟩) | _ | _ <;> rfl
  refine BulkPlays.of_image (P' := FromSlice.producer T) (g := FromSlice.clones cl) ?_ ?_ hx ?_ ?_ (from_slice_plays (xs.map cl))
  · intro s
    simp only [FromSlice.clones, FromSlice.producer, FromSlice.produce, BulkProducer.exposingClones, FromSlice.cloningProducer,
      BulkProducer.cloning, FromSlice.produceCloning, uncaught, index_map, List.length_map]
    split
    · rfl
    · rcases index s.data s.pos with x | _ | _ <;> rfl
  · intro s; rfl
  · intro s k; rfl
  · intro s buf
    show bulkProduceDefault (FromSlice.producer T).exposeItems (FromSlice.producer T).considerProduced _ buf =
      Outcome.onState _ ((FromSlice.cloningProducer _).bulkProduce s buf)
    rw [FromSlice.cloningProducer, bulkProduce_cloning, ← FromSlice.cloningProducer]
    simp only [bulkProduceDefault, hx, bind_eq]
    rcases ((FromSlice.cloningProducer fun x => some (cl x)).exposingClones cl).exposeItems s with ⟨s, e | slots | f⟩ | _ | _ <;> rfl

/-- **C77, boxed slices.** -/
theorem from_boxed_slice_clones_once (cl : T → T) (xs : List T) :
    BulkPlays ((FromBoxedSlice.cloningProducer fun x => some (cl x)).exposingClones cl) (FromBoxedSlice.new xs)
      (Script.ofList (xs.map cl) (.ok ())) := by
  have hx : ∀ s : FromBoxedSlice T, (FromBoxedSlice.producer T).exposeItems (s.clones cl) =
      (((FromBoxedSlice.cloningProducer fun x => some (cl x)).exposingClones cl).exposeItems s).onState (FromBoxedSlice.clones cl) := by
    intro s
    simp only [FromBoxedSlice.clones, FromBoxedSlice.producer, FromBoxedSlice.exposeItems, BulkProducer.exposingClones,
      FromBoxedSlice.cloningProducer, BulkProducer.cloning, slice_map, List.length_map]
    rcases slice s.data s.pos s.data.length with (_ | ⟨x, xs⟩) | _ | _ <;> rfl
  refine BulkPlays.of_image (P' := FromBoxedSlice.producer T) (g := FromBoxedSlice.clones cl) ?_ ?_ hx ?_ ?_
    (from_boxed_slice_plays (xs.map cl))
  · intro s
    simp only [FromBoxedSlice.clones, FromBoxedSlice.producer, FromBoxedSlice.produce, BulkProducer.exposingClones,
      FromBoxedSlice.cloningProducer, BulkProducer.cloning, FromBoxedSlice.produceCloning, uncaught, index_map, List.length_map]
    split
    · rfl
    · rcases index s.data s.pos with x | _ | _ <;> rfl
  · intro s; rfl
  · intro s k; rfl
  · intro s buf
    show bulkProduceDefault (FromBoxedSlice.producer T).exposeItems (FromBoxedSlice.producer T).considerProduced _ buf =
      Outcome.onState _ ((FromBoxedSlice.cloningProducer _).bulkProduce s buf)
    rw [FromBoxedSlice.cloningProducer, bulkProduce_cloning, ← FromBoxedSlice.cloningProducer]
    simp only [bulkProduceDefault, hx, bind_eq]
    rcases ((FromBoxedSlice.cloningProducer fun x => some (cl x)).exposingClones cl).exposeItems s with ⟨s, e | slots | f⟩ | _ | _ <;>
      rfl

/-! ## Pipes and full slices -/

/-- **C77, bulk pipes.** Into a consumer with the default `bulk_consume`, `bulk_pipe` clones every item that it takes from
`expose_items` once: it does what it does with a producer that exposes the clones, into a consumer that copies. -/
theorem bulk_pipe_clones_once (cl : I → I) (P : BulkProducer σ I F E₁) (C : BulkConsumer τ I F E₂)
    (hC : C.bulkConsume = bulkConsumeDefault C.exposeSlots C.writeSlots C.consumeSlots) (s : σ) (t : τ) :
    bulkPipe P (C.cloning fun x => some (cl x)) s t = bulkPipe (P.exposingClones cl) C s t := by
  unfold bulkPipe
  congr 1
  funext ⟨s, t⟩
  simp only [bulkPipeBody, bulkConsume_cloning cl C hC, BulkProducer.exposingClones, bind_eq]
  rcases P.exposeItems s with ⟨s, e | slots | f⟩ | _ | _ <;> rfl

/-- **C77, bounded bulk pipes.** -/
theorem bulk_pipe_at_most_clones_once (cl : I → I) (P : BulkProducer σ I F E₁) (C : BulkConsumer τ I F E₂)
    (hC : C.bulkConsume = bulkConsumeDefault C.exposeSlots C.writeSlots C.consumeSlots) (s : σ) (t : τ) (count : Nat) :
    bulkPipeAtMost P (C.cloning fun x => some (cl x)) s t count = bulkPipeAtMost (P.exposingClones cl) C s t count := by
  unfold bulkPipeAtMost
  congr 1
  funext ⟨s, t, piped⟩
  simp only [bulkPipeAtMostBody, bulkConsume_cloning cl C hC, BulkProducer.exposingClones, bind_eq]
  split
  · rcases P.exposeItems s with ⟨s, e | slots | f⟩ | _ | _ <;> try rfl
    simp only [bind_ok, List.length_map, List.map_take]
  · rfl

/-- A slice of numbers, incremented by `clone`, into a vector; the hypothesis is satisfied because `IntoVec` keeps the default. -/
example (n : Nat) : bulkPipe (FromSlice.producer Nat) ((IntoVec.consumer Nat).cloning fun x => some (x + 1)) (FromSlice.new [1, 2]) IntoVec.new =
      bulkPipe ((FromSlice.producer Nat).exposingClones (· + 1)) (IntoVec.consumer Nat) (FromSlice.new [1, 2]) IntoVec.new ∧
    bulkPipeAtMost (FromSlice.producer Nat) ((IntoVec.consumer Nat).cloning fun x => some (x + 1)) (FromSlice.new [1, 2]) IntoVec.new n =
      bulkPipeAtMost ((FromSlice.producer Nat).exposingClones (· + 1)) (IntoVec.consumer Nat) (FromSlice.new [1, 2]) IntoVec.new n :=
  ⟨bulk_pipe_clones_once _ _ _ rfl _ _, bulk_pipe_at_most_clones_once _ _ _ rfl _ _ _⟩

/-- **C77, full slices.** `consume_full_slice` and `bulk_consume_full_slice` clone every item of the buffer once: they do what they
do when given the clones to copy. -/
theorem consume_full_slice_clones_once (cl : I → I) (C : BulkConsumer σ I F E)
    (hC : C.bulkConsume = bulkConsumeDefault C.exposeSlots C.writeSlots C.consumeSlots) (s : σ) (buf : List I) :
    uncaught (consumeFullSliceCloning (fun x => some (cl x)) C.toConsumer s buf) = consumeFullSlice C.toConsumer s (buf.map cl) ∧
    bulkConsumeFullSlice (C.cloning fun x => some (cl x)) s buf = bulkConsumeFullSlice C s (buf.map cl) := by
  constructor
  · unfold consumeFullSliceCloning consumeFullSlice
    generalize 0 = i
    induction buf generalizing s i with
    | nil => rfl
    | cons x xs ih =>
      simp only [consumeFullSliceCloningFrom, List.map_cons, consumeFullSliceFrom, bind_eq]
      rcases C.consume s (cl x) with ⟨s, e | ⟨⟩⟩ | _ | _ <;> try rfl
      exact ih _ _
  · unfold bulkConsumeFullSlice
    congr 1
    funext ⟨s, consumed⟩
    simp only [bulkConsumeFullSliceBody, bulkConsume_cloning cl C hC, List.length_map, List.map_drop, bind_eq]

/-- Items with a counter that `clone` increments. -/
def Case.counted (x : Nat × Nat) : Nat × Nat := (x.1, x.2 + 1)

/-- **C77, from a slice into a vector.** All four pipes append to the vector what one `clone` makes of every item of the slice: with
a counter in every item, `(x, n + 1)` for every `(x, n)`. -/
theorem slice_into_vec_clones_once [Inhabited T] (cl : T → T) (xs : List T) (count : Nat) :
    let P := FromSlice.cloningProducer fun x => some (cl x)
    let C := IntoVec.cloningConsumer fun x => some (cl x)
    (∃ s t, pipe P.toProducer C.toConsumer (FromSlice.new xs) IntoVec.new = ok ((s, t), .ok ()) ∧ t.intoVec = xs.map cl) ∧
    (∃ s t, bulkPipe P C (FromSlice.new xs) IntoVec.new = ok ((s, t), .ok ()) ∧ t.intoVec = xs.map cl) ∧
    (∃ s t, pipeAtMost P.toProducer C.toConsumer (FromSlice.new xs) IntoVec.new count = ok ((s, t), .ok (min count xs.length)) ∧
      t.intoVec = (xs.map cl).take count) ∧
    (∃ s t, bulkPipeAtMost P C (FromSlice.new xs) IntoVec.new count = ok ((s, t), .ok (min count xs.length)) ∧
      t.intoVec = (xs.map cl).take count) := by
  intro P C
  have hP := from_slice_clones_once cl xs
  have hC := into_vec_collects (T := T) []
  have hpipe : PipeResult (Script.ofList (xs.map cl) (.ok ()) : Script T Unit Empty) (Policy.acceptAll : Policy T Unit Empty) []
      (xs.map cl) (some ()) (.ok ()) := .closed (Script.ofList_startsWith _ _) (by simp) (Script.ofList_end _ _) rfl
  have hmost : ∃ fin, AtMostResult (Script.ofList (xs.map cl) (.ok ()) : Script T Unit Empty) (Policy.acceptAll : Policy T Unit Empty)
      [] count ((xs.map cl).take count) fin (.ok (min count xs.length)) := by
    by_cases h : count ≤ xs.length
    · rw [Nat.min_eq_left h]
      exact ⟨none, .full (by simp; omega) ((Script.ofList_startsWith _ _).take _) (by simp)⟩
    · rw [List.take_of_length_le (by simp; omega), Nat.min_eq_right (by omega)]
      refine ⟨some (), ?_⟩
      have := AtMostResult.closed (count := count) (by simp; omega) hpipe
      simpa using this
  obtain ⟨fin, hmost⟩ := hmost
  refine ⟨?_, ?_, ?_, ?_⟩
  · obtain ⟨s, t, h1, h2⟩ := pipe_spec hP.toPlays hC.toCollects hpipe
    exact ⟨s, t, h1, h2.2⟩
  · obtain ⟨s, t, h1, h2, -⟩ := bulk_pipe_spec hP hC hpipe
    exact ⟨s, t, (bulk_pipe_clones_once cl P _ rfl _ _).trans h1, h2.2⟩
  · obtain ⟨s, t, h1, h2, -⟩ := pipe_at_most_spec hP.toPlays hC.toCollects hmost
    exact ⟨s, t, h1, h2.2⟩
  · obtain ⟨s, t, h1, h2, -⟩ := bulk_pipe_at_most_spec hP hC hmost
    exact ⟨s, t, (bulk_pipe_at_most_clones_once cl P _ rfl _ _ _).trans h1, h2.2⟩

/-- Two items whose counters say how often they have been cloned. -/
example : ∃ s t, bulkPipe (FromSlice.cloningProducer fun x => some (Case.counted x))
    (IntoVec.cloningConsumer fun x => some (Case.counted x)) (FromSlice.new [(7, 0), (9, 4)]) IntoVec.new = ok ((s, t), .ok ()) ∧
      t.intoVec = [(7, 1), (9, 5)] :=
  (slice_into_vec_clones_once Case.counted [(7, 0), (9, 4)] 1).2.1

example : ∃ s t, pipeAtMost (FromSlice.cloningProducer fun x => some (Case.counted x)).toProducer
    (IntoVec.cloningConsumer fun x => some (Case.counted x)).toConsumer (FromSlice.new [(7, 0), (9, 4)]) IntoVec.new 1 =
      ok ((s, t), .ok 1) ∧ t.intoVec = [(7, 1)] :=
  (slice_into_vec_clones_once Case.counted [(7, 0), (9, 4)] 1).2.2.1

/-- A client that takes the items from `expose_items` as they are takes originals. -/
example : (FromSlice.cloningProducer fun x => some (Case.counted x)).exposeItems (FromSlice.new [(7, 0)]) =
    ok (FromSlice.new [(7, 0)], .ok (.inl [(7, 0)])) := rfl

/-- `consume_full_slice` hands on clones. -/
example : uncaught (consumeFullSliceCloning (fun x => some (Case.counted x)) (IntoVec.consumer (Nat × Nat)).toConsumer IntoVec.new
    [(7, 0), (9, 4)]) = consumeFullSlice (IntoVec.consumer (Nat × Nat)).toConsumer IntoVec.new [(7, 1), (9, 5)] :=
  (consume_full_slice_clones_once Case.counted (IntoVec.consumer (Nat × Nat)) rfl IntoVec.new [(7, 0), (9, 4)]).1

/-! ## Panics of `clone` -/

/-- An item that cannot be cloned. -/
def Case.fragile (x : Nat) : Option Nat := if x = 3 then none else some x

/-- **C78, `produce`.** If `clone` panics in `produce` of a slice, then the slice is left as it was. -/
theorem from_slice_produce_unwound {clone : T → Option T} {s s' : FromSlice T} (h : s.produceCloning clone = ok (s', .unwound)) :
    s' = s ∧ ∃ x, s.data[s.pos]? = some x ∧ clone x = none := by
  unfold FromSlice.produceCloning at h
  split at h
  · cases h
  · rcases hx : s.data[s.pos]? with _ | x
    · simp [index, hx, unwrap] at h
    · simp only [index, hx, unwrap, bind_eq, bind_ok] at h
      split at h
      · cases h; exact ⟨rfl, x, rfl, by assumption⟩
      · cases h

example := from_slice_produce_unwound (clone := Case.fragile) (s := ⟨[1, 2, 3], 2⟩) (s' := ⟨[1, 2, 3], 2⟩) rfl

/-- **C78, `produce` of a boxed slice.** -/
theorem from_boxed_slice_produce_unwound {clone : T → Option T} {s s' : FromBoxedSlice T}
    (h : s.produceCloning clone = ok (s', .unwound)) : s' = s ∧ ∃ x, s.data[s.pos]? = some x ∧ clone x = none := by
  unfold FromBoxedSlice.produceCloning at h
  split at h
  · cases h
  · rcases hx : s.data[s.pos]? with _ | x
    · simp [index, hx, unwrap] at h
    · simp only [index, hx, unwrap, bind_eq, bind_ok] at h
      split at h
      · cases h; exact ⟨rfl, x, rfl, by assumption⟩
      · cases h

example : FromSlice.produceCloning Case.fragile ⟨[1, 3], 1⟩ = ok (⟨[1, 3], 1⟩, .unwound) ∧
    FromBoxedSlice.produceCloning Case.fragile ⟨[1, 3], 1⟩ = ok (⟨[1, 3], 1⟩, .unwound) := ⟨rfl, rfl⟩

/-- **C78, `bulk_produce`.** If `clone` panics in the default `bulk_produce`, then the producer still has everything to produce. Only
the buffer may have been overwritten. -/
theorem bulk_produce_unwound {P : BulkProducer σ I F E} {s s' : σ} {c : Script I F E} (hP : BulkPlays P s c) {clone : I → Option I}
    {buf buf' : List I} (h : bulkProduceCloning clone P.exposeItems P.considerProduced s buf = ok ((s', buf'), .unwound)) :
    BulkPlays P s' c ∧ buf'.length = buf.length ∧ ∃ xs x, c.StartsWith xs ∧ x ∈ xs ∧ clone x = none := by
  obtain ⟨R, hR, n, hn⟩ := hP
  simp only [bulkProduceCloning, bind_eq] at h
  obtain ⟨s1, ⟨xs, -, hxs, h1, hn1⟩ | ⟨f, -, h1⟩ | ⟨e, -, h1⟩⟩ := hR.expose s c n hn <;> simp only [h1, bind_ok] at h
  · rcases cloneSlice_cases clone (xs.take (min xs.length buf.length)) with ⟨h2, h3, h4⟩ | ⟨ys, h2, h3, x, hx, h4⟩ <;>
      simp only [h2] at h
    · rcases hc : P.considerProduced s1 (min xs.length buf.length) with ⟨s, e | ⟨⟩⟩ | _ | _ <;> rw [hc] at h <;> cases h
    · cases h
      simp only [List.length_take] at h3
      exact ⟨⟨R, hR, _, hn1⟩, by simp; omega, xs, x, hxs, List.mem_of_mem_take hx, h4⟩
  · cases h
  · cases h

/-- The first item has been written to the buffer. -/
example : bulkProduceCloning Case.fragile (FromSlice.producer Nat).exposeItems (FromSlice.producer Nat).considerProduced
    (FromSlice.new [1, 3, 2]) [0, 0] = ok ((FromSlice.new [1, 3, 2], [1, 0]), .unwound) := rfl

/-- **C78, `bulk_consume`.** If `clone` panics in the default `bulk_consume`, then the consumer has consumed nothing. -/
theorem bulk_consume_unwound {C : BulkConsumer σ I F E} {D : σ → List I → Option F → Prop} {q : Policy I F E} {s s' : σ} {l : List I}
    (hC : BulkCollects C D q s l) {clone : I → Option I} {buf : List I}
    (h : bulkConsumeCloning clone C.exposeSlots C.writeSlots C.consumeSlots s buf = ok (s', .unwound)) :
    BulkCollects C D q s' l ∧ ∃ x ∈ buf, clone x = none := by
  obtain ⟨R, hR, slots, hs⟩ := hC
  simp only [bulkConsumeCloning, bind_eq] at h
  rcases hq : q.refuse l with _ | e
  · obtain ⟨s1, slots1, -, h1, hs1⟩ := hR.expose_ok s l slots hs hq
    simp only [h1, bind_ok] at h
    rcases cloneSlice_cases clone (buf.take (min slots1.length buf.length)) with ⟨h2, h3, h4⟩ | ⟨ys, h2, h3, x, hx, h4⟩ <;>
      simp only [h2] at h
    · rcases hc : C.consumeSlots (C.writeSlots s1 ((buf.take (min slots1.length buf.length)).filterMap clone))
        (min slots1.length buf.length) with ⟨s, e | ⟨⟩⟩ | _ | _ <;> rw [hc] at h <;> cases h
    · cases h
      simp only [List.length_take] at h3
      exact ⟨⟨R, hR, _, hR.write _ _ _ ys hs1 (by omega)⟩, x, List.mem_of_mem_take hx, h4⟩
  · obtain ⟨s1, h1, -⟩ := hR.expose_err s l slots e hs hq
    simp only [h1, bind_ok] at h
    cases h

example : ∃ s, bulkConsumeCloning Case.fragile (IntoVec.consumer Nat).exposeSlots (IntoVec.consumer Nat).writeSlots
    (IntoVec.consumer Nat).consumeSlots (IntoVec.fromVec [8]) [3, 1] = ok (s, .unwound) ∧ s.intoVec = [8] := ⟨_, rfl, rfl⟩

/-- **C78, `consume_full_slice`.** If `clone` panics in `consume_full_slice`, then the consumer has consumed the clones of the items
before the one whose `clone` panicked. -/
theorem consume_full_slice_unwound {C : Consumer σ I F E} {D : σ → List I → Option F → Prop} {q : Policy I F E} {s s' : σ} {l : List I}
    (hC : Collects C D q s l) {clone : I → Option I} {buf : List I} (h : consumeFullSliceCloning clone C s buf = ok (s', .unwound)) :
    ∃ k x, buf[k]? = some x ∧ clone x = none ∧ (∀ y ∈ buf.take k, clone y ≠ none) ∧
      Collects C D q s' (l ++ (buf.take k).filterMap clone) := by
  unfold consumeFullSliceCloning at h
  generalize 0 = i at h
  induction buf generalizing s l i with
  | nil => cases h
  | cons x xs ih =>
    simp only [consumeFullSliceCloningFrom, bind_eq] at h
    rcases hx : clone x with _ | y <;> simp only [hx] at h
    · cases h
      exact ⟨0, x, rfl, hx, by simp, by simpa using hC⟩
    · rcases hq : q.answer l y with _ | e
      · obtain ⟨s1, h1, h2⟩ := hC.consume_ok y hq
        simp only [h1, bind_ok] at h
        obtain ⟨k, z, h3, h4, h5, h6⟩ := ih h2 _ h
        refine ⟨k + 1, z, by simpa using h3, h4, ?_, ?_⟩
        · intro w hw
          rcases List.mem_cons.mp (by simpa using hw) with rfl | hw
          · simp [hx]
          · exact h5 w hw
        · simpa [List.take_succ_cons, List.filterMap_cons, hx] using h6
      · obtain ⟨s1, h1, -⟩ := hC.consume_err y hq
        simp only [h1, bind_ok] at h
        cases h

example : ∃ s, consumeFullSliceCloning Case.fragile (IntoVec.consumer Nat).toConsumer (IntoVec.fromVec [8]) [1, 3, 2] =
    ok (s, .unwound) ∧ s.intoVec = [8, 1] := ⟨_, rfl, rfl⟩

/-! ## Queues -/

/-- **C77, `Fixed`.** Whatever `clone` makes of an item, a queue of positive capacity answers every sequence of allowed calls like a list
whose items are cloned once by `bulk_enqueue` on their way in, and once by `dequeue` and `bulk_dequeue` on their way out. -/
theorem fixed_clones_once (cl : T → T) (capacity : Nat) (hpos : 0 < capacity) (tmp : Nat → T) (ops : List (QueueOp T)) :
    (Fixed.queue T).ActsAsCloningFifo (fun x => some (cl x)) (Fixed.dequeueCloning fun x => some (cl x)) keepsAll capacity
      (Fixed.new capacity tmp) [] .start ops :=
  ((Fixed.fifoLaw T capacity).actsAsCloningFifo (Fixed.dequeueCloning_eq _) hpos
    ⟨[], Fixed.holds_new capacity tmp, rfl, by simp [Ledger.start]⟩ ops).total (by simp) _

/-- **C77, `Static`.** -/
theorem static_clones_once (cl : T → T) (N : Nat) (hpos : 0 < N) (tmp : Nat → T) (ops : List (QueueOp T)) :
    (Static.queue T N).ActsAsCloningFifo (fun x => some (cl x)) (Static.dequeueCloning fun x => some (cl x)) keepsAll N
      (Static.new N tmp) [] .start ops :=
  ((Static.fifoLaw T N).actsAsCloningFifo (Static.dequeueCloning_eq _) hpos
    ⟨[], Static.holds_new N tmp, rfl, by simp [Ledger.start]⟩ ops).total (by simp) _

/-- An item that has been enqueued and dequeued in bulk has been cloned twice, one that has been dequeued after `enqueue` once. -/
example : (Fixed.queue (Nat × Nat)).ActsAsCloningFifo (fun x => some (Case.counted x)) (Fixed.dequeueCloning fun x => some (Case.counted x))
    keepsAll 2 (Fixed.new 2 fun _ => default) [] .start [.bulkEnqueue [(7, 0)], .enqueue (9, 4), .bulkDequeue [default], .dequeue] :=
  fixed_clones_once _ 2 (by decide) _ _

example : CloningAnswer (fun x => some (Case.counted x)) 2 [(7, 1), (9, 4)] (.bulkDequeue [(0, 0)]) (.filled 1 [(7, 2)]) :=
  ⟨1, rfl, by decide, by decide, by decide, by simp⟩

example : CloningAnswer (fun x => some (Case.counted x)) 2 [(9, 4)] .dequeue (.item (some (9, 5))) := .inr ⟨(9, 4), (9, 5), rfl, rfl, rfl⟩

/-- **C78, `Fixed`, partial.** With any `clone`, a queue of positive capacity answers every sequence of allowed calls like such a list. If
`clone` panics and somebody catches that, then the queue goes on with the contents that it had, except that `dequeue` has lost the
item. -/
theorem fixed_unwound_partial (clone : T → Option T) (capacity : Nat) (hpos : 0 < capacity) (tmp : Nat → T) (ops : List (QueueOp T)) :
    (Fixed.queue T).ActsAsCloningFifo clone (Fixed.dequeueCloning clone) losesDequeued capacity (Fixed.new capacity tmp) [] .start ops :=
  (Fixed.fifoLaw T capacity).actsAsCloningFifo (Fixed.dequeueCloning_eq clone) hpos
    ⟨[], Fixed.holds_new capacity tmp, rfl, by simp [Ledger.start]⟩ ops

/-- **C78, `Static`, partial.** -/
theorem static_unwound_partial (clone : T → Option T) (N : Nat) (hpos : 0 < N) (tmp : Nat → T) (ops : List (QueueOp T)) :
    (Static.queue T N).ActsAsCloningFifo clone (Static.dequeueCloning clone) losesDequeued N (Static.new N tmp) [] .start ops :=
  (Static.fifoLaw T N).actsAsCloningFifo (Static.dequeueCloning_eq clone) hpos
    ⟨[], Static.holds_new N tmp, rfl, by simp [Ledger.start]⟩ ops

example : (Fixed.queue Nat).ActsAsCloningFifo Case.fragile (Fixed.dequeueCloning Case.fragile) losesDequeued 2
    (Fixed.new 2 fun _ => 0) [] .start [.enqueue 3, .enqueue 1, .bulkDequeue [0], .dequeue, .dequeue] :=
  fixed_unwound_partial _ 2 (by decide) _ _

example : (Static.queue Nat 2).ActsAsCloningFifo Case.fragile (Static.dequeueCloning Case.fragile) losesDequeued 2
    (Static.new 2 fun _ => 0) [] .start [.enqueue 3, .enqueue 1, .bulkDequeue [0], .dequeue, .dequeue] :=
  static_unwound_partial _ 2 (by decide) _ _

/-- **C78, exactly.** `Fixed` keeps all items for exactly those `clone` that never panic: `dequeue` loses the item whose `clone`
panics. -/
theorem fixed_unwound_keeps_iff (clone : T → Option T) (capacity : Nat) (hpos : 0 < capacity) (tmp : Nat → T) :
    (∀ ops, (Fixed.queue T).ActsAsCloningFifo clone (Fixed.dequeueCloning clone) keepsAll capacity (Fixed.new capacity tmp) [] .start ops) ↔
      ∀ x, clone x ≠ none := by
  have h0 : Tracks (Fixed.Holds capacity) (Fixed.new capacity tmp) [] .start :=
    ⟨[], Fixed.holds_new capacity tmp, rfl, by simp [Ledger.start]⟩
  exact ⟨fun h x hx => (Fixed.fifoLaw T capacity).not_keepsAll (Fixed.dequeueCloning_eq clone) hpos hx h0 (h _),
    fun h ops => (fixed_unwound_partial clone capacity hpos tmp ops).total h _⟩

example : ¬ ∀ ops, (Fixed.queue Nat).ActsAsCloningFifo Case.fragile (Fixed.dequeueCloning Case.fragile) keepsAll 4 (Fixed.new 4 id) [] .start
    ops :=
  fun h => (fixed_unwound_keeps_iff Case.fragile 4 (by decide) id).mp h 3 rfl

/-- **C78, exactly, `Static`.** -/
theorem static_unwound_keeps_iff (clone : T → Option T) (N : Nat) (hpos : 0 < N) (tmp : Nat → T) :
    (∀ ops, (Static.queue T N).ActsAsCloningFifo clone (Static.dequeueCloning clone) keepsAll N (Static.new N tmp) [] .start ops) ↔
      ∀ x, clone x ≠ none := by
  have h0 : Tracks Static.Holds (Static.new N tmp) [] .start := ⟨[], Static.holds_new N tmp, rfl, by simp [Ledger.start]⟩
  exact ⟨fun h x hx => (Static.fifoLaw T N).not_keepsAll (Static.dequeueCloning_eq clone) hpos hx h0 (h _),
    fun h ops => (static_unwound_partial clone N hpos tmp ops).total h _⟩

example : (∀ ops, (Static.queue Nat 4).ActsAsCloningFifo some (Static.dequeueCloning some) keepsAll 4 (Static.new 4 id) [] .start ops) :=
  (static_unwound_keeps_iff some 4 (by decide) id).mpr (by simp)

/-- **C78, fails.** -/
theorem fixed_unwound_loses : ∃ ops, ¬ (Fixed.queue Nat).ActsAsCloningFifo Case.fragile (Fixed.dequeueCloning Case.fragile) keepsAll 1
    (Fixed.new 1 fun _ => 0) [] .start ops :=
  Classical.byContradiction fun h =>
    (fixed_unwound_keeps_iff Case.fragile 1 (by decide) _).mp (fun ops => Classical.byContradiction fun h' => h ⟨ops, h'⟩) 3 rfl

theorem static_unwound_loses : ∃ ops, ¬ (Static.queue Nat 1).ActsAsCloningFifo Case.fragile (Static.dequeueCloning Case.fragile) keepsAll 1
    (Static.new 1 fun _ => 0) [] .start ops :=
  Classical.byContradiction fun h =>
    (static_unwound_keeps_iff Case.fragile 1 (by decide) _).mp (fun ops => Classical.byContradiction fun h' => h ⟨ops, h'⟩) 3 rfl

/-- **C77, what stays behind.** Dequeuing hands out clones. The originals stay in the buffer, until they are overwritten or the queue
is dropped. -/
theorem dequeue_keeps_originals (clone : T → Option T) :
    (∀ (q q' : Fixed T) r, q.dequeueCloning clone = ok (q', r) → q'.data = q.data) ∧
    (∀ (q q' : Fixed T) buf buf' r, bulkDequeueCloning clone Fixed.exposeItems Fixed.considerDequeued q buf = ok ((q', buf'), r) →
      q'.data = q.data) ∧
    (∀ N (q q' : Static T N) r, q.dequeueCloning clone = ok (q', r) → q'.data = q.data) ∧
    (∀ N (q q' : Static T N) buf buf' r,
      bulkDequeueCloning clone Static.exposeItems Static.considerDequeued q buf = ok ((q', buf'), r) → q'.data = q.data) := by
  refine ⟨?_, ?_, ?_, ?_⟩
  · intro q q' r h
    unfold Fixed.dequeueCloning at h
    split at h
    · cases h; rfl
    · simp only [bind_eq, bind_eq_ok] at h
      obtain ⟨_, -, _, -, x, -, h⟩ := h
      split at h <;> cases h <;> rfl
  · intro q q' buf buf' r h
    simp only [bulkDequeueCloning, bind_eq, bind_eq_ok] at h
    obtain ⟨⟨q1, o⟩, h1, h⟩ := h
    have e : q1 = q := by
      unfold Fixed.exposeItems at h1
      split at h1
      · cases h1; rfl
      · simp only [bind_eq, bind_eq_ok] at h1
        obtain ⟨_, -, h1⟩ := h1
        cases h1; rfl
    subst e
    rcases o with _ | slots
    · cases h; rfl
    · dsimp only at h
      split at h
      · cases h; rfl
      · simp only [bind_eq_ok] at h
        obtain ⟨q2, h2, h⟩ := h
        cases h
        simp only [Fixed.considerDequeued, bind_eq, bind_eq_ok] at h2
        obtain ⟨_, -, _, -, h2⟩ := h2
        cases h2; rfl
  · intro N q q' r h
    unfold Static.dequeueCloning at h
    split at h
    · cases h; rfl
    · simp only [bind_eq, bind_eq_ok] at h
      obtain ⟨_, -, _, -, x, -, h⟩ := h
      split at h <;> cases h <;> rfl
  · intro N q q' buf buf' r h
    simp only [bulkDequeueCloning, bind_eq, bind_eq_ok] at h
    obtain ⟨⟨q1, o⟩, h1, h⟩ := h
    have e : q1 = q := by
      unfold Static.exposeItems at h1
      split at h1
      · cases h1; rfl
      · simp only [bind_eq, bind_eq_ok] at h1
        obtain ⟨_, -, h1⟩ := h1
        cases h1; rfl
    subst e
    rcases o with _ | slots
    · cases h; rfl
    · dsimp only at h
      split at h
      · cases h; rfl
      · simp only [bind_eq_ok] at h
        obtain ⟨q2, h2, h⟩ := h
        cases h
        simp only [Static.considerDequeued, bind_eq, bind_eq_ok] at h2
        obtain ⟨_, -, _, -, h2⟩ := h2
        cases h2; rfl

/-- The secret is still there. -/
example : Fixed.dequeueCloning (fun x => some (Case.counted x)) ⟨[(7, 0), (0, 0)], 0, 1⟩ =
    ok (⟨[(7, 0), (0, 0)], 1, 0⟩, .returned (some (7, 1))) := rfl

end Verif
