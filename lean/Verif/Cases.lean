import Verif.Props.TestDoubles
import Verif.Lemmas.ConsumerScrambler

/-!
# Concrete producers and consumers

The cases that the examples beside the theorems use: a `TestProducer` of the items 1, 2, 3 that exposes slices of changing
sizes and ends as one likes; a `TestConsumer` that exposes slots of changing sizes and fails after as many items as one likes;
a producer that never ends; a consumer (`IntoVec`) that never fails; and a consumer (a scrambler with a queue of two items) that
delays what it does.
-/

namespace Verif.Case

open Outcome

/-- The methods of `TestProducer`, in a test build. -/
noncomputable abbrev P : BulkProducer (TestProducer Nat Unit String) Nat Unit String := TestProducer.producer true Nat Unit String

/-- The methods of `TestConsumer`, in a test build. -/
noncomputable abbrev C : BulkConsumer (TestConsumer Nat Unit String) Nat Unit String := TestConsumer.consumer true Nat Unit String

/-- Emits 1, 2, 3 and then `last`. -/
def pro (last : Except String Unit) : TestProducer Nat Unit String :=
  .new [1, 2, 3] last [⟨2, by decide⟩, ⟨1, by decide⟩] none

/-- Accepts `n` items and then fails. -/
def con (n : Nat) : TestConsumer Nat Unit String := .new "full" n [⟨2, by decide⟩, ⟨3, by decide⟩] none

/-- What the producer emits. -/
abbrev script (last : Except String Unit) : Script Nat Unit String := .ofList [1, 2, 3] last

/-- What the consumer accepts. -/
abbrev policy (n : Nat) : Policy Nat Unit String := .failAfter n "full"

theorem plays (last : Except String Unit) : BulkPlays P (pro last) (script last) := test_producer_plays true [1, 2, 3] last _ _

theorem collects (n : Nat) : BulkCollects C TestConsumer.Seen (policy n) (con n) [] := test_consumer_collects true "full" n _ _

theorem script_starts (last : Except String Unit) : (script last).StartsWith [1, 2, 3] := Script.ofList_startsWith _ _

theorem script_end (last : Except String Unit) : script last [1, 2, 3].length = last.map .inr := Script.ofList_end _ _

theorem accepts {n : Nat} {l xs : List Nat} (h : l.length + xs.length ≤ n) : (policy n).Accepts l xs := by
  intro i x hx
  have := (List.getElem?_eq_some_iff.mp hx).1
  simp [policy, Policy.failAfter, Policy.answer]
  omega

theorem answers {n : Nat} {l : List Nat} (h : n ≤ l.length) (x : Nat) : (policy n).answer l x = some "full" := by
  simp [policy, Policy.failAfter, Policy.answer]
  omega

theorem fails {n : Nat} {l xs : List Nat} {i : Nat} (h : l.length + i = n) (hi : i < xs.length) :
    (policy n).FailsAt l xs i "full" :=
  ⟨accepts (by simp; omega), xs[i], by simp [hi], answers (by simp; omega) _⟩

/-- The sequence has an end. -/
theorem script_ends (last : Except String Unit) : ¬ ∀ n, ∃ xs, xs.length = n ∧ (script last).StartsWith xs := by
  intro h
  obtain ⟨xs, hl, hx⟩ := h 4
  have := hx 3 _ (List.getElem?_eq_getElem (by omega))
  cases last <;> cases this

theorem script_length {last : Except String Unit} {xs : List Nat} (h : (script last).StartsWith xs) : xs.length < 4 := by
  rcases Nat.lt_or_ge xs.length 4 with hlt | hge
  · exact hlt
  · have := h 3 _ (List.getElem?_eq_getElem (by omega))
    cases last <;> cases this

theorem script_no_error (i : Nat) (e : String) : script (.ok ()) i ≠ .error e := by
  match i with
  | 0 | 1 | 2 => simp [script, Script.ofList]
  | n + 3 => simp [script, Script.ofList, Except.map]

theorem script_no_final (i : Nat) (f : Unit) : script (.error "bad") i ≠ .ok (.inr f) := by
  match i with
  | 0 | 1 | 2 => simp [script, Script.ofList]
  | n + 3 => simp [script, Script.ofList, Except.map]

/-- Some of the items are emitted by successive calls of `produce`. -/
theorem emits (last : Except String Unit) (k : Nat) :
    ∃ s, Emits P.toProducer (pro last) ([1, 2, 3].take k) s :=
  let ⟨s, h, _⟩ := (plays last).toPlays.emits ((script_starts last).take k)
  ⟨s, h⟩

/-! ## Without end -/

/-- A producer of all numbers, one after the other, from its state on; it exposes them one by one. -/
def endless : BulkProducer Nat Nat Unit String where
  produce n := return (n + 1, .ok (.inl n))
  slurp n := return (n, .ok ())
  exposeItems n := return (n, .ok (.inl [n]))
  considerProduced n k := return (n + k, .ok ())

/-- What it emits. -/
def endlessScript (n : Nat) : Script Nat Unit String := fun i => .ok (.inl (n + i))

theorem endless_plays (n : Nat) : BulkPlays endless n (endlessScript n) := by
  refine ⟨fun s c m => c = endlessScript s ∧ m ≤ 1, .of_default rfl ⟨⟨?_⟩, ?_⟩ ?_ ?_, 0, rfl, by omega⟩
  · rintro s _ ⟨m, rfl, _⟩
    refine ⟨s + 1, rfl, fun _ _ => ⟨0, ?_, by omega⟩⟩
    funext i; simp [endlessScript]; omega
  · rintro s _ ⟨m, rfl, hm⟩
    exact ⟨s, .inl ⟨rfl, m, rfl, hm⟩⟩
  · rintro s _ m ⟨rfl, _⟩
    refine ⟨s, .inl ⟨[s], by simp, ?_, rfl, rfl, by simp⟩⟩
    rw [Script.startsWith_cons]; simp [endlessScript]
  · rintro s _ m k ⟨rfl, hm⟩ h0 hk
    refine ⟨s + k, rfl, ?_, by omega⟩
    funext i; simp [endlessScript]; omega

/-- The sequence goes on for ever. -/
theorem endless_starts (n k : Nat) : ∃ xs, xs.length = k ∧ (endlessScript n).StartsWith xs := by
  refine ⟨List.range' n k, by simp, fun i x hx => ?_⟩
  obtain ⟨h1, h2⟩ := List.getElem?_eq_some_iff.mp hx
  simp at h2
  rw [← h2]; rfl

/-- The methods of `IntoVec`. -/
abbrev V : BulkConsumer (IntoVec Nat) Nat Unit Empty := IntoVec.consumer Nat

/-- The vector that has been collected. -/
abbrev Contents (s : IntoVec Nat) (l : List Nat) (_ : Option Unit) : Prop := s.asRef = ok l ∧ s.intoVec = l

theorem vec_collects (v : List Nat) : BulkCollects V Contents Policy.acceptAll (IntoVec.fromVec v) v :=
  ⟨_, IntoVec.law, [], IntoVec.ready_fromVec v⟩

/-! ## With delay -/

/-- A scrambler around the `TestConsumer`. -/
noncomputable abbrev B : BulkConsumer (ConsumerScrambler (TestConsumer Nat Unit String) Nat) Nat Unit String :=
  consumerScrambler false C

/-- It has room for two items, which it passes on one by one. -/
def del (n : Nat) : ConsumerScrambler (TestConsumer Nat Unit String) Nat := .new (con n) [.consume] 2 (fun _ => 0)

/-- What the wrapped consumer has consumed. -/
abbrev SeenInside (s : ConsumerScrambler (TestConsumer Nat Unit String) Nat) : List Nat → Option Unit → Prop :=
  TestConsumer.Seen s.inner

theorem defers (n : Nat) : BulkDefers B SeenInside (policy n).faults (del n) [] := by
  obtain ⟨R, hR, sl, hs⟩ := (collects n).toBulkDefers
  exact ⟨_, ConsumerScrambler.law (Policy.regular_faults _) hR 2, [], [], [], rfl, ConsumerScrambler.ok_new (by decide), sl, hs⟩

theorem delays (n : Nat) : BulkDelays B SeenInside (del n) [] := (defers n).toBulkDelays (Policy.regular_faults _)

/-- If all items are accepted, there is no reason to fail, not even later. -/
theorem no_faults {n : Nat} {l : List Nat} (h : l.length < n) (d : List Nat) (e : String) :
    ¬ (policy n).faults.during l d e := by
  rintro ⟨h1, ⟨x, h2, h3⟩ | h2⟩
  · have := h2.length_le
    simp [policy, Policy.failAfter, Policy.answer] at h3 this
    omega
  · have := h1.length_le
    simp [policy, Policy.failAfter] at h2
    omega

theorem no_close_faults {n : Nat} {l : List Nat} (h : l.length < n) (d : List Nat) (e : String) :
    ¬ (policy n).faults.closing l () d e := by
  rintro ⟨h1, ⟨x, h2, h3⟩ | h2 | ⟨rfl, h2⟩⟩
  · exact no_faults h d e ⟨h1, .inl ⟨x, h2, h3⟩⟩
  · exact no_faults h d e ⟨h1, .inr h2⟩
  · simp [policy, Policy.failAfter] at h2
    omega

/-- After two items: both are still in the queue. -/
theorem del_runs (n : Nat) : ConsumerRuns B (del n) [1, 2] ⟨con n, ⟨[1, 2], 0, 2⟩, [.consume], 0⟩ [] none := by
  have h0 := ConsumerRuns.start (C := B) (s₀ := del n)
  have h1 := h0.call (op := .consume 1) (s' := ⟨con n, ⟨[1, 0], 0, 1⟩, [.consume], 0⟩) (r := ⟨[1], [], none⟩) trivial rfl
  exact h1.call (op := .consume 2) (s' := ⟨con n, ⟨[1, 2], 0, 2⟩, [.consume], 0⟩) (r := ⟨[2], [], none⟩) trivial rfl

/-- A flush then hands them over, if they are accepted. -/
theorem del_flush : ∃ s, B.flush ⟨con 5, ⟨[1, 2], 0, 2⟩, [.consume], 0⟩ = ok (s, .ok ()) := by
  obtain ⟨s, h, t, ht⟩ : ∃ s, loopFuel (ConsumerScrambler.drainBody false C) 3 ⟨con 5, ⟨[1, 2], 0, 2⟩, [.consume], 0⟩ =
    ok (⟨s, ⟨[1, 2], 0, 0⟩, [.consume], 0⟩, .ok ()) ∧ ∃ t, C.flush s = ok (t, .ok ()) := ⟨_, rfl, _, rfl⟩
  have h' : ConsumerScrambler.drain false C ⟨con 5, ⟨[1, 2], 0, 2⟩, [.consume], 0⟩ = _ :=
    (loop_eq_of_fuel (by rw [h]; simp)).trans h
  simp only [consumerScrambler, ConsumerScrambler.flush, bind_eq, h', bind_ok, ht]
  exact ⟨_, rfl⟩

/-- A third item makes room by passing the first two on; if only one of them is accepted, the call fails. -/
theorem del_fails : ∃ s, ConsumerRuns B (del 1) [1, 2] s [] (some (.failed "full" [3])) := by
  obtain ⟨s, h⟩ : ∃ s, loopFuel (ConsumerScrambler.drainBody false C) 3 ⟨con 1, ⟨[1, 2], 0, 2⟩, [.consume], 0⟩ =
    ok (s, .error "full") := ⟨_, rfl⟩
  have h' : ConsumerScrambler.drain false C ⟨con 1, ⟨[1, 2], 0, 2⟩, [.consume], 0⟩ = _ :=
    (loop_eq_of_fuel (by rw [h]; simp)).trans h
  have he : (⟨[1, 2], 0, 2⟩ : Fixed Nat).enqueue 3 = ok (⟨[1, 2], 0, 2⟩, some 3) := rfl
  have h3 : B.call ⟨con 1, ⟨[1, 2], 0, 2⟩, [.consume], 0⟩ [] (.consume 3) = ok (s, ⟨[], [], some (.failed "full" [3])⟩) := by
    simp only [BulkConsumer.call, consumerScrambler, ConsumerScrambler.consume, bind_eq, he, bind_ok, h']
    rfl
  exact ⟨s, (del_runs 1).call (op := .consume 3) trivial h3⟩

end Verif.Case
