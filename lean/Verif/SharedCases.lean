import Verif.Lemmas.Shared
import Verif.CodecCases

/-!
# Concrete suspension points and schedules

The cases that the examples beside the theorems about shared adaptors use.
-/

namespace Verif

open Outcome

/-! ## Suspension points of the endian codecs -/

section

variable {σ β Op F E T : Type} {N : Nat}

/-- A future that writes bytes with `bulk_consume_full_slice`, or flushes. -/
inductive Writing where
  | writing (bytes : List UInt8) (consumed : Nat)
  | flushing

/-- The methods that write a slice of bytes (or flush, if there is none), where each of the `bulk_consume` calls can be pending
for a while and the other tasks can run between any two of them. -/
def writeSuspension (C : BulkConsumer σ UInt8 F E) (bytes : β → Op → Option (List UInt8)) :
    Suspension σ β Op (Except E Unit) where
  κ := Writing
  start b op := match bytes b op with
    | some bs => .writing bs 0
    | none => .flushing
  step k s k' s' := (k' = k ∧ s' = s) ∨ ∃ bs n n', k = .writing bs n ∧
    bulkConsumeFullSliceBody C bs (s, n) = ok (.continue (s', n')) ∧ k' = .writing bs n'
  ret k s a s' := (∃ bs n r, k = .writing bs n ∧ bulkConsumeFullSliceBody C bs (s, n) = ok (.done (s', r)) ∧
      a = match r with
        | .ok () => .ok ()
        | .error err => .error err.reason) ∨
    (k = .flushing ∧ C.flush s = ok (s', a))

theorem writeSuspension_path {C : BulkConsumer σ UInt8 F E} {bytes : β → Op → Option (List UInt8)} {b : β} {op : Op} {s s₁ : σ}
    {k : (writeSuspension C bytes).κ} (h : (writeSuspension C bytes).Path ((writeSuspension C bytes).start b op) s k s₁) :
    (∃ bs n, bytes b op = some bs ∧ k = Writing.writing bs n ∧
      loop (bulkConsumeFullSliceBody C bs) (s, 0) = loop (bulkConsumeFullSliceBody C bs) (s₁, n)) ∨
    (bytes b op = none ∧ k = Writing.flushing ∧ s₁ = s) := by
  induction h with
  | refl =>
    cases hb : bytes b op with
    | some bs => exact .inl ⟨bs, 0, rfl, by simp [writeSuspension, hb], rfl⟩
    | none => exact .inr ⟨rfl, by simp [writeSuspension, hb], rfl⟩
  | snoc _ hstep ih =>
    rcases ih with ⟨bs, n, h1, rfl, h2⟩ | ⟨h1, rfl, rfl⟩
    · rcases hstep with ⟨rfl, rfl⟩ | ⟨bs', n', n'', h3, h4, rfl⟩
      · exact .inl ⟨bs, n, h1, rfl, h2⟩
      · cases h3
        refine .inl ⟨bs, n'', h1, rfl, ?_⟩
        rw [h2, loop_unfold _ (_, n), h4]
    · rcases hstep with ⟨rfl, rfl⟩ | ⟨bs', n', n'', h3, h4, rfl⟩
      · exact .inr ⟨h1, rfl, rfl⟩
      · cases h3

/-- What the calls of a shared endian encoder write. -/
def FixedInt.opSlice (i : FixedInt T N) (o : ByteOrder) (_ : Unit) : SharedEncoderOp T F → Option (List UInt8)
  | .consume x => some (i.toBytes o x)
  | .close _ => none
  | .flush => none

theorem FixedInt.suspension_implements (i : FixedInt T N) (o : ByteOrder) (C : BulkConsumer σ UInt8 F E) :
    (writeSuspension C (i.opSlice o)).Implements (sharedEncoder (i.encodable o).toEncodable C) := by
  intro b op run hm s k s₁ a s₂ hp hret
  have h := writeSuspension_path hp
  cases op with
  | consume x =>
    cases hm
    rcases h with ⟨bs, n, h1, rfl, h2⟩ | ⟨h1, _⟩
    · cases h1
      rcases hret with ⟨bs', n', r, h3, h4, rfl⟩ | ⟨h3, _⟩
      · cases h3
        rw [loop_unfold _ (_, n), h4] at h2
        change i.encode o C s x = _
        simp only [encode, bulkConsumeFullSlice, h2, bind_eq, bind_ok]
        cases r <;> rfl
      · cases h3
    · cases h1
  | close f => cases hm
  | flush =>
    cases hm
    rcases h with ⟨bs, n, h1, _⟩ | ⟨h1, rfl, rfl⟩
    · cases h1
    · rcases hret with ⟨bs', n', r, h3, _⟩ | ⟨_, h3⟩
      · cases h3
      · exact h3

theorem writeSuspension_writesParts (slices : β → Op → Option (List UInt8)) {C : BulkConsumer σ UInt8 F E}
    {D : σ → List UInt8 → Option F → Prop} {q : Policy UInt8 F E} :
    (writeSuspension C slices).WritesParts D (fun b op => (slices b op).getD []) C q := by
  intro b op s l k s₁ hC hp
  have key : ∃ n, BulkCollects C D q s₁ (l ++ ((slices b op).getD []).take n) ∧
      (k = Writing.flushing ∨ k = Writing.writing ((slices b op).getD []) n) := by
    induction hp with
    | refl =>
      refine ⟨0, by simpa using hC, ?_⟩
      cases h : slices b op <;> simp [writeSuspension, h]
    | @snoc k₁ s₁ k₂ s₂ _ hstep ih =>
      obtain ⟨n, h1, h2⟩ := ih
      rcases hstep with ⟨rfl, rfl⟩ | ⟨bs, n', n'', rfl, h3, rfl⟩
      · exact ⟨n, h1, h2⟩
      · rcases h2 with h2 | h2
        · cases h2
        · cases h2
          by_cases hlt : n < ((slices b op).getD []).length
          · obtain ⟨R, hR, slots, hs⟩ := h1
            have hne : ((slices b op).getD []).drop n ≠ [] := by
              intro he
              have := congrArg List.length he
              simp only [List.length_drop, List.length_nil] at this
              omega
            obtain ⟨s', ⟨c, hc1, hc2, hc3, hc4, hc5⟩ | ⟨j, e, hj1, hj2, hj3⟩⟩ := hR.bulkConsume s₁ _ slots _ hs hne
            · simp [bulkConsumeFullSliceBody, hlt, hc4] at h3
              obtain ⟨rfl, rfl⟩ := h3
              refine ⟨n + c, ⟨R, hR, ?_⟩, .inr rfl⟩
              rw [List.append_assoc, ← List.take_add] at hc5
              exact hc5
            · simp [bulkConsumeFullSliceBody, hlt, hj2] at h3
          · simp [bulkConsumeFullSliceBody, hlt] at h3
  obtain ⟨n, h1, _⟩ := key
  exact ⟨_, List.take_prefix _ _, h1⟩

theorem Suspension.WritesParts.writes {m : Suspension σ β Op (Except E Unit)} {D : σ → List UInt8 → Option F → Prop}
    {bytes : β → Op → List UInt8} {C : BulkConsumer σ UInt8 F E} {q : Policy UInt8 F E} (h : m.WritesParts D bytes C q) :
    m.Writes D bytes C q := by
  intro b op s l k s₁ hC hp
  obtain ⟨part, h1, h2⟩ := h b op s l k s₁ hC hp
  exact ⟨part, h1, h2.toCollects.observe⟩

theorem writeSuspension_writes (slices : β → Op → Option (List UInt8)) {C : BulkConsumer σ UInt8 F E}
    {D : σ → List UInt8 → Option F → Prop} {q : Policy UInt8 F E} :
    (writeSuspension C slices).Writes D (fun b op => (slices b op).getD []) C q := (writeSuspension_writesParts slices).writes

theorem FixedInt.suspension_writesParts (i : FixedInt T N) (o : ByteOrder) {C : BulkConsumer σ UInt8 F E}
    {D : σ → List UInt8 → Option F → Prop} {q : Policy UInt8 F E} :
    (writeSuspension C (i.opSlice (F := F) o)).WritesParts D (fun _ => opBytes (i.toBytes o)) C q := by
  have e : (fun _ => opBytes (i.toBytes o)) = fun b op => (i.opSlice (F := F) o b op).getD [] := by
    funext b op
    cases op <;> rfl
  rw [e]
  exact writeSuspension_writesParts _

theorem FixedInt.suspension_writes (i : FixedInt T N) (o : ByteOrder) {C : BulkConsumer σ UInt8 F E}
    {D : σ → List UInt8 → Option F → Prop} {q : Policy UInt8 F E} :
    (writeSuspension C (i.opSlice (F := F) o)).Writes D (fun _ => opBytes (i.toBytes o)) C q := by
  have e : (fun _ => opBytes (i.toBytes o)) = fun b op => (i.opSlice (F := F) o b op).getD [] := by
    funext b op
    cases op <;> rfl
  rw [e]
  exact writeSuspension_writes _

/-- What the calls of a shared encoder of differences write. -/
def differenceSlice (r : UInt8) : SharedRelativeEncoderOp UInt8 F UInt8 → Option (List UInt8)
  | .consume x => some [x - r]
  | .close _ => none
  | .flush => none
  | .setRelativeTo _ => none

theorem difference_suspension_implements (C : BulkConsumer σ UInt8 F E) :
    (writeSuspension C differenceSlice).Implements (sharedRelativeEncoder differenceEncodable id C) := by
  intro b op run hm s k s₁ a s₂ hp hret
  have h := writeSuspension_path hp
  cases op with
  | consume x =>
    cases hm
    rcases h with ⟨bs, n, h1, rfl, h2⟩ | ⟨h1, _⟩
    · cases h1
      rcases hret with ⟨bs', n', r, h3, h4, rfl⟩ | ⟨h3, _⟩
      · cases h3
        rw [loop_unfold _ (_, n), h4] at h2
        change u8.encode .big C s (x - b) = _
        have e : ∀ y, u8.toBytes .big y = [y] := fun y => by simp [FixedInt.toBytes, leBytes, u8]
        simp only [FixedInt.encode, bulkConsumeFullSlice, e, h2, bind_eq, bind_ok]
        cases r <;> rfl
      · cases h3
    · cases h1
  | close f => cases hm
  | setRelativeTo r => cases hm
  | flush =>
    cases hm
    rcases h with ⟨bs, n, h1, _⟩ | ⟨h1, rfl, rfl⟩
    · cases h1
    · rcases hret with ⟨bs', n', r, h3, _⟩ | ⟨_, h3⟩
      · cases h3
      · exact h3

theorem difference_suspension_writes {C : BulkConsumer σ UInt8 F E} {D : σ → List UInt8 → Option F → Prop}
    {q : Policy UInt8 F E} :
    (writeSuspension C (differenceSlice (F := F))).Writes D (relativeOpBytes (fun r x => [x - r]) id) C q := by
  have e : relativeOpBytes (F := F) (fun r x => [x - r]) id = fun b op => (differenceSlice b op).getD [] := by
    funext b op
    cases op <;> rfl
  rw [e]
  exact writeSuspension_writes _

/-- A way to suspend any methods: while a call is in its critical section, the shared value can be anything. -/
def Suspension.chaotic {A : Type} (method : β → Op → SharedMethod σ β A) : Suspension σ β Op A where
  κ := (σ → Outcome (σ × A)) × Option σ
  start b op := match method b op with
    | .locked run => (run, none)
    | .immediate _ a => (fun s => ok (s, a), none)
  step k s k' _ := k' = (k.1, some (k.2.getD s))
  ret k s a s' := k.1 (k.2.getD s) = ok (s', a)

theorem Suspension.chaotic_implements {A : Type} (method : β → Op → SharedMethod σ β A) : (chaotic method).Implements method := by
  intro b op run hm s k s₁ a s₂ hp hret
  have key : k.1 = run ∧ k.2.getD s₁ = s := by
    clear hret
    induction hp with
    | refl => simp [chaotic, hm]
    | snoc _ hstep ih =>
      obtain ⟨h1, h2⟩ := ih
      cases hstep
      exact ⟨h1, h2⟩
  obtain ⟨h1, h2⟩ := key
  change k.1 (k.2.getD s₁) = _ at hret
  rwa [h1, h2] at hret

end

/-! ## Two encoders

Two tasks with encoders for `u16`, in big-endian order, and a consumer that takes one byte at a time. -/

section

/-- A consumer that collects bytes; its `bulk_consume` takes one at a time. -/
structure Trickle where
  received : List UInt8
  closed : Option Unit := none
  slot : UInt8 := 0

def trickle : BulkConsumer Trickle UInt8 Unit Empty where
  consume s x := ok ({ s with received := s.received ++ [x] }, .ok ())
  close s f := ok ({ s with closed := some f }, .ok ())
  flush s := ok (s, .ok ())
  exposeSlots s := ok (s, .ok [s.slot])
  writeSlots s ws := match ws with
    | [] => s
    | w :: _ => { s with slot := w }
  consumeSlots s k := match k with
    | 0 => ok (s, .ok ())
    | 1 => ok ({ s with received := s.received ++ [s.slot] }, .ok ())
    | _ => .panic
  bulkConsume s buf := match buf with
    | [] => ok (s, .ok 0)
    | x :: _ => ok ({ s with received := s.received ++ [x] }, .ok 1)

theorem trickle_collects :
    BulkCollects trickle (fun s l f => s.received = l ∧ s.closed = f) Policy.acceptAll ⟨[], none, 0⟩ [] := by
  refine ⟨fun s l slots => s.received = l ∧ s.closed = none ∧ (slots = [] ∨ slots = [s.slot]),
    ⟨⟨⟨?_, ?_, ?_, ?_, ?_⟩, ?_⟩, ?_, ?_, ?_, ?_, ?_, ?_⟩, [], rfl, rfl, .inl rfl⟩
  · rintro s l ⟨_, h1, h2, _⟩; exact ⟨h1, h2⟩
  · rintro s l x ⟨_, rfl, h2, _⟩ _; exact ⟨_, rfl, [], rfl, h2, .inl rfl⟩
  · intro s l x e; exact nomatch e
  · rintro s l f ⟨_, rfl, h2, _⟩ _; exact ⟨_, rfl, rfl, rfl⟩
  · intro s l f e; exact nomatch e
  · rintro s l h; exact ⟨s, .inl ⟨rfl, h⟩⟩
  · rintro s l slots ⟨h1, h2, _⟩ _; exact ⟨s, [s.slot], by simp, rfl, h1, h2, .inr rfl⟩
  · intro s l slots e; exact nomatch e
  · rintro s l slots ws ⟨h1, h2, h3⟩ h4
    match ws with
    | [] => exact ⟨h1, h2, by simpa [trickle] using h3⟩
    | w :: ws =>
      rcases h3 with rfl | rfl
      · simp at h4
      · obtain rfl : ws = [] := by simpa using h4
        exact ⟨h1, h2, .inr (by simp [trickle])⟩
  · rintro s l slots k ⟨rfl, h2, h3⟩ h4 h5 _
    rcases h3 with rfl | rfl
    · exact absurd rfl h4
    · match k, h5 with
      | 0, _ => exact ⟨s, rfl, by simp, h2, .inr rfl⟩
      | 1, _ => exact ⟨_, rfl, rfl, h2, .inl rfl⟩
  · intro s l slots k i e; exact nomatch e
  · rintro s l slots buf ⟨rfl, h2, h3⟩ h4
    match buf with
    | [] => exact absurd rfl h4
    | x :: buf =>
      exact ⟨_, .inl ⟨1, by decide, by simp, fun i x _ => rfl, rfl, [], rfl, h2, .inl rfl⟩⟩

abbrev TwoEncoders := Shared Bool Trickle Unit (SharedEncoderOp UInt16 Unit) (Except Empty Unit) Writing

abbrev TwoEncoders.Reachable (st : TwoEncoders) : Prop :=
  Shared.Reachable (sharedEncoder U16BE.encodable.toEncodable trickle) (writeSuspension trickle (u16.opSlice .big))
    (Shared.init ⟨[], none, 0⟩ fun _ => ()) st

/-- Task `false` has written the first byte of its value and is suspended; task `true` is waiting for the lock. -/
theorem Case.encoders_midway : ∃ st : TwoEncoders, st.Reachable ∧
    st.owner = some false ∧ st.phase true = .waiting (.consume 0x0304) ∧
    st.phase false = .running (.consume 0x0102) (.writing [1, 2] 1) ∧ st.shared.received = [1] ∧ st.finished = [] := by
  refine ⟨_, .snoc (.snoc (.snoc (.snoc .refl
    (.call false (.consume 0x0102) _ rfl rfl))
    (.call true (.consume 0x0304) _ rfl rfl))
    (.acquire false (.consume 0x0102) rfl rfl))
    (.step false (.consume 0x0102) (Writing.writing [1, 2] 0) (Writing.writing [1, 2] 1) _ rfl
      (.inr ⟨[1, 2], 0, 1, rfl, rfl, rfl⟩)), rfl, rfl, rfl, rfl, rfl⟩

/-- Nobody is doing anything. -/
theorem Case.encoders_idle : ∃ st : TwoEncoders, st.Reachable ∧
    st.owner = none ∧ st.phase false = .idle ∧ st.phase true = .idle ∧ st.finished = [] :=
  ⟨_, .refl, rfl, rfl, rfl, rfl⟩

/-- A schedule with three calls, to the end. -/
theorem Case.encoders_done : ∃ st : TwoEncoders, st.Reachable ∧ st.owner = none ∧ st.shared.received = [1, 2, 3, 4] ∧
    st.finished = [(false, .consume 0x0102, .ok ()), (false, .close (), .ok ()), (true, .consume 0x0304, .ok ())] := by
  have r : TwoEncoders.Reachable (Shared.init ⟨[], none, 0⟩ fun _ => ()) := .refl
  have r := r.snoc (.call false (.consume 0x0102) _ rfl rfl)
  have r := r.snoc (.call true (.consume 0x0304) _ rfl rfl)
  have r := r.snoc (.acquire false (.consume 0x0102) rfl rfl)
  have r := r.snoc (.step false (.consume 0x0102) (Writing.writing [1, 2] 0) (Writing.writing [1, 2] 1) _ rfl
    (.inr ⟨[1, 2], 0, 1, rfl, rfl, rfl⟩))
  have r := r.snoc (.step false (.consume 0x0102) (Writing.writing [1, 2] 1) (Writing.writing [1, 2] 2) _ rfl
    (.inr ⟨[1, 2], 1, 2, rfl, rfl, rfl⟩))
  have r := r.snoc (.ret false (.consume 0x0102) (Writing.writing [1, 2] 2) (.ok ()) _ rfl
    (.inl ⟨[1, 2], 2, .ok (), rfl, rfl, rfl⟩))
  have r := r.snoc (.acquire true (.consume 0x0304) rfl rfl)
  have r := r.snoc (.step true (.consume 0x0304) (Writing.writing [3, 4] 0) (Writing.writing [3, 4] 1) _ rfl
    (.inr ⟨[3, 4], 0, 1, rfl, rfl, rfl⟩))
  have r := r.snoc (.immediate false (.close ()) () (.ok ()) rfl rfl)
  have r := r.snoc (.step true (.consume 0x0304) (Writing.writing [3, 4] 1) (Writing.writing [3, 4] 2) _ rfl
    (.inr ⟨[3, 4], 1, 2, rfl, rfl, rfl⟩))
  have r := r.snoc (.ret true (.consume 0x0304) (Writing.writing [3, 4] 2) (.ok ()) _ rfl
    (.inl ⟨[3, 4], 2, .ok (), rfl, rfl, rfl⟩))
  exact ⟨_, r, rfl, rfl, rfl⟩

end

/-! ## Sequential schedules -/

section

variable {ι σ β Op A : Type} [DecidableEq ι] {method : β → Op → SharedMethod σ β A}

/-- Every sequential execution is possible. -/
theorem Serial.reachable {b b' : ι → β} {s s' : σ} {l : List (ι × Op × A)} (h : Serial method b s l b' s') :
    ∃ st, Shared.Reachable method (Suspension.chaotic method) (Shared.init s b) st ∧ st.owner = none ∧ (∀ i, st.phase i = .idle) ∧
      st.finished = l ∧ st.fields = b' ∧ st.shared = s' := by
  induction h with
  | nil => exact ⟨_, .refl, rfl, fun _ => rfl, rfl, rfl, rfl⟩
  | @locked l b₁ s₁ i op run a s₂ _ hm hr ih =>
    obtain ⟨st, h1, h2, h3, rfl, rfl, rfl⟩ := ih
    have r := h1.snoc (.call i op run (h3 i) hm)
    have r := r.snoc (.acquire i op (setAt_same _ _ _) h2)
    have r := r.snoc (.ret i op _ a s₂ (setAt_same _ _ _)
      (by simpa only [Suspension.chaotic, hm, Option.getD_none] using hr))
    refine ⟨_, r, rfl, fun j => ?_, rfl, rfl, rfl⟩
    by_cases hj : j = i
    · subst hj; exact setAt_same _ _ _
    · simp [setAt, hj, h3]
  | @immediate l b₁ s₁ i op x a _ hm ih =>
    obtain ⟨st, h1, h2, h3, rfl, rfl, rfl⟩ := ih
    exact ⟨_, h1.snoc (.immediate i op x a (h3 i) hm), h2, h3, rfl, rfl, rfl⟩

end

namespace Case

/-- Two tasks with encoders for `u16` around a consumer that accepts three bytes: the second call fails. -/
theorem encoders_fail : ∃ s, Serial (sharedEncoder U16BE.encodable.toEncodable sink) (fun _ : Bool => ()) (upTo 3)
    [(false, .consume 0x0102, .ok ()), (true, .consume 0x0304, .error "full")] (fun _ => ()) s := by
  obtain ⟨s, h1, h2⟩ := (u16.encodesLaw .big).accepted 0x0102 (upTo_collects 3) (upTo_accepts (by decide))
  obtain ⟨s', h3, _⟩ := (u16.encodesLaw .big).refused 0x0304 h2 (upTo_fails (i := 1) (by decide) (by decide))
  exact ⟨s', .locked (.locked .nil rfl h1) rfl h3⟩

/-- Two tasks with relative encoders around a consumer that accepts two bytes. One of them changes its relative-to value. -/
theorem relative_encoders : ∃ s, BulkCollects sink TestConsumer.Seen (.failAfter 2 "full") s [11, 2] ∧
    Serial (sharedRelativeEncoder differenceEncodable id sink) (fun _ : Bool => 1) (upTo 2)
      [(true, .setRelativeTo 10, .ok ()), (false, .consume 12, .ok ()), (true, .consume 12, .ok ())]
      (setAt (fun _ => 1) true 10) s := by
  obtain ⟨s, h1, h2⟩ := (difference_encodes 1).accepted 12 (upTo_collects 2) (upTo_accepts (by decide))
  obtain ⟨s', h3, h4⟩ := (difference_encodes 10).accepted 12 h2 (upTo_accepts (by decide))
  have r : Serial (sharedRelativeEncoder differenceEncodable id sink) (fun _ : Bool => 1) (upTo 2) [] (fun _ => 1) (upTo 2) := .nil
  have r := r.immediate (i := true) (op := .setRelativeTo 10) rfl
  have r := r.locked (i := false) (op := .consume 12) rfl h1
  have r := r.locked (i := true) (op := .consume 12) rfl h3
  exact ⟨s', h4, r⟩

/-- Then a call fails. -/
theorem relative_encoders_fail : ∃ s, Serial (sharedRelativeEncoder differenceEncodable id sink) (fun _ : Bool => 1) (upTo 2)
    [(true, .setRelativeTo 10, .ok ()), (false, .consume 12, .ok ()), (true, .consume 12, .ok ()),
      (true, .consume 13, .error "full")] (setAt (fun _ => 1) true 10) s := by
  obtain ⟨s, h1, r⟩ := relative_encoders
  obtain ⟨s', h2, _⟩ := (difference_encodes 10).refused 13 h1 (upTo_fails (i := 0) (by decide) (by decide))
  have r := r.locked (i := true) (op := .consume 13) rfl h2
  exact ⟨s', r⟩

end Case

section

variable {ι σ T R RC F E B Rel : Type} [DecidableEq ι]

theorem withAnswer_ok {A A' : Type} {f : A → A'} {run : σ → Outcome (σ × A)} {s s' : σ} {a : A} (h : run s = ok (s', a)) :
    withAnswer f run s = ok (s', f a) := by simp [withAnswer, h]

/-- Any tasks can get the values, in any order. -/
theorem Case.decoders {d : Decodable T R} {g : Grammar T R} (hd : DecodesLaw d.decode g) (hg : g [] = .more)
    {P : BulkProducer σ UInt8 F E} {s : σ} {c : Script UInt8 F E} {c' : Script T F (DecodeError F E R)} {used : Nat → Nat}
    (hP : BulkPlays P s c) (hc : Decodes g c c' used) (task : Nat → ι) (n : Nat)
    (hv : ∀ i, i < n → ∃ x, c' i = .ok (.inl x)) :
    ∃ s', Serial (sharedDecoder d P) (fun _ : ι => ()) s
      ((List.range n).map fun i => (task i, .produce, .produced (c' i))) (fun _ => ()) s' ∧
      BulkPlays P s' (c.drop (used n)) := by
  induction n with
  | zero => exact ⟨s, .nil, by simpa [hc.1] using hP⟩
  | succ n ih =>
    obtain ⟨s', h1, h2⟩ := ih fun i hi => hv i (by omega)
    obtain ⟨k, h3, h4⟩ := hc.2 n fun i hi => hv i (by omega)
    obtain ⟨s'', h5, h6⟩ := decoderProduce_spec hd hg h2 h3
    obtain ⟨x, hx⟩ := hv n (by omega)
    refine ⟨s'', ?_, ?_⟩
    · rw [List.range_succ, List.map_append]
      exact h1.locked (op := .produce) rfl (withAnswer_ok h5)
    · rw [h4, ← Script.drop_drop]
      exact h6 x hx

/-- And then any task can get the end. -/
theorem Case.decoders_end {d : Decodable T R} {g : Grammar T R} (hd : DecodesLaw d.decode g) (hg : g [] = .more)
    {P : BulkProducer σ UInt8 F E} {s : σ} {c : Script UInt8 F E} {c' : Script T F (DecodeError F E R)} {used : Nat → Nat}
    (hP : BulkPlays P s c) (hc : Decodes g c c' used) (task : Nat → ι) (n : Nat)
    (hv : ∀ i, i < n → ∃ x, c' i = .ok (.inl x)) :
    ∃ s', Serial (sharedDecoder d P) (fun _ : ι => ()) s
      ((List.range n).map (fun i => (task i, .produce, .produced (c' i))) ++ [(task n, .produce, .produced (c' n))])
      (fun _ => ()) s' := by
  obtain ⟨s', h1, h2⟩ := decoders hd hg hP hc task n hv
  obtain ⟨k, h3, h4⟩ := hc.2 n hv
  obtain ⟨s'', h5, h6⟩ := decoderProduce_spec hd hg h2 h3
  exact ⟨s'', h1.locked (op := .produce) rfl (withAnswer_ok h5)⟩

end

namespace Case

/-- Two tasks with relative decoders. One of them changes its relative-to value. -/
theorem relative_decoders (last : Except String Nat) :
    ∃ s, Serial (sharedRelativeDecoder differenceDecodable id bytes) (fun _ : Bool => 1) (from_ [1, 249] last)
      [(true, .setRelativeTo 10, .unit), (false, .produce, .produced (.ok (.inl 2))), (true, .produce, .produced (.ok (.inl 3)))]
      (setAt (fun _ => 1) true 10) s := by
  obtain ⟨s, h1, h2⟩ := decoderProduce_spec (difference_decodes 1) rfl (from_plays [1, 249] last)
    (.value (bs := [1]) (x := 2) (Script.ofList_startsWith [1, 249] last).left (difference_encoding 1 2))
  obtain ⟨s', h3, _⟩ := decoderProduce_spec (difference_decodes 10) rfl (h2 _ rfl)
    (.value (bs := [249]) (x := 3) (Script.ofList_startsWith [1, 249] last).right (difference_encoding 10 3))
  have r : Serial (sharedRelativeDecoder differenceDecodable id bytes) (fun _ : Bool => 1) (from_ [1, 249] last) []
    (fun _ => 1) (from_ [1, 249] last) := .nil
  have r := r.immediate (i := true) (op := .setRelativeTo 10) rfl
  have r := r.locked (i := false) (op := .produce) rfl (s₂ := s) (a := .produced (.ok (.inl 2))) (withAnswer_ok h1)
  have r := r.locked (i := true) (op := .produce) rfl (s₂ := s') (a := .produced (.ok (.inl 3)))
    (withAnswer_ok h3)
  exact ⟨s', r⟩

/-- All bytes are differences. -/
theorem difference_decodes_next {bs : List UInt8} {last : Except String Nat} (r : UInt8) (n : Nat)
    (h : ∀ i, i < n → ∃ x, Script.ofList bs last i = .ok (.inl x)) :
    ∃ a k, DecodesNext (differenceGrammar r) ((Script.ofList bs last).drop n) a k := by
  have hn : n ≤ bs.length := by
    rcases Nat.lt_or_ge bs.length n with hlt | hge
    · obtain ⟨x, hx⟩ := h _ hlt
      rw [Script.ofList_end] at hx
      cases last <;> cases hx
    · exact hge
  rw [Script.ofList_drop _ _ _ hn]
  refine decodesNext_of_ends _ (m := (bs.drop n).length) fun x => ?_
  rw [Script.ofList_end]
  cases last <;> simp [Except.map]

end Case

end Verif
