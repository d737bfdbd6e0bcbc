import Verif.SharedCases
import Verif.Props.Codec
import Verif.Props.RelativeCodec

/-!
# C43, C44: adaptors that share a consumer or producer

`Shared.Reachable method m (Shared.init s₀ b) st`: the state `st` of the whole system can be reached by some interleaving of the
tasks `ι`, each of which calls methods of its own adaptor, in an arbitrary sequence; `m` says where the methods can be suspended
and `m.Implements method` that they do what they should if they are not interfered with.
-/

namespace Verif

open Outcome

section

variable {ι σ β Op A : Type} [DecidableEq ι] {method : β → Op → SharedMethod σ β A} {m : Suspension σ β Op A} {b : ι → β} {s₀ : σ}
  {st : Shared ι σ β Op A m.κ}

/-! ## All shared adaptors -/

/-- **C43, C44, any schedule.** The completed calls and their answers are those of a sequential execution. Each task makes its
calls in order. If nobody has the lock, then the shared value is that of the sequential execution; if `i` has it, then the
shared value comes from that by polling the current call of `i`, and nothing else. -/
theorem shared_linearizable (hI : m.Implements method) (h : Shared.Reachable method m (Shared.init s₀ b) st) :
    (∃ s, Serial method b s₀ st.finished st.fields s ∧ (st.owner = none → st.shared = s) ∧
      ∀ i, st.owner = some i → ∃ op k, st.phase i = .running op k ∧ m.Path (m.start (st.fields i) op) s k st.shared) ∧
    ∀ i, st.called i = callsOf i st.finished ++ (st.phase i).current := by
  obtain ⟨s, h⟩ := h.inv hI
  refine ⟨⟨s, h.serial, h.free, fun i hi => ?_⟩, h.order⟩
  obtain ⟨op, k, _, h1, _, h2⟩ := h.held i hi
  exact ⟨op, k, h1, h2⟩

/-- The first byte of the first value has been written, by the call that has the lock. -/
example : ∃ st : TwoEncoders, st.Reachable ∧ st.owner = some false ∧ st.shared.received = [1] ∧
    ∃ s, Serial (sharedEncoder U16BE.encodable.toEncodable trickle) (fun _ : Bool => ()) ⟨[], none, 0⟩ [] st.fields s ∧
      ∃ op k, st.phase false = .running op k ∧ (writeSuspension trickle (u16.opSlice .big)).Path
        ((writeSuspension trickle (u16.opSlice .big)).start () op) s k st.shared := by
  obtain ⟨st, h1, h2, h3, _, h4, h5⟩ := Case.encoders_midway
  obtain ⟨⟨s, h6, _, h7⟩, _⟩ := shared_linearizable (u16.suspension_implements .big trickle) h1
  exact ⟨st, h1, h2, h4, s, h5 ▸ h6, h7 _ h2⟩

/-- At most one task is in its critical section. -/
theorem shared_mutual_exclusion (hI : m.Implements method) (h : Shared.Reachable method m (Shared.init s₀ b) st) {i j : ι}
    {op op' : Op} {k k' : m.κ} (hi : st.phase i = .running op k) (hj : st.phase j = .running op' k') : i = j := by
  obtain ⟨s, h⟩ := h.inv hI
  have h1 := h.mutex i op k hi
  rw [h.mutex j op' k' hj] at h1
  exact (Option.some.inj h1).symm

example : ∃ st : TwoEncoders, st.Reachable ∧ st.phase false = .running (.consume 0x0102) (.writing [1, 2] 1) ∧
    ∀ op k, st.phase true ≠ .running op k := by
  obtain ⟨st, h1, _, _, h2, _⟩ := Case.encoders_midway
  refine ⟨st, h1, h2, fun op k h3 => ?_⟩
  cases shared_mutual_exclusion (u16.suspension_implements .big trickle) h1 h2 h3

/-- The tasks never block each other: if a call has been neither completed nor dropped, then some call can be continued (provided
that a call that is in its critical section can): a task gets the lock, or the one that has it is polled. -/
theorem shared_no_deadlock (hI : m.Implements method)
    (hP : ∀ b op run s k s₁, method b op = .locked run → m.Path (m.start b op) s k s₁ →
      (∃ k' s', m.step k s₁ k' s') ∨ ∃ a s', m.ret k s₁ a s')
    (h : Shared.Reachable method m (Shared.init s₀ b) st) {i : ι}
    (hi : st.phase i ≠ .idle) (hi' : ∀ op, st.phase i ≠ .gone op) :
    ∃ st' j op k, Shared.Step method m st st' ∧ st'.called = st.called ∧
      (st.phase j = .waiting op ∧ st'.phase j = .running op k ∨ st.phase j = .running op k) := by
  obtain ⟨s, h⟩ := h.inv hI
  cases ho : st.owner with
  | some j =>
    obtain ⟨op, k, run, h1, h2, h3⟩ := h.held j ho
    rcases hP _ _ _ _ _ _ h2 h3 with ⟨k', s', h4⟩ | ⟨a, s', h4⟩
    · exact ⟨_, j, op, k, .step j op k k' s' h1 h4, rfl, .inr h1⟩
    · exact ⟨_, j, op, k, .ret j op k a s' h1 h4, rfl, .inr h1⟩
  | none =>
    cases hp : st.phase i with
    | idle => exact absurd hp hi
    | gone op => exact absurd hp (hi' op)
    | waiting op => exact ⟨_, i, op, _, .acquire i op hp ho, rfl, .inl ⟨hp, setAt_same _ _ _⟩⟩
    | running op k => have := h.mutex i op k hp; rw [ho] at this; cases this

/-- The second task waits for the lock; the call that has it can be continued. -/
example : ∃ st st' : TwoEncoders, ∃ j op k, st.Reachable ∧ st.phase true = .waiting (.consume 0x0304) ∧
    Shared.Step (sharedEncoder U16BE.encodable.toEncodable trickle) (writeSuspension trickle (u16.opSlice .big)) st st' ∧
    (st.phase j = .waiting op ∧ st'.phase j = .running op k ∨ st.phase j = .running op k) := by
  obtain ⟨st, h1, _, h2, _⟩ := Case.encoders_midway
  obtain ⟨st', j, op, k, h3, _, h4⟩ := shared_no_deadlock (u16.suspension_implements .big trickle)
    (fun _ _ _ _ k s₁ _ _ => .inl ⟨k, s₁, .inl ⟨rfl, rfl⟩⟩) h1 (i := true) (by rw [h2]; nofun) (fun op => by rw [h2]; nofun)
  exact ⟨st, st', j, op, k, h1, h2, h3, h4⟩

end

/-! ## C43 -/

section

variable {ι σ T R RC F E B Rel : Type} [DecidableEq ι]

section Encoder

variable {t : Encodable T} {enc : T → List UInt8} {C : BulkConsumer σ UInt8 F E} {D : σ → List UInt8 → Option F → Prop}
  {q : Policy UInt8 F E} {m : Suspension σ Unit (SharedEncoderOp T F) (Except E Unit)} {b : ι → Unit} {s₀ : σ} {l : List UInt8}
  {st : Shared ι σ Unit (SharedEncoderOp T F) (Except E Unit) m.κ}

/-- **C43.** Whenever nobody has the lock, the consumer, which had received `l`, has received exactly `l` and the encodings of
the values of the completed calls, one after the other in the order of completion, and it is open. The calls of each task have
been completed in the order in which the task made them. -/
theorem shared_encoder_bytes (he : EncodesLaw t.encode enc) (hI : m.Implements (sharedEncoder t C))
    (hC : BulkCollects C D q s₀ l) (h : Shared.Reachable (sharedEncoder t C) m (Shared.init s₀ b) st)
    (hok : ∀ e ∈ st.finished, e.2.2 = .ok ()) :
    (st.owner = none → D st.shared (l ++ encodeAll enc (consumedValues st.finished)) none ∧
      BulkCollects C D q st.shared (l ++ encodeAll enc (consumedValues st.finished))) ∧
    ∀ i, st.called i = callsOf i st.finished ++ (st.phase i).current := by
  obtain ⟨s, h⟩ := h.inv hI
  refine ⟨fun ho => ?_, h.order⟩
  have h1 := sharedEncoder_serial he hC h.serial hok
  rw [h.free ho]
  exact ⟨h1.toCollects.observe, h1⟩

/-- The theorem applies to these tasks, whatever they call and however they are scheduled. -/
example {st : TwoEncoders} (h : st.Reachable) (hok : ∀ e ∈ st.finished, e.2.2 = .ok ()) (ho : st.owner = none) :
    st.shared.received = encodeAll (u16.toBytes .big) (consumedValues st.finished) ∧ st.shared.closed = none := by
  simpa using ((shared_encoder_bytes (u16.encodesLaw .big) (u16.suspension_implements .big trickle) trickle_collects h hok).1 ho).1

/-- Such as this schedule. -/
example : ∃ st : TwoEncoders, st.Reachable ∧
    st.finished = [(false, .consume 0x0102, .ok ()), (false, .close (), .ok ()), (true, .consume 0x0304, .ok ())] ∧
    (st.shared.received = [1, 2, 3, 4] ∧ st.shared.closed = none) ∧
    BulkCollects trickle (fun s l f => s.received = l ∧ s.closed = f) Policy.acceptAll st.shared [1, 2, 3, 4] := by
  obtain ⟨st, h1, h2, _, h3⟩ := Case.encoders_done
  have h4 := (shared_encoder_bytes (u16.encodesLaw .big) (u16.suspension_implements .big trickle) trickle_collects h1
    (by simp [h3])).1 h2
  rw [h3] at h4
  exact ⟨st, h1, h3, h4.1, h4.2⟩

/-- **C43, at all times.** While a task has the lock, there may be, after all the complete encodings, the beginning of the
encoding of the value that this task is encoding, and nothing else. -/
theorem shared_encoder_bytes_always (he : EncodesLaw t.encode enc) (hI : m.Implements (sharedEncoder t C))
    (hW : m.Writes D (fun _ => opBytes enc) C q) (hC : BulkCollects C D q s₀ l)
    (h : Shared.Reachable (sharedEncoder t C) m (Shared.init s₀ b) st) (hok : ∀ e ∈ st.finished, e.2.2 = .ok ()) :
    ∃ part, D st.shared (l ++ encodeAll enc (consumedValues st.finished) ++ part) none ∧
      (part = [] ∨ ∃ i op k, st.owner = some i ∧ st.phase i = .running op k ∧ part <+: opBytes enc op) := by
  obtain ⟨s, h⟩ := h.inv hI
  have h1 := sharedEncoder_serial he hC h.serial hok
  cases ho : st.owner with
  | none => exact ⟨[], by rw [h.free ho, List.append_nil]; exact h1.toCollects.observe, .inl rfl⟩
  | some i =>
    obtain ⟨op, k, run, h2, h3, h4⟩ := h.held i ho
    obtain ⟨part, h5, h6⟩ := hW _ _ _ _ _ _ h1 h4
    exact ⟨part, h6, .inr ⟨i, op, k, rfl, h2, h5⟩⟩

example {st : TwoEncoders} (h : st.Reachable) (hok : ∀ e ∈ st.finished, e.2.2 = .ok ()) :
    ∃ part, st.shared.received = encodeAll (u16.toBytes .big) (consumedValues st.finished) ++ part ∧
      (part = [] ∨ ∃ i op k, st.owner = some i ∧ st.phase i = .running op k ∧ part <+: opBytes (u16.toBytes .big) op) := by
  obtain ⟨part, h2, h3⟩ := shared_encoder_bytes_always (u16.encodesLaw .big) (u16.suspension_implements .big trickle)
    (u16.suspension_writes .big) trickle_collects h hok
  exact ⟨part, by simpa using h2.1, h3⟩

/-- **C43, errors.** When the first call fails, then either the consumer has refused a byte of the value of this call, and
has received all bytes before that one; or it has refused to flush. (`close` does not fail.) -/
theorem shared_encoder_first_error (he : EncodesLaw t.encode enc) (hI : m.Implements (sharedEncoder t C))
    (hC : BulkCollects C D q s₀ l) (h : Shared.Reachable (sharedEncoder t C) m (Shared.init s₀ b) st)
    {done : List (ι × SharedEncoderOp T F × Except E Unit)} {i : ι} {op : SharedEncoderOp T F} {e : E}
    (hfin : st.finished = done ++ [(i, op, .error e)]) (hok : ∀ e ∈ done, e.2.2 = .ok ()) (ho : st.owner = none) :
    (∃ x k, op = .consume x ∧ q.FailsAt (l ++ encodeAll enc (consumedValues done)) (enc x) k e ∧
      D st.shared (l ++ encodeAll enc (consumedValues done) ++ (enc x).take k) none) ∨
    (op = .flush ∧ q.refuseFlush (l ++ encodeAll enc (consumedValues done)) = some e ∧
      D st.shared (l ++ encodeAll enc (consumedValues done)) none) := by
  obtain ⟨s, h⟩ := h.inv hI
  rw [h.free ho]
  have hs := h.serial
  rw [hfin] at hs
  obtain ⟨b₁, s₁, h1, ⟨run, h2, h3, _⟩ | ⟨x, h2, _⟩⟩ := hs.snoc_inv
  · have h4 := sharedEncoder_serial he hC h1 hok
    cases op with
    | consume x =>
      cases h2
      obtain ⟨k, h5, h6⟩ := encodes_err he h4 h3
      exact .inl ⟨x, k, rfl, h5, h6⟩
    | close f => cases h2
    | flush =>
      cases h2
      change C.flush s₁ = _ at h3
      obtain ⟨s3, ⟨h5, h6⟩ | ⟨e', h5, h6, h7⟩⟩ := h4.flush_spec
      · rw [h3] at h5; cases h5
      · rw [h3] at h6; cases h6
        exact .inr ⟨rfl, h5, h7⟩
  · cases op <;> cases h2

/-- The consumer accepts three bytes; the second call fails with the second byte of its value. -/
example : ∃ m, ∃ st : Shared Bool _ Unit _ _ m.κ,
    Shared.Reachable (sharedEncoder U16BE.encodable.toEncodable Case.sink) m (Shared.init (Case.upTo 3) fun _ => ()) st ∧
    ∃ k, (Policy.failAfter (I := UInt8) (F := Unit) 3 "full").FailsAt [1, 2] [3, 4] k "full" ∧
      TestConsumer.Seen st.shared ([1, 2] ++ [3, 4].take k) none := by
  obtain ⟨s, h⟩ := Case.encoders_fail
  obtain ⟨st, h1, h2, _, h3, _⟩ := h.reachable
  refine ⟨_, st, h1, ?_⟩
  rcases shared_encoder_first_error (u16.encodesLaw .big) (Suspension.chaotic_implements _) (Case.upTo_collects 3) h1
    (done := [(false, .consume 0x0102, .ok ())]) h3 (by simp) h2 with ⟨x, k, h4, h5, h6⟩ | ⟨h4, _⟩
  · cases h4
    exact ⟨k, h5, h6⟩
  · cases h4

/-- **C43.** As long as no call has failed, no call panics or runs forever. -/
theorem shared_encoder_returns (he : EncodesLaw t.encode enc) (hI : m.Implements (sharedEncoder t C))
    (hC : BulkCollects C D q s₀ l) (h : Shared.Reachable (sharedEncoder t C) m (Shared.init s₀ b) st)
    (hok : ∀ e ∈ st.finished, e.2.2 = .ok ()) (ho : st.owner = none) (op : SharedEncoderOp T F)
    {run : σ → Outcome (σ × Except E Unit)} (hm : sharedEncoder t C () op = .locked run) : ∃ s' a, run st.shared = ok (s', a) := by
  have hL := ((shared_encoder_bytes he hI hC h hok).1 ho).2
  cases op with
  | consume x =>
    cases hm
    rcases Policy.accepts_or_failsAt q _ (enc x) with ha | ⟨k, e, ha⟩
    · obtain ⟨s1, h1, _⟩ := he.accepted x hL ha
      exact ⟨s1, _, h1⟩
    · obtain ⟨s1, h1, _⟩ := he.refused x hL ha
      exact ⟨s1, _, h1⟩
  | close f => cases hm
  | flush =>
    cases hm
    obtain ⟨s1, ⟨h1, _⟩ | ⟨e, _, h1, _⟩⟩ := hL.flush_spec
    · exact ⟨s1, _, h1⟩
    · exact ⟨s1, _, h1⟩

example : ∃ st : TwoEncoders, st.Reachable ∧ st.shared.received = [1, 2, 3, 4] ∧
    ∃ s' a, U16BE.encodable.toEncodable.encode trickle st.shared 0x0506 = ok (s', a) := by
  obtain ⟨st, h1, h2, h3, h4⟩ := Case.encoders_done
  exact ⟨st, h1, h3, shared_encoder_returns (u16.encodesLaw .big) (u16.suspension_implements .big trickle) trickle_collects h1
    (by simp [h4]) h2 (.consume 0x0506) rfl⟩

/-- **C43.** `close` of a shared encoder always succeeds at once, and leaves the shared consumer (and everything else) as it is. -/
theorem shared_encoder_close {f : F} {i : ι} (hi : st.phase i = .idle) :
    Shared.Step (sharedEncoder t C) m st { st with
      fields := setAt st.fields i (), called := setAt st.called i (st.called i ++ [.close f]),
      finished := st.finished ++ [(i, .close f, .ok ())] } ∧
    ∀ b run, sharedEncoder t C b (.close f) ≠ .locked run :=
  ⟨.immediate i (.close f) () (.ok ()) hi rfl, fun _ _ h => nomatch h⟩

example : ∃ st st' : TwoEncoders, st.Reachable ∧ st'.Reachable ∧ st'.shared = st.shared ∧
    st'.finished = st.finished ++ [(true, .close (), .ok ())] := by
  obtain ⟨st, h1, _, _, h2, _⟩ := Case.encoders_idle
  exact ⟨st, _, h1, h1.snoc (shared_encoder_close (f := ()) h2).1, rfl, rfl⟩

end Encoder

section RelativeEncoder

variable {t : RelativeEncodable T Rel} {borrow : B → Rel} {enc : Rel → T → List UInt8} {C : BulkConsumer σ UInt8 F E}
  {D : σ → List UInt8 → Option F → Prop} {q : Policy UInt8 F E} {m : Suspension σ B (SharedRelativeEncoderOp T F B) (Except E Unit)}
  {b : ι → B} {s₀ : σ} {l : List UInt8} {st : Shared ι σ B (SharedRelativeEncoderOp T F B) (Except E Unit) m.κ}

/-- **C43** for relative encoders: each task has its own value relative to which it encodes, and which it can change at any
time. -/
theorem shared_relative_encoder_bytes (he : ∀ r, EncodesLaw (t.relativeEncode r) (enc r))
    (hI : m.Implements (sharedRelativeEncoder t borrow C)) (hC : BulkCollects C D q s₀ l)
    (h : Shared.Reachable (sharedRelativeEncoder t borrow C) m (Shared.init s₀ b) st)
    (hok : ∀ e ∈ st.finished, e.2.2 = .ok ()) :
    (st.owner = none → D st.shared (l ++ consumedBytes enc borrow b st.finished) none ∧
      BulkCollects C D q st.shared (l ++ consumedBytes enc borrow b st.finished)) ∧
    (∀ i, st.called i = callsOf i st.finished ++ (st.phase i).current) ∧ st.fields = relativeTos b st.finished := by
  obtain ⟨s, h⟩ := h.inv hI
  have h1 := sharedRelativeEncoder_serial he hC h.serial
  refine ⟨fun ho => ?_, h.order, h1.1⟩
  rw [h.free ho]
  exact ⟨(h1.2 hok).toCollects.observe, h1.2 hok⟩

/-- Relative encoders, suspended in whatever way. -/
example {m : Suspension Trickle UInt8 (SharedRelativeEncoderOp UInt8 Unit UInt8) (Except Empty Unit)}
    (hI : m.Implements (sharedRelativeEncoder differenceEncodable id trickle)) {b : Nat → UInt8}
    {st : Shared Nat Trickle UInt8 (SharedRelativeEncoderOp UInt8 Unit UInt8) (Except Empty Unit) m.κ}
    (h : Shared.Reachable (sharedRelativeEncoder differenceEncodable id trickle) m (Shared.init ⟨[], none, 0⟩ b) st)
    (hfin : st.finished = [(7, .setRelativeTo 10, .ok ()), (3, .consume 12, .ok ()), (7, .consume 12, .ok ())])
    (hb : b 3 = 1) (ho : st.owner = none) : st.shared.received = [11, 2] := by
  have h1 := (shared_relative_encoder_bytes difference_encodes hI trickle_collects h (by simp [hfin])).1 ho
  simpa [hfin, consumedBytes, setAt, hb] using h1.1.1

example : ∃ m, ∃ st : Shared Bool _ UInt8 _ _ m.κ,
    Shared.Reachable (sharedRelativeEncoder differenceEncodable id Case.sink) m (Shared.init (Case.upTo 2) fun _ => 1) st ∧
    st.finished = [(true, .setRelativeTo 10, .ok ()), (false, .consume 12, .ok ()), (true, .consume 12, .ok ())] ∧
    TestConsumer.Seen st.shared [11, 2] none := by
  obtain ⟨s, _, h⟩ := Case.relative_encoders
  obtain ⟨st, h1, h2, _, h3, _⟩ := h.reachable
  have h4 := ((shared_relative_encoder_bytes difference_encodes (Suspension.chaotic_implements _) (Case.upTo_collects 2) h1
    (by simp [h3])).1 h2).1
  rw [h3] at h4
  exact ⟨_, st, h1, h3, h4⟩

theorem shared_relative_encoder_bytes_always (he : ∀ r, EncodesLaw (t.relativeEncode r) (enc r))
    (hI : m.Implements (sharedRelativeEncoder t borrow C)) (hW : m.Writes D (relativeOpBytes enc borrow) C q)
    (hC : BulkCollects C D q s₀ l) (h : Shared.Reachable (sharedRelativeEncoder t borrow C) m (Shared.init s₀ b) st)
    (hok : ∀ e ∈ st.finished, e.2.2 = .ok ()) :
    ∃ part, D st.shared (l ++ consumedBytes enc borrow b st.finished ++ part) none ∧
      (part = [] ∨ ∃ i op k, st.owner = some i ∧ st.phase i = .running op k ∧
        part <+: relativeOpBytes enc borrow (relativeTos b st.finished i) op) := by
  obtain ⟨s, h⟩ := h.inv hI
  obtain ⟨hf, h1⟩ := sharedRelativeEncoder_serial he hC h.serial
  have h1 := h1 hok
  cases ho : st.owner with
  | none => exact ⟨[], by rw [h.free ho, List.append_nil]; exact h1.toCollects.observe, .inl rfl⟩
  | some i =>
    obtain ⟨op, k, run, h2, h3, h4⟩ := h.held i ho
    obtain ⟨part, h5, h6⟩ := hW _ _ _ _ _ _ h1 h4
    rw [hf] at h5
    exact ⟨part, h6, .inr ⟨i, op, k, rfl, h2, h5⟩⟩

/-- A byte of a difference that is being written. -/
example : ∃ st : Shared Bool Trickle UInt8 (SharedRelativeEncoderOp UInt8 Unit UInt8) (Except Empty Unit) Writing,
    Shared.Reachable (sharedRelativeEncoder differenceEncodable id trickle) (writeSuspension trickle differenceSlice)
      (Shared.init ⟨[], none, 0⟩ fun _ => 1) st ∧
    st.owner = some true ∧ st.shared.received = [2] ∧ ∃ part, [2] = part ∧
      (part = [] ∨ ∃ i op k, st.owner = some i ∧ st.phase i = .running op k ∧
        part <+: relativeOpBytes (fun r x => [x - r]) id (setAt (fun _ => 1) true 10 i) op) := by
  have r : Shared.Reachable (sharedRelativeEncoder differenceEncodable id trickle) (writeSuspension trickle differenceSlice)
    (Shared.init ⟨[], none, 0⟩ fun _ : Bool => 1) (Shared.init ⟨[], none, 0⟩ fun _ : Bool => 1) := .refl
  have r := r.snoc (.immediate true (.setRelativeTo 10) 10 (.ok ()) rfl rfl)
  have r := r.snoc (.call true (.consume 12) _ rfl rfl)
  have r := r.snoc (.acquire true (.consume 12) rfl rfl)
  have r := r.snoc (.step true (.consume 12) (Writing.writing [2] 0) (Writing.writing [2] 1) _ rfl
    (.inr ⟨[2], 0, 1, rfl, rfl, rfl⟩))
  obtain ⟨part, h1, h2⟩ := shared_relative_encoder_bytes_always difference_encodes (difference_suspension_implements trickle)
    difference_suspension_writes trickle_collects r (by simp [Shared.init])
  exact ⟨_, r, rfl, rfl, part, h1.1, h2⟩

theorem shared_relative_encoder_first_error (he : ∀ r, EncodesLaw (t.relativeEncode r) (enc r))
    (hI : m.Implements (sharedRelativeEncoder t borrow C)) (hC : BulkCollects C D q s₀ l)
    (h : Shared.Reachable (sharedRelativeEncoder t borrow C) m (Shared.init s₀ b) st)
    {done : List (ι × SharedRelativeEncoderOp T F B × Except E Unit)} {i : ι} {op : SharedRelativeEncoderOp T F B} {e : E}
    (hfin : st.finished = done ++ [(i, op, .error e)]) (hok : ∀ e ∈ done, e.2.2 = .ok ()) (ho : st.owner = none) :
    (∃ x k, op = .consume x ∧
      q.FailsAt (l ++ consumedBytes enc borrow b done) (enc (borrow (relativeTos b done i)) x) k e ∧
      D st.shared (l ++ consumedBytes enc borrow b done ++ (enc (borrow (relativeTos b done i)) x).take k) none) ∨
    (op = .flush ∧ q.refuseFlush (l ++ consumedBytes enc borrow b done) = some e ∧
      D st.shared (l ++ consumedBytes enc borrow b done) none) := by
  obtain ⟨s, h⟩ := h.inv hI
  rw [h.free ho]
  have hs := h.serial
  rw [hfin] at hs
  obtain ⟨b₁, s₁, h1, ⟨run, h2, h3, _⟩ | ⟨x, h2, _⟩⟩ := hs.snoc_inv
  · obtain ⟨hf, h4⟩ := sharedRelativeEncoder_serial he hC h1
    have h4 := h4 hok
    subst hf
    cases op with
    | consume x =>
      cases h2
      obtain ⟨k, h5, h6⟩ := encodes_err (he _) h4 h3
      exact .inl ⟨x, k, rfl, h5, h6⟩
    | close f => cases h2
    | setRelativeTo r => cases h2
    | flush =>
      cases h2
      change C.flush s₁ = _ at h3
      obtain ⟨s3, ⟨h5, h6⟩ | ⟨e', h5, h6, h7⟩⟩ := h4.flush_spec
      · rw [h3] at h5; cases h5
      · rw [h3] at h6; cases h6
        exact .inr ⟨rfl, h5, h7⟩
  · cases op <;> cases h2

example : ∃ m, ∃ st : Shared Bool _ UInt8 _ _ m.κ,
    Shared.Reachable (sharedRelativeEncoder differenceEncodable id Case.sink) m (Shared.init (Case.upTo 2) fun _ => 1) st ∧
    ∃ k, (Policy.failAfter (I := UInt8) (F := Unit) 2 "full").FailsAt [11, 2] [3] k "full" ∧ TestConsumer.Seen st.shared ([11, 2] ++ [3].take k) none := by
  obtain ⟨s, h⟩ := Case.relative_encoders_fail
  obtain ⟨st, h1, h2, _, h3, _⟩ := h.reachable
  refine ⟨_, st, h1, ?_⟩
  rcases shared_relative_encoder_first_error difference_encodes (Suspension.chaotic_implements _) (Case.upTo_collects 2) h1
    (done := [(true, .setRelativeTo 10, .ok ()), (false, .consume 12, .ok ()), (true, .consume 12, .ok ())]) h3 (by simp) h2
    with ⟨x, k, h4, h5, h6⟩ | ⟨h4, _⟩
  · cases h4
    exact ⟨k, h5, h6⟩
  · cases h4

end RelativeEncoder

/-! ## C44 -/

section Decoder

variable {d : Decodable T R} {g : Grammar T R} {P : BulkProducer σ UInt8 F E} {c : Script UInt8 F E}
  {c' : Script T F (DecodeError F E R)} {used : Nat → Nat}
  {m : Suspension σ Unit SharedDecoderOp (SharedDecoderAnswer T F (DecodeError F E R))} {b : ι → Unit} {s₀ : σ}
  {st : Shared ι σ Unit SharedDecoderOp (SharedDecoderAnswer T F (DecodeError F E R)) m.κ}

/-- **C44.** If `c'` is the sequence that one decoder would emit: in the order of completion, and over all tasks, the `n`-th
`produce` call is answered with the `n`-th value of it. So each value goes to exactly one task. Whenever nobody has the lock,
the producer goes on directly after these values. -/
theorem shared_decoder_partition (hd : DecodesLaw d.decode g) (hg : g [] = .more) (hI : m.Implements (sharedDecoder d P))
    (hP : BulkPlays P s₀ c) (hc : Decodes g c c' used) (h : Shared.Reachable (sharedDecoder d P) m (Shared.init s₀ b) st)
    (hslurp : NoSlurpError st.finished) (hval : ∀ r ∈ producedAnswers st.finished, ∃ x, r.2 = .ok (.inl x)) :
    (∀ n r, (producedAnswers st.finished)[n]? = some r → r.2 = c' n) ∧
    (st.owner = none → BulkPlays P st.shared (c.drop (used (producedAnswers st.finished).length))) ∧
    ∀ i, st.called i = callsOf i st.finished ++ (st.phase i).current := by
  obtain ⟨s, h⟩ := h.inv hI
  obtain ⟨h1, h2⟩ := sharedDecoder_serial hd hg hP hc h.serial hslurp hval
  exact ⟨h1, fun ho => h.free ho ▸ h2, h.order⟩

/-- Two tasks have got a truth value each. -/
example : ∃ m, ∃ st : Shared Bool _ Unit _ _ m.κ,
    Shared.Reachable (sharedDecoder Case.flagDecodable.toDecodable Case.bytes) m
      (Shared.init (Case.from_ [1, 0] (.ok 5)) fun _ => ()) st ∧
    producedAnswers st.finished = [(true, .ok (.inl true)), (false, .ok (.inl false))] ∧
    BulkPlays Case.bytes st.shared ((Script.ofList [1, 0] (.ok 5)).drop 2) := by
  obtain ⟨s, h, _⟩ := Case.decoders Case.flag_decodes rfl (Case.from_plays [1, 0] (.ok 5)) (Case.flag_decodes_both 5)
    (fun n => n == 0) 2 (fun i hi => match i, hi with | 0, _ => ⟨_, rfl⟩ | 1, _ => ⟨_, rfl⟩)
  obtain ⟨st, h1, h2, _, h3, _⟩ := h.reachable
  have e : producedAnswers st.finished = [(true, .ok (.inl true)), (false, .ok (.inl false))] := by rw [h3]; rfl
  have h4 := (shared_decoder_partition Case.flag_decodes rfl (Suspension.chaotic_implements _) (Case.from_plays [1, 0] (.ok 5))
    (Case.flag_decodes_both 5) h1 (by rw [h3]; simp [NoSlurpError]) (by rw [e]; simp)).2.1 h2
  rw [e] at h4
  exact ⟨_, st, h1, e, h4⟩

/-- **C44, the end.** The first answer that is not a value is the one that a single decoder would have given. -/
theorem shared_decoder_end (hd : DecodesLaw d.decode g) (hg : g [] = .more) (hI : m.Implements (sharedDecoder d P))
    (hP : BulkPlays P s₀ c) (hc : Decodes g c c' used) (h : Shared.Reachable (sharedDecoder d P) m (Shared.init s₀ b) st)
    {done rest : List (ι × SharedDecoderOp × SharedDecoderAnswer T F (DecodeError F E R))} {i : ι}
    {r : Except (DecodeError F E R) (T ⊕ F)} (hfin : st.finished = done ++ (i, .produce, .produced r) :: rest)
    (hslurp : NoSlurpError done) (hval : ∀ r ∈ producedAnswers done, ∃ x, r.2 = .ok (.inl x)) :
    r = c' (producedAnswers done).length := by
  obtain ⟨s, h⟩ := h.inv hI
  have hs := h.serial
  rw [hfin, List.append_cons] at hs
  obtain ⟨b₂, s₂, hs⟩ := hs.left
  obtain ⟨b₁, s₁, h1, ⟨run, h2, h3, _⟩ | ⟨x, h2, _⟩⟩ := hs.snoc_inv
  · obtain ⟨h4, h5⟩ := sharedDecoder_serial hd hg hP hc h1 hslurp hval
    have hitems : ∀ n, n < (producedAnswers done).length → ∃ x, c' n = .ok (.inl x) := by
      intro n hn
      obtain ⟨x, hx⟩ := hval (producedAnswers done)[n] (List.getElem_mem hn)
      exact ⟨x, by rw [← h4 n _ (List.getElem?_eq_getElem hn), hx]⟩
    obtain ⟨k, hk1, hk2⟩ := hc.2 _ hitems
    cases h2
    obtain ⟨r', hr', h6⟩ := withAnswer_eq_ok h3
    cases h6
    obtain ⟨s3, h7, _⟩ := decoderProduce_spec hd hg h5 hk1
    rw [hr'] at h7; cases h7; rfl
  · cases h2

/-- A third task gets the final value. -/
example : ∃ m, ∃ st : Shared (Fin 3) _ Unit _ _ m.κ, ∃ r,
    Shared.Reachable (sharedDecoder Case.flagDecodable.toDecodable Case.bytes) m
      (Shared.init (Case.from_ [1, 0] (.ok 5)) fun _ => ()) st ∧
    st.finished = [(0, .produce, .produced (.ok (.inl true))), (1, .produce, .produced (.ok (.inl false))),
      (2, .produce, .produced r)] ∧ r = .ok (.inr 5) := by
  obtain ⟨s, h⟩ := Case.decoders_end Case.flag_decodes rfl (Case.from_plays [1, 0] (.ok 5)) (Case.flag_decodes_both 5)
    (Fin.ofNat 3) 2 (fun i hi => match i, hi with | 0, _ => ⟨_, rfl⟩ | 1, _ => ⟨_, rfl⟩)
  obtain ⟨st, h1, h2, _, h3, _⟩ := h.reachable
  exact ⟨_, st, _, h1, h3, shared_decoder_end Case.flag_decodes rfl (Suspension.chaotic_implements _)
    (Case.from_plays [1, 0] (.ok 5)) (Case.flag_decodes_both 5) h1 (rest := []) h3
    (by simp [NoSlurpError, List.range, List.range.loop]) (by simp [producedAnswers, List.range, List.range.loop, Script.ofList])⟩

/-- **C44**, for the encodings of a list of values: what has been handed out is a beginning of the list, in the order of
completion, and the producer is at exactly the end of the encodings of these values. -/
theorem shared_decoder_partition_list (hd : DecodesLaw d.decode g) (hg : g [] = .more) {enc : T → List UInt8}
    (hinv : ∀ x, g.Encoding (enc x) x) (hI : m.Implements (sharedDecoder d P)) {xs : List T} {last : Except E F}
    (hP : BulkPlays P s₀ (Script.ofList (encodeAll enc xs) last))
    (h : Shared.Reachable (sharedDecoder d P) m (Shared.init s₀ b) st)
    (hslurp : NoSlurpError st.finished) (hval : ∀ r ∈ producedAnswers st.finished, ∃ x, r.2 = .ok (.inl x)) :
    ∃ n, n ≤ xs.length ∧ (producedAnswers st.finished).map (·.2) = (xs.take n).map (fun x => .ok (.inl x)) ∧
      (st.owner = none → BulkPlays P st.shared (Script.ofList (encodeAll enc (xs.drop n)) last)) := by
  have hc := decodes_ended (R := R) hinv xs (part := []) ⟨fun k hk => absurd hk (Nat.not_lt_zero _), hg⟩ last
  rw [List.append_nil] at hc
  obtain ⟨h1, h2, _⟩ := shared_decoder_partition hd hg hI hP hc h hslurp hval
  have hitems : ∀ n (hn : n < (producedAnswers st.finished).length),
      ∃ x, (producedAnswers st.finished)[n].2 = .ok (.inl x) ∧ xs[n]? = some x := by
    intro n hn
    obtain ⟨x, hx⟩ := hval _ (List.getElem_mem hn)
    refine ⟨x, hx, ?_⟩
    have h3 := h1 n _ (List.getElem?_eq_getElem hn)
    rw [hx] at h3
    unfold Script.ofList at h3
    cases h4 : xs[n]? with
    | some y => rw [h4] at h3; cases h3; rfl
    | none =>
      rw [h4] at h3
      exfalso
      revert h3
      cases last <;> simp [endInside, Except.map]
  have hlen : (producedAnswers st.finished).length ≤ xs.length := by
    rcases Nat.lt_or_ge xs.length (producedAnswers st.finished).length with hlt | hge
    · obtain ⟨x, _, hx⟩ := hitems _ hlt
      simp at hx
    · exact hge
  refine ⟨(producedAnswers st.finished).length, hlen, ?_, fun ho => ?_⟩
  · apply List.ext_getElem
    · simp [hlen]
    · intro n h3 h4
      simp only [List.getElem_map, List.getElem_take]
      obtain ⟨x, hx, hx'⟩ := hitems n (by simpa using h3)
      rw [hx]
      obtain ⟨_, rfl⟩ := List.getElem?_eq_some_iff.mp hx'
      rfl
  · have h3 := h2 ho
    have hsplit : encodeAll enc xs = encodeAll enc (xs.take (producedAnswers st.finished).length) ++
        encodeAll enc (xs.drop (producedAnswers st.finished).length) := by
      rw [← encodeAll_append, List.take_append_drop]
    rw [Script.ofList_drop _ _ _ (by rw [hsplit]; simp)] at h3
    rw [hsplit, List.drop_left] at h3
    exact h3

/-- Two decoders for `u16` of the bytes of three numbers. -/
example {m : Suspension (FromSlice UInt8) Unit SharedDecoderOp (SharedDecoderAnswer UInt16 Unit (DecodeError Unit Empty Empty))}
    (hI : m.Implements (sharedDecoder U16BE.decodable.toDecodable publicFromSlice))
    {st : Shared Bool (FromSlice UInt8) Unit SharedDecoderOp (SharedDecoderAnswer UInt16 Unit (DecodeError Unit Empty Empty)) m.κ}
    (h : Shared.Reachable (sharedDecoder U16BE.decodable.toDecodable publicFromSlice) m
      (Shared.init (FromSlice.new [0, 1, 0, 2, 0, 3]) fun _ => ()) st)
    {x y : UInt16} (hfin : st.finished = [(true, .produce, .produced (.ok (.inl x))), (false, .produce, .produced (.ok (.inl y)))])
    (ho : st.owner = none) : x = 1 ∧ y = 2 ∧ BulkPlays publicFromSlice st.shared (Script.ofList [0, 3] (.ok ())) := by
  obtain ⟨n, h1, h2, h3⟩ := shared_decoder_partition_list (u16.decodesLaw .big) (by simp [FixedInt.grammar])
    (enc := u16.toBytes .big) (fun x => (FixedInt.encoding_iff u16 .big _ x).mpr ⟨by simp, FixedInt.fromBytes_toBytes u16_faithful .big x⟩)
    hI (xs := [1, 2, 3]) (last := .ok ()) (from_slice_noop_plays [0, 1, 0, 2, 0, 3]) h
    (by intro i op e; simp [hfin]) (by simp [hfin, producedAnswers])
  rw [hfin] at h2
  match n, h2, h3 with
  | 0, h2, _ => simp [producedAnswers] at h2
  | 1, h2, _ => simp [producedAnswers] at h2
  | 2, h2, h3 =>
    simp [producedAnswers] at h2
    exact ⟨h2.1, h2.2, h3 ho⟩
  | n + 3, h2, _ => simp [producedAnswers] at h2

/-- Such a schedule. -/
example : ∃ m, ∃ st : Shared Bool _ Unit _ _ m.κ, Shared.Reachable (sharedDecoder U16BE.decodable.toDecodable publicFromSlice)
    m (Shared.init (FromSlice.new [0, 1, 0, 2, 0, 3]) fun _ => ()) st ∧ st.owner = none ∧
    st.finished = [(true, .produce, .produced (.ok (.inl 1))), (false, .produce, .produced (.ok (.inl 2)))] := by
  have hc := decodes_ended (R := Empty) (E := Empty) Case.u16_encoding [1, 2, 3] (part := [])
    ⟨fun k hk => absurd hk (Nat.not_lt_zero _), rfl⟩ (.ok ())
  obtain ⟨s, h, _⟩ := Case.decoders (d := U16BE.decodable.toDecodable) (u16.decodesLaw .big) rfl (from_slice_noop_plays [0, 1, 0, 2, 0, 3]) hc
    (fun n => n == 0) 2 (fun i hi => match i, hi with | 0, _ => ⟨_, rfl⟩ | 1, _ => ⟨_, rfl⟩)
  obtain ⟨st, h1, h2, _, h3, _⟩ := h.reachable
  exact ⟨_, st, h1, h2, h3⟩

end Decoder

/-- **C44** for `SharedCanonicDecoder`. -/
theorem shared_canonic_decoder_partition {d : DecodableCanonic T R RC} {g : Grammar T RC} {P : BulkProducer σ UInt8 F E}
    {c : Script UInt8 F E} {c' : Script T F (DecodeError F E RC)} {used : Nat → Nat}
    {m : Suspension σ Unit SharedDecoderOp (SharedDecoderAnswer T F (DecodeError F E RC))} {b : ι → Unit} {s₀ : σ}
    {st : Shared ι σ Unit SharedDecoderOp (SharedDecoderAnswer T F (DecodeError F E RC)) m.κ}
    (hd : DecodesLaw d.decodeCanonic g) (hg : g [] = .more) (hI : m.Implements (sharedCanonicDecoder d P))
    (hP : BulkPlays P s₀ c) (hc : Decodes g c c' used)
    (h : Shared.Reachable (sharedCanonicDecoder d P) m (Shared.init s₀ b) st)
    (hslurp : NoSlurpError st.finished) (hval : ∀ r ∈ producedAnswers st.finished, ∃ x, r.2 = .ok (.inl x)) :
    (∀ n r, (producedAnswers st.finished)[n]? = some r → r.2 = c' n) ∧
    (st.owner = none → BulkPlays P st.shared (c.drop (used (producedAnswers st.finished).length))) ∧
    ∀ i, st.called i = callsOf i st.finished ++ (st.phase i).current := by
  have e : sharedCanonicDecoder d P = sharedDecoder ⟨d.decodeCanonic⟩ P := by
    funext u op; cases op <;> rfl
  rw [e] at hI h
  exact shared_decoder_partition (d := ⟨d.decodeCanonic⟩) hd hg hI hP hc h hslurp hval

example : ∃ m, ∃ st : Shared Bool _ Unit _ _ m.κ,
    Shared.Reachable (sharedCanonicDecoder Case.flagDecodable Case.bytes) m
      (Shared.init (Case.from_ [1, 7] (.ok 5)) fun _ => ()) st ∧
    producedAnswers st.finished = [(true, .ok (.inl true))] ∧
    BulkPlays Case.bytes st.shared ((Script.ofList [1, 7] (.ok 5)).drop 1) := by
  obtain ⟨s, h, _⟩ := Case.decoders (d := ⟨Case.flagDecodable.decodeCanonic⟩) Case.flag_decodes_canonic rfl
    (Case.from_plays [1, 7] (.ok 5)) (Case.flag_decodes_all (.ok 5)) (fun _ => true) 1
    (fun i hi => match i, hi with | 0, _ => ⟨_, rfl⟩)
  have e : sharedDecoder ⟨Case.flagDecodable.decodeCanonic⟩ Case.bytes = sharedCanonicDecoder Case.flagDecodable Case.bytes := by
    funext u op; cases op <;> rfl
  rw [e] at h
  obtain ⟨st, h1, h2, _, h3, _⟩ := h.reachable
  have e : producedAnswers st.finished = [(true, .ok (.inl true))] := by rw [h3]; rfl
  have h4 := (shared_canonic_decoder_partition Case.flag_decodes_canonic rfl (Suspension.chaotic_implements _)
    (Case.from_plays [1, 7] (.ok 5)) (Case.flag_decodes_all (.ok 5)) h1 (by rw [h3]; simp [NoSlurpError]) (by rw [e]; simp)).2.1 h2
  rw [e] at h4
  exact ⟨_, st, h1, e, h4⟩

/-- **C44** for relative decoders: each task decodes relative to the value it has set last. All completed calls together decode
a beginning of the bytes, one value after the other, and the producer is directly after that. (`hdec`: it must be possible to
tell what the bytes mean by looking at finitely many of them; see `shared_relative_decoder_partition_ends`.) -/
theorem shared_relative_decoder_partition {d : RelativeDecodable T Rel R} {borrow : B → Rel} {g : Rel → Grammar T R}
    (hd : ∀ r, DecodesLaw (d.relativeDecode r) (g r)) (hg : ∀ r, g r [] = .more)
    {P : BulkProducer σ UInt8 F E} {c : Script UInt8 F E}
    (hdec : ∀ r n, (∀ i, i < n → ∃ x, c i = .ok (.inl x)) → ∃ a k, DecodesNext (g r) (c.drop n) a k)
    {m : Suspension σ B (SharedRelativeDecoderOp B) (SharedDecoderAnswer T F (DecodeError F E R))} {b : ι → B} {s₀ : σ}
    {st : Shared ι σ B (SharedRelativeDecoderOp B) (SharedDecoderAnswer T F (DecodeError F E R)) m.κ}
    (hI : m.Implements (sharedRelativeDecoder d borrow P)) (hP : BulkPlays P s₀ c)
    (h : Shared.Reachable (sharedRelativeDecoder d borrow P) m (Shared.init s₀ b) st)
    (hslurp : NoSlurpError st.finished) (hval : ∀ i op r, (i, op, .produced r) ∈ st.finished → ∃ x, r = .ok (.inl x)) :
    (∃ n, DecodedRelative g borrow b c st.finished st.fields (c.drop n) ∧ (st.owner = none → BulkPlays P st.shared (c.drop n))) ∧
    ∀ i, st.called i = callsOf i st.finished ++ (st.phase i).current := by
  obtain ⟨s, h⟩ := h.inv hI
  obtain ⟨n, _, h1, h2⟩ := sharedRelativeDecoder_serial hd hg hP hdec h.serial hslurp hval
  exact ⟨⟨n, h1, fun ho => h.free ho ▸ h2⟩, h.order⟩

/-- Bytes that never end; each of them is a difference. -/
example (r : UInt8) : ∃ a k, DecodesNext (E := Empty) (F := Unit) (differenceGrammar r) (fun _ => .ok (.inl 1)) a k :=
  ⟨_, _, .value (bs := [1 + r - r]) (x := 1 + r) (fun i x h => by
    obtain ⟨hi, rfl⟩ := List.getElem?_eq_some_iff.mp h
    obtain rfl : i = 0 := by simpa using hi
    simp) (difference_encoding r _)⟩

example : ∃ m, ∃ st : Shared Bool _ UInt8 _ _ m.κ,
    Shared.Reachable (sharedRelativeDecoder differenceDecodable id Case.bytes) m
      (Shared.init (Case.from_ [1, 249] (.ok 5)) fun _ => 1) st ∧
    st.finished = [(true, .setRelativeTo 10, .unit), (false, .produce, .produced (.ok (.inl 2))),
      (true, .produce, .produced (.ok (.inl 3)))] ∧
    ∃ n, DecodedRelative differenceGrammar id (fun _ => 1) (Script.ofList [1, 249] (.ok 5)) st.finished st.fields
      ((Script.ofList [1, 249] (.ok 5)).drop n) ∧ BulkPlays Case.bytes st.shared ((Script.ofList [1, 249] (.ok 5)).drop n) := by
  obtain ⟨s, h⟩ := Case.relative_decoders (.ok 5)
  obtain ⟨st, h1, h2, _, h3, _⟩ := h.reachable
  obtain ⟨⟨n, h4, h5⟩, _⟩ := shared_relative_decoder_partition difference_decodes (fun _ => rfl)
    Case.difference_decodes_next (Suspension.chaotic_implements _) (Case.from_plays [1, 249] (.ok 5)) h1
    (by rw [h3]; simp [NoSlurpError]) (by rw [h3]; simp)
  exact ⟨_, st, h1, h3, n, h4, h5 h2⟩

/-- In particular if the bytes end somewhere. -/
theorem shared_relative_decoder_partition_ends {d : RelativeDecodable T Rel R} {borrow : B → Rel} {g : Rel → Grammar T R}
    (hd : ∀ r, DecodesLaw (d.relativeDecode r) (g r)) (hg : ∀ r, g r [] = .more)
    {P : BulkProducer σ UInt8 F E} {bytes : List UInt8} {last : Except E F}
    {m : Suspension σ B (SharedRelativeDecoderOp B) (SharedDecoderAnswer T F (DecodeError F E R))} {b : ι → B} {s₀ : σ}
    {st : Shared ι σ B (SharedRelativeDecoderOp B) (SharedDecoderAnswer T F (DecodeError F E R)) m.κ}
    (hI : m.Implements (sharedRelativeDecoder d borrow P)) (hP : BulkPlays P s₀ (Script.ofList bytes last))
    (h : Shared.Reachable (sharedRelativeDecoder d borrow P) m (Shared.init s₀ b) st)
    (hslurp : NoSlurpError st.finished) (hval : ∀ i op r, (i, op, .produced r) ∈ st.finished → ∃ x, r = .ok (.inl x)) :
    ∃ n, n ≤ bytes.length ∧ DecodedRelative g borrow b (Script.ofList bytes last) st.finished st.fields
        (Script.ofList (bytes.drop n) last) ∧
      (st.owner = none → BulkPlays P st.shared (Script.ofList (bytes.drop n) last)) := by
  have hend : ∀ x, Script.ofList bytes last bytes.length ≠ .ok (.inl x) := by
    intro x
    rw [Script.ofList_end]
    cases last <;> simp [Except.map]
  have hle : ∀ n, (∀ i, i < n → ∃ x, Script.ofList bytes last i = .ok (.inl x)) → n ≤ bytes.length := by
    intro n hn
    rcases Nat.lt_or_ge bytes.length n with hlt | hge
    · obtain ⟨x, hx⟩ := hn _ hlt
      exact absurd hx (hend x)
    · exact hge
  obtain ⟨s, h⟩ := h.inv hI
  obtain ⟨n, h0, h1, h2⟩ := sharedRelativeDecoder_serial hd hg hP (fun r n hn => by
    rw [Script.ofList_drop _ _ _ (hle n hn)]
    refine decodesNext_of_ends (g r) (m := (bytes.drop n).length) fun x => ?_
    rw [Script.ofList_end]
    cases last <;> simp [Except.map]) h.serial hslurp hval
  rw [Script.ofList_drop _ _ _ (hle n h0)] at h1 h2
  exact ⟨n, hle n h0, h1, fun ho => h.free ho ▸ h2⟩

/-- Two relative decoders. -/
example {m : Suspension (FromSlice UInt8) UInt8 (SharedRelativeDecoderOp UInt8)
      (SharedDecoderAnswer UInt8 Unit (DecodeError Unit Empty Empty))}
    (hI : m.Implements (sharedRelativeDecoder differenceDecodable id publicFromSlice)) {b : Bool → UInt8}
    {st : Shared Bool (FromSlice UInt8) UInt8 (SharedRelativeDecoderOp UInt8)
      (SharedDecoderAnswer UInt8 Unit (DecodeError Unit Empty Empty)) m.κ}
    (h : Shared.Reachable (sharedRelativeDecoder differenceDecodable id publicFromSlice) m
      (Shared.init (FromSlice.new [1, 1, 1]) b) st)
    (hslurp : NoSlurpError st.finished) (hval : ∀ i op r, (i, op, .produced r) ∈ st.finished → ∃ x, r = .ok (.inl x)) :
    ∃ n, n ≤ 3 ∧ DecodedRelative differenceGrammar id b (Script.ofList [1, 1, 1] (.ok ())) st.finished st.fields
      (Script.ofList ([1, 1, 1].drop n) (.ok ())) := by
  obtain ⟨n, h1, h2, _⟩ := shared_relative_decoder_partition_ends difference_decodes (fun _ => rfl) hI
    (from_slice_noop_plays [1, 1, 1]) h hslurp hval
  exact ⟨n, h1, h2⟩

/-- **C44** for `SharedRelativeCanonicDecoder`. -/
theorem shared_relative_canonic_decoder_partition {d : RelativeDecodableCanonic T Rel R RC} {borrow : B → Rel}
    {g : Rel → Grammar T RC} (hd : ∀ r, DecodesLaw (d.relativeDecodeCanonic r) (g r)) (hg : ∀ r, g r [] = .more)
    {P : BulkProducer σ UInt8 F E} {c : Script UInt8 F E}
    (hdec : ∀ r n, (∀ i, i < n → ∃ x, c i = .ok (.inl x)) → ∃ a k, DecodesNext (g r) (c.drop n) a k)
    {m : Suspension σ B (SharedRelativeDecoderOp B) (SharedDecoderAnswer T F (DecodeError F E RC))} {b : ι → B} {s₀ : σ}
    {st : Shared ι σ B (SharedRelativeDecoderOp B) (SharedDecoderAnswer T F (DecodeError F E RC)) m.κ}
    (hI : m.Implements (sharedRelativeCanonicDecoder d borrow P)) (hP : BulkPlays P s₀ c)
    (h : Shared.Reachable (sharedRelativeCanonicDecoder d borrow P) m (Shared.init s₀ b) st)
    (hslurp : NoSlurpError st.finished) (hval : ∀ i op r, (i, op, .produced r) ∈ st.finished → ∃ x, r = .ok (.inl x)) :
    (∃ n, DecodedRelative g borrow b c st.finished st.fields (c.drop n) ∧ (st.owner = none → BulkPlays P st.shared (c.drop n))) ∧
    ∀ i, st.called i = callsOf i st.finished ++ (st.phase i).current := by
  have e : sharedRelativeCanonicDecoder d borrow P = sharedRelativeDecoder ⟨d.relativeDecodeCanonic⟩ borrow P := by
    funext u op; cases op <;> rfl
  rw [e] at hI h
  exact shared_relative_decoder_partition (d := ⟨d.relativeDecodeCanonic⟩) hd hg hdec hI hP h hslurp hval

example : ∃ m, ∃ st : Shared Bool _ UInt8 _ _ m.κ,
    Shared.Reachable (sharedRelativeCanonicDecoder ⟨differenceDecodable, id, differenceDecodable.relativeDecode⟩ id Case.bytes) m
      (Shared.init (Case.from_ [1, 249] (.ok 5)) fun _ => 1) st ∧
    st.finished = [(true, .setRelativeTo 10, .unit), (false, .produce, .produced (.ok (.inl 2))),
      (true, .produce, .produced (.ok (.inl 3)))] ∧
    ∃ n, DecodedRelative differenceGrammar id (fun _ => 1) (Script.ofList [1, 249] (.ok 5)) st.finished st.fields
      ((Script.ofList [1, 249] (.ok 5)).drop n) ∧ BulkPlays Case.bytes st.shared ((Script.ofList [1, 249] (.ok 5)).drop n) := by
  obtain ⟨s, h⟩ := Case.relative_decoders (.ok 5)
  have e : sharedRelativeDecoder differenceDecodable id Case.bytes =
      sharedRelativeCanonicDecoder ⟨differenceDecodable, id, differenceDecodable.relativeDecode⟩ id Case.bytes := by
    funext u op; cases op <;> rfl
  rw [e] at h
  obtain ⟨st, h1, h2, _, h3, _⟩ := h.reachable
  obtain ⟨⟨n, h4, h5⟩, _⟩ := shared_relative_canonic_decoder_partition (g := differenceGrammar) difference_decodes (fun _ => rfl)
    Case.difference_decodes_next (Suspension.chaotic_implements _) (Case.from_plays [1, 249] (.ok 5)) h1
    (by rw [h3]; simp [NoSlurpError]) (by rw [h3]; simp)
  exact ⟨_, st, h1, h3, n, h4, h5 h2⟩

end

/-! ## C49: the contract of the shared consumer and producer -/

section

variable {ι σ T R F E : Type} [DecidableEq ι]

/-- **C49**, partial: as long as no call has failed, every call starts with the consumer being usable: it has been neither closed
nor has it failed. What is missing: calls of other tasks after a failed call, see `shared_encoder_misuse`. -/
theorem shared_encoder_contract_partial {t : Encodable T} {enc : T → List UInt8} {C : BulkConsumer σ UInt8 F E}
    {D : σ → List UInt8 → Option F → Prop} {q : Policy UInt8 F E}
    {m : Suspension σ Unit (SharedEncoderOp T F) (Except E Unit)} {b : ι → Unit} {s₀ : σ} {l : List UInt8}
    {st : Shared ι σ Unit (SharedEncoderOp T F) (Except E Unit) m.κ} (he : EncodesLaw t.encode enc)
    (hI : m.Implements (sharedEncoder t C)) (hC : BulkCollects C D q s₀ l)
    (h : Shared.Reachable (sharedEncoder t C) m (Shared.init s₀ b) st) (hok : ∀ e ∈ st.finished, e.2.2 = .ok ())
    (ho : st.owner = none) : ∃ l', BulkCollects C D q st.shared l' :=
  ⟨_, ((shared_encoder_bytes he hI hC h hok).1 ho).2⟩

example : ∃ st : TwoEncoders, st.Reachable ∧ st.shared.received = [1, 2, 3, 4] ∧
    ∃ l, BulkCollects trickle (fun s l f => s.received = l ∧ s.closed = f) Policy.acceptAll st.shared l := by
  obtain ⟨st, h1, h2, h3, h4⟩ := Case.encoders_done
  exact ⟨st, h1, h3, shared_encoder_contract_partial (u16.encodesLaw .big) (u16.suspension_implements .big trickle)
    trickle_collects h1 (by simp [h4]) h2⟩

/-- **C49**, partial: as long as nothing but values has been returned, every call starts with the producer being usable. What is
missing: calls of other tasks after the final value or an error, see `shared_decoder_misuse`. -/
theorem shared_decoder_contract_partial {d : Decodable T R} {g : Grammar T R} {P : BulkProducer σ UInt8 F E}
    {c : Script UInt8 F E} {c' : Script T F (DecodeError F E R)} {used : Nat → Nat}
    {m : Suspension σ Unit SharedDecoderOp (SharedDecoderAnswer T F (DecodeError F E R))} {b : ι → Unit} {s₀ : σ}
    {st : Shared ι σ Unit SharedDecoderOp (SharedDecoderAnswer T F (DecodeError F E R)) m.κ}
    (hd : DecodesLaw d.decode g) (hg : g [] = .more) (hI : m.Implements (sharedDecoder d P))
    (hP : BulkPlays P s₀ c) (hc : Decodes g c c' used) (h : Shared.Reachable (sharedDecoder d P) m (Shared.init s₀ b) st)
    (hslurp : NoSlurpError st.finished) (hval : ∀ r ∈ producedAnswers st.finished, ∃ x, r.2 = .ok (.inl x))
    (ho : st.owner = none) : ∃ c', BulkPlays P st.shared c' :=
  ⟨_, (shared_decoder_partition hd hg hI hP hc h hslurp hval).2.1 ho⟩

example : ∃ m, ∃ st : Shared Bool _ Unit _ _ m.κ,
    Shared.Reachable (sharedDecoder Case.flagDecodable.toDecodable Case.bytes) m
      (Shared.init (Case.from_ [1, 0] (.ok 5)) fun _ => ()) st ∧
    st.finished.length = 2 ∧ ∃ c, BulkPlays Case.bytes st.shared c := by
  obtain ⟨s, h, _⟩ := Case.decoders Case.flag_decodes rfl (Case.from_plays [1, 0] (.ok 5)) (Case.flag_decodes_both 5)
    (fun n => n == 0) 2 (fun i hi => match i, hi with | 0, _ => ⟨_, rfl⟩ | 1, _ => ⟨_, rfl⟩)
  obtain ⟨st, h1, h2, _, h3, _⟩ := h.reachable
  exact ⟨_, st, h1, by rw [h3]; rfl, shared_decoder_contract_partial Case.flag_decodes rfl (Suspension.chaotic_implements _)
    (Case.from_plays [1, 0] (.ok 5)) (Case.flag_decodes_both 5) h1 (by rw [h3]; simp [NoSlurpError])
    (by rw [h3]; simp [producedAnswers, List.range, List.range.loop, Script.ofList]) h2⟩

/-- The full claim is false. Two tasks with one decoder each, around a lawful producer without any bytes (a slice, with the
`Invariant` wrapper that it has in test builds). Each task calls `produce` once, so both adaptors are used according to the
contract. But the second call uses the producer after its final value, and panics. -/
theorem shared_decoder_misuse (d : Decodable T R) :
    let P := invariantBulkProducer (FromSlice.producer UInt8)
    let method := sharedDecoder d P
    BulkPlays P (.new (FromSlice.new [])) (Script.ofList [] (.ok ())) ∧
    ∃ (st : Shared Bool _ _ _ _ (Suspension.chaotic method).κ) (run : _),
      Shared.Reachable method (Suspension.chaotic method) (Shared.init (.new (FromSlice.new [])) fun _ => ()) st ∧
      st.called false = [.produce] ∧ st.called true = [.produce] ∧ st.owner = none ∧
      st.finished = [(false, .produce, .produced (.ok (.inr ())))] ∧ st.phase true = .waiting .produce ∧
      method (st.fields true) .produce = .locked run ∧ run st.shared = .panic := by
  intro P method
  have r : Shared.Reachable method (Suspension.chaotic method) (Shared.init (.new (FromSlice.new [])) fun _ : Bool => ())
    (Shared.init (.new (FromSlice.new [])) fun _ : Bool => ()) := .refl
  have r := r.snoc (.call false .produce _ rfl rfl)
  have r := r.snoc (.call true .produce _ rfl rfl)
  have r := r.snoc (.acquire false .produce rfl rfl)
  have hret : withAnswer SharedDecoderAnswer.produced (decoderProduce d.decode P) (.new (FromSlice.new [])) =
    ok (⟨FromSlice.new [], false, 0⟩, SharedDecoderAnswer.produced (.ok (.inr ()))) := rfl
  have r := r.snoc (.ret (m := Suspension.chaotic method) false .produce
    (withAnswer SharedDecoderAnswer.produced (decoderProduce d.decode P), none) _ _ rfl hret)
  exact ⟨from_slice_invariant_plays [], _, _, r, rfl, rfl, rfl, rfl, rfl, rfl, rfl⟩

/-- A consumer that is full. -/
def full : BulkConsumer Unit UInt8 Unit String where
  consume s _ := ok (s, .error "full")
  close s _ := ok (s, .error "full")
  flush s := ok (s, .error "full")
  exposeSlots s := ok (s, .error "full")
  writeSlots s _ := s
  consumeSlots s _ := ok (s, .error "full")
  bulkConsume s _ := ok (s, .error "full")

theorem full_collects : BulkCollects full (fun _ l _ => l = []) ⟨fun _ => some "full", fun _ _ => none, fun _ => some "full",
    fun _ _ => some "full"⟩ () [] := by
  refine ⟨fun s l slots => l = [] ∧ slots = [], ⟨⟨⟨?_, ?_, ?_, ?_, ?_⟩, ?_⟩, ?_, ?_, ?_, ?_, ?_, ?_⟩, [], rfl, rfl⟩
  · rintro s l ⟨_, h1, _⟩; exact h1
  · rintro s l x ⟨_, h1, _⟩ h; cases h
  · rintro s l x e ⟨_, h1, _⟩ h; cases h; exact ⟨(), rfl, h1⟩
  · rintro s l x ⟨_, h1, _⟩ h; cases h
  · rintro s l x e ⟨_, h1, _⟩ h; cases h; exact ⟨(), rfl, h1⟩
  · rintro s l ⟨_, h1, _⟩; exact ⟨(), .inr ⟨"full", rfl, rfl, h1⟩⟩
  · rintro s l slots _ h; cases h
  · rintro s l slots e ⟨h1, _⟩ h; cases h; exact ⟨(), rfl, h1⟩
  · rintro s l slots ws ⟨h1, rfl⟩ h
    obtain rfl : ws = [] := by simpa using h
    exact ⟨h1, rfl⟩
  · rintro s l slots k ⟨_, h1⟩ h; exact absurd h1 h
  · rintro s l slots k i e ⟨_, h1⟩ h; exact absurd h1 h
  · rintro s l slots buf ⟨rfl, _⟩ h
    refine ⟨(), .inr ⟨0, "full", ⟨by simp, ?_⟩, rfl, rfl⟩⟩
    cases buf with
    | nil => exact absurd rfl h
    | cons x buf => exact ⟨x, rfl, rfl⟩

/-- The full claim is false. Two tasks with one encoder each, around a lawful consumer that is full (with the `Invariant` wrapper
that consumers have in test builds). Each task calls `flush` once, so both adaptors are used according to the contract. But
the second call uses the consumer after it has failed, and panics. -/
theorem shared_encoder_misuse (t : Encodable T) :
    let C := invariantBulkConsumer full
    let method := sharedEncoder t C
    (∃ q, BulkCollects C (fun _ l _ => l = []) q (.new ()) []) ∧
    ∃ (st : Shared Bool _ _ _ _ (Suspension.chaotic method).κ) (run : _),
      Shared.Reachable method (Suspension.chaotic method) (Shared.init (.new ()) fun _ => ()) st ∧
      st.called false = [.flush] ∧ st.called true = [.flush] ∧ st.owner = none ∧
      st.finished = [(false, .flush, .error "full")] ∧ st.phase true = .waiting .flush ∧
      method (st.fields true) .flush = .locked run ∧ run st.shared = .panic := by
  intro C method
  have r : Shared.Reachable method (Suspension.chaotic method) (Shared.init (.new ()) fun _ : Bool => ())
    (Shared.init (.new ()) fun _ : Bool => ()) := .refl
  have r := r.snoc (.call false .flush _ rfl rfl)
  have r := r.snoc (.call true .flush _ rfl rfl)
  have r := r.snoc (.acquire false .flush rfl rfl)
  have hret : C.flush (.new ()) = ok (⟨(), false, 0⟩, .error "full") := rfl
  have r := r.snoc (.ret (m := Suspension.chaotic method) false .flush (fun c => C.flush c, none) _ _ rfl hret)
  exact ⟨⟨_, consumer_invariant_collects full_collects⟩, _, _, r, rfl, rfl, rfl, rfl, rfl, rfl, rfl⟩

end

/-! ## C50: dropped futures -/

/-- **C50**, partial: the future of a call may be dropped while it awaits the lock. (This is among the steps of `Shared.Step`, so
all theorems above include it; here it is said explicitly: nothing but the phase of the task changes.) What is missing: futures
that are dropped later, see `shared_encoder_dropped`. -/
theorem shared_abandon_partial {ι σ β Op A : Type} [DecidableEq ι] {method : β → Op → SharedMethod σ β A}
    {m : Suspension σ β Op A} {st : Shared ι σ β Op A m.κ} {i : ι} {op : Op} (hi : st.phase i = .waiting op) :
    ∃ st', Shared.Step method m st st' ∧ st'.shared = st.shared ∧ st'.owner = st.owner ∧ st'.finished = st.finished ∧
      st'.fields = st.fields ∧ st'.phase i = .gone op ∧ ∀ j, j ≠ i → st'.phase j = st.phase j :=
  ⟨_, .abandon i op hi, rfl, rfl, rfl, rfl, setAt_same _ _ _, fun _ hj => setAt_ne _ _ hj⟩

/-- A task that has been dropped while waiting, and another one that is not affected by this. -/
example : ∃ st : TwoEncoders, st.Reachable ∧ st.phase false = .gone (.consume 0x0102) ∧
    st.phase true = .running (.consume 0x0304) (.writing [3, 4] 0) := by
  have r : TwoEncoders.Reachable (Shared.init ⟨[], none, 0⟩ fun _ => ()) := .refl
  have r := r.snoc (.call false (.consume 0x0102) _ rfl rfl)
  have r := r.snoc (.call true (.consume 0x0304) _ rfl rfl)
  have r := r.snoc (.abandon false (.consume 0x0102) rfl)
  have r := r.snoc (.acquire true (.consume 0x0304) rfl rfl)
  exact ⟨_, r, rfl, rfl⟩

theorem three_bytes (xs : List UInt16) : [1, 3, 4] ≠ encodeAll (u16.toBytes .big) xs := by
  intro h
  have hlen : ∀ ys : List UInt16, (encodeAll (u16.toBytes .big) ys).length = 2 * ys.length := by
    intro ys
    induction ys with
    | nil => rfl
    | cons y ys ih => rw [encodeAll_cons, List.length_append, ih, FixedInt.toBytes_length, List.length_cons]; omega
  have h2 := congrArg List.length h
  rw [hlen] at h2
  change 3 = _ at h2
  omega

/-- The full claim is false: if the future of a call of one encoder is dropped in its critical section (which is allowed as long
as this encoder is not used again), then the others go on after the incomplete bytes. Here two tasks with encoders for `u16` call
`consume` once each; one of the futures is dropped after its first byte; the other call returns `Ok`. The consumer has received
three bytes, which are not the encodings of any values. -/
theorem shared_encoder_dropped : ∃ st : TwoEncoders,
    Shared.ReachableOrDrop (sharedEncoder U16BE.encodable.toEncodable trickle) (writeSuspension trickle (u16.opSlice .big))
      (Shared.init ⟨[], none, 0⟩ fun _ => ()) st ∧
    st.owner = none ∧ st.finished = [(true, .consume 0x0304, .ok ())] ∧ st.phase false = .gone (.consume 0x0102) ∧
    st.called false = [.consume 0x0102] ∧ st.called true = [.consume 0x0304] ∧ st.shared.received = [1, 3, 4] ∧
    ∀ xs, st.shared.received ≠ encodeAll (u16.toBytes .big) xs := by
  have r : Shared.ReachableOrDrop (sharedEncoder U16BE.encodable.toEncodable trickle)
    (writeSuspension trickle (u16.opSlice .big)) (Shared.init ⟨[], none, 0⟩ fun _ : Bool => ())
    (Shared.init ⟨[], none, 0⟩ fun _ : Bool => ()) := .refl
  have r := r.snoc (.step (.call false (.consume 0x0102) _ rfl rfl))
  have r := r.snoc (.step (.call true (.consume 0x0304) _ rfl rfl))
  have r := r.snoc (.step (.acquire false (.consume 0x0102) rfl rfl))
  have r := r.snoc (.step (.step false (.consume 0x0102) (Writing.writing [1, 2] 0) (Writing.writing [1, 2] 1) _ rfl
    (.inr ⟨[1, 2], 0, 1, rfl, rfl, rfl⟩)))
  have r := r.snoc (.drop false (.consume 0x0102) (Writing.writing [1, 2] 1) rfl)
  have r := r.snoc (.step (.acquire true (.consume 0x0304) rfl rfl))
  have r := r.snoc (.step (.step true (.consume 0x0304) (Writing.writing [3, 4] 0) (Writing.writing [3, 4] 1) _ rfl
    (.inr ⟨[3, 4], 0, 1, rfl, rfl, rfl⟩)))
  have r := r.snoc (.step (.step true (.consume 0x0304) (Writing.writing [3, 4] 1) (Writing.writing [3, 4] 2) _ rfl
    (.inr ⟨[3, 4], 1, 2, rfl, rfl, rfl⟩)))
  have r := r.snoc (.step (.ret true (.consume 0x0304) (Writing.writing [3, 4] 2) (.ok ()) _ rfl
    (.inl ⟨[3, 4], 2, .ok (), rfl, rfl, rfl⟩)))
  exact ⟨_, r, rfl, rfl, rfl, rfl, rfl, rfl, three_bytes⟩

end Verif
