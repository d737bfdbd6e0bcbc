import Verif.Props.FuzzScramblers
import Verif.Props.Io

/-!
# C55: the fuzz targets for readers and writers
-/

namespace Verif

open Outcome

namespace Fuzz

theorem clamp_pos (n : Nat) : 0 < clamp n := by simp only [clamp]; omega

/-- A writer that never fails. -/
def noFaults : WriterFaults where
  write _ _ := False
  stall _ := False
  flush _ _ := False
  close _ _ := False

/-- One end of a connection in memory: a writer that remembers what has been written, and accepts at most `m + 1` bytes at once. -/
def memoryWriter (m : Nat) : AsyncWrite (List UInt8 × Option Unit) where
  write w buf := ok ((w.1 ++ buf.take (m + 1), w.2), .ok (min buf.length (m + 1)))
  flush w := ok (w, .ok ())
  close w := ok ((w.1, some ()), .ok ())

theorem memoryWriter_writes (m : Nat) : Writes (memoryWriter m) (fun w l closed => w = (l, closed)) noFaults ([], none) [] := by
  refine ⟨fun w l => w = (l, none), ⟨fun _ _ h => h, ?_, ?_, ?_⟩, rfl⟩
  · rintro w l buf rfl hne
    have hbuf : 0 < buf.length := List.length_pos_iff.mpr hne
    refine ⟨_, .inl ⟨min buf.length (m + 1), by omega, by omega, rfl, ?_⟩⟩
    rcases Nat.le_total buf.length (m + 1) with h | h
    · simp [Nat.min_eq_left h, List.take_of_length_le h]
    · simp [Nat.min_eq_right h]
  · rintro w l rfl; exact ⟨_, .inl ⟨rfl, rfl⟩⟩
  · rintro w l rfl; exact ⟨_, .inl ⟨rfl, rfl⟩⟩

/-- **C55**, compat.rs and compat_buf_read.rs, the sender: with every writer that respects the contract of `AsyncWrite` and never
fails, whatever amounts it accepts, nothing goes wrong, and at the end exactly the input has been written to it, and it has
been closed. With debug assertions: on inputs that fit into the buffer of the scrambler. -/
theorem send_half_passes {ω : Type} (debug : Bool) {W : AsyncWrite ω} {D : ω → List UInt8 → Option Unit → Prop} {w : ω}
    (hw : Writes W D noFaults w []) (input : List UInt8) (queueCapacity : Nat) (ops : List ScrambleConsume)
    (h : debug = true → input.length ≤ 2048) :
    ∃ w', sendHalf debug W w input queueCapacity ops = ok w' ∧ D w' input (some ()) := by
  obtain ⟨R, hR, hw⟩ := hw
  have hC := writer_law hR (Fixed.fifoLaw UInt8 (clamp queueCapacity)) (clamp_pos _)
  have hX : noFaults.faults.Regular := WriterFaults.regular _
  have hno : ∀ l d e, ¬ noFaults.faults.during l d e := by
    rintro l d e ⟨_, (h | ⟨h, _⟩) | h⟩ <;> exact h
  obtain ⟨s₁, h1, h2⟩ := consumeAll_passes hX hC hno debug input (l := [])
    (s := scrambleCon (QueueWriter.mk w (Fixed.new (clamp queueCapacity) fun _ => default)) ops)
    ⟨[], [], [], rfl, ConsumerScrambler.ok_new (by decide), [], [], [], 0, by simp, hw, Fixed.holds_new _ _⟩ (by simpa using h)
  obtain ⟨t, ⟨h3, h4⟩ | ⟨e, d, _, ⟨_, h5⟩, _⟩⟩ := ConsumerScrambler.defers_close debug hX hC s₁.inner _ () h2
  · have h5 : (scrambledCon debug (writerConsumer W (Fixed.queue UInt8))).close s₁ () = ok ({ s₁ with inner := t }, .ok ()) := by
      rw [scrambledCon_eq]; simp [unusedInvariantBulkConsumer, h3]
    exact ⟨t.inner.writer, by simp [sendHalf, h1, h5, isOk, assert], h4⟩
  · rcases h5 with (h | ⟨h, _⟩) | h | ⟨_, h⟩ <;> exact h.elim

example : ∃ w', sendHalf true (memoryWriter 1) ([], none) [1, 2, 3, 4, 5] 3 [.consumeSlots ⟨2, by decide⟩, .flush] = ok w' ∧
    w' = ([1, 2, 3, 4, 5], some ()) := send_half_passes true (memoryWriter_writes 1) _ _ _ (by decide)

/-- **C55**, the sender with debug assertions: on every longer input it fails. -/
theorem send_half_panics {ω : Type} {W : AsyncWrite ω} {D : ω → List UInt8 → Option Unit → Prop} {w : ω}
    (hw : Writes W D noFaults w []) (input : List UInt8) (queueCapacity : Nat) (ops : List ScrambleConsume)
    (h : 2048 < input.length) : sendHalf true W w input queueCapacity ops = .panic := by
  obtain ⟨R, hR, hw⟩ := hw
  have hC := writer_law hR (Fixed.fifoLaw UInt8 (clamp queueCapacity)) (clamp_pos _)
  have hX : noFaults.faults.Regular := WriterFaults.regular _
  have hno : ∀ l d e, ¬ noFaults.faults.during l d e := by
    rintro l d e ⟨_, (h | ⟨h, _⟩) | h⟩ <;> exact h
  have := consumeAll_panics hX hC hno input (l := [])
    (s := scrambleCon (QueueWriter.mk w (Fixed.new (clamp queueCapacity) fun _ => default)) ops)
    (sBuffered_new (sl := []) ⟨[], [], 0, by simp, hw, Fixed.holds_new _ _⟩ ops) (by simp) (by simpa using h)
  simp [sendHalf, this]

example : sendHalf true (memoryWriter 1) ([], none) (List.replicate 3000 7) 3 [.flush] = .panic :=
  send_half_panics (memoryWriter_writes 1) _ _ _ (by rw [List.length_replicate]; decide)

theorem produceAll_passes {σ : Type} {P : Producer σ UInt8 Unit IoError} : ∀ (input : List UInt8) {s : σ},
    Plays P s (.ofList input (.ok ())) → produceAll P s input = ok () := by
  intro input
  induction input with
  | nil =>
    rintro s ⟨R, hR, h⟩
    obtain ⟨s', h1, _⟩ := hR.produce s _ h
    have h1' : P.produce s = ok (s', .ok (.inr ())) := h1
    simp [produceAll, h1', unwrapResult, assertEq]
  | cons x input ih =>
    rintro s ⟨R, hR, h⟩
    obtain ⟨s', h1, h2⟩ := hR.produce s _ h
    have h1' : P.produce s = ok (s', .ok (.inl x)) := h1
    have h3 := ih ⟨R, hR, by simpa [Script.ofList_drop] using h2 x rfl⟩
    simp [produceAll, h1', unwrapResult, assertEq, h3]

/-- **C55**, compat.rs, the receiver: with every reader that respects the contract of `AsyncRead` and delivers exactly the input,
in whatever portions, it passes. -/
theorem receive_half_passes {ρ : Type} (debug : Bool) {Rd : AsyncRead ρ} {r : ρ} {input : List UInt8}
    (hr : Reads Rd r (.ofList input (.ok ()))) (queueCapacity : Nat) (ops : List ScrambleProduce) :
    receiveHalf debug Rd r input queueCapacity ops = ok () :=
  produceAll_passes input (scrambled_plays debug (reader_fixed_plays hr (ofList_noUnexpectedEof _) _ (clamp_pos _) _) ops)

example : receiveHalf true (chunkReader 1 (.ok ())).toAsyncRead [1, 2, 3] [1, 2, 3] 2 [.slurp, .produce] = ok () :=
  receive_half_passes true ⟨_, (chunkReader_reads 1 (.ok ())).read, 0, rfl, by simp⟩ _ _

/-- **C55**, compat_buf_read.rs, the receiver. -/
theorem receive_half_buf_passes {ρ : Type} (debug : Bool) {Rd : AsyncBufRead ρ} {r : ρ} {input : List UInt8}
    (hr : BufReads Rd r (.ofList input (.ok ()))) (ops : List ScrambleProduce) :
    receiveHalfBuf debug Rd r input ops = ok () :=
  produceAll_passes input (scrambled_plays debug (buf_reader_plays hr (ofList_noUnexpectedEof _)) ops)

example : receiveHalfBuf true (chunkReader 1 (.ok ())) [1, 2, 3] [1, 2, 3] [.slurp, .produce] = ok () :=
  receive_half_buf_passes true ⟨_, chunkReader_reads 1 (.ok ()), 0, rfl, by simp⟩ _

/-- **C55**, compat.rs and compat_buf_read.rs, both halves: with a connection that delivers in arbitrary portions exactly the
bytes that have been written into it, the receiver gets what the sender was given. -/
theorem connection_passes (debug : Bool) (input : List UInt8) (m m' cap cap' : Nat) (ops : List ScrambleConsume)
    (ops' : List ScrambleProduce) (h : debug = true → input.length ≤ 2048) :
    ∃ w, sendHalf debug (memoryWriter m) ([], none) input cap ops = ok w ∧
      receiveHalf debug (chunkReader m' (.ok ())).toAsyncRead w.1 input cap' ops' = ok () ∧
      receiveHalfBuf debug (chunkReader m' (.ok ())) w.1 input ops' = ok () := by
  obtain ⟨w, h1, rfl⟩ := send_half_passes debug (memoryWriter_writes m) input cap ops h
  exact ⟨_, h1, receive_half_passes debug ⟨_, (chunkReader_reads m' (.ok ())).read, 0, rfl, by simp⟩ cap' ops',
    receive_half_buf_passes debug ⟨_, chunkReader_reads m' (.ok ()), 0, rfl, by simp⟩ ops'⟩

example : ∃ w, sendHalf true (memoryWriter 1) ([], none) [1, 2, 3, 4, 5] 3 [.flush, .consumeSlots ⟨2, by decide⟩] = ok w ∧
    receiveHalf true (chunkReader 4 (.ok ())).toAsyncRead w.1 [1, 2, 3, 4, 5] 2 [.slurp, .produce] = ok () ∧
    receiveHalfBuf true (chunkReader 4 (.ok ())) w.1 [1, 2, 3, 4, 5] [.slurp, .produce] = ok () :=
  connection_passes true _ _ _ _ _ _ _ (by decide)

end Fuzz

end Verif
