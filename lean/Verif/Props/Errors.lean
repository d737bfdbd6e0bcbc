import Verif.Model.Errors

/-!
# C54: what error values tell

The text of an error tells its category and, depending on the type, its count or its payload; its source is its payload if that is
an error.
-/

namespace Verif

variable {F F' E E' E₁ E₂ E₁' E₂' A : Type}

private theorem repr_inj {a b : Nat} (h : a.repr = b.repr) : a = b := by
  have := congrArg (fun s => Nat.ofDigitChars 10 s.toList 0) h
  simpa using this

/-- **C54.** The text of a `ConsumeAtLeastError` tells the count. -/
theorem consume_at_least_display (a : ConsumeAtLeastError E) (b : ConsumeAtLeastError E') :
    a.display = b.display ↔ a.count = b.count := by
  unfold ConsumeAtLeastError.display
  rw [String.append_left_inj, String.append_right_inj]
  exact ⟨fun h => repr_inj h, fun h => by rw [h]⟩

/-- **C54.** The text of a `ProduceAtLeastError` tells the count, and whether the producer had ended or failed. -/
theorem produce_at_least_display (a : ProduceAtLeastError F E) (b : ProduceAtLeastError F' E') :
    a.display = b.display ↔ a.count = b.count ∧ a.reason.isLeft = b.reason.isLeft := by
  rcases a with ⟨m, r | r⟩ <;> rcases b with ⟨n, q | q⟩ <;>
    simp only [ProduceAtLeastError.display, String.append_right_inj, String.append_left_inj, Sum.isLeft]
  · exact ⟨fun h => ⟨repr_inj h, trivial⟩, fun h => by rw [h.1]⟩
  · refine ⟨fun h => ?_, fun h => by simp at h⟩
    have := congrArg String.toList h
    simp at this
  · refine ⟨fun h => ?_, fun h => by simp at h⟩
    have := congrArg String.toList h
    simp at this
  · exact ⟨fun h => ⟨repr_inj h, trivial⟩, fun h => by rw [h.1]⟩

/-- **C54.** The text of a `PipeError` tells which side failed. -/
theorem pipe_error_display (a : PipeError E₁ E₂) (b : PipeError E₁' E₂') :
    a.display = b.display ↔ ((∃ e, a = .producer e) ↔ ∃ e, b = .producer e) := by
  cases a <;> cases b <;> simp [PipeError.display]

/-- **C54.** The sources of the three errors of `ufotofu` are their payloads, except for the final value of a producer. -/
theorem error_sources (a : PipeError E₁ E₂) (b : ConsumeAtLeastError E) (d : ProduceAtLeastError F E) :
    (∀ e, a.source = some (.inl e) ↔ a = .producer e) ∧ (∀ e, a.source = some (.inr e) ↔ a = .consumer e) ∧
    a.source ≠ none ∧
    (∀ e, b.source = some e ↔ b.intoReason = e) ∧ b = ⟨b.count, b.intoReason⟩ ∧
    (∀ e, d.source = some e ↔ d.intoReason = .inr e) ∧ (d.source = none ↔ ∃ f, d.intoReason = .inl f) ∧
    d = ⟨d.count, d.intoReason⟩ := by
  refine ⟨?_, ?_, ?_, ?_, rfl, ?_, ?_, rfl⟩
  · cases a <;> simp [PipeError.source]
  · cases a <;> simp [PipeError.source]
  · cases a <;> simp [PipeError.source]
  · simp [ConsumeAtLeastError.source, ConsumeAtLeastError.intoReason]
  · rcases d with ⟨_, r | r⟩ <;> simp [ProduceAtLeastError.source, ProduceAtLeastError.intoReason]
  · rcases d with ⟨_, r | r⟩ <;> simp [ProduceAtLeastError.source, ProduceAtLeastError.intoReason]

/-- **C54.** The text of a `DecodeError` tells its category, and its payload if the text of the payload does. -/
theorem decode_error_display (f : F → String) (e : E → String) (o : A → String) (hf : ∀ x y, f x = f y → x = y)
    (he : ∀ x y, e x = e y → x = y) (ho : ∀ x y, o x = o y → x = y) (a b : DecodeError F E A) :
    a.display f e o = b.display f e o ↔ a = b := by
  unfold DecodeError.display
  cases a <;> cases b <;> simp only [String.append_right_inj]
  case unexpectedEndOfInput.unexpectedEndOfInput => exact ⟨fun h => by rw [hf _ _ h], fun h => by cases h; rfl⟩
  case producer.producer => exact ⟨fun h => by rw [he _ _ h], fun h => by cases h; rfl⟩
  case other.other => exact ⟨fun h => by rw [ho _ _ h], fun h => by cases h; rfl⟩
  all_goals
    refine ⟨fun h => ?_, fun h => nomatch h⟩
    have := congrArg String.toList h
    simp at this

/-- With payloads that are shown unambiguously, such as strings. -/
example (a b : DecodeError String String Blame) : a.display id id Blame.display = b.display id id Blame.display ↔ a = b :=
  decode_error_display id id Blame.display (fun _ _ h => h) (fun _ _ h => h) (by rintro (_ | _) (_ | _) h <;> first | rfl | simp [Blame.display] at h) a b

/-- **C54.** The text of a `DecodeError` ends with the text of its payload. -/
theorem decode_error_display_payload (f : F → String) (e : E → String) (o : A → String) (a : DecodeError F E A) :
    ∃ pre, a.display f e o = pre ++ match a with
      | .unexpectedEndOfInput x => f x
      | .producer x => e x
      | .other x => o x := by
  cases a <;> exact ⟨_, rfl⟩

/-- **C54.** The two texts of `Blame` differ. -/
theorem blame_display (a b : Blame) : a.display = b.display ↔ a = b := by
  cases a <;> cases b <;> simp [Blame.display]

/-- Two errors with the same count and different reasons, and two with the same reason and different counts. -/
example : (⟨10, .inl 5⟩ : ProduceAtLeastError Nat Nat).display ≠ (⟨10, .inr 5⟩ : ProduceAtLeastError Nat Nat).display ∧
    (⟨10, .inl 5⟩ : ProduceAtLeastError Nat Nat).display ≠ (⟨1, .inl 5⟩ : ProduceAtLeastError Nat Nat).display ∧
    (⟨10, .inl 5⟩ : ProduceAtLeastError Nat Nat).display = (⟨10, .inl 6⟩ : ProduceAtLeastError Nat Nat).display := by
  simp [produce_at_least_display]

example : (DecodeError.other Blame.ourFault : DecodeError Unit Unit Blame).display (fun _ => "()") (fun _ => "()") Blame.display
    = "Failed to decode: Received an encoding we could not process." := rfl

end Verif
