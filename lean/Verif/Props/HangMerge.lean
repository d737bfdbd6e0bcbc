import Verif.Props.HangMore
import Verif.Model.AsyncMerge
import Verif.Model.AsyncShared
import Verif.Model.AsyncTestDoubles

/-!
# `Merge` and the shared codec adaptors wait for what they wrap (C65)
-/

namespace Verif.Async

open Outcome

variable {σ₁ σ₂ σ I F E : Type} {P₁ : Producer σ₁ I F E} {P₂ : Producer σ₂ I F E}

/-- One poll of `f` leaves it pending as `f'`. -/
def InProgress.Waits {σ : Type} {P : Producer σ I F E} (f f' : InProgress P) : Prop := f.poll = ok (.pending f')

theorem InProgress.Waits.again {P : Producer σ I F E} (hP : P.Hangs) {f f' : InProgress P} (h : f.Waits f') : f'.Waits f' := by
  obtain ⟨p, k⟩ := f
  unfold InProgress.Waits InProgress.poll at h ⊢
  rcases hq : (P.produce p).poll k with (k' | a) | _ | _ <;> rw [hq] at h <;> cases h
  have := (hP.produce p).again k k' hq
  dsimp only
  rw [this]
  rfl

theorem Merge.pollBody_pending {s : Merge P₁ P₂} {s' : Merge P₁ P₂} (h : pollBody s = ok (.done (.pending s'))) :
    (∃ f₁ f₁' f₂ f₂', s = ⟨some f₁, some f₂⟩ ∧ s' = ⟨some f₁', some f₂'⟩ ∧ f₁.Waits f₁' ∧ f₂.Waits f₂') ∨
      (∃ f₁ f₁', s = ⟨some f₁, none⟩ ∧ s' = ⟨some f₁', none⟩ ∧ f₁.Waits f₁') ∨
      (∃ f₂ f₂', s = ⟨none, some f₂⟩ ∧ s' = ⟨none, some f₂'⟩ ∧ f₂.Waits f₂') := by
  obtain ⟨_ | f₁, _ | f₂⟩ := s
  · cases h
  · rcases hq : f₂.poll with (f₂' | ⟨p, r⟩) | _ | _ <;> simp only [pollBody, hq, bind_eq, bind_ok, pure_eq] at h <;> cases h
    exact .inr (.inr ⟨_, _, rfl, rfl, hq⟩)
  · rcases hq : f₁.poll with (f₁' | ⟨p, r⟩) | _ | _ <;> simp only [pollBody, hq, bind_eq, bind_ok, pure_eq] at h <;> cases h
    exact .inr (.inl ⟨_, _, rfl, rfl, hq⟩)
  · rcases hq : f₁.poll with (f₁' | ⟨p, r⟩) | _ | _ <;> simp only [pollBody, hq, bind_eq, bind_ok, pure_eq] at h
    · rcases hq' : f₂.poll with (f₂' | ⟨p, r⟩) | _ | _ <;> simp only [hq', bind_ok] at h
      · cases h
        exact .inl ⟨_, _, _, _, rfl, rfl, hq, hq'⟩
      · rcases r with _ | _ | _ <;> cases h
      · cases h
      · cases h
    · rcases r with _ | _ | _ <;> cases h
    · cases h
    · cases h

theorem Merge.pollBody_continue {s : Merge P₁ P₂} {s' : Merge P₁ P₂} (h : pollBody s = ok (.continue s')) :
    (∃ f₁ f₂, s = ⟨some f₁, some f₂⟩ ∧ s' = ⟨none, some f₂⟩) ∨
      (∃ f₁ f₁' f₂, s = ⟨some f₁, some f₂⟩ ∧ s' = ⟨some f₁', none⟩ ∧ f₁.Waits f₁') := by
  obtain ⟨_ | f₁, _ | f₂⟩ := s
  · cases h
  · rcases hq : f₂.poll with (f₂' | ⟨p, r⟩) | _ | _ <;> simp only [pollBody, hq, bind_eq, bind_ok, pure_eq] at h <;> cases h
  · rcases hq : f₁.poll with (f₁' | ⟨p, r⟩) | _ | _ <;> simp only [pollBody, hq, bind_eq, bind_ok, pure_eq] at h <;> cases h
  · rcases hq : f₁.poll with (f₁' | ⟨p, r⟩) | _ | _ <;> simp only [pollBody, hq, bind_eq, bind_ok, pure_eq] at h
    · rcases hq' : f₂.poll with (f₂' | ⟨p, r⟩) | _ | _ <;> simp only [hq', bind_ok] at h
      · cases h
      · rcases r with _ | _ | _ <;> cases h
        exact .inr ⟨_, _, _, rfl, rfl, hq⟩
      · cases h
      · cases h
    · rcases r with _ | _ | _ <;> cases h
      exact .inl ⟨_, _, rfl, rfl⟩
    · cases h
    · cases h

theorem Merge.poll_pending {s s' : Merge P₁ P₂} (h : Verif.loop pollBody s = ok (.pending s')) :
    (∃ f₁ f₁' f₂ f₂', s = ⟨some f₁, some f₂⟩ ∧ s' = ⟨some f₁', some f₂'⟩ ∧ f₁.Waits f₁' ∧ f₂.Waits f₂') ∨
      (∃ f₁ f₁', s = ⟨some f₁, none⟩ ∧ s' = ⟨some f₁', none⟩ ∧ f₁.Waits f₁') ∨
      (∃ f₂ f₂', s.produceFuture₂ = some f₂ ∧ s' = ⟨none, some f₂'⟩ ∧ f₂.Waits f₂') ∨
      (∃ f₁ g₁ f₁' f₂, s = ⟨some f₁, some f₂⟩ ∧ s' = ⟨some f₁', none⟩ ∧ f₁.Waits g₁ ∧ g₁.Waits f₁') := by
  rw [loop_unfold] at h
  rcases hb : pollBody s with (t | p) | _ | _ <;> rw [hb] at h
  · rcases pollBody_continue hb with ⟨f₁, f₂, rfl, rfl⟩ | ⟨f₁, f₁', f₂, rfl, rfl, hw⟩
    · change Verif.loop pollBody _ = _ at h
      rw [loop_unfold] at h
      rcases hb' : pollBody (⟨none, some f₂⟩ : Merge P₁ P₂) with (t | p) | _ | _ <;> rw [hb'] at h
      · rcases pollBody_continue hb' with ⟨_, _, e, _⟩ | ⟨_, _, _, e, _⟩ <;> cases e
      · cases h
        rcases pollBody_pending hb' with ⟨_, _, _, _, e, _⟩ | ⟨_, _, e, _⟩ | ⟨_, f₂', e, rfl, hw⟩
        · cases e
        · cases e
        · cases e
          exact .inr (.inr (.inl ⟨_, _, rfl, rfl, hw⟩))
      · cases h
      · cases h
    · change Verif.loop pollBody _ = _ at h
      rw [loop_unfold] at h
      rcases hb' : pollBody (⟨some f₁', none⟩ : Merge P₁ P₂) with (t | p) | _ | _ <;> rw [hb'] at h
      · rcases pollBody_continue hb' with ⟨_, _, e, _⟩ | ⟨_, _, _, e, _⟩ <;> cases e
      · cases h
        rcases pollBody_pending hb' with ⟨_, _, _, _, e, _⟩ | ⟨_, _, e, rfl, hw'⟩ | ⟨_, f₂', e, _⟩
        · cases e
        · cases e
          exact .inr (.inr (.inr ⟨_, _, _, _, rfl, rfl, hw, hw'⟩))
        · cases e
      · cases h
      · cases h
  · cases h
    rcases pollBody_pending hb with h | h | ⟨f₂, f₂', rfl, h⟩
    · exact .inl h
    · exact .inr (.inl h)
    · exact .inr (.inr (.inl ⟨f₂, f₂', rfl, h⟩))
  · cases h
  · cases h

/-- If `produce` of `Merge` is pending after a poll then all futures that it keeps have been polled during that same poll, and
are pending: whichever of the two producers can go on first, it knows the waker. (The first future is polled twice if the second
producer has just ended.) -/
theorem merge_polls_both (s s' : Merge P₁ P₂) (h : (Merge.produce s).poll s = ok (.pending s')) :
    (s'.produceFuture₁ ≠ none ∨ s'.produceFuture₂ ≠ none) ∧
      (∀ f₁', s'.produceFuture₁ = some f₁' → ∃ f₁, s.produceFuture₁ = some f₁ ∧ (f₁.Waits f₁' ∨ ∃ g₁, f₁.Waits g₁ ∧ g₁.Waits f₁')) ∧
      (∀ f₂', s'.produceFuture₂ = some f₂' → ∃ f₂, s.produceFuture₂ = some f₂ ∧ f₂.Waits f₂') := by
  rcases Merge.poll_pending h with ⟨f₁, f₁', f₂, f₂', rfl, rfl, h1, h2⟩ | ⟨f₁, f₁', rfl, rfl, h1⟩ | ⟨f₂, f₂', h2, rfl, h3⟩ |
    ⟨f₁, g₁, f₁', f₂, rfl, rfl, h1, h2⟩
  · refine ⟨.inl nofun, fun _ e => ?_, fun _ e => ?_⟩
    · cases e; exact ⟨f₁, rfl, .inl h1⟩
    · cases e; exact ⟨f₂, rfl, h2⟩
  · refine ⟨.inl nofun, fun _ e => ?_, nofun⟩
    cases e; exact ⟨f₁, rfl, .inl h1⟩
  · refine ⟨.inr nofun, nofun, fun _ e => ?_⟩
    cases e; exact ⟨f₂, h2, h3⟩
  · refine ⟨.inl nofun, fun _ e => ?_, nofun⟩
    cases e; exact ⟨f₁, rfl, .inr ⟨g₁, h1, h2⟩⟩

theorem merge_hangs (h₁ : P₁.Hangs) (h₂ : P₂.Hangs) : (Merge.producer P₁ P₂).Hangs := by
  refine ⟨fun s => ⟨fun (k k' : Merge P₁ P₂) h => ?_⟩⟩
  change Verif.loop Merge.pollBody k = _ at h
  show Verif.loop Merge.pollBody k' = _
  rw [loop_unfold]
  rcases Merge.poll_pending h with ⟨f₁, f₁', f₂, f₂', rfl, rfl, h1, h2⟩ | ⟨f₁, f₁', rfl, rfl, h1⟩ | ⟨f₂, f₂', h2, rfl, h3⟩ |
    ⟨f₁, g₁, f₁', f₂, rfl, rfl, h1, h2⟩
  · have h1 : f₁'.poll = _ := h1.again h₁
    have h2 : f₂'.poll = _ := h2.again h₂
    simp only [Merge.pollBody, h1, h2, bind_eq, bind_ok, pure_eq]
    rfl
  · have h1 : f₁'.poll = _ := h1.again h₁
    simp only [Merge.pollBody, h1, bind_eq, bind_ok, pure_eq]
    rfl
  · have h3 : f₂'.poll = _ := h3.again h₂
    simp only [Merge.pollBody, h3, bind_eq, bind_ok, pure_eq]
    rfl
  · have h2 : f₁'.poll = _ := h2.again h₁
    simp only [Merge.pollBody, h2, bind_eq, bind_ok, pure_eq]
    rfl

noncomputable abbrev Case.stalledMerge :=
  Merge.producer (Case.stalled id).toProducer (Case.stalled id).toProducer

/-- The first producer never says anything, and the second one produces 0 and 1 and then does not say anything more: after two items
the merged one is pending, and polling it again changes nothing. -/
example : ∃ s₁ s₂ s₃, (Case.stalledMerge.produce (.new _ _ 7 0)).poll (.new _ _ 7 0) = ok (.ready (s₁, .ok (.inl 0))) ∧
    (Case.stalledMerge.produce s₁).poll s₁ = ok (.ready (s₂, .ok (.inl 1))) ∧
    (Case.stalledMerge.produce s₂).poll s₂ = ok (.pending s₃) ∧ (Case.stalledMerge.produce s₂).poll s₃ = ok (.pending s₃) := by
  have h1 : (Case.stalledMerge.produce (.new _ _ 7 0)).poll (.new _ _ 7 0) = ok (.ready (_, .ok (.inl 0))) :=
    loop_eq_of_fuel (n := 1) (body := Merge.pollBody) nofun
  have h2 := loop_eq_of_fuel (n := 1) (body := Merge.pollBody (P₁ := (Case.stalled id).toProducer) (P₂ := (Case.stalled id).toProducer))
    (s := ⟨some ⟨7, ()⟩, some (.new _ 1)⟩) nofun
  have h3 := loop_eq_of_fuel (n := 1) (body := Merge.pollBody (P₁ := (Case.stalled id).toProducer) (P₂ := (Case.stalled id).toProducer))
    (s := ⟨some ⟨7, ()⟩, some (.new _ 2)⟩) nofun
  exact ⟨_, _, _, h1, h2, h3, ((merge_hangs (Case.stalled_hangs id).toHangs (Case.stalled_hangs id).toHangs).produce _).again _ _ h3⟩

/-- Both producers have nothing to say: both futures are polled, and are kept. -/
example : ∃ s f₁ f₂, (Case.stalledMerge.produce s).poll s = ok (.pending s) ∧ s.produceFuture₁ = some f₁ ∧ s.produceFuture₂ = some f₂ ∧
    f₂.Waits f₂ := by
  have h := loop_eq_of_fuel (n := 1) (body := Merge.pollBody (P₁ := (Case.stalled id).toProducer) (P₂ := (Case.stalled id).toProducer))
    (s := ⟨some ⟨7, ()⟩, some ⟨8, ()⟩⟩) nofun
  refine ⟨_, _, _, h, rfl, rfl, ?_⟩
  obtain ⟨f₂, h1, h2⟩ := (merge_polls_both _ _ h).2.2 _ rfl
  cases h1
  exact h2

/-! ## Shared adaptors -/

/-- All critical sections hang or do not wait for anything. (Whoever waits for the lock waits for somebody to leave it: the mutex is
not part of this repository.) -/
def SharedHangs {β Op A : Type} (method : β → Op → SharedMethod σ β A) : Prop :=
  ∀ b op run, method b op = .locked run → ∀ s, (run s).Hangs

variable {T R RC Rel B : Type}

theorem withAnswer_hangs {A A' : Type} (f : A → A') {run : σ → Fut (σ × A)} (h : ∀ s, (run s).Hangs) (s : σ) :
    (withAnswer f run s).Hangs := by
  unfold withAnswer
  hangs

theorem shared_encoder_hangs {t : Encodable T} (ht : EncodeFn.Hangs t.encode) {C : BulkConsumer σ UInt8 F E} (hC : C.Hangs) :
    SharedHangs (sharedEncoder t C) := by
  intro b op run h s
  cases op <;> cases h
  · exact ht C hC s _
  · exact hC.toBuffered.flush s

theorem shared_relative_encoder_hangs {t : RelativeEncodable T Rel} (ht : ∀ r, EncodeFn.Hangs (t.relativeEncode r)) (borrow : B → Rel)
    {C : BulkConsumer σ UInt8 F E} (hC : C.Hangs) : SharedHangs (sharedRelativeEncoder t borrow C) := by
  intro b op run h s
  cases op <;> cases h
  · exact ht _ C hC s _
  · exact hC.toBuffered.flush s

theorem shared_decoder_hangs {t : Decodable T R} (ht : DecodeFn.Hangs t.decode) {P : BulkProducer σ UInt8 F E} (hP : P.Hangs) :
    SharedHangs (sharedDecoder t P) := by
  intro b op run h s
  cases op <;> cases h
  · exact withAnswer_hangs _ (decoderProduce_hangs ht hP) s
  · exact withAnswer_hangs _ (decoderSlurp_hangs hP) s

theorem shared_canonic_decoder_hangs {t : DecodableCanonic T R RC} (ht : DecodeFn.Hangs t.decodeCanonic)
    {P : BulkProducer σ UInt8 F E} (hP : P.Hangs) : SharedHangs (sharedCanonicDecoder t P) := by
  intro b op run h s
  cases op <;> cases h
  · exact withAnswer_hangs _ (decoderProduce_hangs ht hP) s
  · exact withAnswer_hangs _ (decoderSlurp_hangs hP) s

theorem shared_relative_decoder_hangs {t : RelativeDecodable T Rel R} (ht : ∀ r, DecodeFn.Hangs (t.relativeDecode r))
    (borrow : B → Rel) {P : BulkProducer σ UInt8 F E} (hP : P.Hangs) : SharedHangs (sharedRelativeDecoder t borrow P) := by
  intro b op run h s
  cases op <;> cases h
  · exact withAnswer_hangs _ (decoderProduce_hangs (ht _) hP) s
  · exact withAnswer_hangs _ (decoderSlurp_hangs hP) s

theorem shared_relative_canonic_decoder_hangs {t : RelativeDecodableCanonic T Rel R RC}
    (ht : ∀ r, DecodeFn.Hangs (t.relativeDecodeCanonic r)) (borrow : B → Rel) {P : BulkProducer σ UInt8 F E} (hP : P.Hangs) :
    SharedHangs (sharedRelativeCanonicDecoder t borrow P) := by
  intro b op run h s
  cases op <;> cases h
  · exact withAnswer_hangs _ (decoderProduce_hangs (ht _) hP) s
  · exact withAnswer_hangs _ (decoderSlurp_hangs hP) s

/-- Two adaptors that share a consumer which takes three bytes: during the second value the consumer stalls. -/
example : SharedHangs (sharedEncoder ⟨FixedInt.encode u16 .big⟩ (Case.stalledConsumer (I := UInt8))) :=
  shared_encoder_hangs (FixedInt.encode_hangs u16 .big) Case.stalledConsumer_hangs

example : SharedHangs (sharedDecoder ⟨FixedInt.decode u16 .big⟩ (Case.stalled (I := UInt8) fun _ => 7)) :=
  shared_decoder_hangs (FixedInt.decode_hangs u16 .big) (Case.stalled_hangs _)

/-! ## The only future that is pending of its own accord -/

/-- `TestYielder` does go on when it is polled again. This is why it calls the waker itself (test_yielder.rs:66). -/
theorem test_yielder_goes_on :
    ∃ k y, (TestYielder.maybeYield (.new [true])).poll (.new [true]) = ok (.pending k) ∧
      (TestYielder.maybeYield (.new [true])).poll k = ok (.ready y) ∧ ¬ (TestYielder.maybeYield (.new [true])).Hangs := by
  refine ⟨_, _, rfl, rfl, fun h => ?_⟩
  have := h.again _ _ (show (TestYielder.maybeYield (.new [true])).poll (.new [true]) = ok (.pending _) from rfl)
  cases this

end Verif.Async
