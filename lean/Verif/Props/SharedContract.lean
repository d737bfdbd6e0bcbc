import Verif.Props.Shared
import Verif.Lemmas.SharedContract

/-!
# C49: what the shared consumer or producer notices

The shared value is wrapped in the `Invariant` wrapper of test builds, which panics if its contract is violated (C25, C26). As long
as all calls succeed, no call of any task makes it panic. After the final value, or after an error of `slurp` or `flush`, every
further call does, no matter which task makes it; in particular, only one task gets the final value.
-/

namespace Verif

open Outcome

section

variable {ι σ T R RC F E B Rel : Type} [DecidableEq ι]

/-! ## Encoders -/

/-- **C49**, partial: as long as no call has failed, no call of a `SharedEncoder` violates the contract of the shared consumer. What
is missing: calls of other tasks after a failed call, see `shared_encoder_failed_flush`. -/
theorem shared_encoder_checked_partial {t : Encodable T} {enc : T → List UInt8} (he : EncodesLaw t.encode enc)
    {C : BulkConsumer σ UInt8 F E} {D : σ → List UInt8 → Option F → Prop} {q : Policy UInt8 F E}
    {m : Suspension (InvariantSt σ) Unit (SharedEncoderOp T F) (Except E Unit)} {b : ι → Unit} {s₀ : σ} {l : List UInt8}
    {st : Shared ι (InvariantSt σ) Unit (SharedEncoderOp T F) (Except E Unit) m.κ}
    (hI : m.Implements (sharedEncoder t (invariantBulkConsumer C))) (hC : BulkCollects C D q s₀ l)
    (h : Shared.Reachable (sharedEncoder t (invariantBulkConsumer C)) m (Shared.init (.new s₀) b) st)
    (hok : ∀ e ∈ st.finished, e.2.2 = .ok ()) (ho : st.owner = none)
    {op : SharedEncoderOp T F} {run : InvariantSt σ → Outcome (InvariantSt σ × Except E Unit)}
    (hop : sharedEncoder t (invariantBulkConsumer C) () op = .locked run) : ∃ s r, run st.shared = ok (s, r) := by
  have h1 := ((shared_encoder_bytes he hI (consumer_invariant_collects hC) h hok).1 ho).2
  cases op with
  | consume x => cases hop; exact encode_total he x h1
  | close f => cases hop
  | flush => cases hop; exact flush_total h1

/-- Two tasks have called `consume` once each, and either may call it again. -/
example : ∃ m, ∃ st : Shared Bool _ Unit _ _ m.κ,
    Shared.Reachable (sharedEncoder U16BE.encodable.toEncodable (invariantBulkConsumer trickle)) m
      (Shared.init (.new ⟨[], none, 0⟩) fun _ => ()) st ∧
    st.finished = [(true, .consume 0x0102, .ok ()), (false, .consume 0x0304, .ok ())] ∧
    ∃ s r, U16BE.encodable.toEncodable.encode (invariantBulkConsumer trickle) st.shared 0x0506 = ok (s, r) := by
  have r : Serial (sharedEncoder U16BE.encodable.toEncodable (invariantBulkConsumer trickle)) (fun _ : Bool => ())
    (.new ⟨[], none, 0⟩) [] (fun _ => ()) (.new ⟨[], none, 0⟩) := .nil
  obtain ⟨s1, h1, h2⟩ := (u16.encodesLaw .big).accepted 0x0102 (consumer_invariant_collects trickle_collects)
    Policy.accepts_acceptAll
  obtain ⟨s2, h3, _⟩ := (u16.encodesLaw .big).accepted 0x0304 h2 Policy.accepts_acceptAll
  have r := r.locked (i := true) (op := .consume 0x0102) rfl h1
  have r := r.locked (i := false) (op := .consume 0x0304) rfl h3
  obtain ⟨st, h4, h5, _, h6, _⟩ := r.reachable
  exact ⟨_, st, h4, h6, shared_encoder_checked_partial (u16.encodesLaw .big) (Suspension.chaotic_implements _) trickle_collects h4
    (by simp [h6]) h5 (op := .consume 0x0506) rfl⟩

/-- **C49**, partial, for `SharedRelativeEncoder`. -/
theorem shared_relative_encoder_checked_partial {t : RelativeEncodable T Rel} {borrow : B → Rel} {enc : Rel → T → List UInt8}
    (he : ∀ r, EncodesLaw (t.relativeEncode r) (enc r)) {C : BulkConsumer σ UInt8 F E} {D : σ → List UInt8 → Option F → Prop}
    {q : Policy UInt8 F E} {m : Suspension (InvariantSt σ) B (SharedRelativeEncoderOp T F B) (Except E Unit)} {b : ι → B} {s₀ : σ}
    {l : List UInt8} {st : Shared ι (InvariantSt σ) B (SharedRelativeEncoderOp T F B) (Except E Unit) m.κ}
    (hI : m.Implements (sharedRelativeEncoder t borrow (invariantBulkConsumer C))) (hC : BulkCollects C D q s₀ l)
    (h : Shared.Reachable (sharedRelativeEncoder t borrow (invariantBulkConsumer C)) m (Shared.init (.new s₀) b) st)
    (hok : ∀ e ∈ st.finished, e.2.2 = .ok ()) (ho : st.owner = none) {r : B}
    {op : SharedRelativeEncoderOp T F B} {run : InvariantSt σ → Outcome (InvariantSt σ × Except E Unit)}
    (hop : sharedRelativeEncoder t borrow (invariantBulkConsumer C) r op = .locked run) : ∃ s a, run st.shared = ok (s, a) := by
  have h1 := ((shared_relative_encoder_bytes he hI (consumer_invariant_collects hC) h hok).1 ho).2
  cases op with
  | consume x => cases hop; exact encode_total (he _) x h1
  | close f => cases hop
  | flush => cases hop; exact flush_total h1
  | setRelativeTo r => cases hop

example : ∃ m, ∃ st : Shared Bool _ UInt8 _ _ m.κ,
    Shared.Reachable (sharedRelativeEncoder differenceEncodable id (invariantBulkConsumer trickle)) m
      (Shared.init (.new ⟨[], none, 0⟩) fun _ => 1) st ∧
    st.finished = [(true, .setRelativeTo 10, .ok ()), (true, .consume 12, .ok ())] ∧
    ∃ s r, differenceEncodable.relativeEncode 1 (invariantBulkConsumer trickle) st.shared 12 = ok (s, r) := by
  have r : Serial (sharedRelativeEncoder differenceEncodable id (invariantBulkConsumer trickle)) (fun _ : Bool => 1)
    (.new ⟨[], none, 0⟩) [] (fun _ => 1) (.new ⟨[], none, 0⟩) := .nil
  obtain ⟨s1, h1, h2⟩ := (difference_encodes 10).accepted 12 (consumer_invariant_collects trickle_collects)
    Policy.accepts_acceptAll
  have r := r.immediate (i := true) (op := .setRelativeTo 10) rfl
  have r := r.locked (i := true) (op := .consume 12) rfl h1
  obtain ⟨st, h4, h5, _, h6, _⟩ := r.reachable
  exact ⟨_, st, h4, h6, shared_relative_encoder_checked_partial difference_encodes (Suspension.chaotic_implements _) trickle_collects
    h4 (by simp [h6]) h5 (r := 1) (op := .consume 12) rfl⟩

/-- After a failed `flush`, nobody can flush: no call of `flush` returns, because the shared consumer panics. -/
theorem shared_encoder_failed_flush (t : Encodable T) (C : BulkConsumer σ UInt8 F E)
    {m : Suspension (InvariantSt σ) Unit (SharedEncoderOp T F) (Except E Unit)} {b : ι → Unit} {s₀ : InvariantSt σ}
    {st : Shared ι (InvariantSt σ) Unit (SharedEncoderOp T F) (Except E Unit) m.κ}
    (hI : m.Implements (sharedEncoder t (invariantBulkConsumer C)))
    (h : Shared.Reachable (sharedEncoder t (invariantBulkConsumer C)) m (Shared.init s₀ b) st) {i : ι} {e : E}
    (hlast : st.finished.getLast? = some (i, .flush, .error e)) (ho : st.owner = none) :
    (invariantBulkConsumer C).flush st.shared = .panic := by
  obtain ⟨s, h⟩ := h.inv hI
  obtain ⟨l, hl⟩ := List.getLast?_eq_some_iff.mp hlast
  have hs := h.serial
  rw [hl] at hs
  obtain ⟨b₁, s₁, _, hx⟩ := hs.snoc_inv
  rw [h.free ho]
  refine invariant_flush_inactive C ?_
  rcases hx with ⟨run, hm, hr, _⟩ | ⟨x, hm, _⟩
  · cases hm
    change (invariantBulkConsumer C).flush s₁ = _ at hr
    cases ha : s₁.active with
    | false => rw [invariant_flush_inactive C ha] at hr; cases hr
    | true =>
      simp only [invariantBulkConsumer, invariantBufferedConsumer, InvariantSt.checkInactive, ha, assert, bind_eq, bind_ok,
        if_true] at hr
      cases hp : C.flush s₁.inner with
      | panic => simp [hp] at hr
      | diverge => simp [hp] at hr
      | ok r =>
        obtain ⟨s2, e' | u⟩ := r <;> simp [hp] at hr
        rw [← hr.1]
  · cases hm

/-- The consumer is full. -/
example : ∃ m, ∃ st : Shared Bool _ Unit _ _ m.κ,
    Shared.Reachable (sharedEncoder U16BE.encodable.toEncodable (invariantBulkConsumer full)) m
      (Shared.init (.new ()) fun _ => ()) st ∧
    st.finished = [(true, .flush, .error "full")] ∧ (invariantBulkConsumer full).flush st.shared = .panic := by
  have r : Serial (sharedEncoder U16BE.encodable.toEncodable (invariantBulkConsumer full)) (fun _ : Bool => ())
    (.new ()) [] (fun _ => ()) (.new ()) := .nil
  have r := r.locked (i := true) (op := .flush) (s₂ := ⟨(), false, 0⟩) (a := .error "full") rfl rfl
  obtain ⟨st, h4, h5, _, h6, _⟩ := r.reachable
  exact ⟨_, st, h4, h6, shared_encoder_failed_flush _ full (Suspension.chaotic_implements _) h4 (i := true) (by rw [h6]; rfl) h5⟩

/-! ## Decoders -/

/-- **C49**, partial: as long as nothing but values has been returned, no call of a `SharedDecoder` violates the contract of the
shared producer. What is missing: calls of other tasks after that, see `shared_decoder_ends`. -/
theorem shared_decoder_checked_partial {d : Decodable T R} {g : Grammar T R} (hd : DecodesLaw d.decode g) (hg : g [] = .more)
    {P : BulkProducer σ UInt8 F E} {c : Script UInt8 F E} {c' : Script T F (DecodeError F E R)} {used : Nat → Nat}
    {m : Suspension (InvariantSt σ) Unit SharedDecoderOp (SharedDecoderAnswer T F (DecodeError F E R))} {b : ι → Unit} {s₀ : σ}
    {st : Shared ι (InvariantSt σ) Unit SharedDecoderOp (SharedDecoderAnswer T F (DecodeError F E R)) m.κ}
    (hI : m.Implements (sharedDecoder d (invariantBulkProducer P))) (hP : BulkPlays P s₀ c) (hc : Decodes g c c' used)
    (h : Shared.Reachable (sharedDecoder d (invariantBulkProducer P)) m (Shared.init (.new s₀) b) st)
    (hval : ∀ e ∈ st.finished, e.2.2.Continues) (ho : st.owner = none) {op : SharedDecoderOp}
    {run : InvariantSt σ → Outcome (InvariantSt σ × SharedDecoderAnswer T F (DecodeError F E R))}
    (hop : sharedDecoder d (invariantBulkProducer P) () op = .locked run) : ∃ s a, run st.shared = ok (s, a) := by
  have hval' : ∀ r ∈ producedAnswers st.finished, ∃ x, r.2 = .ok (.inl x) := fun r hr => by
    obtain ⟨op, h⟩ := mem_producedAnswers hr
    exact continues_produced hval h
  obtain ⟨h1, h2, _⟩ := shared_decoder_partition hd hg hI (producer_invariant_plays hP) hc h (continues_noSlurpError hval) hval'
  obtain ⟨k, hk, _⟩ := hc.2 (producedAnswers st.finished).length fun i hi => by
    obtain ⟨x, hx⟩ := hval' _ (List.getElem_mem hi)
    exact ⟨x, by rw [← h1 i _ (List.getElem?_eq_getElem hi), hx]⟩
  cases op with
  | produce =>
    cases hop
    obtain ⟨s, h3, _⟩ := decoderProduce_spec hd hg (h2 ho) hk
    exact ⟨s, _, withAnswer_ok h3⟩
  | slurp =>
    cases hop
    obtain ⟨s, ⟨h3, _⟩ | ⟨e, _, h3⟩⟩ := decoderSlurp_spec hg (h2 ho) hk
    · exact ⟨s, _, withAnswer_ok h3⟩
    · exact ⟨s, _, withAnswer_ok h3⟩

/-- Two tasks have decoded a value each; the next call answers with the final value. -/
example : ∃ m, ∃ st : Shared Bool _ Unit _ _ m.κ,
    Shared.Reachable (sharedDecoder Case.flagDecodable.toDecodable (invariantBulkProducer Case.bytes)) m
      (Shared.init (.new (Case.from_ [1, 0] (.ok 5))) fun _ => ()) st ∧
    st.finished.length = 2 ∧ ∃ s a, withAnswer SharedDecoderAnswer.produced (decoderProduce Case.flagDecodable.decode (invariantBulkProducer Case.bytes))
      st.shared = ok (s, a) := by
  obtain ⟨s, h, _⟩ := Case.decoders Case.flag_decodes rfl (producer_invariant_plays (Case.from_plays [1, 0] (.ok 5)))
    (Case.flag_decodes_both 5) (fun n => n == 0) 2 (fun i hi => match i, hi with | 0, _ => ⟨_, rfl⟩ | 1, _ => ⟨_, rfl⟩)
  obtain ⟨st, h1, h2, _, h3, _⟩ := h.reachable
  exact ⟨_, st, h1, by rw [h3]; rfl, shared_decoder_checked_partial Case.flag_decodes rfl (Suspension.chaotic_implements _)
    (Case.from_plays [1, 0] (.ok 5)) (Case.flag_decodes_both 5) h1
    (by rw [h3]; simp [List.range, List.range.loop, Script.ofList, SharedDecoderAnswer.Continues]) h2 (op := .produce) rfl⟩

/-- **C49**, partial, for `SharedCanonicDecoder`. -/
theorem shared_canonic_decoder_checked_partial {d : DecodableCanonic T R RC} {g : Grammar T RC} (hd : DecodesLaw d.decodeCanonic g)
    (hg : g [] = .more) {P : BulkProducer σ UInt8 F E} {c : Script UInt8 F E} {c' : Script T F (DecodeError F E RC)} {used : Nat → Nat}
    {m : Suspension (InvariantSt σ) Unit SharedDecoderOp (SharedDecoderAnswer T F (DecodeError F E RC))} {b : ι → Unit} {s₀ : σ}
    {st : Shared ι (InvariantSt σ) Unit SharedDecoderOp (SharedDecoderAnswer T F (DecodeError F E RC)) m.κ}
    (hI : m.Implements (sharedCanonicDecoder d (invariantBulkProducer P))) (hP : BulkPlays P s₀ c) (hc : Decodes g c c' used)
    (h : Shared.Reachable (sharedCanonicDecoder d (invariantBulkProducer P)) m (Shared.init (.new s₀) b) st)
    (hval : ∀ e ∈ st.finished, e.2.2.Continues) (ho : st.owner = none) {op : SharedDecoderOp}
    {run : InvariantSt σ → Outcome (InvariantSt σ × SharedDecoderAnswer T F (DecodeError F E RC))}
    (hop : sharedCanonicDecoder d (invariantBulkProducer P) () op = .locked run) : ∃ s a, run st.shared = ok (s, a) := by
  have e : sharedCanonicDecoder d (invariantBulkProducer P) = sharedDecoder ⟨d.decodeCanonic⟩ (invariantBulkProducer P) := by
    funext u op; cases op <;> rfl
  rw [e] at hI h hop
  exact shared_decoder_checked_partial (d := ⟨d.decodeCanonic⟩) hd hg hI hP hc h hval ho hop

example : ∃ m, ∃ st : Shared Bool _ Unit _ _ m.κ,
    Shared.Reachable (sharedCanonicDecoder Case.flagDecodable (invariantBulkProducer Case.bytes)) m
      (Shared.init (.new (Case.from_ [1, 7] (.ok 5))) fun _ => ()) st ∧
    st.finished.length = 1 ∧
    ∃ s a, withAnswer SharedDecoderAnswer.produced (decoderProduce Case.flagDecodable.decodeCanonic
      (invariantBulkProducer Case.bytes)) st.shared = ok (s, a) := by
  obtain ⟨s, h, _⟩ := Case.decoders (d := ⟨Case.flagDecodable.decodeCanonic⟩) Case.flag_decodes_canonic rfl
    (producer_invariant_plays (Case.from_plays [1, 7] (.ok 5)))
    (Case.flag_decodes_all (.ok 5)) (fun n => n == 0) 1 (fun i hi => match i, hi with | 0, _ => ⟨_, rfl⟩)
  have e : sharedDecoder ⟨Case.flagDecodable.decodeCanonic⟩ (invariantBulkProducer Case.bytes) =
      sharedCanonicDecoder Case.flagDecodable (invariantBulkProducer Case.bytes) := by
    funext u op; cases op <;> rfl
  rw [e] at h
  obtain ⟨st, h1, h2, _, h3, _⟩ := h.reachable
  exact ⟨_, st, h1, by rw [h3]; rfl, shared_canonic_decoder_checked_partial Case.flag_decodes_canonic rfl
    (Suspension.chaotic_implements _) (Case.from_plays [1, 7] (.ok 5)) (Case.flag_decodes_all (.ok 5)) h1
    (by rw [h3]; simp [List.range, List.range.loop, Script.ofList, SharedDecoderAnswer.Continues]) h2 (op := .produce) rfl⟩

/-- **C49**, partial, for `SharedRelativeDecoder`. -/
theorem shared_relative_decoder_checked_partial {d : RelativeDecodable T Rel R} {borrow : B → Rel} {g : Rel → Grammar T R}
    (hd : ∀ r, DecodesLaw (d.relativeDecode r) (g r)) (hg : ∀ r, g r [] = .more) {P : BulkProducer σ UInt8 F E}
    {c : Script UInt8 F E} (hdec : ∀ r n, (∀ i, i < n → ∃ x, c i = .ok (.inl x)) → ∃ a k, DecodesNext (g r) (c.drop n) a k)
    {m : Suspension (InvariantSt σ) B (SharedRelativeDecoderOp B) (SharedDecoderAnswer T F (DecodeError F E R))} {b : ι → B} {s₀ : σ}
    {st : Shared ι (InvariantSt σ) B (SharedRelativeDecoderOp B) (SharedDecoderAnswer T F (DecodeError F E R)) m.κ}
    (hI : m.Implements (sharedRelativeDecoder d borrow (invariantBulkProducer P))) (hP : BulkPlays P s₀ c)
    (h : Shared.Reachable (sharedRelativeDecoder d borrow (invariantBulkProducer P)) m (Shared.init (.new s₀) b) st)
    (hval : ∀ e ∈ st.finished, e.2.2.Continues) (ho : st.owner = none) {r : B} {op : SharedRelativeDecoderOp B}
    {run : InvariantSt σ → Outcome (InvariantSt σ × SharedDecoderAnswer T F (DecodeError F E R))}
    (hop : sharedRelativeDecoder d borrow (invariantBulkProducer P) r op = .locked run) : ∃ s a, run st.shared = ok (s, a) := by
  obtain ⟨s, h⟩ := h.inv hI
  obtain ⟨n, h0, _, h2⟩ := sharedRelativeDecoder_serial hd hg (producer_invariant_plays hP) hdec h.serial (continues_noSlurpError hval)
    fun i op r hr => continues_produced hval hr
  rw [h.free ho]
  obtain ⟨a, k, hk⟩ := hdec (borrow r) n h0
  cases op with
  | produce =>
    cases hop
    obtain ⟨s, h3, _⟩ := decoderProduce_spec (hd _) (hg _) h2 hk
    exact ⟨s, _, withAnswer_ok h3⟩
  | slurp =>
    cases hop
    obtain ⟨s, ⟨h3, _⟩ | ⟨e, _, h3⟩⟩ := decoderSlurp_spec (hg _) h2 hk
    · exact ⟨s, _, withAnswer_ok h3⟩
    · exact ⟨s, _, withAnswer_ok h3⟩
  | setRelativeTo r => cases hop

/-- One task has set a value and decoded relative to it; another one decodes relative to the initial value. -/
example : ∃ m, ∃ st : Shared Bool _ UInt8 _ _ m.κ,
    Shared.Reachable (sharedRelativeDecoder differenceDecodable id (invariantBulkProducer Case.bytes)) m
      (Shared.init (.new (Case.from_ [249, 1] (.ok 5))) fun _ => 1) st ∧
    st.finished = [(true, .setRelativeTo 10, .unit), (true, .produce, .produced (.ok (.inl 3)))] ∧
    ∃ s a, withAnswer SharedDecoderAnswer.produced (decoderProduce (differenceDecodable.relativeDecode 1)
      (invariantBulkProducer Case.bytes)) st.shared = ok (s, a) := by
  obtain ⟨s, h1, h2⟩ := decoderProduce_spec (difference_decodes 10) rfl
    (producer_invariant_plays (Case.from_plays [249, 1] (.ok 5)))
    (.value (bs := [249]) (x := 3) (Script.ofList_startsWith [249, 1] (.ok 5)).left (difference_encoding 10 3))
  have r : Serial (sharedRelativeDecoder differenceDecodable id (invariantBulkProducer Case.bytes)) (fun _ : Bool => 1)
    (.new (Case.from_ [249, 1] (.ok 5))) [] (fun _ => 1) (.new (Case.from_ [249, 1] (.ok 5))) := .nil
  have r := r.immediate (i := true) (op := .setRelativeTo 10) rfl
  have r := r.locked (i := true) (op := .produce) rfl (s₂ := s) (a := .produced (.ok (.inl 3))) (withAnswer_ok h1)
  obtain ⟨st, h4, h5, _, h6, _⟩ := r.reachable
  exact ⟨_, st, h4, h6, shared_relative_decoder_checked_partial difference_decodes (fun _ => rfl) Case.difference_decodes_next
    (Suspension.chaotic_implements _) (Case.from_plays [249, 1] (.ok 5)) h4
    (by rw [h6]; simp [SharedDecoderAnswer.Continues]) h5 (r := 1) (op := .produce) rfl⟩

/-- **C49**, partial, for `SharedRelativeCanonicDecoder`. -/
theorem shared_relative_canonic_decoder_checked_partial {d : RelativeDecodableCanonic T Rel R RC} {borrow : B → Rel}
    {g : Rel → Grammar T RC} (hd : ∀ r, DecodesLaw (d.relativeDecodeCanonic r) (g r)) (hg : ∀ r, g r [] = .more)
    {P : BulkProducer σ UInt8 F E} {c : Script UInt8 F E}
    (hdec : ∀ r n, (∀ i, i < n → ∃ x, c i = .ok (.inl x)) → ∃ a k, DecodesNext (g r) (c.drop n) a k)
    {m : Suspension (InvariantSt σ) B (SharedRelativeDecoderOp B) (SharedDecoderAnswer T F (DecodeError F E RC))} {b : ι → B} {s₀ : σ}
    {st : Shared ι (InvariantSt σ) B (SharedRelativeDecoderOp B) (SharedDecoderAnswer T F (DecodeError F E RC)) m.κ}
    (hI : m.Implements (sharedRelativeCanonicDecoder d borrow (invariantBulkProducer P))) (hP : BulkPlays P s₀ c)
    (h : Shared.Reachable (sharedRelativeCanonicDecoder d borrow (invariantBulkProducer P)) m (Shared.init (.new s₀) b) st)
    (hval : ∀ e ∈ st.finished, e.2.2.Continues) (ho : st.owner = none) {r : B} {op : SharedRelativeDecoderOp B}
    {run : InvariantSt σ → Outcome (InvariantSt σ × SharedDecoderAnswer T F (DecodeError F E RC))}
    (hop : sharedRelativeCanonicDecoder d borrow (invariantBulkProducer P) r op = .locked run) :
    ∃ s a, run st.shared = ok (s, a) := by
  have e : sharedRelativeCanonicDecoder d borrow (invariantBulkProducer P) =
      sharedRelativeDecoder ⟨d.relativeDecodeCanonic⟩ borrow (invariantBulkProducer P) := by
    funext u op; cases op <;> rfl
  rw [e] at hI h hop
  exact shared_relative_decoder_checked_partial (d := ⟨d.relativeDecodeCanonic⟩) hd hg hdec hI hP h hval ho hop

example : ∃ m, ∃ st : Shared Bool _ UInt8 _ _ m.κ,
    Shared.Reachable (sharedRelativeCanonicDecoder ⟨differenceDecodable, id, differenceDecodable.relativeDecode⟩ id
      (invariantBulkProducer Case.bytes)) m (Shared.init (.new (Case.from_ [249, 1] (.ok 5))) fun _ => 1) st ∧
    st.finished = [(true, .setRelativeTo 10, .unit)] ∧
    ∃ s a, withAnswer SharedDecoderAnswer.produced (decoderProduce (differenceDecodable.relativeDecode 1)
      (invariantBulkProducer Case.bytes)) st.shared = ok (s, a) := by
  have r : Serial (sharedRelativeCanonicDecoder ⟨differenceDecodable, id, differenceDecodable.relativeDecode⟩ id
    (invariantBulkProducer Case.bytes)) (fun _ : Bool => 1)
    (.new (Case.from_ [249, 1] (.ok 5))) [] (fun _ => 1) (.new (Case.from_ [249, 1] (.ok 5))) := .nil
  have r := r.immediate (i := true) (op := .setRelativeTo 10) rfl
  obtain ⟨st, h4, h5, _, h6, _⟩ := r.reachable
  exact ⟨_, st, h4, h6, shared_relative_canonic_decoder_checked_partial (g := differenceGrammar) difference_decodes (fun _ => rfl)
    Case.difference_decodes_next (Suspension.chaotic_implements _) (Case.from_plays [249, 1] (.ok 5)) h4
    (by rw [h6]; simp [SharedDecoderAnswer.Continues]) h5 (r := 1) (op := .produce) rfl⟩

/-- After the final value, or after an error of `slurp`, no call of any `SharedDecoder` returns, because the shared producer panics.
So at most one task gets the final value. -/
theorem shared_decoder_ends (d : Decodable T R) (P : BulkProducer σ UInt8 F E)
    {m : Suspension (InvariantSt σ) Unit SharedDecoderOp (SharedDecoderAnswer T F (DecodeError F E R))} {b : ι → Unit}
    {s₀ : InvariantSt σ} {st : Shared ι (InvariantSt σ) Unit SharedDecoderOp (SharedDecoderAnswer T F (DecodeError F E R)) m.κ}
    (hI : m.Implements (sharedDecoder d (invariantBulkProducer P)))
    (h : Shared.Reachable (sharedDecoder d (invariantBulkProducer P)) m (Shared.init s₀ b) st)
    {l₁ l₂ : List (ι × SharedDecoderOp × SharedDecoderAnswer T F (DecodeError F E R))} {i : ι} {op : SharedDecoderOp}
    {a : SharedDecoderAnswer T F (DecodeError F E R)} (hl : st.finished = l₁ ++ (i, op, a) :: l₂) (ha : a.Ends) :
    l₂ = [] ∧ (st.owner = none → ∀ op run, sharedDecoder d (invariantBulkProducer P) () op = .locked run →
      run st.shared = .panic) := by
  obtain ⟨s, h⟩ := h.inv hI
  have hpanic : ∀ {b op run} {s : InvariantSt σ}, sharedDecoder d (invariantBulkProducer P) b op = .locked run →
      s.active = false → run s = .panic := by
    intro b op run s hm hs
    cases op <;> cases hm
    · exact withAnswer_panic (decoderProduce_inactive _ _ hs)
    · exact withAnswer_panic (decoderSlurp_inactive _ hs)
  obtain ⟨h1, h2⟩ := h.serial.ended (End := fun _ a => a.Ends) hpanic
    (by
      intro b op run s s' a hm hr he
      cases op <;> cases hm
      · obtain ⟨r, hr', rfl⟩ := withAnswer_eq_ok hr
        rcases r with e | x | f
        · cases he
        · cases he
        · exact decoderProduce_final hr'
      · obtain ⟨r, hr', rfl⟩ := withAnswer_eq_ok hr
        rcases r with e | u
        · exact decoderSlurp_error hr'
        · cases he)
    (by intro b op x a hm; cases op <;> cases hm)
  refine ⟨?_, fun ho op' run hm => ?_⟩
  · cases l₂ with
    | nil => rfl
    | cons e l₂ =>
      obtain ⟨b, x, hm⟩ := h2 l₁ (e :: l₂) i op a hl ha e (by simp)
      obtain ⟨j, op', a'⟩ := e
      cases op' <;> cases hm
  · rw [h.free ho]
    exact hpanic hm (h1 i op a (by rw [hl]; simp) ha)

/-- There are no bytes; one task has got the final value, and if another one calls `produce` then the producer panics. -/
example : ∃ m, ∃ st : Shared Bool _ Unit _ _ m.κ,
    Shared.Reachable (sharedDecoder Case.flagDecodable.toDecodable (invariantBulkProducer Case.bytes)) m
      (Shared.init (.new (Case.from_ [] (.ok 5))) fun _ => ()) st ∧
    st.finished = [(true, .produce, .produced (.ok (.inr 5)))] ∧
    withAnswer SharedDecoderAnswer.produced (decoderProduce Case.flagDecodable.decode (invariantBulkProducer Case.bytes)) st.shared =
      .panic := by
  have r : Serial (sharedDecoder Case.flagDecodable.toDecodable (invariantBulkProducer Case.bytes)) (fun _ : Bool => ())
    (.new (Case.from_ [] (.ok 5))) [] (fun _ => ()) (.new (Case.from_ [] (.ok 5))) := .nil
  obtain ⟨s, h1, _⟩ := decoderProduce_spec Case.flag_decodes rfl (producer_invariant_plays (Case.from_plays [] (.ok 5)))
    (.final (n := 0) rfl)
  have r := r.locked (i := true) (op := .produce) rfl (s₂ := s) (a := .produced (.ok (.inr 5))) (withAnswer_ok h1)
  obtain ⟨st, h4, h5, _, h6, _⟩ := r.reachable
  exact ⟨_, st, h4, h6, (shared_decoder_ends _ _ (Suspension.chaotic_implements _) h4 (l₁ := []) h6 trivial).2 h5 .produce _ rfl⟩

/-- The same for `SharedCanonicDecoder`. -/
theorem shared_canonic_decoder_ends (d : DecodableCanonic T R RC) (P : BulkProducer σ UInt8 F E)
    {m : Suspension (InvariantSt σ) Unit SharedDecoderOp (SharedDecoderAnswer T F (DecodeError F E RC))} {b : ι → Unit}
    {s₀ : InvariantSt σ} {st : Shared ι (InvariantSt σ) Unit SharedDecoderOp (SharedDecoderAnswer T F (DecodeError F E RC)) m.κ}
    (hI : m.Implements (sharedCanonicDecoder d (invariantBulkProducer P)))
    (h : Shared.Reachable (sharedCanonicDecoder d (invariantBulkProducer P)) m (Shared.init s₀ b) st)
    {l₁ l₂ : List (ι × SharedDecoderOp × SharedDecoderAnswer T F (DecodeError F E RC))} {i : ι} {op : SharedDecoderOp}
    {a : SharedDecoderAnswer T F (DecodeError F E RC)} (hl : st.finished = l₁ ++ (i, op, a) :: l₂) (ha : a.Ends) :
    l₂ = [] ∧ (st.owner = none → ∀ op run, sharedCanonicDecoder d (invariantBulkProducer P) () op = .locked run →
      run st.shared = .panic) := by
  have e : sharedCanonicDecoder d (invariantBulkProducer P) = sharedDecoder ⟨d.decodeCanonic⟩ (invariantBulkProducer P) := by
    funext u op; cases op <;> rfl
  rw [e] at hI h ⊢
  exact shared_decoder_ends ⟨d.decodeCanonic⟩ P hI h hl ha

example : ∃ m, ∃ st : Shared Bool _ Unit _ _ m.κ,
    Shared.Reachable (sharedCanonicDecoder Case.flagDecodable (invariantBulkProducer Case.bytes)) m
      (Shared.init (.new (Case.from_ [] (.ok 5))) fun _ => ()) st ∧
    st.finished = [(true, .produce, .produced (.ok (.inr 5)))] ∧
    withAnswer SharedDecoderAnswer.produced (decoderProduce Case.flagDecodable.decodeCanonic (invariantBulkProducer Case.bytes)) st.shared =
      .panic := by
  have r : Serial (sharedCanonicDecoder Case.flagDecodable (invariantBulkProducer Case.bytes)) (fun _ : Bool => ())
    (.new (Case.from_ [] (.ok 5))) [] (fun _ => ()) (.new (Case.from_ [] (.ok 5))) := .nil
  obtain ⟨s, h1, _⟩ := decoderProduce_spec Case.flag_decodes_canonic rfl (producer_invariant_plays (Case.from_plays [] (.ok 5)))
    (.final (n := 0) rfl)
  have r := r.locked (i := true) (op := .produce) rfl (s₂ := s) (a := .produced (.ok (.inr 5))) (withAnswer_ok h1)
  obtain ⟨st, h4, h5, _, h6, _⟩ := r.reachable
  exact ⟨_, st, h4, h6, (shared_canonic_decoder_ends _ _ (Suspension.chaotic_implements _) h4 (l₁ := []) h6 trivial).2 h5 .produce _ rfl⟩

/-- The same for `SharedRelativeDecoder`, where `set_relative_to` can still be called. -/
theorem shared_relative_decoder_ends (d : RelativeDecodable T Rel R) (borrow : B → Rel) (P : BulkProducer σ UInt8 F E)
    {m : Suspension (InvariantSt σ) B (SharedRelativeDecoderOp B) (SharedDecoderAnswer T F (DecodeError F E R))} {b : ι → B}
    {s₀ : InvariantSt σ} {st : Shared ι (InvariantSt σ) B (SharedRelativeDecoderOp B) (SharedDecoderAnswer T F (DecodeError F E R)) m.κ}
    (hI : m.Implements (sharedRelativeDecoder d borrow (invariantBulkProducer P)))
    (h : Shared.Reachable (sharedRelativeDecoder d borrow (invariantBulkProducer P)) m (Shared.init s₀ b) st)
    {l₁ l₂ : List (ι × SharedRelativeDecoderOp B × SharedDecoderAnswer T F (DecodeError F E R))} {i : ι}
    {op : SharedRelativeDecoderOp B} {a : SharedDecoderAnswer T F (DecodeError F E R)} (hl : st.finished = l₁ ++ (i, op, a) :: l₂)
    (ha : a.Ends) :
    (∀ e ∈ l₂, ∃ r, e.2 = (.setRelativeTo r, .unit)) ∧
    (st.owner = none → ∀ r op run, sharedRelativeDecoder d borrow (invariantBulkProducer P) r op = .locked run →
      run st.shared = .panic) := by
  obtain ⟨s, h⟩ := h.inv hI
  have hpanic : ∀ {b op run} {s : InvariantSt σ}, sharedRelativeDecoder d borrow (invariantBulkProducer P) b op = .locked run →
      s.active = false → run s = .panic := by
    intro b op run s hm hs
    cases op <;> cases hm
    · exact withAnswer_panic (decoderProduce_inactive _ _ hs)
    · exact withAnswer_panic (decoderSlurp_inactive _ hs)
  obtain ⟨h1, h2⟩ := h.serial.ended (End := fun _ a => a.Ends) hpanic
    (by
      intro b op run s s' a hm hr he
      cases op <;> cases hm
      · obtain ⟨r, hr', rfl⟩ := withAnswer_eq_ok hr
        rcases r with e | x | f
        · cases he
        · cases he
        · exact decoderProduce_final hr'
      · obtain ⟨r, hr', rfl⟩ := withAnswer_eq_ok hr
        rcases r with e | u
        · exact decoderSlurp_error hr'
        · cases he)
    (by intro b op x a hm he; cases op <;> cases hm; cases he)
  refine ⟨fun e he => ?_, fun ho r op' run hm => ?_⟩
  · obtain ⟨b, x, hm⟩ := h2 l₁ l₂ i op a hl ha e he
    obtain ⟨j, op', a'⟩ := e
    cases op' <;> cases hm
    exact ⟨_, rfl⟩
  · rw [h.free ho]
    exact hpanic hm (h1 i op a (by rw [hl]; simp) ha)

example : ∃ m, ∃ st : Shared Bool _ UInt8 _ _ m.κ,
    Shared.Reachable (sharedRelativeDecoder differenceDecodable id (invariantBulkProducer Case.bytes)) m
      (Shared.init (.new (Case.from_ [] (.ok 5))) fun _ => 1) st ∧
    st.finished = [(true, .produce, .produced (.ok (.inr 5)))] ∧
    withAnswer SharedDecoderAnswer.produced (decoderProduce (differenceDecodable.relativeDecode 1) (invariantBulkProducer Case.bytes)) st.shared =
      .panic := by
  have r : Serial (sharedRelativeDecoder differenceDecodable id (invariantBulkProducer Case.bytes)) (fun _ : Bool => 1)
    (.new (Case.from_ [] (.ok 5))) [] (fun _ => 1) (.new (Case.from_ [] (.ok 5))) := .nil
  obtain ⟨s, h1, _⟩ := decoderProduce_spec (difference_decodes 1) rfl (producer_invariant_plays (Case.from_plays [] (.ok 5)))
    (.final (n := 0) rfl)
  have r := r.locked (i := true) (op := .produce) rfl (s₂ := s) (a := .produced (.ok (.inr 5))) (withAnswer_ok h1)
  obtain ⟨st, h4, h5, _, h6, _⟩ := r.reachable
  exact ⟨_, st, h4, h6, (shared_relative_decoder_ends _ _ _ (Suspension.chaotic_implements _) h4 (l₁ := []) h6 trivial).2 h5 1 .produce _ rfl⟩

/-- The same for `SharedRelativeCanonicDecoder`. -/
theorem shared_relative_canonic_decoder_ends (d : RelativeDecodableCanonic T Rel R RC) (borrow : B → Rel)
    (P : BulkProducer σ UInt8 F E)
    {m : Suspension (InvariantSt σ) B (SharedRelativeDecoderOp B) (SharedDecoderAnswer T F (DecodeError F E RC))} {b : ι → B}
    {s₀ : InvariantSt σ} {st : Shared ι (InvariantSt σ) B (SharedRelativeDecoderOp B) (SharedDecoderAnswer T F (DecodeError F E RC)) m.κ}
    (hI : m.Implements (sharedRelativeCanonicDecoder d borrow (invariantBulkProducer P)))
    (h : Shared.Reachable (sharedRelativeCanonicDecoder d borrow (invariantBulkProducer P)) m (Shared.init s₀ b) st)
    {l₁ l₂ : List (ι × SharedRelativeDecoderOp B × SharedDecoderAnswer T F (DecodeError F E RC))} {i : ι}
    {op : SharedRelativeDecoderOp B} {a : SharedDecoderAnswer T F (DecodeError F E RC)} (hl : st.finished = l₁ ++ (i, op, a) :: l₂)
    (ha : a.Ends) :
    (∀ e ∈ l₂, ∃ r, e.2 = (.setRelativeTo r, .unit)) ∧
    (st.owner = none → ∀ r op run, sharedRelativeCanonicDecoder d borrow (invariantBulkProducer P) r op = .locked run →
      run st.shared = .panic) := by
  have e : sharedRelativeCanonicDecoder d borrow (invariantBulkProducer P) =
      sharedRelativeDecoder ⟨d.relativeDecodeCanonic⟩ borrow (invariantBulkProducer P) := by
    funext u op; cases op <;> rfl
  rw [e] at hI h ⊢
  exact shared_relative_decoder_ends ⟨d.relativeDecodeCanonic⟩ borrow P hI h hl ha

example : ∃ m, ∃ st : Shared Bool _ UInt8 _ _ m.κ,
    Shared.Reachable (sharedRelativeCanonicDecoder ⟨differenceDecodable, id, differenceDecodable.relativeDecode⟩ id (invariantBulkProducer Case.bytes)) m
      (Shared.init (.new (Case.from_ [] (.ok 5))) fun _ => 1) st ∧
    st.finished = [(true, .produce, .produced (.ok (.inr 5)))] ∧
    withAnswer SharedDecoderAnswer.produced (decoderProduce (differenceDecodable.relativeDecode 1) (invariantBulkProducer Case.bytes)) st.shared =
      .panic := by
  have r : Serial (sharedRelativeCanonicDecoder ⟨differenceDecodable, id, differenceDecodable.relativeDecode⟩ id (invariantBulkProducer Case.bytes)) (fun _ : Bool => 1)
    (.new (Case.from_ [] (.ok 5))) [] (fun _ => 1) (.new (Case.from_ [] (.ok 5))) := .nil
  obtain ⟨s, h1, _⟩ := decoderProduce_spec (difference_decodes 1) rfl (producer_invariant_plays (Case.from_plays [] (.ok 5)))
    (.final (n := 0) rfl)
  have r := r.locked (i := true) (op := .produce) rfl (s₂ := s) (a := .produced (.ok (.inr 5))) (withAnswer_ok h1)
  obtain ⟨st, h4, h5, _, h6, _⟩ := r.reachable
  exact ⟨_, st, h4, h6, (shared_relative_canonic_decoder_ends _ _ _ (Suspension.chaotic_implements _) h4 (l₁ := []) h6 trivial).2 h5 1 .produce _ rfl⟩

end

end Verif
