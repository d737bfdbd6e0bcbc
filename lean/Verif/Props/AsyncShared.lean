import Verif.Lemmas.AsyncShared
import Verif.Props.AsyncCodec
import Verif.Props.Shared
import Verif.Props.AsyncTransfer

/-!
# Shared adaptors, poll by poll (C62)

`suspension method` has the suspension points that the futures of the methods really have: where a future of the codec, producer
or consumer inside is pending. Thus the theorems of `Verif/Props/Shared.lean`, which are about arbitrary suspension points, hold.
-/

namespace Verif.Async

open Outcome

/-! ## All shared adaptors -/

section

variable {ι σ β Op A : Type} [DecidableEq ι] {method : β → Op → SharedMethod σ β A} {b : ι → β} {s₀ : σ}
  {st : Shared ι σ β Op A (suspension method).κ}

/-- C43, C44, poll by poll: any interleaving of the polls of the tasks amounts to a sequential execution of the completed calls. -/
theorem shared_polled_linearizable
    (h : Shared.Reachable (fun b op => (method b op).seq) (suspension method) (Shared.init s₀ b) st) :
    (∃ s, Serial (fun b op => (method b op).seq) b s₀ st.finished st.fields s ∧ (st.owner = none → st.shared = s)) ∧
    ∀ i, st.called i = callsOf i st.finished ++ (st.phase i).current := by
  obtain ⟨⟨s, h1, h2, _⟩, h3⟩ := shared_linearizable (suspension_implements method) h
  exact ⟨⟨s, h1, h2⟩, h3⟩

/-- A critical section whose future does not panic can be polled. -/
theorem suspension_progress {b : β} {op : Op} {run : σ → Outcome (σ × A)} (hm : (method b op).seq = .locked run) {s s₁ : σ}
    {k : (suspension method).κ} (hp : (suspension method).Path ((suspension method).start b op) s k s₁) {x : σ × A}
    (hr : run s = ok x) :
    (∃ k', ∀ s', (suspension method).step k s₁ k' s') ∨ ∃ a s', (suspension method).ret k s₁ a s' := by
  have hb := suspension_begun hp
  have hx : ∃ x, Critical.current k s₁ = some x := by
    rcases hb with ⟨rfl, rfl⟩ | ⟨k₀, rfl, _⟩
    · obtain ⟨k, hk⟩ := SharedMethod.start_some _ hm s₁
      exact ⟨⟨s₁, k⟩, by simp only [Critical.current, hk, Option.map]⟩
    · exact ⟨_, rfl⟩
  obtain ⟨⟨s', k'⟩, hx⟩ := hx
  obtain ⟨⟨rfl, rfl⟩, rfl, h1⟩ := hb.current hx
  rcases Fut.runFrom_ok ((h1 run hm).trans hr) with ⟨k'', hq⟩ | ⟨⟨s'', a⟩, hq⟩
  · exact .inl ⟨_, fun _ => ⟨_, k'', hx, hq, rfl⟩⟩
  · exact .inr ⟨a, s'', _, hx, hq⟩

/-- A call that would return if it was executed on its own can be completed, by polling it. -/
theorem shared_polled_completes (h : Shared.Reachable (fun b op => (method b op).seq) (suspension method) (Shared.init s₀ b) st)
    {i : ι} {op : Op} {run : σ → Outcome (σ × A)} (hi : st.phase i = .idle) (ho : st.owner = none)
    (hm : (method (st.fields i) op).seq = .locked run) {s' : σ} {a : A} (hr : run st.shared = ok (s', a)) :
    ∃ st', Shared.Reachable (fun b op => (method b op).seq) (suspension method) (Shared.init s₀ b) st' ∧ st'.owner = none ∧
      st'.shared = s' ∧ st'.phase = st.phase ∧ st'.fields = st.fields ∧ st'.finished = st.finished ++ [(i, op, a)] := by
  have done : ∀ (st₁ : Shared ι σ β Op A (suspension method).κ) (k : (suspension method).κ),
      Shared.Reachable (fun b op => (method b op).seq) (suspension method) (Shared.init s₀ b) st₁ →
      st₁.phase = setAt st.phase i (.running op k) → st₁.fields = st.fields → st₁.finished = st.finished →
      (suspension method).ret k st₁.shared a s' →
      ∃ st', Shared.Reachable (fun b op => (method b op).seq) (suspension method) (Shared.init s₀ b) st' ∧ st'.owner = none ∧
        st'.shared = s' ∧ st'.phase = st.phase ∧ st'.fields = st.fields ∧ st'.finished = st.finished ++ [(i, op, a)] := by
    intro st₁ k h1 h2 h3 h4 h5
    refine ⟨_, h1.snoc (.ret i op k a s' (by rw [h2, setAt_same]) h5), rfl, rfl, ?_, h3, by rw [← h4]⟩
    funext j
    dsimp only
    by_cases hj : j = i
    · rw [hj, setAt_same, hi]
    · rw [setAt_ne _ _ hj, h2, setAt_ne _ _ hj]
  have key : ∀ n s (k : (method (st.fields i) op).κ s) (st₁ : Shared ι σ β Op A (suspension method).κ),
      Fut.Ends ((method (st.fields i) op).poll s) k n (s', a) →
      Shared.Reachable (fun b op => (method b op).seq) (suspension method) (Shared.init s₀ b) st₁ →
      st₁.phase = setAt st.phase i (.running op ⟨st.fields i, op, some ⟨s, k⟩⟩) → st₁.fields = st.fields →
      st₁.finished = st.finished →
      ∃ st', Shared.Reachable (fun b op => (method b op).seq) (suspension method) (Shared.init s₀ b) st' ∧ st'.owner = none ∧
        st'.shared = s' ∧ st'.phase = st.phase ∧ st'.fields = st.fields ∧ st'.finished = st.finished ++ [(i, op, a)] := by
    intro n s
    induction n with
    | zero =>
      intro k st₁ hk h1 h2 h3 h4
      cases hk with
      | ready hp => exact done st₁ _ h1 h2 h3 h4 ⟨⟨s, k⟩, rfl, hp⟩
    | succ n ih =>
      intro k st₁ hk h1 h2 h3 h4
      cases hk with
      | @pending _ k' _ _ hp hk =>
        have hs : (suspension method).step (⟨st.fields i, op, some ⟨s, k⟩⟩ : Critical method) st₁.shared
            (⟨st.fields i, op, some ⟨s, k'⟩⟩ : Critical method) st₁.shared := ⟨⟨s, k⟩, k', rfl, hp, rfl⟩
        refine ih k' _ hk (h1.snoc (.step i op _ _ _ (by rw [h2, setAt_same]) hs)) ?_ h3 h4
        funext j
        dsimp only
        by_cases hj : j = i
        · rw [hj, setAt_same, setAt_same]
        · rw [setAt_ne _ _ hj, setAt_ne _ _ hj, h2, setAt_ne _ _ hj]
  have h1 := h.snoc (.call i op run hi hm)
  have h2 := h1.snoc (.acquire i op (setAt_same _ _ _) ho)
  obtain ⟨k, hk⟩ := SharedMethod.start_some _ hm st.shared
  have hr' := SharedMethod.runFrom_start _ hk hm
  rw [hr] at hr'
  obtain ⟨n, hn⟩ := Fut.runFrom_ok_iff.mp hr'
  have hset : ∀ x y : Phase (suspension method).κ Op, setAt (setAt st.phase i x) i y = setAt st.phase i y := by
    intro x y
    funext j
    by_cases hj : j = i
    · rw [hj, setAt_same, setAt_same]
    · rw [setAt_ne _ _ hj, setAt_ne _ _ hj, setAt_ne _ _ hj]
  have hcur : Critical.current (⟨st.fields i, op, none⟩ : Critical method) st.shared = some ⟨st.shared, k⟩ := by
    simp only [Critical.current, hk, Option.map]
  cases hn with
  | ready hp => exact done _ _ h2 (hset _ _) rfl rfl ⟨_, hcur, hp⟩
  | @pending _ k' n _ hp hk' =>
    have hs : (suspension method).step (⟨st.fields i, op, none⟩ : Critical method) st.shared
        (⟨st.fields i, op, some ⟨st.shared, k'⟩⟩ : Critical method) st.shared := ⟨_, k', hcur, hp, rfl⟩
    refine key n st.shared k' _ hk' (h2.snoc (.step i op _ _ st.shared (setAt_same _ _ _) hs)) ?_ rfl rfl
    dsimp only
    rw [hset, hset]

/-- The tasks never block each other, provided that the call that has the lock would return if it was executed on its own, after
the completed calls. -/
theorem shared_polled_no_deadlock
    (h : Shared.Reachable (fun b op => (method b op).seq) (suspension method) (Shared.init s₀ b) st)
    (hr : ∀ j op k run s, st.phase j = .running op k → (method (st.fields j) op).seq = .locked run →
      Serial (fun b op => (method b op).seq) b s₀ st.finished st.fields s → ∃ x, run s = ok x) {i : ι}
    (hi : st.phase i ≠ .idle) (hi' : ∀ op, st.phase i ≠ .gone op) :
    ∃ st' j op k, Shared.Step (fun b op => (method b op).seq) (suspension method) st st' ∧ st'.called = st.called ∧
      (st.phase j = .waiting op ∧ st'.phase j = .running op k ∨ st.phase j = .running op k) := by
  obtain ⟨s, h⟩ := h.inv (suspension_implements method)
  cases ho : st.owner with
  | some j =>
    obtain ⟨op, k, run, h1, h2, h3⟩ := h.held j ho
    obtain ⟨x, hx⟩ := hr j op k run s h1 h2 h.serial
    rcases suspension_progress h2 h3 hx with ⟨k', h4⟩ | ⟨a, s', h4⟩
    · exact ⟨_, j, op, k, .step j op k k' st.shared h1 (h4 st.shared), rfl, .inr h1⟩
    · exact ⟨_, j, op, k, .ret j op k a s' h1 h4, rfl, .inr h1⟩
  | none =>
    cases hp : st.phase i with
    | idle => exact absurd hp hi
    | gone op => exact absurd hp (hi' op)
    | waiting op => exact ⟨_, i, op, _, .acquire i op hp ho, rfl, .inl ⟨hp, setAt_same _ _ _⟩⟩
    | running op k => have := h.mutex i op k hp; rw [ho] at this; cases this

/-- Every sequential execution can happen. -/
theorem shared_polled_realizable {b' : ι → β} {s : σ} {l : List (ι × Op × A)}
    (h : Serial (fun b op => (method b op).seq) b s₀ l b' s) :
    ∃ st, Shared.Reachable (fun b op => (method b op).seq) (suspension method) (Shared.init s₀ b) st ∧ st.owner = none ∧
      (∀ i, st.phase i = .idle) ∧ st.finished = l ∧ st.fields = b' ∧ st.shared = s := by
  induction h with
  | nil => exact ⟨_, .refl, rfl, fun _ => rfl, rfl, rfl, rfl⟩
  | @locked l b₁ s₁ i op run a s₂ _ hm hr ih =>
    obtain ⟨st, h1, h2, h3, rfl, rfl, rfl⟩ := ih
    obtain ⟨st', h4, h5, h6, h7, h8, h9⟩ := shared_polled_completes h1 (h3 i) h2 hm hr
    exact ⟨st', h4, h5, fun j => by rw [h7, h3], h9, h8, h6⟩
  | @immediate l b₁ s₁ i op x a _ hm ih =>
    obtain ⟨st, h1, h2, h3, rfl, rfl, rfl⟩ := ih
    exact ⟨_, h1.snoc (.immediate i op x a (h3 i) hm), h2, h3, rfl, rfl, rfl⟩

end

/-! ## The adaptors -/

section

variable {ι σ T R RC Rel B F E : Type}

theorem withAnswer_run {A A' : Type} (f : A → A') {run : σ → Fut (σ × A)} {run' : σ → Outcome (σ × A)}
    (h : ∀ s, (run s).run = run' s) (s : σ) : (withAnswer f run s).run = Verif.withAnswer f run' s :=
  Fut.run_bind_congr (h s) fun x => by run_congr

theorem sharedEncoder_seq (t : Encodable T) (ht : EncodeFn.Uniform t.encode) (C : BulkConsumer σ UInt8 F E) (b : Unit)
    (op : SharedEncoderOp T F) : (sharedEncoder t C b op).seq = Verif.sharedEncoder ⟨EncodeFn.seq t.encode⟩ C.seq b op := by
  cases op with
  | consume x => exact congrArg Verif.SharedMethod.locked (funext fun c => ht C c x)
  | close => rfl
  | flush => rfl

theorem sharedDecoder_seq (t : Decodable T R) (ht : DecodeFn.Uniform t.decode) (P : BulkProducer σ UInt8 F E) (b : Unit)
    (op : SharedDecoderOp) : (sharedDecoder t P b op).seq = Verif.sharedDecoder ⟨DecodeFn.seq t.decode⟩ P.seq b op := by
  cases op with
  | produce => exact congrArg Verif.SharedMethod.locked (funext (withAnswer_run _ (decoderProduce_run ht P)))
  | slurp => exact congrArg Verif.SharedMethod.locked (funext (withAnswer_run _ (decoderSlurp_run P)))

theorem sharedCanonicDecoder_seq (t : DecodableCanonic T R RC) (ht : DecodeFn.Uniform t.decodeCanonic)
    (P : BulkProducer σ UInt8 F E) (b : Unit) (op : SharedDecoderOp) :
    (sharedCanonicDecoder t P b op).seq =
      Verif.sharedCanonicDecoder ⟨⟨DecodeFn.seq t.decode⟩, t.errorFrom, DecodeFn.seq t.decodeCanonic⟩ P.seq b op := by
  cases op with
  | produce => exact congrArg Verif.SharedMethod.locked (funext (withAnswer_run _ (decoderProduce_run ht P)))
  | slurp => exact congrArg Verif.SharedMethod.locked (funext (withAnswer_run _ (decoderSlurp_run P)))

theorem sharedRelativeEncoder_seq (t : RelativeEncodable T Rel) (ht : ∀ r, EncodeFn.Uniform (t.relativeEncode r))
    (borrow : B → Rel) (C : BulkConsumer σ UInt8 F E) (b : B) (op : SharedRelativeEncoderOp T F B) :
    (sharedRelativeEncoder t borrow C b op).seq =
      Verif.sharedRelativeEncoder ⟨fun r => EncodeFn.seq (t.relativeEncode r)⟩ borrow C.seq b op := by
  cases op with
  | consume x => exact congrArg Verif.SharedMethod.locked (funext fun c => ht _ C c x)
  | close => rfl
  | flush => rfl
  | setRelativeTo => rfl

theorem sharedRelativeDecoder_seq (t : RelativeDecodable T Rel R) (ht : ∀ r, DecodeFn.Uniform (t.relativeDecode r))
    (borrow : B → Rel) (P : BulkProducer σ UInt8 F E) (b : B) (op : SharedRelativeDecoderOp B) :
    (sharedRelativeDecoder t borrow P b op).seq =
      Verif.sharedRelativeDecoder ⟨fun r => DecodeFn.seq (t.relativeDecode r)⟩ borrow P.seq b op := by
  cases op with
  | produce => exact congrArg Verif.SharedMethod.locked (funext (withAnswer_run _ (decoderProduce_run (ht _) P)))
  | slurp => exact congrArg Verif.SharedMethod.locked (funext (withAnswer_run _ (decoderSlurp_run P)))
  | setRelativeTo => rfl

theorem sharedRelativeCanonicDecoder_seq (t : RelativeDecodableCanonic T Rel R RC)
    (ht : ∀ r, DecodeFn.Uniform (t.relativeDecodeCanonic r)) (borrow : B → Rel) (P : BulkProducer σ UInt8 F E) (b : B)
    (op : SharedRelativeDecoderOp B) :
    (sharedRelativeCanonicDecoder t borrow P b op).seq = Verif.sharedRelativeCanonicDecoder
      ⟨⟨fun r => DecodeFn.seq (t.relativeDecode r)⟩, t.errorFrom, fun r => DecodeFn.seq (t.relativeDecodeCanonic r)⟩
      borrow P.seq b op := by
  cases op with
  | produce => exact congrArg Verif.SharedMethod.locked (funext (withAnswer_run _ (decoderProduce_run (ht _) P)))
  | slurp => exact congrArg Verif.SharedMethod.locked (funext (withAnswer_run _ (decoderSlurp_run P)))
  | setRelativeTo => rfl

variable [DecidableEq ι]

/-- C43, poll by poll: whenever nobody has the lock, the consumer has received exactly the encodings of the values of the completed
calls, in the order of completion. -/
theorem shared_polled_encoder_bytes {t : Encodable T} (ht : EncodeFn.Uniform t.encode) {enc : T → List UInt8}
    {C : BulkConsumer σ UInt8 F E} {D : σ → List UInt8 → Option F → Prop} {q : Policy UInt8 F E} {b : ι → Unit} {s₀ : σ}
    {l : List UInt8} {st : Shared ι σ Unit (SharedEncoderOp T F) (Except E Unit) (suspension (sharedEncoder t C)).κ}
    (he : EncodesLaw (EncodeFn.seq t.encode) enc) (hC : BulkCollects C.seq D q s₀ l)
    (h : Shared.Reachable (fun b op => (sharedEncoder t C b op).seq) (suspension (sharedEncoder t C)) (Shared.init s₀ b) st)
    (hok : ∀ e ∈ st.finished, e.2.2 = .ok ()) :
    (st.owner = none → D st.shared (l ++ encodeAll enc (consumedValues st.finished)) none ∧
      BulkCollects C.seq D q st.shared (l ++ encodeAll enc (consumedValues st.finished))) ∧
    ∀ i, st.called i = callsOf i st.finished ++ (st.phase i).current := by
  have hI := suspension_implements (sharedEncoder t C)
  have hm : (fun b op => (sharedEncoder t C b op).seq) = Verif.sharedEncoder ⟨EncodeFn.seq t.encode⟩ C.seq :=
    funext fun b => funext fun op => sharedEncoder_seq t ht C b op
  rw [hm] at hI h
  exact shared_encoder_bytes he hI hC h hok

/-- C44, poll by poll: the answers to the completed calls are, in the order of completion, the values that the bytes encode. -/
theorem shared_polled_decoder_partition {d : Decodable T R} (ht : DecodeFn.Uniform d.decode) {g : Grammar T R}
    {P : BulkProducer σ UInt8 F E} {c : Script UInt8 F E} {c' : Script T F (DecodeError F E R)} {used : Nat → Nat}
    {b : ι → Unit} {s₀ : σ}
    {st : Shared ι σ Unit SharedDecoderOp (SharedDecoderAnswer T F (DecodeError F E R)) (suspension (sharedDecoder d P)).κ}
    (hd : DecodesLaw (DecodeFn.seq d.decode) g) (hg : g [] = .more) (hP : BulkPlays P.seq s₀ c) (hc : Decodes g c c' used)
    (h : Shared.Reachable (fun b op => (sharedDecoder d P b op).seq) (suspension (sharedDecoder d P)) (Shared.init s₀ b) st)
    (hslurp : NoSlurpError st.finished) (hval : ∀ r ∈ producedAnswers st.finished, ∃ x, r.2 = .ok (.inl x)) :
    (∀ n r, (producedAnswers st.finished)[n]? = some r → r.2 = c' n) ∧
    (st.owner = none → BulkPlays P.seq st.shared (c.drop (used (producedAnswers st.finished).length))) ∧
    ∀ i, st.called i = callsOf i st.finished ++ (st.phase i).current := by
  have hI := suspension_implements (sharedDecoder d P)
  have hm : (fun b op => (sharedDecoder d P b op).seq) = Verif.sharedDecoder ⟨DecodeFn.seq d.decode⟩ P.seq :=
    funext fun b => funext fun op => sharedDecoder_seq d ht P b op
  rw [hm] at hI h
  exact shared_decoder_partition hd hg hI hP hc h hslurp hval

/-- C43 for relative encoders, poll by poll. -/
theorem shared_polled_relative_encoder_bytes {t : RelativeEncodable T Rel} (ht : ∀ r, EncodeFn.Uniform (t.relativeEncode r))
    {borrow : B → Rel} {enc : Rel → T → List UInt8} {C : BulkConsumer σ UInt8 F E} {D : σ → List UInt8 → Option F → Prop}
    {q : Policy UInt8 F E} {b : ι → B} {s₀ : σ} {l : List UInt8}
    {st : Shared ι σ B (SharedRelativeEncoderOp T F B) (Except E Unit) (suspension (sharedRelativeEncoder t borrow C)).κ}
    (he : ∀ r, EncodesLaw (EncodeFn.seq (t.relativeEncode r)) (enc r)) (hC : BulkCollects C.seq D q s₀ l)
    (h : Shared.Reachable (fun b op => (sharedRelativeEncoder t borrow C b op).seq) (suspension (sharedRelativeEncoder t borrow C))
      (Shared.init s₀ b) st)
    (hok : ∀ e ∈ st.finished, e.2.2 = .ok ()) :
    (st.owner = none → D st.shared (l ++ consumedBytes enc borrow b st.finished) none ∧
      BulkCollects C.seq D q st.shared (l ++ consumedBytes enc borrow b st.finished)) ∧
    (∀ i, st.called i = callsOf i st.finished ++ (st.phase i).current) ∧ st.fields = relativeTos b st.finished := by
  have hI := suspension_implements (sharedRelativeEncoder t borrow C)
  have hm : (fun b op => (sharedRelativeEncoder t borrow C b op).seq) =
      Verif.sharedRelativeEncoder ⟨fun r => EncodeFn.seq (t.relativeEncode r)⟩ borrow C.seq :=
    funext fun b => funext fun op => sharedRelativeEncoder_seq t ht borrow C b op
  rw [hm] at hI h
  exact shared_relative_encoder_bytes he hI hC h hok

/-- C44 for relative decoders, poll by poll. -/
theorem shared_polled_relative_decoder_partition {d : RelativeDecodable T Rel R} (ht : ∀ r, DecodeFn.Uniform (d.relativeDecode r))
    {borrow : B → Rel} {g : Rel → Grammar T R}
    (hd : ∀ r, DecodesLaw (DecodeFn.seq (d.relativeDecode r)) (g r)) (hg : ∀ r, g r [] = .more)
    {P : BulkProducer σ UInt8 F E} {c : Script UInt8 F E}
    (hdec : ∀ r n, (∀ i, i < n → ∃ x, c i = .ok (.inl x)) → ∃ a k, DecodesNext (g r) (c.drop n) a k) {b : ι → B} {s₀ : σ}
    {st : Shared ι σ B (SharedRelativeDecoderOp B) (SharedDecoderAnswer T F (DecodeError F E R))
      (suspension (sharedRelativeDecoder d borrow P)).κ}
    (hP : BulkPlays P.seq s₀ c)
    (h : Shared.Reachable (fun b op => (sharedRelativeDecoder d borrow P b op).seq) (suspension (sharedRelativeDecoder d borrow P))
      (Shared.init s₀ b) st)
    (hslurp : NoSlurpError st.finished) (hval : ∀ i op r, (i, op, .produced r) ∈ st.finished → ∃ x, r = .ok (.inl x)) :
    (∃ n, DecodedRelative g borrow b c st.finished st.fields (c.drop n) ∧
      (st.owner = none → BulkPlays P.seq st.shared (c.drop n))) ∧
    ∀ i, st.called i = callsOf i st.finished ++ (st.phase i).current := by
  have hI := suspension_implements (sharedRelativeDecoder d borrow P)
  have hm : (fun b op => (sharedRelativeDecoder d borrow P b op).seq) =
      Verif.sharedRelativeDecoder ⟨fun r => DecodeFn.seq (d.relativeDecode r)⟩ borrow P.seq :=
    funext fun b => funext fun op => sharedRelativeDecoder_seq d ht borrow P b op
  rw [hm] at hI h
  exact shared_relative_decoder_partition hd hg hdec hI hP h hslurp hval

/-! ## An instance -/

theorem FixedInt.encode_seq {N : Nat} (i : FixedInt T N) (o : ByteOrder) :
    @EncodeFn.seq T (FixedInt.encode i o) = @Verif.FixedInt.encode T N i o := by
  funext σ F E C s x
  show (FixedInt.encode i o (.ofSeq C) s x).run = _
  rw [FixedInt.encode_run, BulkConsumer.ofSeq_seq]

/-- A consumer of bytes; every other poll is pending. -/
noncomputable abbrev Case.bytes : BulkConsumer (TestConsumer UInt8 Unit String) UInt8 Unit String :=
  TestConsumer.consumer false UInt8 Unit String

noncomputable abbrev Case.u16s : Encodable UInt16 := ⟨FixedInt.encode u16 .big⟩

abbrev Case.Encoders : Type := Shared Bool (TestConsumer UInt8 Unit String) Unit (SharedEncoderOp UInt16 Unit) (Except String Unit)
  (suspension (sharedEncoder Case.u16s Case.bytes)).κ

def Case.Encoders.Reachable (st : Case.Encoders) : Prop :=
  Shared.Reachable (fun b op => (sharedEncoder Case.u16s Case.bytes b op).seq) (suspension (sharedEncoder Case.u16s Case.bytes))
    (Shared.init (TestConsumer.new "full" 10 [] (some [true, false])) fun _ => ()) st

/-- The first slots are not available at once. -/
theorem Case.bytes_pending (x : UInt16) : ∃ k, (Case.u16s.encode Case.bytes (TestConsumer.new "full" 10 [] (some [true, false])) x).poll
    (Case.u16s.encode Case.bytes (TestConsumer.new "full" 10 [] (some [true, false])) x).start = ok (.pending k) := by
  have hl : ∀ bytes : List UInt8, bytes.length = 2 →
      ∃ k, (bulkConsumeFullSlice Case.bytes (TestConsumer.new "full" 10 [] (some [true, false])) bytes).poll
        (bulkConsumeFullSlice Case.bytes (TestConsumer.new "full" 10 [] (some [true, false])) bytes).start = ok (.pending k) := by
    intro bytes h
    obtain ⟨a, b, rfl⟩ : ∃ a b, bytes = [a, b] := by
      match bytes, h with
      | [a, b], _ => exact ⟨a, b, rfl⟩
    exact ⟨_, loop_eq_of_fuel (n := 1) nofun⟩
  obtain ⟨k, hk⟩ := hl (u16.toBytes .big x) (by simp)
  exact ⟨.inl k, Fut.bind_pending hk⟩

/-- The one task has called `consume`, has got the lock, has been polled, and is pending; the other one waits for the lock. -/
theorem Case.encoders_pending : ∃ st : Case.Encoders, st.Reachable ∧ st.owner = some false ∧ st.finished = [] ∧
    (∃ k, st.phase false = .running (.consume 0x0102) k ∧ k.polled.isSome) ∧ st.phase true = .waiting (.consume 0x0304) := by
  have h0 : Case.Encoders.Reachable (Shared.init (TestConsumer.new "full" 10 [] (some [true, false])) fun _ => ()) := .refl
  have h1 := h0.snoc (.call false (.consume 0x0102) _ rfl rfl)
  have h2 := h1.snoc (.call true (.consume 0x0304) _ rfl rfl)
  have h3 := h2.snoc (.acquire false (.consume 0x0102) rfl rfl)
  obtain ⟨k, hk⟩ := Case.bytes_pending 0x0102
  let s₀ : TestConsumer UInt8 Unit String := TestConsumer.new "full" 10 [] (some [true, false])
  let k₀ : Critical (sharedEncoder Case.u16s Case.bytes) := ⟨(), .consume 0x0102, none⟩
  let k₁ : Critical (sharedEncoder Case.u16s Case.bytes) := ⟨(), .consume 0x0102, some ⟨s₀, k⟩⟩
  have hs : (suspension (sharedEncoder Case.u16s Case.bytes)).step k₀ s₀ k₁ s₀ := ⟨⟨s₀, _⟩, k, rfl, hk, rfl⟩
  have h4 := h3.snoc (.step false (.consume 0x0102) k₀ k₁ s₀ rfl hs)
  exact ⟨_, h4, rfl, rfl, ⟨_, rfl, rfl⟩, rfl⟩

theorem Case.bytes_collects : BulkCollects Case.bytes.seq TestConsumer.Seen (Policy.failAfter 10 "full")
    (TestConsumer.new "full" 10 [] (some [true, false])) [] := by
  rw [testConsumer_seq]
  exact test_consumer_collects false "full" 10 [] _

theorem Case.u16s_law : EncodesLaw (EncodeFn.seq Case.u16s.encode) (u16.toBytes .big) := by
  show EncodesLaw (@EncodeFn.seq _ (FixedInt.encode u16 .big)) _
  rw [FixedInt.encode_seq]
  exact u16.encodesLaw .big

theorem Case.bytes_accepts (l xs : List UInt8) (h : l.length + xs.length ≤ 10) :
    (Policy.failAfter 10 "full" : Policy UInt8 Unit String).Accepts l xs := by
  intro i x hx
  have := (List.getElem?_eq_some_iff.mp hx).1
  simp [Policy.failAfter, Policy.answer]
  omega

/-- While the one task is pending and the other one waits for the lock, some task can go on. -/
example : ∃ st st' : Case.Encoders, ∃ j op k, st.Reachable ∧ st.phase true = .waiting (.consume 0x0304) ∧
    (∃ k, st.phase false = .running (.consume 0x0102) k) ∧
    Shared.Step (fun b op => (sharedEncoder Case.u16s Case.bytes b op).seq) (suspension (sharedEncoder Case.u16s Case.bytes)) st st' ∧
    (st.phase j = .waiting op ∧ st'.phase j = .running op k ∨ st.phase j = .running op k) := by
  obtain ⟨st, h1, h2, h3, ⟨k, h4, _⟩, h5⟩ := Case.encoders_pending
  have hu : EncodeFn.Uniform (FixedInt.encode u16 .big) := FixedInt.encode_uniform u16 .big
  obtain ⟨st', j, op, k', h6, _, h7⟩ := shared_polled_no_deadlock h1 (fun j op k' run s hj hrun hs => by
    rw [h3] at hs
    cases j with
    | true => rw [h5] at hj; cases hj
    | false =>
      rw [h4] at hj; cases hj
      cases hrun
      have hs : s = TestConsumer.new "full" 10 [] (some [true, false]) := by
        generalize hl : ([] : List (Bool × SharedEncoderOp UInt16 Unit × Except String Unit)) = l at hs
        cases hs with
        | nil => rfl
        | locked => simp at hl
        | immediate => simp at hl
      subst hs
      obtain ⟨s1, h8, _⟩ := Case.u16s_law.accepted 0x0102 Case.bytes_collects (Case.bytes_accepts _ _ (by simp))
      exact ⟨_, (hu Case.bytes _ 0x0102).trans h8⟩) (i := true) (by rw [h5]; nofun) (fun op => by rw [h5]; nofun)
  exact ⟨st, st', j, op, k', h1, h5, ⟨k, h4⟩, h6, h7⟩

/-- Two values are encoded in sequence. -/
theorem Case.encoders_serial : ∃ s, Serial (fun b op => (sharedEncoder Case.u16s Case.bytes b op).seq) (fun _ : Bool => ())
    (TestConsumer.new "full" 10 [] (some [true, false]))
    [(false, .consume 0x0102, .ok ()), (true, .consume 0x0304, .ok ())] (fun _ => ()) s := by
  have hu : EncodeFn.Uniform (FixedInt.encode u16 .big) := FixedInt.encode_uniform u16 .big
  obtain ⟨s1, h1, h2⟩ := Case.u16s_law.accepted 0x0102 Case.bytes_collects (Case.bytes_accepts _ _ (by simp))
  obtain ⟨s2, h3, _⟩ := Case.u16s_law.accepted 0x0304 h2 (Case.bytes_accepts _ _ (by simp))
  exact ⟨s2, .locked (.locked .nil rfl ((hu Case.bytes _ 0x0102).trans h1)) rfl ((hu Case.bytes _ 0x0304).trans h3)⟩

/-- Each of the two tasks has encoded a value, and none of the bytes are mixed up. -/
example : ∃ st : Case.Encoders, st.Reachable ∧ st.owner = none ∧
    st.finished = [(false, .consume 0x0102, .ok ()), (true, .consume 0x0304, .ok ())] ∧
    TestConsumer.Seen st.shared [1, 2, 3, 4] none := by
  have hu : EncodeFn.Uniform (FixedInt.encode u16 .big) := FixedInt.encode_uniform u16 .big
  obtain ⟨s, hs⟩ := Case.encoders_serial
  obtain ⟨st, h1, h2, _, h3, _⟩ := shared_polled_realizable hs
  have := ((shared_polled_encoder_bytes (t := Case.u16s) hu Case.u16s_law Case.bytes_collects h1
    (by rw [h3]; simp)).1 h2).1
  rw [h3] at this
  exact ⟨st, h1, h2, h3, this⟩

theorem FixedInt.decode_seq {N : Nat} (i : FixedInt T N) (o : ByteOrder) :
    @DecodeFn.seq T Empty (FixedInt.decode i o) = @Verif.FixedInt.decode T N i o := by
  funext σ F E P s
  show (FixedInt.decode i o (.ofSeq P) s).run = _
  rw [FixedInt.decode_run, BulkProducer.ofSeq_seq]

/-- A producer of bytes; every other poll is pending. -/
noncomputable abbrev Case.source : BulkProducer (TestProducer UInt8 Unit String) UInt8 Unit String :=
  TestProducer.producer false UInt8 Unit String

noncomputable abbrev Case.u16d : Decodable UInt16 Empty := ⟨FixedInt.decode u16 .big⟩

abbrev Case.sourceState : TestProducer UInt8 Unit String := TestProducer.new [1, 2, 3, 4] (.ok ()) [] (some [true, false])

theorem Case.source_plays : BulkPlays Case.source.seq Case.sourceState (Script.ofList [1, 2, 3, 4] (.ok ())) := by
  rw [testProducer_seq]
  exact test_producer_plays false [1, 2, 3, 4] (.ok ()) [] _

theorem Case.u16d_law : DecodesLaw (DecodeFn.seq Case.u16d.decode) (u16.grammar .big) := by
  show DecodesLaw (@DecodeFn.seq _ _ (FixedInt.decode u16 .big)) _
  rw [FixedInt.decode_seq]
  exact u16.decodesLaw .big

/-- Each of the two tasks has decoded a value. -/
example : ∃ st, Shared.Reachable (ι := Bool) (fun b op => (sharedDecoder Case.u16d Case.source b op).seq)
      (suspension (sharedDecoder Case.u16d Case.source)) (Shared.init Case.sourceState fun _ => ()) st ∧ st.owner = none ∧
    producedAnswers st.finished = [(true, .ok (.inl 0x0102)), (false, .ok (.inl 0x0304))] ∧
    BulkPlays Case.source.seq st.shared ((Script.ofList [1, 2, 3, 4] (.ok ())).drop 4) := by
  have hu : DecodeFn.Uniform (FixedInt.decode u16 .big) := FixedInt.decode_uniform u16 .big
  have hg : u16.grammar .big [] = .more := rfl
  have hinv : ∀ x, (u16.grammar .big).Encoding (u16.toBytes .big x) x :=
    fun x => (Verif.FixedInt.encoding_iff u16 .big _ x).mpr ⟨by simp, Verif.FixedInt.fromBytes_toBytes u16_faithful .big x⟩
  have hc := decodes_ended (E := String) (F := Unit) hinv [0x0102, 0x0304] (part := [])
    ⟨fun k hk => absurd hk (Nat.not_lt_zero _), hg⟩ (.ok ())
  obtain ⟨s, h, _⟩ := Case.decoders (d := ⟨DecodeFn.seq Case.u16d.decode⟩) Case.u16d_law hg Case.source_plays hc
    (fun n => n == 0) 2 (fun i hi => match i, hi with | 0, _ => ⟨_, rfl⟩ | 1, _ => ⟨_, rfl⟩)
  have hm : Verif.sharedDecoder ⟨DecodeFn.seq Case.u16d.decode⟩ Case.source.seq =
      (fun b op => (sharedDecoder Case.u16d Case.source b op).seq) :=
    funext fun b => funext fun op => (sharedDecoder_seq Case.u16d hu Case.source b op).symm
  rw [hm] at h
  obtain ⟨st, h1, h2, _, h3, _⟩ := shared_polled_realizable h
  have e : producedAnswers st.finished = [(true, .ok (.inl 0x0102)), (false, .ok (.inl 0x0304))] := by rw [h3]; rfl
  have h4 := (shared_polled_decoder_partition (d := Case.u16d) hu Case.u16d_law hg Case.source_plays hc h1
    (by rw [h3]; simp [NoSlurpError]) (by rw [e]; simp)).2.1 h2
  rw [e] at h4
  exact ⟨st, h1, h2, e, h4⟩

/-- Bytes encoded by their difference to another byte. -/
noncomputable def Case.differences : RelativeEncodable UInt8 UInt8 := ⟨fun r _ _ _ C s x => FixedInt.encode u8 .big C s (x - r)⟩

noncomputable def Case.sums : RelativeDecodable UInt8 UInt8 Empty where
  relativeDecode r _ _ _ P s := do
    match ← FixedInt.decode u8 .big P s with
    | (s, .error e) => return (s, .error (e.mapOther nofun))
    | (s, .ok b) => return (s, .ok (b + r))

theorem Case.differences_run (r : UInt8) (C : BulkConsumer σ UInt8 F E) (s : σ) (x : UInt8) :
    (Case.differences.relativeEncode r C s x).run = differenceEncodable.relativeEncode r C.seq s x :=
  FixedInt.encode_run u8 .big C s (x - r)

theorem Case.sums_run (r : UInt8) (P : BulkProducer σ UInt8 F E) (s : σ) :
    (Case.sums.relativeDecode r P s).run = differenceDecodable.relativeDecode r P.seq s := by
  refine Fut.run_bind_congr (FixedInt.decode_run u8 .big P s) fun y => ?_
  rcases y with ⟨s, e | b⟩ <;> exact Fut.run_pure _

theorem Case.differences_seq (r : UInt8) : @EncodeFn.seq _ (Case.differences.relativeEncode r) =
    @Verif.RelativeEncodable.relativeEncode _ _ differenceEncodable r := by
  funext σ F E C s x
  show (Case.differences.relativeEncode r (.ofSeq C) s x).run = _
  rw [Case.differences_run, BulkConsumer.ofSeq_seq]

theorem Case.sums_seq (r : UInt8) : @DecodeFn.seq _ _ (Case.sums.relativeDecode r) =
    @Verif.RelativeDecodable.relativeDecode _ _ _ differenceDecodable r := by
  funext σ F E P s
  show (Case.sums.relativeDecode r (.ofSeq P) s).run = _
  rw [Case.sums_run, BulkProducer.ofSeq_seq]

theorem Case.differences_uniform (r : UInt8) : EncodeFn.Uniform (Case.differences.relativeEncode r) := by
  intro σ F E C s x
  rw [Case.differences_run, Case.differences_seq]

theorem Case.sums_uniform (r : UInt8) : DecodeFn.Uniform (Case.sums.relativeDecode r) := by
  intro σ F E P s
  rw [Case.sums_run, Case.sums_seq]

/-- One of the tasks changes its relative-to value, and then both encode the same value. -/
example : ∃ st, Shared.Reachable (ι := Bool) (fun b op => (sharedRelativeEncoder Case.differences id Case.bytes b op).seq)
      (suspension (sharedRelativeEncoder Case.differences id Case.bytes))
      (Shared.init (TestConsumer.new "full" 10 [] (some [true, false])) fun _ => 1) st ∧
    st.finished = [(true, .setRelativeTo 10, .ok ()), (false, .consume 12, .ok ()), (true, .consume 12, .ok ())] ∧
    TestConsumer.Seen st.shared [11, 2] none := by
  have he : ∀ r, EncodesLaw (EncodeFn.seq (Case.differences.relativeEncode r)) (fun x => [x - r]) := fun r => by
    have := difference_encodes r
    rw [← Case.differences_seq] at this
    exact this
  obtain ⟨s, h1, h2⟩ := (he 1).accepted 12 Case.bytes_collects (Case.bytes_accepts _ _ (by simp))
  obtain ⟨s', h3, h4⟩ := (he 10).accepted 12 h2 (Case.bytes_accepts _ _ (by simp))
  have r : Serial (ι := Bool) (fun b op => (sharedRelativeEncoder Case.differences id Case.bytes b op).seq) (fun _ => 1)
    (TestConsumer.new "full" 10 [] (some [true, false])) [] (fun _ => 1) (TestConsumer.new "full" 10 [] (some [true, false])) := .nil
  have r := r.immediate (i := true) (op := .setRelativeTo 10) rfl
  have r := r.locked (i := false) (op := .consume 12) rfl ((Case.differences_uniform 1 Case.bytes _ 12).trans h1)
  have r := r.locked (i := true) (op := .consume 12) rfl ((Case.differences_uniform 10 Case.bytes _ 12).trans h3)
  obtain ⟨st, h5, h6, _, h7, _⟩ := shared_polled_realizable r
  have h8 := ((shared_polled_relative_encoder_bytes Case.differences_uniform he Case.bytes_collects h5 (by simp [h7])).1 h6).1
  rw [h7] at h8
  exact ⟨st, h5, h7, h8⟩

/-- One of the tasks changes its relative-to value, and then both decode a byte. -/
example : ∃ st, Shared.Reachable (ι := Bool) (fun b op => (sharedRelativeDecoder Case.sums id Case.source b op).seq)
      (suspension (sharedRelativeDecoder Case.sums id Case.source)) (Shared.init Case.sourceState fun _ => 1) st ∧
    st.finished = [(true, .setRelativeTo 10, .unit), (false, .produce, .produced (.ok (.inl 2))),
      (true, .produce, .produced (.ok (.inl 12)))] ∧
    ∃ n, DecodedRelative differenceGrammar id (fun _ => 1) (Script.ofList [1, 2, 3, 4] (.ok ())) st.finished st.fields
      ((Script.ofList [1, 2, 3, 4] (.ok ())).drop n) ∧
      BulkPlays Case.source.seq st.shared ((Script.ofList [1, 2, 3, 4] (.ok ())).drop n) := by
  have hd : ∀ r, DecodesLaw (DecodeFn.seq (Case.sums.relativeDecode r)) (differenceGrammar r) := fun r => by
    have := difference_decodes r
    rw [← Case.sums_seq] at this
    exact this
  have hsw := Script.ofList_startsWith (I := UInt8) (F := Unit) (E := String) [1, 2, 3, 4] (.ok ())
  obtain ⟨s, h1, h2⟩ := decoderProduce_spec (hd 1) rfl Case.source_plays
    (.value (bs := [1]) (x := 2) (Script.StartsWith.left (ys := [2, 3, 4]) hsw) (difference_encoding 1 2))
  obtain ⟨s', h3, _⟩ := decoderProduce_spec (hd 10) rfl (h2 _ rfl)
    (.value (bs := [2]) (x := 12) (Script.StartsWith.left (ys := [3, 4]) (Script.StartsWith.right (xs := [1]) hsw))
      (difference_encoding 10 12))
  have r : Serial (ι := Bool) (Verif.sharedRelativeDecoder ⟨fun r => DecodeFn.seq (Case.sums.relativeDecode r)⟩ id Case.source.seq)
    (fun _ => 1) Case.sourceState [] (fun _ => 1) Case.sourceState := .nil
  have r := r.immediate (i := true) (op := .setRelativeTo 10) rfl
  have r := r.locked (i := false) (op := .produce) rfl (s₂ := s) (a := .produced (.ok (.inl 2))) (withAnswer_ok h1)
  have r := r.locked (i := true) (op := .produce) rfl (s₂ := s') (a := .produced (.ok (.inl 12))) (withAnswer_ok h3)
  have hm : Verif.sharedRelativeDecoder ⟨fun r => DecodeFn.seq (Case.sums.relativeDecode r)⟩ id Case.source.seq =
      (fun b op => (sharedRelativeDecoder Case.sums id Case.source b op).seq) :=
    funext fun b => funext fun op => (sharedRelativeDecoder_seq Case.sums Case.sums_uniform id Case.source b op).symm
  rw [hm] at r
  obtain ⟨st, h5, h6, _, h7, _⟩ := shared_polled_realizable r
  have hdec : ∀ (r : UInt8) n, (∀ i, i < n → ∃ x, Script.ofList (I := UInt8) (F := Unit) (E := String) [1, 2, 3, 4] (.ok ()) i = .ok (.inl x)) →
      ∃ a k, DecodesNext (differenceGrammar r) ((Script.ofList (I := UInt8) (F := Unit) (E := String) [1, 2, 3, 4]
        (.ok ())).drop n) a k := by
    intro r n h
    have hn : n ≤ 4 := by
      rcases Nat.lt_or_ge 4 n with hlt | hge
      · obtain ⟨x, hx⟩ := h 4 hlt
        cases hx
      · exact hge
    rw [Script.ofList_drop _ _ _ hn]
    refine decodesNext_of_ends _ (m := (([1, 2, 3, 4] : List UInt8).drop n).length) fun x => ?_
    rw [Script.ofList_end]
    nofun
  obtain ⟨⟨n, h8, h9⟩, _⟩ := shared_polled_relative_decoder_partition Case.sums_uniform hd (fun _ => rfl) hdec
    Case.source_plays h5 (by rw [h7]; simp [NoSlurpError]) (by rw [h7]; simp)
  exact ⟨st, h5, h7, n, h8, h9 h6⟩

end

end Verif.Async
