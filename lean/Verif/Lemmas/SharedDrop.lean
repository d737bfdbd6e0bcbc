import Verif.Lemmas.Shared

/-!
# Lemmas about shared adaptors whose futures are dropped
-/

namespace Verif

open Outcome

section

variable {ι σ β Op A : Type} [DecidableEq ι]

theorem SerialOrDrop.continues (method : β → Op → SharedMethod σ β A) (m : Suspension σ β Op A) (b : ι → β) (s : σ)
    (d : List (ι × Op)) : Continues (fun l b' s' => SerialOrDrop method m b s l d b' s') method :=
  ⟨.locked, .immediate⟩

/-- Nobody comes back. -/
theorem Shared.Step.gone {method : β → Op → SharedMethod σ β A} {m : Suspension σ β Op A} {st st' : Shared ι σ β Op A m.κ}
    (hs : Shared.Step method m st st') {i : ι} {op : Op} (h : st.phase i = .gone op) : st'.phase i = .gone op := by
  cases hs with
  | call j _ _ hp _ =>
    have : i ≠ j := by rintro rfl; rw [h] at hp; cases hp
    simpa [setAt_ne _ _ this] using h
  | immediate => exact h
  | acquire j _ hp _ =>
    have : i ≠ j := by rintro rfl; rw [h] at hp; cases hp
    simpa [setAt_ne _ _ this] using h
  | abandon j _ hp =>
    have : i ≠ j := by rintro rfl; rw [h] at hp; cases hp
    simpa [setAt_ne _ _ this] using h
  | step j _ _ _ _ hp _ =>
    have : i ≠ j := by rintro rfl; rw [h] at hp; cases hp
    simpa [setAt_ne _ _ this] using h
  | ret j _ _ _ _ hp _ =>
    have : i ≠ j := by rintro rfl; rw [h] at hp; cases hp
    simpa [setAt_ne _ _ this] using h

theorem Shared.ReachableOrDrop.inv {method : β → Op → SharedMethod σ β A} {m : Suspension σ β Op A} (hI : m.Implements method)
    {b : ι → β} {s₀ : σ} {st : Shared ι σ β Op A m.κ} (h : Shared.ReachableOrDrop method m (Shared.init s₀ b) st) :
    ∃ d s, Shared.InvOf (fun l b' s' => SerialOrDrop method m b s₀ l d b' s') method m st s ∧
      (∀ i op, (i, op) ∈ d → st.phase i = .gone op) ∧ (d.map (·.1)).Nodup := by
  induction h with
  | refl =>
    exact ⟨[], s₀, ⟨.nil, fun _ => rfl, (fun _ h => nomatch h), (fun _ _ _ h => nomatch h), (fun _ _ h => nomatch h),
      fun _ => rfl⟩, (fun _ _ h => nomatch h), List.nodup_nil⟩
  | @snoc st _ _ hs ih =>
    obtain ⟨d, s, h1, h2, h3⟩ := ih
    cases hs with
    | step hs =>
      obtain ⟨s', h4⟩ := h1.step (SerialOrDrop.continues method m b s₀ d) hI hs
      exact ⟨d, s', h4, fun i op hi => hs.gone (h2 i op hi), h3⟩
    | drop i op k hp =>
      have ho := h1.mutex i op k hp
      obtain ⟨op', k', run, h4, h5, h6⟩ := h1.held i ho
      rw [hp] at h4; cases h4
      have hd : ∀ op', (i, op') ∉ d := fun op' hi => by have := h2 i op' hi; rw [hp] at this; cases this
      refine ⟨d ++ [(i, op)], st.shared, ⟨h1.serial.dropped h5 h6, fun _ => rfl, (fun j hj => nomatch hj), ?_, ?_, ?_⟩, ?_, ?_⟩
      · intro j op' k' hj
        by_cases hne : j = i
        · subst hne; simp at hj
        · have := h1.mutex j op' k' (by simpa [setAt_ne _ _ hne] using hj)
          rw [ho] at this; cases this; exact absurd rfl hne
      · intro j op' hj
        by_cases hne : j = i
        · subst hne; simp at hj
        · exact h1.waits j op' (by simpa [setAt_ne _ _ hne] using hj)
      · intro j
        by_cases hne : j = i
        · subst hne
          simp [h1.order j, hp, Phase.current]
        · simpa [setAt_ne _ _ hne] using h1.order j
      · intro j op' hj
        rcases List.mem_append.mp hj with hj' | hj'
        · have hne : j ≠ i := by rintro rfl; exact hd _ hj'
          simpa [setAt_ne _ _ hne] using h2 j op' hj'
        · simp only [List.mem_singleton, Prod.mk.injEq] at hj'
          obtain ⟨rfl, rfl⟩ := hj'
          exact setAt_same _ _ _
      · rw [List.map_append, List.nodup_append]
        refine ⟨h3, by simp, ?_⟩
        intro a ha b hb
        obtain ⟨⟨a', op'⟩, ha', rfl⟩ := List.mem_map.mp ha
        obtain rfl : b = i := by simpa using hb
        rintro rfl
        exact hd _ ha'

end

/-! ## Encoders -/

section

variable {ι σ β Op T F E B Rel : Type} [DecidableEq ι]

/-- Any adaptors whose calls write bytes. -/
theorem SerialOrDrop.written {method : β → Op → SharedMethod σ β (Except E Unit)} {m : Suspension σ β Op (Except E Unit)}
    {bytes : β → Op → List UInt8} {fields : List (ι × Op × Except E Unit) → ι → β} {C : BulkConsumer σ UInt8 F E}
    {D : σ → List UInt8 → Option F → Prop} {q : Policy UInt8 F E}
    (hlocked : ∀ b op run s s' l, method b op = .locked run → BulkCollects C D q s l → run s = ok (s', .ok ()) →
      BulkCollects C D q s' (l ++ bytes b op))
    (himmediate : ∀ b op x a, method b op = .immediate x a → bytes b op = [])
    (hW : m.WritesParts D bytes C q) {b b' : ι → β} {s s' : σ} {l : List UInt8} {fin : List (ι × Op × Except E Unit)}
    {d : List (ι × Op)}
    (hfields : ∀ {fin d b' s'}, SerialOrDrop method m b s fin d b' s' → b' = fields fin)
    (h : BulkCollects C D q s l) (hs : SerialOrDrop method m b s fin d b' s') (hok : ∀ e ∈ fin, e.2.2 = .ok ()) :
    ∃ bs, WrittenOrDropped (fun l i op => bytes (fields l i) op) fin d bs ∧ BulkCollects C D q s' (l ++ bs) := by
  induction hs with
  | nil => exact ⟨[], .nil, by simpa using h⟩
  | @locked fin d b₁ s₁ i op run a s₂ hs hm hr ih =>
    obtain ⟨bs, h1, h2⟩ := ih fun e he => hok e (List.mem_append_left _ he)
    obtain rfl : a = .ok () := hok (i, op, a) (by simp)
    refine ⟨_, h1.written, ?_⟩
    rw [← List.append_assoc, ← hfields hs]
    exact hlocked _ _ _ _ _ _ hm h2 hr
  | @immediate fin d b₁ s₁ i op x a hs hm ih =>
    obtain ⟨bs, h1, h2⟩ := ih fun e he => hok e (List.mem_append_left _ he)
    refine ⟨_, h1.written, ?_⟩
    rw [← hfields hs]
    rw [himmediate _ _ _ _ hm, List.append_nil]
    exact h2
  | @dropped fin d b₁ s₁ i op run k s₂ hs hm hp ih =>
    obtain ⟨bs, h1, h2⟩ := ih hok
    obtain ⟨part, h3, h4⟩ := hW _ _ _ _ _ _ h2 hp
    refine ⟨bs ++ part, h1.dropped (by rw [← hfields hs]; exact h3), ?_⟩
    rwa [← List.append_assoc]

theorem flush_ok {C : BulkConsumer σ UInt8 F E} {D : σ → List UInt8 → Option F → Prop} {q : Policy UInt8 F E}
    {s s' : σ} {l : List UInt8} (h : BulkCollects C D q s l) (hr : C.flush s = ok (s', .ok ())) : BulkCollects C D q s' l := by
  obtain ⟨s3, ⟨h1, h2⟩ | ⟨e, h1, h2, h3⟩⟩ := h.flush_spec
  · rw [hr] at h1; cases h1; exact h2
  · rw [hr] at h2; cases h2

theorem sharedEncoder_written {t : Encodable T} {enc : T → List UInt8} (he : EncodesLaw t.encode enc)
    {C : BulkConsumer σ UInt8 F E} {D : σ → List UInt8 → Option F → Prop} {q : Policy UInt8 F E}
    {m : Suspension σ Unit (SharedEncoderOp T F) (Except E Unit)} (hW : m.WritesParts D (fun _ => opBytes enc) C q)
    {b b' : ι → Unit} {s s' : σ} {l : List UInt8} {fin : List (ι × SharedEncoderOp T F × Except E Unit)}
    {d : List (ι × SharedEncoderOp T F)} (h : BulkCollects C D q s l)
    (hs : SerialOrDrop (sharedEncoder t C) m b s fin d b' s') (hok : ∀ e ∈ fin, e.2.2 = .ok ()) :
    ∃ bs, WrittenOrDropped (fun _ _ => opBytes enc) fin d bs ∧ BulkCollects C D q s' (l ++ bs) := by
  refine SerialOrDrop.written (fields := fun _ _ => ()) (bytes := fun _ => opBytes enc) ?_ ?_ hW (fun _ => rfl) h hs hok
  · intro b op run s s' l hm hC hr
    cases op with
    | consume x => cases hm; exact encodes_ok he hC hr
    | close f => cases hm
    | flush => cases hm; simpa [opBytes] using flush_ok hC hr
  · intro b op x a hm
    cases op <;> first | rfl | cases hm

theorem sharedRelativeEncoder_fields {t : RelativeEncodable T Rel} {borrow : B → Rel} {C : BulkConsumer σ UInt8 F E}
    {m : Suspension σ B (SharedRelativeEncoderOp T F B) (Except E Unit)} {b b' : ι → B} {s s' : σ}
    {fin : List (ι × SharedRelativeEncoderOp T F B × Except E Unit)} {d : List (ι × SharedRelativeEncoderOp T F B)}
    (hs : SerialOrDrop (sharedRelativeEncoder t borrow C) m b s fin d b' s') : b' = relativeTos b fin := by
  induction hs with
  | nil => rfl
  | @locked fin d b₁ s₁ i op run a s₂ _ hm _ ih =>
    subst ih
    rw [relativeTos_append]
    cases op <;> first | rfl | cases hm
  | @immediate fin d b₁ s₁ i op x a _ hm ih =>
    subst ih
    have hset : setAt (relativeTos b fin) i (relativeTos b fin i) = relativeTos b fin := by
      funext j; by_cases hj : j = i <;> simp [setAt, hj]
    rw [relativeTos_append]
    cases op <;> cases hm
    · exact hset
    · rfl
  | dropped _ _ _ ih => exact ih

theorem sharedRelativeEncoder_written {t : RelativeEncodable T Rel} {borrow : B → Rel} {enc : Rel → T → List UInt8}
    (he : ∀ r, EncodesLaw (t.relativeEncode r) (enc r)) {C : BulkConsumer σ UInt8 F E} {D : σ → List UInt8 → Option F → Prop}
    {q : Policy UInt8 F E} {m : Suspension σ B (SharedRelativeEncoderOp T F B) (Except E Unit)}
    (hW : m.WritesParts D (relativeOpBytes enc borrow) C q) {b b' : ι → B} {s s' : σ} {l : List UInt8}
    {fin : List (ι × SharedRelativeEncoderOp T F B × Except E Unit)} {d : List (ι × SharedRelativeEncoderOp T F B)}
    (h : BulkCollects C D q s l) (hs : SerialOrDrop (sharedRelativeEncoder t borrow C) m b s fin d b' s')
    (hok : ∀ e ∈ fin, e.2.2 = .ok ()) :
    ∃ bs, WrittenOrDropped (fun l i => relativeOpBytes enc borrow (relativeTos b l i)) fin d bs ∧
      BulkCollects C D q s' (l ++ bs) := by
  refine SerialOrDrop.written (fields := relativeTos b) (bytes := relativeOpBytes enc borrow) ?_ ?_ hW
    sharedRelativeEncoder_fields h hs hok
  · intro b op run s s' l hm hC hr
    cases op with
    | consume x => cases hm; exact encodes_ok (he _) hC hr
    | close f => cases hm
    | setRelativeTo r => cases hm
    | flush => cases hm; simpa [relativeOpBytes] using flush_ok hC hr
  · intro b op x a hm
    cases op <;> first | rfl | cases hm

end

/-! ## Decoders -/

section

variable {ι σ T R F E : Type} [DecidableEq ι]

theorem ofList_startsWith_prefix {bs part : List UInt8} {last : Except E F} (h : (Script.ofList bs last).StartsWith part) :
    ∃ rest, bs = part ++ rest := by
  have hle : part.length ≤ bs.length := by
    rcases Nat.lt_or_ge bs.length part.length with hlt | hge
    · have := h bs.length _ (List.getElem?_eq_getElem hlt)
      rw [Script.ofList_end] at this
      cases last <;> simp [Except.map] at this
    · exact hge
  refine ⟨bs.drop part.length, ?_⟩
  have e : part = bs.take part.length := by
    apply List.ext_getElem
    · simp [hle]
    · intro i h1 h2
      have := h i _ (List.getElem?_eq_getElem h1)
      have hi : i < bs.length := by omega
      simp [Script.ofList, List.getElem?_eq_getElem hi] at this
      simp [this]
  conv => lhs; rw [← List.take_append_drop part.length bs]
  rw [← e]

theorem sharedDecoder_decoded {d : Decodable T R} {g : Grammar T R} (hd : DecodesLaw d.decode g) (hg : g [] = .more)
    {P : BulkProducer σ UInt8 F E} {m : Suspension σ Unit SharedDecoderOp (SharedDecoderAnswer T F (DecodeError F E R))}
    (hW : m.ReadsParts g P) {s s' : σ} {bytes : List UInt8} {last : Except E F} (h : BulkPlays P s (Script.ofList bytes last))
    {b b' : ι → Unit} {fin : List (ι × SharedDecoderOp × SharedDecoderAnswer T F (DecodeError F E R))}
    {dr : List (ι × SharedDecoderOp)} (hs : SerialOrDrop (sharedDecoder d P) m b s fin dr b' s') (hslurp : NoSlurpError fin)
    (hval : ∀ r ∈ producedAnswers fin, ∃ x, r.2 = .ok (.inl x)) :
    ∃ bs rest, bytes = bs ++ rest ∧ DecodedOrDropped g fin dr bs ∧ BulkPlays P s' (Script.ofList rest last) := by
  induction hs with
  | nil => exact ⟨[], bytes, rfl, .nil, h⟩
  | @locked fin dr b₁ s₁ i op run a s₂ _ hm hr ih =>
    obtain ⟨bs, rest, rfl, ih1, ih2⟩ := ih (fun i op e he => hslurp i op e (List.mem_append_left _ he))
      (fun r hr => hval r (by rw [producedAnswers_append]; exact List.mem_append_left _ hr))
    obtain ⟨a', k, hk⟩ := decodesNext_of_ends g (c := Script.ofList rest last) (m := rest.length) fun x => by
      rw [Script.ofList_end]
      cases last <;> simp [Except.map]
    cases op with
    | produce =>
      cases hm
      obtain ⟨r, hr', rfl⟩ := withAnswer_eq_ok hr
      obtain ⟨s3, h3, h4⟩ := decoderProduce_spec hd hg ih2 hk
      rw [hr'] at h3; cases h3
      obtain ⟨x, rfl⟩ := hval (i, a') (by simp [producedAnswers_append, producedAnswers])
      have h5 := h4 x rfl
      cases hk with
      | @value part _ hst henc =>
        obtain ⟨rest', rfl⟩ := ofList_startsWith_prefix hst
        refine ⟨bs ++ part, rest', by simp, ih1.value henc, ?_⟩
        rw [Script.ofList_drop _ _ _ (by simp), List.drop_left] at h5
        exact h5
    | slurp =>
      cases hm
      obtain ⟨r, hr', rfl⟩ := withAnswer_eq_ok hr
      obtain ⟨s3, ⟨h3, h4⟩ | ⟨e, h3, h4⟩⟩ := decoderSlurp_spec hg ih2 hk
      · rw [hr'] at h3; cases h3
        exact ⟨bs, rest, rfl, ih1.slurp, h4⟩
      · rw [hr'] at h4; cases h4
        exact absurd (List.mem_append_right _ (by simp)) (hslurp i .slurp e)
  | @immediate fin dr b₁ s₁ i op x a _ hm ih => cases op <;> cases hm
  | @dropped fin dr b₁ s₁ i op run k s₂ _ hm hp ih =>
    obtain ⟨bs, rest, rfl, ih1, ih2⟩ := ih hslurp hval
    obtain ⟨part, h1, h2, h3, h4⟩ := hW _ _ _ _ _ _ ih2 hp
    obtain ⟨rest', rfl⟩ := ofList_startsWith_prefix h1
    refine ⟨bs ++ part, rest', by simp, ih1.dropped h2 h3, ?_⟩
    rw [Script.ofList_drop _ _ _ (by simp), List.drop_left] at h4
    exact h4

theorem sharedRelativeDecoder_decoded {B Rel : Type} {d : RelativeDecodable T Rel R} {borrow : B → Rel} {g : Rel → Grammar T R}
    (hd : ∀ r, DecodesLaw (d.relativeDecode r) (g r)) (hg : ∀ r, g r [] = .more) {P : BulkProducer σ UInt8 F E}
    {m : Suspension σ B (SharedRelativeDecoderOp B) (SharedDecoderAnswer T F (DecodeError F E R))}
    (hW : m.ReadsPartsRelative g borrow P) {s s' : σ} {bytes : List UInt8} {last : Except E F}
    (h : BulkPlays P s (Script.ofList bytes last)) {b b' : ι → B}
    {fin : List (ι × SharedRelativeDecoderOp B × SharedDecoderAnswer T F (DecodeError F E R))}
    {dr : List (ι × SharedRelativeDecoderOp B)} (hs : SerialOrDrop (sharedRelativeDecoder d borrow P) m b s fin dr b' s')
    (hslurp : NoSlurpError fin) (hval : ∀ i op r, (i, op, .produced r) ∈ fin → ∃ x, r = .ok (.inl x)) :
    ∃ bs rest, bytes = bs ++ rest ∧ DecodedRelativeOrDropped g borrow b fin dr b' bs ∧
      BulkPlays P s' (Script.ofList rest last) := by
  induction hs with
  | nil => exact ⟨[], bytes, rfl, .nil, h⟩
  | @locked fin dr b₁ s₁ i op run a s₂ _ hm hr ih =>
    obtain ⟨bs, rest, rfl, ih1, ih2⟩ := ih (fun i op e he => hslurp i op e (List.mem_append_left _ he))
      (fun i op r hr => hval i op r (List.mem_append_left _ hr))
    obtain ⟨a', k, hk⟩ := decodesNext_of_ends (g (borrow (b₁ i))) (c := Script.ofList rest last) (m := rest.length) fun x => by
      rw [Script.ofList_end]
      cases last <;> simp [Except.map]
    cases op with
    | produce =>
      cases hm
      obtain ⟨r, hr', rfl⟩ := withAnswer_eq_ok hr
      obtain ⟨s3, h3, h4⟩ := decoderProduce_spec (hd _) (hg _) ih2 hk
      rw [hr'] at h3; cases h3
      obtain ⟨x, rfl⟩ := hval i .produce a' (List.mem_append_right _ (by simp))
      have h5 := h4 x rfl
      cases hk with
      | @value part _ hst henc =>
        obtain ⟨rest', rfl⟩ := ofList_startsWith_prefix hst
        refine ⟨bs ++ part, rest', by simp, ih1.value henc, ?_⟩
        rw [Script.ofList_drop _ _ _ (by simp), List.drop_left] at h5
        exact h5
    | slurp =>
      cases hm
      obtain ⟨r, hr', rfl⟩ := withAnswer_eq_ok hr
      obtain ⟨s3, ⟨h3, h4⟩ | ⟨e, h3, h4⟩⟩ := decoderSlurp_spec (hg _) ih2 hk
      · rw [hr'] at h3; cases h3
        exact ⟨bs, rest, rfl, ih1.slurp, h4⟩
      · rw [hr'] at h4; cases h4
        exact absurd (List.mem_append_right _ (by simp)) (hslurp i .slurp e)
    | setRelativeTo r => cases hm
  | @immediate fin dr b₁ s₁ i op x a _ hm ih =>
    obtain ⟨bs, rest, rfl, ih1, ih2⟩ := ih (fun i op e he => hslurp i op e (List.mem_append_left _ he))
      (fun i op r hr => hval i op r (List.mem_append_left _ hr))
    cases op with
    | setRelativeTo r => cases hm; exact ⟨bs, rest, rfl, ih1.set, ih2⟩
    | produce => cases hm
    | slurp => cases hm
  | @dropped fin dr b₁ s₁ i op run k s₂ _ hm hp ih =>
    obtain ⟨bs, rest, rfl, ih1, ih2⟩ := ih hslurp hval
    obtain ⟨part, h1, h2, h3, h4⟩ := hW _ _ _ _ _ _ ih2 hp
    obtain ⟨rest', rfl⟩ := ofList_startsWith_prefix h1
    refine ⟨bs ++ part, rest', by simp, ih1.dropped h2 h3, ?_⟩
    rw [Script.ofList_drop _ _ _ (by simp), List.drop_left] at h4
    exact h4

end

end Verif
