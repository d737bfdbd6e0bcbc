import Verif.SharedSpec
import Verif.Lemmas.CodecAdaptors

/-!
# Lemmas about shared adaptors
-/

namespace Verif

open Outcome

section

variable {ι σ β Op A : Type} [DecidableEq ι]

@[simp] theorem setAt_same {α : Type} (f : ι → α) (i : ι) (a : α) : setAt f i a i = a := by simp [setAt]

theorem setAt_ne {α : Type} (f : ι → α) {i j : ι} (a : α) (h : j ≠ i) : setAt f i a j = f j := by simp [setAt, h]

theorem callsOf_append (i : ι) (l l' : List (ι × Op × A)) : callsOf i (l ++ l') = callsOf i l ++ callsOf i l' := by
  simp [callsOf]

/-- What holds in every reachable state; `S` says how the completed calls have led to the shared value `s`. -/
structure Shared.InvOf (S : List (ι × Op × A) → (ι → β) → σ → Prop) (method : β → Op → SharedMethod σ β A)
    (m : Suspension σ β Op A) (st : Shared ι σ β Op A m.κ) (s : σ) : Prop where
  serial : S st.finished st.fields s
  free : st.owner = none → st.shared = s
  held : ∀ i, st.owner = some i → ∃ op k run, st.phase i = .running op k ∧ method (st.fields i) op = .locked run ∧
    m.Path (m.start (st.fields i) op) s k st.shared
  mutex : ∀ i op k, st.phase i = .running op k → st.owner = some i
  waits : ∀ i op, st.phase i = .waiting op → ∃ run, method (st.fields i) op = .locked run
  order : ∀ i, st.called i = callsOf i st.finished ++ (st.phase i).current

/-- The completed calls have been executed one after the other. -/
abbrev Shared.Inv (method : β → Op → SharedMethod σ β A) (m : Suspension σ β Op A) (b : ι → β) (s₀ : σ)
    (st : Shared ι σ β Op A m.κ) (s : σ) : Prop := Shared.InvOf (Serial method b s₀) method m st s

/-- What has happened may be continued with any call. -/
structure Continues (S : List (ι × Op × A) → (ι → β) → σ → Prop) (method : β → Op → SharedMethod σ β A) : Prop where
  locked : ∀ {l b s i op run a s'}, S l b s → method (b i) op = .locked run → run s = ok (s', a) → S (l ++ [(i, op, a)]) b s'
  immediate : ∀ {l b s i op x a}, S l b s → method (b i) op = .immediate x a → S (l ++ [(i, op, a)]) (setAt b i x) s

theorem Serial.continues (method : β → Op → SharedMethod σ β A) (b : ι → β) (s : σ) : Continues (Serial method b s) method :=
  ⟨.locked, .immediate⟩

theorem Shared.inv_init (method : β → Op → SharedMethod σ β A) (m : Suspension σ β Op A) (b : ι → β) (s₀ : σ) :
    Shared.Inv method m b s₀ (Shared.init s₀ b) s₀ where
  serial := .nil
  free _ := rfl
  held _ h := nomatch h
  mutex _ _ _ h := nomatch h
  waits _ _ h := nomatch h
  order _ := rfl

theorem Shared.InvOf.step {S : List (ι × Op × A) → (ι → β) → σ → Prop} {method : β → Op → SharedMethod σ β A}
    {m : Suspension σ β Op A} (hS : Continues S method) (hI : m.Implements method) {st st' : Shared ι σ β Op A m.κ} {s : σ}
    (h : Shared.InvOf S method m st s) (hs : Shared.Step method m st st') : ∃ s', Shared.InvOf S method m st' s' := by
  cases hs with
  | call i op run hp hm =>
    refine ⟨s, h.serial, h.free, ?_, ?_, ?_, ?_⟩
    · intro j hj
      obtain ⟨op', k, run', h1, h2⟩ := h.held j hj
      have hne : j ≠ i := by rintro rfl; rw [hp] at h1; cases h1
      exact ⟨op', k, run', by simpa [setAt_ne _ _ hne] using h1, h2⟩
    · intro j op' k hj
      by_cases hne : j = i
      · subst hne; simp at hj
      · exact h.mutex j op' k (by simpa [setAt_ne _ _ hne] using hj)
    · intro j op' hj
      by_cases hne : j = i
      · subst hne
        simp only [setAt_same, Phase.waiting.injEq] at hj
        subst hj
        exact ⟨run, hm⟩
      · exact h.waits j op' (by simpa [setAt_ne _ _ hne] using hj)
    · intro j
      by_cases hne : j = i
      · subst hne
        simp [h.order j, hp, Phase.current]
      · simpa [setAt_ne _ _ hne] using h.order j
  | immediate i op x a hp hm =>
    refine ⟨s, hS.immediate h.serial hm, h.free, ?_, ?_, ?_, ?_⟩
    · intro j hj
      obtain ⟨op', k, run', h1, h2⟩ := h.held j hj
      have hne : j ≠ i := by rintro rfl; rw [hp] at h1; cases h1
      exact ⟨op', k, run', h1, by simpa [setAt_ne _ _ hne] using h2⟩
    · exact h.mutex
    · intro j op' hj
      have hne : j ≠ i := by rintro rfl; rw [hp] at hj; cases hj
      simpa [setAt_ne _ _ hne] using h.waits j op' hj
    · intro j
      by_cases hne : j = i
      · subst hne
        simp [h.order j, hp, Phase.current, callsOf]
      · have hne' : i ≠ j := Ne.symm hne
        simp [setAt_ne _ _ hne, h.order j, callsOf, hne']
  | acquire i op hp ho =>
    refine ⟨s, h.serial, (fun hn => nomatch hn), ?_, ?_, ?_, ?_⟩
    · intro j hj
      cases hj
      obtain ⟨run, hm⟩ := h.waits i op hp
      refine ⟨op, _, run, setAt_same _ _ _, hm, ?_⟩
      rw [show ({ st with owner := some i, phase := setAt st.phase i (.running op (m.start (st.fields i) op)) } :
        Shared ι σ β Op A m.κ).shared = s from h.free ho]
      exact .refl _ _
    · intro j op' k hj
      by_cases hne : j = i
      · subst hne; rfl
      · have := h.mutex j op' k (by simpa [setAt_ne _ _ hne] using hj)
        rw [ho] at this; cases this
    · intro j op' hj
      by_cases hne : j = i
      · subst hne; simp at hj
      · exact h.waits j op' (by simpa [setAt_ne _ _ hne] using hj)
    · intro j
      by_cases hne : j = i
      · subst hne
        simp [h.order j, hp, Phase.current]
      · simpa [setAt_ne _ _ hne] using h.order j
  | abandon i op hp =>
    refine ⟨s, h.serial, h.free, ?_, ?_, ?_, ?_⟩
    · intro j hj
      obtain ⟨op', k, run', h1, h2⟩ := h.held j hj
      have hne : j ≠ i := by rintro rfl; rw [hp] at h1; cases h1
      exact ⟨op', k, run', by simpa [setAt_ne _ _ hne] using h1, h2⟩
    · intro j op' k hj
      by_cases hne : j = i
      · subst hne; simp at hj
      · exact h.mutex j op' k (by simpa [setAt_ne _ _ hne] using hj)
    · intro j op' hj
      by_cases hne : j = i
      · subst hne; simp at hj
      · exact h.waits j op' (by simpa [setAt_ne _ _ hne] using hj)
    · intro j
      by_cases hne : j = i
      · subst hne
        simp [h.order j, hp, Phase.current]
      · simpa [setAt_ne _ _ hne] using h.order j
  | step i op k k' s' hp hstep =>
    have ho := h.mutex i op k hp
    refine ⟨s, h.serial, fun hn => by simp [ho] at hn, ?_, ?_, ?_, ?_⟩
    · intro j hj
      obtain rfl : i = j := by simpa [ho] using hj
      obtain ⟨op', k0, run, h1, h2, h3⟩ := h.held i ho
      rw [hp] at h1; cases h1
      exact ⟨op, k', run, setAt_same _ _ _, h2, h3.snoc hstep⟩
    · intro j op' k hj
      by_cases hne : j = i
      · subst hne; exact ho
      · exact h.mutex j op' k (by simpa [setAt_ne _ _ hne] using hj)
    · intro j op' hj
      by_cases hne : j = i
      · subst hne; simp at hj
      · exact h.waits j op' (by simpa [setAt_ne _ _ hne] using hj)
    · intro j
      by_cases hne : j = i
      · subst hne
        simp [h.order j, hp, Phase.current]
      · simpa [setAt_ne _ _ hne] using h.order j
  | ret i op k a s' hp hret =>
    have ho := h.mutex i op k hp
    obtain ⟨op', k0, run, h1, h2, h3⟩ := h.held i ho
    rw [hp] at h1; cases h1
    refine ⟨s', hS.locked h.serial h2 (hI _ _ _ h2 _ _ _ _ _ h3 hret), fun _ => rfl, (fun j hj => nomatch hj), ?_, ?_, ?_⟩
    · intro j op' k hj
      by_cases hne : j = i
      · subst hne; simp at hj
      · have := h.mutex j op' k (by simpa [setAt_ne _ _ hne] using hj)
        rw [ho] at this; cases this; exact absurd rfl hne
    · intro j op' hj
      by_cases hne : j = i
      · subst hne; simp at hj
      · exact h.waits j op' (by simpa [setAt_ne _ _ hne] using hj)
    · intro j
      by_cases hne : j = i
      · subst hne
        simp [h.order j, hp, Phase.current, callsOf]
      · have hne' : i ≠ j := Ne.symm hne
        simp [setAt_ne _ _ hne, h.order j, callsOf, hne']

theorem Serial.snoc_inv {method : β → Op → SharedMethod σ β A} {b b' : ι → β} {s s' : σ} {l : List (ι × Op × A)} {i : ι} {op : Op}
    {a : A} (h : Serial method b s (l ++ [(i, op, a)]) b' s') : ∃ b₁ s₁, Serial method b s l b₁ s₁ ∧
    ((∃ run, method (b₁ i) op = .locked run ∧ run s₁ = ok (s', a) ∧ b' = b₁) ∨
     (∃ x, method (b₁ i) op = .immediate x a ∧ b' = setAt b₁ i x ∧ s' = s₁)) := by
  generalize hl : l ++ [(i, op, a)] = l' at h
  cases h with
  | nil => simp at hl
  | locked h1 h2 h3 =>
    obtain ⟨rfl, h4⟩ := List.append_inj' hl rfl
    cases h4
    exact ⟨_, _, h1, .inl ⟨_, h2, h3, rfl⟩⟩
  | immediate h1 h2 =>
    obtain ⟨rfl, h4⟩ := List.append_inj' hl rfl
    cases h4
    exact ⟨_, _, h1, .inr ⟨_, h2, rfl, rfl⟩⟩

theorem Serial.left {method : β → Op → SharedMethod σ β A} {b b' : ι → β} {s s' : σ} {l l' : List (ι × Op × A)}
    (h : Serial method b s (l ++ l') b' s') : ∃ b₁ s₁, Serial method b s l b₁ s₁ := by
  generalize hl : l ++ l' = fin at h
  induction h generalizing l' with
  | nil =>
    rw [(List.append_eq_nil_iff.mp hl).1]
    exact ⟨_, _, .nil⟩
  | locked h1 h2 h3 ih =>
    rcases List.eq_nil_or_concat l' with rfl | ⟨l'', e, rfl⟩
    · rw [List.append_nil] at hl
      exact ⟨_, _, hl ▸ h1.locked h2 h3⟩
    · rw [List.concat_eq_append, ← List.append_assoc] at hl
      exact ih (List.append_inj' hl rfl).1
  | immediate h1 h2 ih =>
    rcases List.eq_nil_or_concat l' with rfl | ⟨l'', e, rfl⟩
    · rw [List.append_nil] at hl
      exact ⟨_, _, hl ▸ h1.immediate h2⟩
    · rw [List.concat_eq_append, ← List.append_assoc] at hl
      exact ih (List.append_inj' hl rfl).1

theorem Shared.Reachable.inv {method : β → Op → SharedMethod σ β A} {m : Suspension σ β Op A} (hI : m.Implements method)
    {b : ι → β} {s₀ : σ} {st : Shared ι σ β Op A m.κ} (h : Shared.Reachable method m (Shared.init s₀ b) st) :
    ∃ s, Shared.Inv method m b s₀ st s := by
  induction h with
  | refl => exact ⟨s₀, Shared.inv_init method m b s₀⟩
  | snoc _ hs ih =>
    obtain ⟨s, hs'⟩ := ih
    exact hs'.step (Serial.continues method b s₀) hI hs

end

/-! ## Encoders -/

section

variable {ι σ T F E B Rel : Type}

theorem consumedValues_append (l l' : List (ι × SharedEncoderOp T F × Except E Unit)) :
    consumedValues (l ++ l') = consumedValues l ++ consumedValues l' := by
  induction l with
  | nil => rfl
  | cons e l ih =>
    obtain ⟨i, op, a⟩ := e
    cases op <;> simp [consumedValues, ih]

theorem BulkCollects.flush_spec {C : BulkConsumer σ UInt8 F E} {D : σ → List UInt8 → Option F → Prop} {q : Policy UInt8 F E}
    {s : σ} {l : List UInt8} (h : BulkCollects C D q s l) : ∃ s',
    (C.flush s = ok (s', .ok ()) ∧ BulkCollects C D q s' l) ∨
    (∃ e, q.refuseFlush l = some e ∧ C.flush s = ok (s', .error e) ∧ D s' l none) := by
  obtain ⟨R, hR, slots, hs⟩ := h
  obtain ⟨s', ⟨h1, h2⟩ | h⟩ := hR.base.flush s l ⟨slots, hs⟩
  · exact ⟨s', .inl ⟨h1, R, hR, h2⟩⟩
  · exact ⟨s', .inr h⟩

variable [DecidableEq ι]

theorem relativeTos_append (b : ι → B) (l l' : List (ι × SharedRelativeEncoderOp T F B × Except E Unit)) :
    relativeTos b (l ++ l') = relativeTos (relativeTos b l) l' := by
  induction l generalizing b with
  | nil => rfl
  | cons e l ih =>
    obtain ⟨i, op, a⟩ := e
    cases op <;> simp [relativeTos, ih]

theorem consumedBytes_append (enc : Rel → T → List UInt8) (borrow : B → Rel) (b : ι → B)
    (l l' : List (ι × SharedRelativeEncoderOp T F B × Except E Unit)) :
    consumedBytes enc borrow b (l ++ l') = consumedBytes enc borrow b l ++ consumedBytes enc borrow (relativeTos b l) l' := by
  induction l generalizing b with
  | nil => rfl
  | cons e l ih =>
    obtain ⟨i, op, a⟩ := e
    cases op <;> simp [relativeTos, consumedBytes, ih]

theorem encodes_ok {encode : EncodeFn T} {enc : T → List UInt8} (he : EncodesLaw encode enc) {C : BulkConsumer σ UInt8 F E}
    {D : σ → List UInt8 → Option F → Prop} {q : Policy UInt8 F E} {s s' : σ} {l : List UInt8} {x : T}
    (h : BulkCollects C D q s l) (hr : encode C s x = ok (s', .ok ())) : BulkCollects C D q s' (l ++ enc x) := by
  rcases Policy.accepts_or_failsAt q l (enc x) with ha | ⟨k, e, ha⟩
  · obtain ⟨s1, h1, h2⟩ := he.accepted x h ha
    rw [hr] at h1; cases h1; exact h2
  · obtain ⟨s1, h1, h2⟩ := he.refused x h ha
    rw [hr] at h1; cases h1

theorem encodes_err {encode : EncodeFn T} {enc : T → List UInt8} (he : EncodesLaw encode enc) {C : BulkConsumer σ UInt8 F E}
    {D : σ → List UInt8 → Option F → Prop} {q : Policy UInt8 F E} {s s' : σ} {l : List UInt8} {x : T} {e : E}
    (h : BulkCollects C D q s l) (hr : encode C s x = ok (s', .error e)) :
    ∃ k, q.FailsAt l (enc x) k e ∧ D s' (l ++ (enc x).take k) none := by
  rcases Policy.accepts_or_failsAt q l (enc x) with ha | ⟨k, e', ha⟩
  · obtain ⟨s1, h1, h2⟩ := he.accepted x h ha
    rw [hr] at h1; cases h1
  · obtain ⟨s1, h1, h2⟩ := he.refused x h ha
    rw [hr] at h1; cases h1; exact ⟨k, ha, h2⟩

theorem sharedRelativeEncoder_serial {t : RelativeEncodable T Rel} {borrow : B → Rel} {enc : Rel → T → List UInt8}
    (he : ∀ r, EncodesLaw (t.relativeEncode r) (enc r)) {C : BulkConsumer σ UInt8 F E} {D : σ → List UInt8 → Option F → Prop}
    {q : Policy UInt8 F E} {s s' : σ} {l : List UInt8} (h : BulkCollects C D q s l) {b b' : ι → B}
    {fin : List (ι × SharedRelativeEncoderOp T F B × Except E Unit)}
    (hs : Serial (sharedRelativeEncoder t borrow C) b s fin b' s') :
    b' = relativeTos b fin ∧
    ((∀ e ∈ fin, e.2.2 = .ok ()) → BulkCollects C D q s' (l ++ consumedBytes enc borrow b fin)) := by
  induction hs with
  | nil => exact ⟨rfl, fun _ => by simpa [consumedBytes] using h⟩
  | @locked fin b₁ s₁ i op run a s₂ _ hm hr ih =>
    obtain ⟨rfl, ih⟩ := ih
    refine ⟨?_, fun hok => ?_⟩
    · rw [relativeTos_append]
      cases op <;> first | rfl | cases hm
    · have ih := ih fun e he => hok e (List.mem_append_left _ he)
      obtain rfl : a = .ok () := hok (i, op, a) (by simp)
      cases op with
      | consume x =>
        cases hm
        have := encodes_ok (he _) ih hr
        simpa [consumedBytes_append, consumedBytes] using this
      | close f => cases hm
      | setRelativeTo r => cases hm
      | flush =>
        cases hm
        change C.flush s₁ = _ at hr
        obtain ⟨s3, ⟨h1, h2⟩ | ⟨e, h1, h2, h3⟩⟩ := ih.flush_spec
        · rw [hr] at h1; cases h1
          simpa [consumedBytes_append, consumedBytes] using h2
        · rw [hr] at h2; cases h2
  | @immediate fin b₁ s₁ i op x a _ hm ih =>
    obtain ⟨rfl, ih⟩ := ih
    have hset : setAt (relativeTos b fin) i (relativeTos b fin i) = relativeTos b fin := by
      funext j; by_cases hj : j = i <;> simp [setAt, hj]
    refine ⟨?_, fun hok => ?_⟩
    · rw [relativeTos_append]
      cases op <;> cases hm
      · exact hset
      · rfl
    · have ih := ih fun e he => hok e (List.mem_append_left _ he)
      cases op <;> cases hm
      · simpa [consumedBytes_append, consumedBytes] using ih
      · simpa [consumedBytes_append, consumedBytes] using ih

theorem sharedEncoder_serial {t : Encodable T} {enc : T → List UInt8} (he : EncodesLaw t.encode enc)
    {C : BulkConsumer σ UInt8 F E} {D : σ → List UInt8 → Option F → Prop}
    {q : Policy UInt8 F E} {s s' : σ} {l : List UInt8} (h : BulkCollects C D q s l) {b b' : ι → Unit}
    {fin : List (ι × SharedEncoderOp T F × Except E Unit)}
    (hs : Serial (sharedEncoder t C) b s fin b' s') (hok : ∀ e ∈ fin, e.2.2 = .ok ()) :
    BulkCollects C D q s' (l ++ encodeAll enc (consumedValues fin)) := by
  induction hs with
  | nil => simpa [consumedValues, encodeAll] using h
  | @locked fin b₁ s₁ i op run a s₂ _ hm hr ih =>
    have ih := ih fun e he => hok e (List.mem_append_left _ he)
    obtain rfl : a = .ok () := hok (i, op, a) (by simp)
    cases op with
    | consume x =>
      cases hm
      have := encodes_ok he ih hr
      simpa [consumedValues_append, consumedValues, encodeAll_concat] using this
    | close f => cases hm
    | flush =>
      cases hm
      change C.flush s₁ = _ at hr
      obtain ⟨s3, ⟨h1, h2⟩ | ⟨e, h1, h2, h3⟩⟩ := ih.flush_spec
      · rw [hr] at h1; cases h1
        simpa [consumedValues_append, consumedValues] using h2
      · rw [hr] at h2; cases h2
  | @immediate fin b₁ s₁ i op x a _ hm ih =>
    have ih := ih fun e he => hok e (List.mem_append_left _ he)
    cases op <;> cases hm
    simpa [consumedValues_append, consumedValues] using ih

end

/-! ## Decoders -/

section

variable {ι σ T R F E B Rel : Type}

theorem producedAnswers_append {Err : Type} (l l' : List (ι × SharedDecoderOp × SharedDecoderAnswer T F Err)) :
    producedAnswers (l ++ l') = producedAnswers l ++ producedAnswers l' := by
  induction l with
  | nil => rfl
  | cons e l ih =>
    obtain ⟨i, op, a⟩ := e
    cases a <;> simp [producedAnswers, ih]

theorem withAnswer_eq_ok {A A' : Type} {f : A → A'} {run : σ → Outcome (σ × A)} {s s' : σ} {a' : A'}
    (h : withAnswer f run s = ok (s', a')) : ∃ a, run s = ok (s', a) ∧ a' = f a := by
  unfold withAnswer at h
  cases hr : run s with
  | ok r => obtain ⟨s1, a⟩ := r; simp [hr] at h; exact ⟨a, by rw [h.1], h.2.symm⟩
  | panic => simp [hr] at h
  | diverge => simp [hr] at h

variable [DecidableEq ι]

/-- A generic shared decoder: what has been handed out is a prefix of the sequence `c'`, as long as nothing but values has been. -/
theorem sharedDecoder_serial {d : Decodable T R} {g : Grammar T R} (hd : DecodesLaw d.decode g) (hg : g [] = .more)
    {P : BulkProducer σ UInt8 F E} {s s' : σ} {c : Script UInt8 F E} (h : BulkPlays P s c)
    {c' : Script T F (DecodeError F E R)} {used : Nat → Nat} (hc : Decodes g c c' used) {b b' : ι → Unit}
    {fin : List (ι × SharedDecoderOp × SharedDecoderAnswer T F (DecodeError F E R))}
    (hs : Serial (sharedDecoder d P) b s fin b' s') (hslurp : NoSlurpError fin)
    (hval : ∀ r ∈ producedAnswers fin, ∃ x, r.2 = .ok (.inl x)) :
    (∀ n r, (producedAnswers fin)[n]? = some r → r.2 = c' n) ∧
    BulkPlays P s' (c.drop (used (producedAnswers fin).length)) := by
  induction hs with
  | nil => exact ⟨by simp [producedAnswers], by simpa [producedAnswers, hc.1] using h⟩
  | @locked fin b₁ s₁ i op run a s₂ _ hm hr ih =>
    obtain ⟨ih1, ih2⟩ := ih (fun i op e he => hslurp i op e (List.mem_append_left _ he))
      (fun r hr => hval r (by rw [producedAnswers_append]; exact List.mem_append_left _ hr))
    have hitems : ∀ n, n < (producedAnswers fin).length → ∃ x, c' n = .ok (.inl x) := by
      intro n hn
      obtain ⟨x, hx⟩ := hval (producedAnswers fin)[n]
        (by rw [producedAnswers_append]; exact List.mem_append_left _ (List.getElem_mem hn))
      exact ⟨x, by rw [← ih1 n _ (List.getElem?_eq_getElem hn), hx]⟩
    obtain ⟨k, hk1, hk2⟩ := hc.2 _ hitems
    cases op with
    | produce =>
      cases hm
      obtain ⟨r, hr', rfl⟩ := withAnswer_eq_ok hr
      obtain ⟨s3, h3, h4⟩ := decoderProduce_spec hd hg ih2 hk1
      rw [hr'] at h3; cases h3
      obtain ⟨x, hx⟩ := hval (i, c' (producedAnswers fin).length) (by simp [producedAnswers_append, producedAnswers])
      refine ⟨?_, ?_⟩
      · intro n r hn
        rw [producedAnswers_append] at hn
        rcases Nat.lt_or_ge n (producedAnswers fin).length with hlt | hge
        · rw [List.getElem?_append_left hlt] at hn
          exact ih1 n r hn
        · rw [List.getElem?_append_right hge] at hn
          simp only [producedAnswers] at hn
          have hn0 : n - (producedAnswers fin).length = 0 := by
            obtain ⟨hlt, _⟩ := List.getElem?_eq_some_iff.mp hn
            simpa using hlt
          rw [hn0] at hn
          obtain rfl : n = (producedAnswers fin).length := by omega
          simp at hn
          rw [← hn]
      · have := h4 x hx
        simpa [producedAnswers_append, producedAnswers, hk2] using this
    | slurp =>
      cases hm
      obtain ⟨r, hr', rfl⟩ := withAnswer_eq_ok hr
      obtain ⟨s3, ⟨h3, h4⟩ | ⟨e, h3, h4⟩⟩ := decoderSlurp_spec hg ih2 hk1
      · rw [hr'] at h3; cases h3
        rw [producedAnswers_append, producedAnswers, producedAnswers, List.append_nil]
        exact ⟨ih1, h4⟩
      · rw [hr'] at h4; cases h4
        exact absurd (List.mem_append_right _ (by simp)) (hslurp i .slurp e)
  | @immediate fin b₁ s₁ i op x a _ hm ih => cases op <;> cases hm

theorem sharedRelativeDecoder_serial {d : RelativeDecodable T Rel R} {borrow : B → Rel} {g : Rel → Grammar T R}
    (hd : ∀ r, DecodesLaw (d.relativeDecode r) (g r)) (hg : ∀ r, g r [] = .more)
    {P : BulkProducer σ UInt8 F E} {s s' : σ} {c : Script UInt8 F E} (h : BulkPlays P s c)
    (hdec : ∀ r n, (∀ i, i < n → ∃ x, c i = .ok (.inl x)) → ∃ a k, DecodesNext (g r) (c.drop n) a k) {b b' : ι → B}
    {fin : List (ι × SharedRelativeDecoderOp B × SharedDecoderAnswer T F (DecodeError F E R))}
    (hs : Serial (sharedRelativeDecoder d borrow P) b s fin b' s') (hslurp : NoSlurpError fin)
    (hval : ∀ i op r, (i, op, .produced r) ∈ fin → ∃ x, r = .ok (.inl x)) :
    ∃ n, (∀ i, i < n → ∃ x, c i = .ok (.inl x)) ∧ DecodedRelative g borrow b c fin b' (c.drop n) ∧
      BulkPlays P s' (c.drop n) := by
  induction hs with
  | nil => exact ⟨0, by simp, by simpa using .nil, by simpa using h⟩
  | @locked fin b₁ s₁ i op run a s₂ _ hm hr ih =>
    obtain ⟨n, ih0, ih1, ih2⟩ := ih (fun i op e he => hslurp i op e (List.mem_append_left _ he))
      (fun i op r hr => hval i op r (List.mem_append_left _ hr))
    obtain ⟨a', k, hk⟩ := hdec (borrow (b₁ i)) n ih0
    cases op with
    | produce =>
      cases hm
      obtain ⟨r, hr', rfl⟩ := withAnswer_eq_ok hr
      obtain ⟨s3, h3, h4⟩ := decoderProduce_spec (hd _) (hg _) ih2 hk
      rw [hr'] at h3; cases h3
      obtain ⟨x, rfl⟩ := hval i .produce a' (List.mem_append_right _ (by simp))
      refine ⟨n + k, fun j hj => ?_, ?_, by simpa using h4 x rfl⟩
      · rcases Nat.lt_or_ge j n with hlt | hge
        · exact ih0 j hlt
        · cases hk with
          | @value bs _ hst _ =>
            have hj' : j - n < bs.length := by omega
            refine ⟨bs[j - n], ?_⟩
            have := hst (j - n) _ (List.getElem?_eq_getElem hj')
            simpa [Script.drop, Nat.add_sub_cancel' hge] using this
      have := ih1.value (i := i) hk
      rwa [Script.drop_drop] at this
    | slurp =>
      cases hm
      obtain ⟨r, hr', rfl⟩ := withAnswer_eq_ok hr
      obtain ⟨s3, ⟨h3, h4⟩ | ⟨e, h3, h4⟩⟩ := decoderSlurp_spec (hg _) ih2 hk
      · rw [hr'] at h3; cases h3
        exact ⟨n, ih0, ih1.slurp, h4⟩
      · rw [hr'] at h4; cases h4
        exact absurd (List.mem_append_right _ (by simp)) (hslurp i .slurp e)
    | setRelativeTo r => cases hm
  | @immediate fin b₁ s₁ i op x a _ hm ih =>
    obtain ⟨n, ih0, ih1, ih2⟩ := ih (fun i op e he => hslurp i op e (List.mem_append_left _ he))
      (fun i op r hr => hval i op r (List.mem_append_left _ hr))
    cases op with
    | setRelativeTo r => cases hm; exact ⟨n, ih0, ih1.set, ih2⟩
    | produce => cases hm
    | slurp => cases hm

end

end Verif
