import Verif.Lemmas.Shared

/-!
# Lemmas about shared adaptors around a value that checks its contract
-/

namespace Verif

open Outcome

section

variable {ι σ β Op A : Type} [DecidableEq ι]

/-- After an answer of the kind `End`, the shared value is inactive, and no call that needs the lock returns any more. -/
theorem Serial.ended {method : β → Op → SharedMethod (InvariantSt σ) β A} {End : Op → A → Prop}
    (hpanic : ∀ {b op run s}, method b op = .locked run → s.active = false → run s = .panic)
    (hend : ∀ {b op run s s' a}, method b op = .locked run → run s = ok (s', a) → End op a → s'.active = false)
    (himm : ∀ {b op x a}, method b op = .immediate x a → ¬ End op a)
    {b b' : ι → β} {s s' : InvariantSt σ} {l : List (ι × Op × A)} (hs : Serial method b s l b' s') :
    (∀ i op a, (i, op, a) ∈ l → End op a → s'.active = false) ∧
    (∀ l₁ l₂ i op a, l = l₁ ++ (i, op, a) :: l₂ → End op a → ∀ e ∈ l₂, ∃ b x, method b e.2.1 = .immediate x e.2.2) := by
  induction hs with
  | nil => exact ⟨by simp, by simp⟩
  | @locked l b₁ s₁ i op run a s₂ _ hm hr ih =>
    have hfresh : ∀ j op' a', (j, op', a') ∈ l → ¬ End op' a' := by
      intro j op' a' hj he
      have h1 := ih.1 j op' a' hj he
      rw [hpanic hm h1] at hr; cases hr
    refine ⟨?_, ?_⟩
    · intro j op' a' hj he
      rcases List.mem_append.mp hj with hj | hj
      · exact absurd he (hfresh j op' a' hj)
      · obtain ⟨rfl, rfl, rfl⟩ : j = i ∧ op' = op ∧ a' = a := by simpa using hj
        exact hend hm hr he
    · intro l₁ l₂ j op' a' hl he
      rcases List.eq_nil_or_concat l₂ with rfl | ⟨l₃, e₃, rfl⟩
      · simp
      · exfalso
        rw [List.concat_eq_append, ← List.cons_append, ← List.append_assoc] at hl
        have h1 := (List.append_inj' hl rfl).1
        exact hfresh j op' a' (by rw [h1]; simp) he
  | @immediate l b₁ s₁ i op x a _ hm ih =>
    refine ⟨?_, ?_⟩
    · intro j op' a' hj he
      rcases List.mem_append.mp hj with hj | hj
      · exact ih.1 j op' a' hj he
      · obtain ⟨rfl, rfl, rfl⟩ : j = i ∧ op' = op ∧ a' = a := by simpa using hj
        exact absurd he (himm hm)
    · intro l₁ l₂ j op' a' hl he e hmem
      rcases List.eq_nil_or_concat l₂ with rfl | ⟨l₃, e₃, rfl⟩
      · cases hmem
      · rw [List.concat_eq_append, ← List.cons_append, ← List.append_assoc] at hl
        obtain ⟨h1, h2⟩ := List.append_inj' hl rfl
        rw [List.concat_eq_append] at hmem
        rcases List.mem_append.mp hmem with hmem | hmem
        · exact ih.2 l₁ l₃ j op' a' h1 he e hmem
        · obtain rfl : e = e₃ := by simpa using hmem
          obtain rfl : (i, op, a) = e := by simpa using h2
          exact ⟨_, x, hm⟩

end

section

variable {ι T F : Type}

theorem continues_noSlurpError {Op Err : Type} {l : List (ι × Op × SharedDecoderAnswer T F Err)}
    (h : ∀ e ∈ l, e.2.2.Continues) : NoSlurpError l := by
  intro i op e he
  exact h _ he

theorem continues_produced {Op Err : Type} {l : List (ι × Op × SharedDecoderAnswer T F Err)} (h : ∀ e ∈ l, e.2.2.Continues)
    {i : ι} {op : Op} {r : Except Err (T ⊕ F)} (hr : (i, op, .produced r) ∈ l) : ∃ x, r = .ok (.inl x) := by
  have := h _ hr
  rcases r with e | x | f
  · cases this
  · exact ⟨x, rfl⟩
  · cases this

theorem mem_producedAnswers {Err : Type} {l : List (ι × SharedDecoderOp × SharedDecoderAnswer T F Err)} {r : ι × Except Err (T ⊕ F)}
    (h : r ∈ producedAnswers l) : ∃ op, (r.1, op, .produced r.2) ∈ l := by
  induction l with
  | nil => cases h
  | cons e l ih =>
    obtain ⟨i, op, a⟩ := e
    cases a with
    | produced r' =>
      simp only [producedAnswers, List.mem_cons] at h
      rcases h with rfl | h
      · exact ⟨op, by simp⟩
      · obtain ⟨op', h⟩ := ih h; exact ⟨op', by simp [h]⟩
    | slurped r' => obtain ⟨op', h⟩ := ih h; exact ⟨op', by simp [h]⟩
    | unit => obtain ⟨op', h⟩ := ih h; exact ⟨op', by simp [h]⟩

end

section

variable {σ T R F E : Type}

theorem decoderProduce_inactive (decode : DecodeFn T R) (P : BulkProducer σ UInt8 F E) {s : InvariantSt σ}
    (h : s.active = false) : decoderProduce decode (invariantBulkProducer P) s = .panic := by
  simp [decoderProduce, invariantBulkProducer, InvariantSt.checkInactive, h, assert]

theorem decoderSlurp_inactive (P : BulkProducer σ UInt8 F E) {s : InvariantSt σ} (h : s.active = false) :
    (decoderSlurp (invariantBulkProducer P) s : Outcome (_ × Except (DecodeError F E R) Unit)) = .panic := by
  simp [decoderSlurp, invariantBulkProducer, invariantBufferedProducer, InvariantSt.checkInactive, h, assert]

theorem decoderProduce_final {decode : DecodeFn T R} {P : BulkProducer σ UInt8 F E} {s s' : InvariantSt σ} {f : F}
    (h : decoderProduce decode (invariantBulkProducer P) s = ok (s', .ok (.inr f))) : s'.active = false := by
  cases ha : s.active with
  | false => rw [decoderProduce_inactive _ _ ha] at h; cases h
  | true =>
    unfold decoderProduce at h
    cases he : (invariantBulkProducer P).exposeItems s with
    | panic => simp [he] at h
    | diverge => simp [he] at h
    | ok r =>
      obtain ⟨s1, e | xs | f'⟩ := r
      · simp [he] at h
      · simp only [he, bind_eq, bind_ok] at h
        cases hd : decode (invariantBulkProducer P) s1 with
        | panic => simp [hd] at h
        | diverge => simp [hd] at h
        | ok r => obtain ⟨s2, e | x⟩ := r <;> simp [hd] at h
      · simp [he] at h
        obtain ⟨rfl, rfl⟩ := h
        simp only [invariantBulkProducer, InvariantSt.checkInactive, ha, assert, bind_eq, bind_ok, if_true] at he
        cases hp : P.exposeItems s.inner with
        | panic => simp [hp] at he
        | diverge => simp [hp] at he
        | ok r =>
          obtain ⟨s2, e | xs | f''⟩ := r <;> simp [hp] at he
          rw [← he.1]

theorem decoderSlurp_error {P : BulkProducer σ UInt8 F E} {s s' : InvariantSt σ} {e : DecodeError F E R}
    (h : decoderSlurp (invariantBulkProducer P) s = ok (s', .error e)) : s'.active = false := by
  cases ha : s.active with
  | false => rw [decoderSlurp_inactive _ ha] at h; cases h
  | true =>
    simp only [decoderSlurp, invariantBulkProducer, invariantBufferedProducer, InvariantSt.checkInactive, ha, assert, bind_eq,
      bind_ok, if_true] at h
    cases hp : P.slurp s.inner with
    | panic => simp [hp] at h
    | diverge => simp [hp] at h
    | ok r =>
      obtain ⟨s2, e' | u⟩ := r <;> simp [hp] at h
      rw [← h.1]

theorem withAnswer_panic {A A' : Type} {f : A → A'} {run : σ → Outcome (σ × A)} {s : σ} (h : run s = .panic) :
    withAnswer f run s = .panic := by simp [withAnswer, h]

theorem withAnswer_ok {A A' : Type} {f : A → A'} {run : σ → Outcome (σ × A)} {s s' : σ} {a : A} (h : run s = ok (s', a)) :
    withAnswer f run s = ok (s', f a) := by simp [withAnswer, h]

theorem invariant_flush_inactive (C : BulkConsumer σ UInt8 F E) {s : InvariantSt σ} (h : s.active = false) :
    (invariantBulkConsumer C).flush s = .panic := by
  simp [invariantBulkConsumer, invariantBufferedConsumer, InvariantSt.checkInactive, h, assert]

theorem encode_total {encode : EncodeFn T} {enc : T → List UInt8} (he : EncodesLaw encode enc) {C : BulkConsumer σ UInt8 F E}
    {D : σ → List UInt8 → Option F → Prop} {q : Policy UInt8 F E} {s : σ} {l : List UInt8} (x : T)
    (h : BulkCollects C D q s l) : ∃ s' r, encode C s x = ok (s', r) := by
  rcases Policy.accepts_or_failsAt q l (enc x) with ha | ⟨k, e, ha⟩
  · obtain ⟨s1, h1, _⟩ := he.accepted x h ha
    exact ⟨_, _, h1⟩
  · obtain ⟨s1, h1, _⟩ := he.refused x h ha
    exact ⟨_, _, h1⟩

theorem flush_total {C : BulkConsumer σ UInt8 F E} {D : σ → List UInt8 → Option F → Prop} {q : Policy UInt8 F E} {s : σ}
    {l : List UInt8} (h : BulkCollects C D q s l) : ∃ s' r, C.flush s = ok (s', r) := by
  obtain ⟨s3, ⟨h1, _⟩ | ⟨e, _, h2, _⟩⟩ := h.flush_spec
  · exact ⟨_, _, h1⟩
  · exact ⟨_, _, h2⟩

end

end Verif
