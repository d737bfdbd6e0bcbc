import Verif.CallsSpec

namespace Verif

open Outcome

variable {σ τ I F E E' G : Type}

/-- Perform some calls. -/
def BulkProducer.performAll (P : BulkProducer σ I F E) (s : σ) : List (ProducerOp I) → Outcome σ
  | [] => ok s
  | op :: ops => (P.call s [] op).bind fun p => P.performAll p.1 ops

theorem BulkProducer.Performs.of_all {P : BulkProducer σ I F E} {s t : σ} {ops : List (ProducerOp I)}
    (h : P.performAll s ops = ok t) : P.Performs s ops t := by
  have key : ∀ (ops done : List (ProducerOp I)) (s₁ : σ), P.Performs s done s₁ → P.performAll s₁ ops = ok t →
      P.Performs s (done ++ ops) t := by
    intro ops
    induction ops with
    | nil => intro done s₁ h1 h; cases h; rwa [List.append_nil]
    | cons op ops ih =>
      intro done s₁ h1 h
      simp only [BulkProducer.performAll] at h
      rcases h2 : P.call s₁ [] op with ⟨s₂, r⟩ | _ | _ <;> rw [h2] at h <;> try cases h
      have h3 := ih (done ++ [op]) s₂ (.call h1 h2) h
      rwa [List.append_assoc] at h3
  exact key ops [] s .start h

/-- Perform some calls. -/
def BulkConsumer.performAll (C : BulkConsumer σ I F E) (s : σ) : List (ConsumerOp I F) → Outcome σ
  | [] => ok s
  | op :: ops => (C.call s [] op).bind fun p => C.performAll p.1 ops

theorem BulkConsumer.Performs.of_all {C : BulkConsumer σ I F E} {s t : σ} {ops : List (ConsumerOp I F)}
    (h : C.performAll s ops = ok t) : C.Performs s ops t := by
  have key : ∀ (ops done : List (ConsumerOp I F)) (s₁ : σ), C.Performs s done s₁ → C.performAll s₁ ops = ok t →
      C.Performs s (done ++ ops) t := by
    intro ops
    induction ops with
    | nil => intro done s₁ h1 h; cases h; rwa [List.append_nil]
    | cons op ops ih =>
      intro done s₁ h1 h
      simp only [BulkConsumer.performAll] at h
      rcases h2 : C.call s₁ [] op with ⟨s₂, r⟩ | _ | _ <;> rw [h2] at h <;> try cases h
      have h3 := ih (done ++ [op]) s₂ (.call h1 h2) h
      rwa [List.append_assoc] at h3
  exact key ops [] s .start h

/-- Every method makes the same call, and records it. -/
structure ProducerForwards (A : BulkProducer τ I G E') (log : τ → List (ProducerOp I)) : Prop where
  produce : ∀ {t t' r}, A.produce t = ok (t', r) → log t' = log t ++ [.produce]
  slurp : ∀ {t t' r}, A.slurp t = ok (t', r) → log t' = log t ++ [.slurp]
  exposeItems : ∀ {t t' r}, A.exposeItems t = ok (t', r) → log t' = log t ++ [.exposeItems]
  considerProduced : ∀ {t k t' r}, A.considerProduced t k = ok (t', r) → log t' = log t ++ [.considerProduced k]
  bulk : A.bulkProduce = bulkProduceDefault A.exposeItems A.considerProduced

/-- The calls made by the default `bulk_produce` of a producer that passes on the calls that it makes for it. -/
theorem bulkProduceDefault_calls {exposeItems : τ → Outcome (τ × Except E' (List I ⊕ G))}
    {considerProduced : τ → Nat → Outcome (τ × Except E' Unit)} {log : τ → List (ProducerOp I)} {t t' : τ}
    (h1 : ∀ {t' r}, exposeItems t = ok (t', r) → log t' = log t ++ [.exposeItems])
    (h2 : ∀ {t k t' r}, considerProduced t k = ok (t', r) → log t' = log t ++ [.considerProduced k])
    {buf : List I} {r} (h : bulkProduceDefault exposeItems considerProduced t buf = ok (t', r)) :
    ∃ calls, (ProducerOp.bulkProduce buf).PassedOn calls ∧ log t' = log t ++ calls := by
  simp only [bulkProduceDefault, bind_eq] at h
  rcases h3 : exposeItems t with ⟨s, e | x | f⟩ | _ | _ <;> rw [h3] at h
  · cases h; exact ⟨_, .bulkEnded, h1 h3⟩
  · simp only [bind_ok, pure_eq] at h
    rcases h4 : considerProduced s (min x.length buf.length) with ⟨s, e | ⟨⟩⟩ | _ | _ <;> rw [h4] at h <;> cases h <;>
      exact ⟨_, .bulk (Nat.min_le_right _ _), by rw [h2 h4, h1 h3, List.append_assoc]; rfl⟩
  · cases h; exact ⟨_, .bulkEnded, h1 h3⟩
  · cases h
  · cases h

theorem bulkProduceDefault_length {exposeItems : τ → Outcome (τ × Except E' (List I ⊕ G))}
    {considerProduced : τ → Nat → Outcome (τ × Except E' Unit)} {t t' : τ} {buf buf' : List I} {r}
    (h : bulkProduceDefault exposeItems considerProduced t buf = ok (t', r, buf')) : buf'.length = buf.length := by
  simp only [bulkProduceDefault, bind_eq] at h
  rcases h3 : exposeItems t with ⟨s, e | x | f⟩ | _ | _ <;> rw [h3] at h <;> try (cases h <;> rfl)
  simp only [bind_ok, pure_eq] at h
  rcases h4 : considerProduced s (min x.length buf.length) with ⟨s, e | ⟨⟩⟩ | _ | _ <;> rw [h4] at h <;> cases h <;>
    simp <;> omega

/-- A call of a method, and its result. -/
theorem BulkProducer.call_method {A : BulkProducer τ I G E'} {t t' : τ} {shown : List I} {op : ProducerOp I} {r}
    (h : A.call t shown op = ok (t', r)) :
    match op with
    | .produce => ∃ r, A.produce t = ok (t', r)
    | .slurp => ∃ r, A.slurp t = ok (t', r)
    | .exposeItems => ∃ r, A.exposeItems t = ok (t', r)
    | .considerProduced k => ∃ r, A.considerProduced t k = ok (t', r)
    | .bulkProduce buf => ∃ r, A.bulkProduce t buf = ok (t', r) := by
  cases op with
  | produce =>
    simp only [BulkProducer.call] at h
    rcases hp : A.produce t with ⟨s, e | x | f⟩ | _ | _ <;> rw [hp] at h <;> cases h <;> first | exact ⟨_, rfl⟩ | exact ⟨_, hp⟩
  | slurp =>
    simp only [BulkProducer.call] at h
    rcases hp : A.slurp t with ⟨s, e | ⟨⟩⟩ | _ | _ <;> rw [hp] at h <;> cases h <;> first | exact ⟨_, rfl⟩ | exact ⟨_, hp⟩
  | exposeItems =>
    simp only [BulkProducer.call] at h
    rcases hp : A.exposeItems t with ⟨s, e | x | f⟩ | _ | _ <;> rw [hp] at h <;> cases h <;> first | exact ⟨_, rfl⟩ | exact ⟨_, hp⟩
  | considerProduced k =>
    simp only [BulkProducer.call] at h
    rcases hp : A.considerProduced t k with ⟨s, e | ⟨⟩⟩ | _ | _ <;> rw [hp] at h <;> cases h <;> first | exact ⟨_, rfl⟩ | exact ⟨_, hp⟩
  | bulkProduce buf =>
    simp only [BulkProducer.call] at h
    rcases hp : A.bulkProduce t buf with ⟨s, e | x | f, b⟩ | _ | _ <;> rw [hp] at h <;> cases h <;> first | exact ⟨_, rfl⟩ | exact ⟨_, hp⟩

theorem ProducerForwards.call {A : BulkProducer τ I G E'} {log : τ → List (ProducerOp I)} (hA : ProducerForwards A log)
    {t t' : τ} {shown : List I} {op : ProducerOp I} {r} (h : A.call t shown op = ok (t', r)) :
    ∃ calls, op.PassedOn calls ∧ log t' = log t ++ calls := by
  replace h := BulkProducer.call_method h
  cases op with
  | produce => exact ⟨_, .produce, hA.produce h.choose_spec⟩
  | slurp => exact ⟨_, .slurp, hA.slurp h.choose_spec⟩
  | exposeItems => exact ⟨_, .exposeItems, hA.exposeItems h.choose_spec⟩
  | considerProduced k => exact ⟨_, .considerProduced, hA.considerProduced h.choose_spec⟩
  | bulkProduce buf =>
    obtain ⟨r, h⟩ := h
    rw [hA.bulk] at h
    exact bulkProduceDefault_calls hA.exposeItems hA.considerProduced h

theorem ProducerForwards.performs {A : BulkProducer τ I G E'} {log : τ → List (ProducerOp I)} (hA : ProducerForwards A log)
    {t t' : τ} {ops : List (ProducerOp I)} (hops : A.Performs t ops t') (h0 : log t = []) :
    PassedOnAll ProducerOp.PassedOn ops (log t') := by
  induction hops with
  | start => rw [h0]; exact .nil
  | call _ hc ih =>
    obtain ⟨calls, h1, h2⟩ := hA.call hc
    rw [h2]
    exact .snoc ih h1

/-- The same for consumers; what holds of the state (`J`) may matter for `close`. -/
structure ConsumerForwards (A : BulkConsumer τ I G E') (fn : G → F) (log : τ → List (ConsumerOp I F)) (J : τ → Prop) : Prop where
  consume : ∀ {t x t' r}, J t → A.consume t x = ok (t', r) → J t' ∧ log t' = log t ++ [.consume x]
  close : ∀ {t f t' r}, J t → A.close t f = ok (t', r) → J t' ∧ log t' = log t ++ [.close (fn f)]
  flush : ∀ {t t' r}, J t → A.flush t = ok (t', r) → J t' ∧ log t' = log t ++ [.flush]
  exposeSlots : ∀ {t t' r}, J t → A.exposeSlots t = ok (t', r) → J t' ∧ log t' = log t ++ [.exposeSlots]
  writeSlots : ∀ {t ws}, J t → J (A.writeSlots t ws) ∧ log (A.writeSlots t ws) = log t ++ [.write ws]
  consumeSlots : ∀ {t k t' r}, J t → A.consumeSlots t k = ok (t', r) → J t' ∧ log t' = log t ++ [.consumeSlots k]
  bulk : A.bulkConsume = bulkConsumeDefault A.exposeSlots A.writeSlots A.consumeSlots

theorem bulkConsumeDefault_calls {exposeSlots : τ → Outcome (τ × Except E' (List I))} {writeSlots : τ → List I → τ}
    {consumeSlots : τ → Nat → Outcome (τ × Except E' Unit)} {log : τ → List (ConsumerOp I F)} {J : τ → Prop} {t t' : τ}
    {fn : G → F} (hJ : J t)
    (h1 : ∀ {t' r}, J t → exposeSlots t = ok (t', r) → J t' ∧ log t' = log t ++ [.exposeSlots])
    (hw : ∀ {t ws}, J t → J (writeSlots t ws) ∧ log (writeSlots t ws) = log t ++ [.write ws])
    (h2 : ∀ {t k t' r}, J t → consumeSlots t k = ok (t', r) → J t' ∧ log t' = log t ++ [.consumeSlots k])
    {buf : List I} {r} (h : bulkConsumeDefault exposeSlots writeSlots consumeSlots t buf = ok (t', r)) :
    J t' ∧ ∃ calls, (ConsumerOp.bulkConsume buf).PassedOn fn calls ∧ log t' = log t ++ calls := by
  simp only [bulkConsumeDefault, bind_eq] at h
  rcases h3 : exposeSlots t with ⟨s, e | x⟩ | _ | _ <;> rw [h3] at h
  · cases h; exact ⟨(h1 hJ h3).1, _, .bulkRefused, (h1 hJ h3).2⟩
  · simp only [bind_ok, pure_eq] at h
    obtain ⟨hJ1, hl1⟩ := h1 hJ h3
    obtain ⟨hJ2, hl2⟩ := hw (ws := buf.take (min x.length buf.length)) hJ1
    rcases h4 : consumeSlots (writeSlots s (buf.take (min x.length buf.length))) (min x.length buf.length) with
      ⟨s, e | ⟨⟩⟩ | _ | _ <;> rw [h4] at h <;> cases h <;>
      exact ⟨(h2 hJ2 h4).1, _, .bulk (Nat.min_le_right x.length _), by
        rw [(h2 hJ2 h4).2, hl2, hl1, List.append_assoc, List.append_assoc]; rfl⟩
  · cases h
  · cases h

theorem BulkConsumer.call_method {A : BulkConsumer τ I G E'} {t t' : τ} {slots : List I} {op : ConsumerOp I G} {r}
    (h : A.call t slots op = ok (t', r)) :
    match op with
    | .consume x => ∃ r, A.consume t x = ok (t', r)
    | .flush => ∃ r, A.flush t = ok (t', r)
    | .exposeSlots => ∃ r, A.exposeSlots t = ok (t', r)
    | .write ws => A.writeSlots t ws = t'
    | .consumeSlots k => ∃ r, A.consumeSlots t k = ok (t', r)
    | .bulkConsume buf => ∃ r, A.bulkConsume t buf = ok (t', r)
    | .close f => ∃ r, A.close t f = ok (t', r) := by
  cases op with
  | consume x =>
    simp only [BulkConsumer.call] at h
    rcases hp : A.consume t x with ⟨s, e | ⟨⟩⟩ | _ | _ <;> rw [hp] at h <;> cases h <;> first | exact ⟨_, rfl⟩ | exact ⟨_, hp⟩
  | flush =>
    simp only [BulkConsumer.call] at h
    rcases hp : A.flush t with ⟨s, e | ⟨⟩⟩ | _ | _ <;> rw [hp] at h <;> cases h <;> first | exact ⟨_, rfl⟩ | exact ⟨_, hp⟩
  | exposeSlots =>
    simp only [BulkConsumer.call] at h
    rcases hp : A.exposeSlots t with ⟨s, e | x⟩ | _ | _ <;> rw [hp] at h <;> cases h <;> first | exact ⟨_, rfl⟩ | exact ⟨_, hp⟩
  | write ws =>
    simp only [BulkConsumer.call] at h
    cases h
    rfl
  | consumeSlots k =>
    simp only [BulkConsumer.call] at h
    rcases hp : A.consumeSlots t k with ⟨s, e | ⟨⟩⟩ | _ | _ <;> rw [hp] at h <;> cases h <;> first | exact ⟨_, rfl⟩ | exact ⟨_, hp⟩
  | bulkConsume buf =>
    simp only [BulkConsumer.call] at h
    rcases hp : A.bulkConsume t buf with ⟨s, e | x⟩ | _ | _ <;> rw [hp] at h <;> cases h <;> first | exact ⟨_, rfl⟩ | exact ⟨_, hp⟩
  | close f =>
    simp only [BulkConsumer.call] at h
    rcases hp : A.close t f with ⟨s, e | ⟨⟩⟩ | _ | _ <;> rw [hp] at h <;> cases h <;> first | exact ⟨_, rfl⟩ | exact ⟨_, hp⟩

theorem ConsumerForwards.call {A : BulkConsumer τ I G E'} {fn : G → F} {log : τ → List (ConsumerOp I F)} {J : τ → Prop}
    (hA : ConsumerForwards A fn log J) {t t' : τ} {slots : List I} {op : ConsumerOp I G} {r} (hJ : J t)
    (h : A.call t slots op = ok (t', r)) : J t' ∧ ∃ calls, op.PassedOn fn calls ∧ log t' = log t ++ calls := by
  replace h := BulkConsumer.call_method h
  cases op with
  | consume x => exact ⟨(hA.consume hJ h.choose_spec).1, _, .consume, (hA.consume hJ h.choose_spec).2⟩
  | flush => exact ⟨(hA.flush hJ h.choose_spec).1, _, .flush, (hA.flush hJ h.choose_spec).2⟩
  | exposeSlots => exact ⟨(hA.exposeSlots hJ h.choose_spec).1, _, .exposeSlots, (hA.exposeSlots hJ h.choose_spec).2⟩
  | write ws =>
    have h : A.writeSlots t ws = t' := h
    rw [← h]
    exact ⟨(hA.writeSlots hJ).1, _, .write, (hA.writeSlots hJ).2⟩
  | consumeSlots k => exact ⟨(hA.consumeSlots hJ h.choose_spec).1, _, .consumeSlots, (hA.consumeSlots hJ h.choose_spec).2⟩
  | bulkConsume buf =>
    obtain ⟨r, h⟩ := h
    rw [hA.bulk] at h
    exact bulkConsumeDefault_calls hJ hA.exposeSlots hA.writeSlots hA.consumeSlots h
  | close f => exact ⟨(hA.close hJ h.choose_spec).1, _, .close, (hA.close hJ h.choose_spec).2⟩

theorem ConsumerForwards.performs {A : BulkConsumer τ I G E'} {fn : G → F} {log : τ → List (ConsumerOp I F)} {J : τ → Prop}
    (hA : ConsumerForwards A fn log J) {t t' : τ} {ops : List (ConsumerOp I G)} (hops : A.Performs t ops t') (hJ : J t)
    (h0 : log t = []) : PassedOnAll (ConsumerOp.PassedOn fn) ops (log t') := by
  have key : J t' ∧ PassedOnAll (ConsumerOp.PassedOn fn) ops (log t') := by
    induction hops with
    | start => exact ⟨hJ, by rw [h0]; exact .nil⟩
    | call _ hc ih =>
      obtain ⟨h3, calls, h1, h2⟩ := hA.call ih.1 hc
      refine ⟨h3, ?_⟩
      rw [h2]
      exact .snoc ih.2 h1
  exact key.2

/-! ## Recorded producers and consumers -/

theorem Outcome.onState_eq_ok {σ τ α : Type} {g : σ → τ} {o : Outcome (σ × α)} {t r} (h : o.onState g = ok (t, r)) :
    ∃ s, o = ok (s, r) ∧ g s = t := by
  rcases o with ⟨s, a⟩ | _ | _ <;> cases h
  exact ⟨s, rfl, rfl⟩

variable {P : BulkProducer σ I F E} {C : BulkConsumer σ I F E}

theorem recorded_produce {s t r} (h : (recordedProducer P).produce s = ok (t, r)) : t.calls = s.calls ++ [.produce] := by
  obtain ⟨_, _, rfl⟩ := Outcome.onState_eq_ok h; rfl

theorem recorded_slurp {s t r} (h : (recordedProducer P).slurp s = ok (t, r)) : t.calls = s.calls ++ [.slurp] := by
  obtain ⟨_, _, rfl⟩ := Outcome.onState_eq_ok h; rfl

theorem recorded_exposeItems {s t r} (h : (recordedProducer P).exposeItems s = ok (t, r)) :
    t.calls = s.calls ++ [.exposeItems] := by
  obtain ⟨_, _, rfl⟩ := Outcome.onState_eq_ok h; rfl

theorem recorded_considerProduced {s k t r} (h : (recordedProducer P).considerProduced s k = ok (t, r)) :
    t.calls = s.calls ++ [.considerProduced k] := by
  obtain ⟨_, _, rfl⟩ := Outcome.onState_eq_ok h; rfl

theorem recorded_bulkProduce {s buf t r} (h : (recordedProducer P).bulkProduce s buf = ok (t, r)) :
    t.calls = s.calls ++ [.bulkProduce buf] := by
  obtain ⟨_, _, rfl⟩ := Outcome.onState_eq_ok h; rfl

theorem recorded_consume {s x t r} (h : (recordedConsumer C).consume s x = ok (t, r)) : t.calls = s.calls ++ [.consume x] := by
  obtain ⟨_, _, rfl⟩ := Outcome.onState_eq_ok h; rfl

theorem recorded_close {s f t r} (h : (recordedConsumer C).close s f = ok (t, r)) : t.calls = s.calls ++ [.close f] := by
  obtain ⟨_, _, rfl⟩ := Outcome.onState_eq_ok h; rfl

theorem recorded_flush {s t r} (h : (recordedConsumer C).flush s = ok (t, r)) : t.calls = s.calls ++ [.flush] := by
  obtain ⟨_, _, rfl⟩ := Outcome.onState_eq_ok h; rfl

theorem recorded_exposeSlots {s t r} (h : (recordedConsumer C).exposeSlots s = ok (t, r)) :
    t.calls = s.calls ++ [.exposeSlots] := by
  obtain ⟨_, _, rfl⟩ := Outcome.onState_eq_ok h; rfl

theorem recorded_consumeSlots {s k t r} (h : (recordedConsumer C).consumeSlots s k = ok (t, r)) :
    t.calls = s.calls ++ [.consumeSlots k] := by
  obtain ⟨_, _, rfl⟩ := Outcome.onState_eq_ok h; rfl

theorem recorded_bulkConsume {s buf t r} (h : (recordedConsumer C).bulkConsume s buf = ok (t, r)) :
    t.calls = s.calls ++ [.bulkConsume buf] := by
  obtain ⟨_, _, rfl⟩ := Outcome.onState_eq_ok h; rfl

end Verif
