import Verif.Lemmas.Again
import Verif.Cases
import Verif.Props.Merge
import Verif.Props.Maps
import Verif.Props.Limit
import Verif.Props.Io
import Verif.Props.Scramblers
import Verif.Props.Shared

/-!
# C91: calls after the end

What the producers do when they are called again after they have returned their final value or an error.
-/

namespace Verif

open Outcome

section

variable {σ σ₁ σ₂ I F E : Type}

/-! ## Slices -/

theorem FromSlice.rests (T : Type) : BulkRestsLaw (FromSlice.producer T) (.ok ()) (fun s => s.data.length = s.pos) := by
  refine .of_default rfl ⟨⟨fun s hs => ⟨s, ?_, hs⟩⟩, fun s hs => ⟨s, .inl rfl, hs⟩⟩ (fun s hs => ⟨s, ?_, hs⟩)
  · simp [FromSlice.producer, FromSlice.produce, hs, Except.map]
  · simp only [FromSlice.producer, FromSlice.exposeItems, bind_eq]
    rw [slice_of_le (by omega) (Nat.le_refl _)]
    simp [hs, Except.map]

/-- Once `expose_items` has returned the final value, the slice is at rest; no matter how it came to be in its state. -/
theorem from_slice_expose_rests {T : Type} (s s' : FromSlice T) (f : Unit)
    (h : (FromSlice.producer T).exposeItems s = ok (s', .ok (.inr f))) : BulkRests (FromSlice.producer T) s' (.ok f) := by
  refine ⟨_, FromSlice.rests T, ?_⟩
  simp only [FromSlice.producer, FromSlice.exposeItems, bind_eq] at h
  by_cases hp : s.pos ≤ s.data.length
  · rw [slice_of_le hp (Nat.le_refl _)] at h
    by_cases hd : s.data.drop s.pos = []
    · simp [hd] at h
      have := congrArg List.length hd
      simp only [List.length_drop, List.length_nil] at this
      rw [← h]; omega
    · simp [hd] at h
  · simp [Outcome.slice, hp] at h

example : BulkRests (FromSlice.producer Nat) ⟨[1, 2], 2⟩ (.ok ()) := from_slice_expose_rests ⟨[1, 2], 2⟩ _ _ rfl

/-- **C91, `FromSlice`.** After its final value, it answers every further call with its final value. -/
theorem from_slice_ends_resting {T : Type} (data : List T) : BulkEndsResting (FromSlice.producer T) (FromSlice.new data) := by
  intro handed s' shown last h
  generalize he : some last = ended at h
  cases h with
  | start => cases he
  | @call _ s _ op s' r hr hop hcall =>
    rcases last with e | f
    · cases e
    cases op with
    | produce =>
      simp only [BulkProducer.call] at hcall
      rcases hp : (FromSlice.producer T).produce s with ⟨s₁, e | x | f'⟩ | _ | _ <;> simp [hp] at hcall
      · cases e
      · rw [← hcall.2] at he; cases he
      · refine ⟨_, FromSlice.rests T, ?_⟩
        simp only [FromSlice.producer, FromSlice.produce, bind_eq, pure_eq] at hp
        split at hp
        · rename_i h; rw [← hcall.1]; injection hp with hp; injection hp with hp; rw [← hp]; exact h
        · rcases hi : index s.data s.pos with x | _ | _ <;> simp [hi] at hp
    | slurp =>
      simp [BulkProducer.call, FromSlice.producer, FromSlice.slurp] at hcall
      rw [← hcall.2] at he; cases he
    | exposeItems =>
      simp only [BulkProducer.call] at hcall
      rcases hp : (FromSlice.producer T).exposeItems s with ⟨s₁, e | x | f'⟩ | _ | _ <;> simp [hp] at hcall
      · cases e
      · rw [← hcall.2] at he; cases he
      · rw [← hcall.1]; exact from_slice_expose_rests s s₁ f' hp
    | considerProduced k =>
      simp [BulkProducer.call, FromSlice.producer, FromSlice.considerProduced] at hcall
      rw [← hcall.2] at he; cases he
    | bulkProduce buf =>
      have hb : (FromSlice.producer T).bulkProduce s buf =
          bulkProduceDefault (FromSlice.producer T).exposeItems FromSlice.considerProduced s buf := rfl
      simp only [BulkProducer.call, hb, bulkProduceDefault, bind_eq] at hcall
      rcases hp : (FromSlice.producer T).exposeItems s with ⟨s₁, e | x | f'⟩ | _ | _ <;>
        simp [hp, FromSlice.considerProduced] at hcall
      · cases e
      · rw [← hcall.2] at he; cases he
      · rw [← hcall.1]; exact from_slice_expose_rests s s₁ f' hp

/-- Two items, then the final value. -/
example : ∃ s, ProducerRuns (FromSlice.producer Nat) (FromSlice.new [1, 2]) [1, 2] s [] (some (.ok ())) ∧
    BulkRests (FromSlice.producer Nat) s (.ok ()) := by
  have h0 := ProducerRuns.start (P := FromSlice.producer Nat) (s₀ := FromSlice.new [1, 2])
  have h1 := h0.call (op := .bulkProduce [0, 0]) (s' := ⟨[1, 2], 2⟩) (r := ⟨[1, 2], [], none⟩) (by simp [ProducerOp.Allowed]) rfl
  have h2 := h1.call (op := .produce) (s' := ⟨[1, 2], 2⟩) (r := ⟨[], [], some (.ok ())⟩) trivial rfl
  exact ⟨_, h2, from_slice_ends_resting _ _ _ _ _ h2⟩

theorem FromBoxedSlice.rests (T : Type) : BulkRestsLaw (FromBoxedSlice.producer T) (.ok ()) (fun s => s.data.length = s.pos) := by
  refine .of_default rfl ⟨⟨fun s hs => ⟨s, ?_, hs⟩⟩, fun s hs => ⟨s, .inl rfl, hs⟩⟩ (fun s hs => ⟨s, ?_, hs⟩)
  · simp [FromBoxedSlice.producer, FromBoxedSlice.produce, hs, Except.map]
  · simp only [FromBoxedSlice.producer, FromBoxedSlice.exposeItems, bind_eq]
    rw [slice_of_le (by omega) (Nat.le_refl _)]
    simp [hs, Except.map]

/-- Once `expose_items` has returned the final value, the slice is at rest; no matter how it came to be in its state. -/
theorem from_boxed_slice_expose_rests {T : Type} (s s' : FromBoxedSlice T) (f : Unit)
    (h : (FromBoxedSlice.producer T).exposeItems s = ok (s', .ok (.inr f))) : BulkRests (FromBoxedSlice.producer T) s' (.ok f) := by
  refine ⟨_, FromBoxedSlice.rests T, ?_⟩
  simp only [FromBoxedSlice.producer, FromBoxedSlice.exposeItems, bind_eq] at h
  by_cases hp : s.pos ≤ s.data.length
  · rw [slice_of_le hp (Nat.le_refl _)] at h
    by_cases hd : s.data.drop s.pos = []
    · simp [hd] at h
      have := congrArg List.length hd
      simp only [List.length_drop, List.length_nil] at this
      rw [← h]; omega
    · simp [hd] at h
  · simp [Outcome.slice, hp] at h

example : BulkRests (FromBoxedSlice.producer Nat) ⟨[1, 2], 2⟩ (.ok ()) := from_boxed_slice_expose_rests ⟨[1, 2], 2⟩ _ _ rfl

/-- **C91, `FromBoxedSlice`.** After its final value, it answers every further call with its final value. -/
theorem from_boxed_slice_ends_resting {T : Type} (data : List T) :
    BulkEndsResting (FromBoxedSlice.producer T) (FromBoxedSlice.new data) := by
  intro handed s' shown last h
  generalize he : some last = ended at h
  cases h with
  | start => cases he
  | @call _ s _ op s' r hr hop hcall =>
    rcases last with e | f
    · cases e
    cases op with
    | produce =>
      simp only [BulkProducer.call] at hcall
      rcases hp : (FromBoxedSlice.producer T).produce s with ⟨s₁, e | x | f'⟩ | _ | _ <;> simp [hp] at hcall
      · cases e
      · rw [← hcall.2] at he; cases he
      · refine ⟨_, FromBoxedSlice.rests T, ?_⟩
        simp only [FromBoxedSlice.producer, FromBoxedSlice.produce, bind_eq, pure_eq] at hp
        split at hp
        · rename_i h; rw [← hcall.1]; injection hp with hp; injection hp with hp; rw [← hp]; exact h
        · rcases hi : index s.data s.pos with x | _ | _ <;> simp [hi] at hp
    | slurp =>
      simp [BulkProducer.call, FromBoxedSlice.producer, FromBoxedSlice.slurp] at hcall
      rw [← hcall.2] at he; cases he
    | exposeItems =>
      simp only [BulkProducer.call] at hcall
      rcases hp : (FromBoxedSlice.producer T).exposeItems s with ⟨s₁, e | x | f'⟩ | _ | _ <;> simp [hp] at hcall
      · cases e
      · rw [← hcall.2] at he; cases he
      · rw [← hcall.1]; exact from_boxed_slice_expose_rests s s₁ f' hp
    | considerProduced k =>
      simp [BulkProducer.call, FromBoxedSlice.producer, FromBoxedSlice.considerProduced] at hcall
      rw [← hcall.2] at he; cases he
    | bulkProduce buf =>
      have hb : (FromBoxedSlice.producer T).bulkProduce s buf =
          bulkProduceDefault (FromBoxedSlice.producer T).exposeItems FromBoxedSlice.considerProduced s buf := rfl
      simp only [BulkProducer.call, hb, bulkProduceDefault, bind_eq] at hcall
      rcases hp : (FromBoxedSlice.producer T).exposeItems s with ⟨s₁, e | x | f'⟩ | _ | _ <;>
        simp [hp, FromBoxedSlice.considerProduced] at hcall
      · cases e
      · rw [← hcall.2] at he; cases he
      · rw [← hcall.1]; exact from_boxed_slice_expose_rests s s₁ f' hp

/-- Two items, then the final value. -/
example : ∃ s, ProducerRuns (FromBoxedSlice.producer Nat) (FromBoxedSlice.new [1, 2]) [1, 2] s [] (some (.ok ())) ∧
    BulkRests (FromBoxedSlice.producer Nat) s (.ok ()) := by
  have h0 := ProducerRuns.start (P := FromBoxedSlice.producer Nat) (s₀ := FromBoxedSlice.new [1, 2])
  have h1 := h0.call (op := .bulkProduce [0, 0]) (s' := ⟨[1, 2], 2⟩) (r := ⟨[1, 2], [], none⟩) (by simp [ProducerOp.Allowed]) rfl
  have h2 := h1.call (op := .produce) (s' := ⟨[1, 2], 2⟩) (r := ⟨[], [], some (.ok ())⟩) trivial rfl
  exact ⟨_, h2, from_boxed_slice_ends_resting _ _ _ _ _ h2⟩

/-! ## `Empty`, `TestProducer` -/

/-- **C91, `Empty`.** After the final value, `produce`, `expose_items` and `bulk_produce` panic; `slurp` succeeds. -/
theorem empty_again (f : F) {s' : EmptyProducer F} {op : ProducerOp I} {r : Handout I F E} {shown : List I}
    (h : (EmptyProducer.producer I F E).call (.new f) shown op = ok (s', r)) (hr : r.ended = some (.ok f)) :
    (EmptyProducer.producer I F E).produce s' = .panic ∧ (EmptyProducer.producer I F E).exposeItems s' = .panic ∧
    (∀ buf, (EmptyProducer.producer I F E).bulkProduce s' buf = .panic) ∧ (EmptyProducer.producer I F E).slurp s' = ok (s', .ok ()) := by
  have hs : s' = ⟨none⟩ := by
    cases op with
    | bulkProduce buf =>
      have h' : (EmptyProducer.producer I F E).call (.new f) shown (.bulkProduce buf) = ok (⟨none⟩, ⟨[], [], some (.ok f)⟩) := rfl
      rw [h'] at h; injection h with h; injection h with h1 h2; exact h1.symm
    | produce =>
      have h' : (EmptyProducer.producer I F E).call (.new f) shown .produce = ok (⟨none⟩, ⟨[], [], some (.ok f)⟩) := rfl
      rw [h'] at h; injection h with h; injection h with h1 h2; exact h1.symm
    | exposeItems =>
      have h' : (EmptyProducer.producer I F E).call (.new f) shown .exposeItems = ok (⟨none⟩, ⟨[], [], some (.ok f)⟩) := rfl
      rw [h'] at h; injection h with h; injection h with h1 h2; exact h1.symm
    | slurp =>
      have h' : (EmptyProducer.producer I F E).call (.new f) shown .slurp = ok (.new f, ⟨[], [], none⟩) := rfl
      rw [h'] at h; injection h with h; injection h with h1 h2; rw [← h2] at hr; cases hr
    | considerProduced k =>
      have h' : (EmptyProducer.producer I F E).call (.new f) shown (.considerProduced k) =
        ok (.new f, ⟨shown.take k, shown.drop k, none⟩) := rfl
      rw [h'] at h; injection h with h; injection h with h1 h2; rw [← h2] at hr; cases hr
  subst hs
  exact ⟨rfl, rfl, fun _ => rfl, rfl⟩

example : ∃ s', (EmptyProducer.producer Nat Nat String).call (.new 5) [] .produce = ok (s', ⟨[], [], some (.ok 5)⟩) ∧
    (EmptyProducer.producer Nat Nat String).produce s' = .panic :=
  ⟨_, rfl, (empty_again (op := .produce) (shown := []) (5 : Nat) rfl rfl).1⟩

/-- The last value has been emitted, and nothing is left. -/
def TestProducer.Spent (s : TestProducer I F E) : Prop := s.last = none ∧ s.remaining = ok []

theorem TestProducer.spent_of_taken {s : TestProducer I F E} {xs : List I} (hr : s.remaining = ok xs) (h : xs.isEmpty = true) :
    TestProducer.Spent ({ s with last := none } : TestProducer I F E) := by
  rw [List.isEmpty_iff.mp h] at hr
  exact ⟨rfl, hr⟩

theorem TestProducer.produce_spent {test : Bool} {s s' : TestProducer I F E} {r : Except E (I ⊕ F)}
    (h : s.produce test = ok (s', r)) : maybeYield s.yielder = ok s'.yielder ∧ ((∃ x, r = .ok (.inl x)) ∨ s'.Spent) := by
  simp only [TestProducer.produce, bind_eq] at h
  obtain ⟨y, hy, h⟩ := bind_eq_ok.mp h
  obtain ⟨xs, hxs, h⟩ := bind_eq_ok.mp h
  by_cases he : xs.isEmpty
  · rw [if_pos he] at h
    obtain ⟨last, hl, h⟩ := bind_eq_ok.mp h
    injection h with h; injection h with h1 h2
    subst h1
    exact ⟨hy, .inr (spent_of_taken hxs he)⟩
  · rw [if_neg he] at h
    obtain ⟨⟨i, r₁⟩, h1, h⟩ := bind_eq_ok.mp h
    obtain ⟨v, h2, h⟩ := bind_eq_ok.mp h
    obtain ⟨x, h3, h⟩ := bind_eq_ok.mp h
    injection h with h; injection h with h4 h5
    subst h4
    exact ⟨hy, .inl ⟨x, h5.symm⟩⟩

theorem TestProducer.expose_spent {test : Bool} {s s' : TestProducer I F E} {r : Except E (List I ⊕ F)}
    (h : s.exposeItems test = ok (s', r)) : maybeYield s.yielder = ok s'.yielder ∧ ((∃ x, r = .ok (.inl x)) ∨ s'.Spent) := by
  simp only [TestProducer.exposeItems, bind_eq] at h
  obtain ⟨y, hy, h⟩ := bind_eq_ok.mp h
  obtain ⟨xs, hxs, h⟩ := bind_eq_ok.mp h
  by_cases he : xs.isEmpty
  · rw [if_pos he] at h
    obtain ⟨last, hl, h⟩ := bind_eq_ok.mp h
    injection h with h; injection h with h1 h2
    subst h1
    exact ⟨hy, .inr (spent_of_taken hxs he)⟩
  · rw [if_neg he] at h
    split at h
    · obtain ⟨⟨i, r₁⟩, h1, h⟩ := bind_eq_ok.mp h
      obtain ⟨v, h2, h⟩ := bind_eq_ok.mp h
      obtain ⟨x, h3, h⟩ := bind_eq_ok.mp h
      injection h with h; injection h with h4 h5
      subst h4
      exact ⟨hy, .inl ⟨x, h5.symm⟩⟩
    · obtain ⟨⟨z, m⟩, h0, h⟩ := bind_eq_ok.mp h
      obtain ⟨⟨i, r₁⟩, h1, h⟩ := bind_eq_ok.mp h
      obtain ⟨v, h2, h⟩ := bind_eq_ok.mp h
      obtain ⟨x, h3, h⟩ := bind_eq_ok.mp h
      obtain ⟨x', h3, h⟩ := bind_eq_ok.mp h
      injection h with h; injection h with h4 h5
      subst h4
      exact ⟨hy, .inl ⟨x', h5.symm⟩⟩

theorem TestProducer.takeError_spent {s s' : TestProducer I F E} {r : Option E} (h : s.takeError = ok (s', r)) :
    s'.yielder = s.yielder ∧ (r = none ∨ s'.Spent) := by
  simp only [TestProducer.takeError, bind_eq] at h
  obtain ⟨xs, hxs, h⟩ := bind_eq_ok.mp h
  by_cases he : xs.isEmpty
  · rw [if_pos he] at h
    obtain ⟨last, hl, h⟩ := bind_eq_ok.mp h
    rcases last with e | f <;> injection h with h <;> injection h with h1 h2 <;> subst h1
    · exact ⟨rfl, .inr (spent_of_taken hxs he)⟩
    · exact ⟨rfl, .inl h2.symm⟩
  · rw [if_neg he] at h
    injection h with h; injection h with h1 h2
    subst h1
    exact ⟨rfl, .inl h2.symm⟩

theorem TestProducer.slurp_spent {s s' : TestProducer I F E} {r : Except E Unit}
    (h : s.slurp = ok (s', r)) : maybeYield s.yielder = ok s'.yielder ∧ (r = .ok () ∨ s'.Spent) := by
  simp only [TestProducer.slurp, bind_eq] at h
  obtain ⟨y, hy, h⟩ := bind_eq_ok.mp h
  obtain ⟨⟨s₁, o⟩, h1, h⟩ := bind_eq_ok.mp h
  obtain ⟨h2, h3⟩ := takeError_spent h1
  rcases o with _ | e <;> injection h with h <;> injection h with h4 h5 <;> subst h4
  · exact ⟨by rw [hy, h2], .inl h5.symm⟩
  · exact ⟨by rw [hy, h2], .inr (h3.resolve_left (by simp))⟩

theorem TestProducer.consider_spent {test : Bool} {s s' : TestProducer I F E} {k : Nat} {r : Except E Unit}
    (h : s.considerProduced test k = ok (s', r)) : maybeYield s.yielder = ok s'.yielder ∧ (r = .ok () ∨ s'.Spent) := by
  simp only [TestProducer.considerProduced, bind_eq] at h
  obtain ⟨y, hy, h⟩ := bind_eq_ok.mp h
  obtain ⟨⟨s₁, o⟩, h1, h⟩ := bind_eq_ok.mp h
  obtain ⟨h2, h3⟩ := takeError_spent h1
  rcases o with _ | e
  · obtain ⟨⟨i, r₁⟩, h1, h⟩ := bind_eq_ok.mp h
    obtain ⟨v, -, h⟩ := bind_eq_ok.mp h
    injection h with h; injection h with h4 h5
    subst h4
    exact ⟨by rw [hy]; exact congrArg ok h2.symm, .inl h5.symm⟩
  · injection h with h; injection h with h4 h5
    subst h4
    exact ⟨by rw [hy, h2], .inr (h3.resolve_left (by simp))⟩

theorem YielderLive.next {y y' : Option TestYielder} (h : YielderLive y) (h' : maybeYield y = ok y') : YielderLive y' := by
  obtain ⟨y₁, h1, h2, -⟩ := maybeYield_ok h
  rw [h1] at h'
  injection h' with h'
  exact h' ▸ h2

theorem TestProducer.call_spent {test : Bool} {s s' : TestProducer I F E} {shown : List I} {op : ProducerOp I} {r : Handout I F E}
    (hy : YielderLive s.yielder) (h : (TestProducer.producer test I F E).call s shown op = ok (s', r)) {last : Except E F}
    (hr : r.ended = some last) : YielderLive s'.yielder ∧ s'.Spent := by
  cases op with
  | produce =>
    obtain ⟨⟨s₁, v⟩, h1, h⟩ := bind_eq_ok.mp h
    obtain ⟨h2, h3⟩ := TestProducer.produce_spent h1
    rcases v with e | x | f <;> injection h with h <;> injection h with h4 h5 <;> subst h4 <;> subst h5
    · exact ⟨hy.next h2, h3.resolve_left (by simp)⟩
    · cases hr
    · exact ⟨hy.next h2, h3.resolve_left (by simp)⟩
  | slurp =>
    obtain ⟨⟨s₁, v⟩, h1, h⟩ := bind_eq_ok.mp h
    obtain ⟨h2, h3⟩ := TestProducer.slurp_spent h1
    rcases v with e | _ <;> injection h with h <;> injection h with h4 h5 <;> subst h4 <;> subst h5
    · exact ⟨hy.next h2, h3.resolve_left (by simp)⟩
    · cases hr
  | exposeItems =>
    obtain ⟨⟨s₁, v⟩, h1, h⟩ := bind_eq_ok.mp h
    obtain ⟨h2, h3⟩ := TestProducer.expose_spent h1
    rcases v with e | x | f <;> injection h with h <;> injection h with h4 h5 <;> subst h4 <;> subst h5
    · exact ⟨hy.next h2, h3.resolve_left (by simp)⟩
    · cases hr
    · exact ⟨hy.next h2, h3.resolve_left (by simp)⟩
  | considerProduced k =>
    obtain ⟨⟨s₁, v⟩, h1, h⟩ := bind_eq_ok.mp h
    obtain ⟨h2, h3⟩ := TestProducer.consider_spent h1
    rcases v with e | _ <;> injection h with h <;> injection h with h4 h5 <;> subst h4 <;> subst h5
    · exact ⟨hy.next h2, h3.resolve_left (by simp)⟩
    · cases hr
  | bulkProduce buf =>
    obtain ⟨⟨s₁, v, buf'⟩, h1, h⟩ := bind_eq_ok.mp h
    obtain ⟨⟨s₂, v₂⟩, h2, h1⟩ := bind_eq_ok.mp h1
    obtain ⟨h3, h4⟩ := TestProducer.expose_spent h2
    rcases v₂ with e | xs | f
    · injection h1 with h1; injection h1 with h5 h6; injection h6 with h6 h7
      subst h5 h6
      injection h with h; injection h with h8 h9
      subst h8
      exact ⟨hy.next h3, h4.resolve_left (by simp)⟩
    · obtain ⟨⟨s₃, v₃⟩, h5, h1⟩ := bind_eq_ok.mp h1
      obtain ⟨h6, h7⟩ := TestProducer.consider_spent h5
      rcases v₃ with e | _
      · injection h1 with h1; injection h1 with h8 h9; injection h9 with h9 h10
        subst h8 h9
        injection h with h; injection h with h11 h12
        subst h11
        exact ⟨(hy.next h3).next h6, h7.resolve_left (by simp)⟩
      · injection h1 with h1; injection h1 with h8 h9; injection h9 with h9 h10
        subst h8 h9
        injection h with h; injection h with h11 h12
        subst h12
        cases hr
    · injection h1 with h1; injection h1 with h5 h6; injection h6 with h6 h7
      subst h5 h6
      injection h with h; injection h with h8 h9
      subst h8
      exact ⟨hy.next h3, h4.resolve_left (by simp)⟩

/-- **C91, `TestProducer`.** After its last value, every further call panics, also outside of tests. -/
theorem test_producer_again (test : Bool) (items : List I) (last : Except E F) (sizes : List NonZero) (pattern : Option (List Bool))
    {handed shown : List I} {s : TestProducer I F E} {r : Except E F}
    (h : ProducerRuns (TestProducer.producer test I F E) (TestProducer.new items last sizes pattern) handed s shown (some r))
    (op : ProducerOp I) : (TestProducer.producer test I F E).call s shown op = .panic := by
  generalize he : some r = ended at h
  cases h with
  | start => cases he
  | @call _ s₀ _ _ _ _ hr hop hcall =>
    obtain ⟨-, h1, -⟩ := hr.after (TestProducer.law test) (TestProducer.ready_new test items last sizes pattern)
    obtain ⟨-, ⟨m, hm⟩, -⟩ := h1 rfl
    obtain ⟨h2, h3, h4⟩ := TestProducer.call_spent hm.2.2.1 hcall he.symm
    obtain ⟨y, hy, -⟩ := maybeYield_ok h2
    have hexp : TestProducer.exposeItems test s = .panic := by
      simp only [TestProducer.exposeItems, bind_eq, hy, bind_ok]
      simp only [TestProducer.remaining] at h4 ⊢
      simp [h4, h3, unwrap, Outcome.bind]
    cases op with
    | exposeItems => simp [BulkProducer.call, TestProducer.producer, hexp, Outcome.bind]
    | bulkProduce buf => simp [BulkProducer.call, TestProducer.producer, bulkProduceDefault, hexp, Outcome.bind]
    | produce =>
      simp only [BulkProducer.call, TestProducer.producer, TestProducer.produce, bind_eq, hy, bind_ok]
      simp only [TestProducer.remaining] at h4 ⊢
      simp [h4, h3, unwrap, Outcome.bind]
    | slurp =>
      simp only [BulkProducer.call, TestProducer.producer, TestProducer.slurp, TestProducer.takeError, bind_eq, hy, bind_ok]
      simp only [TestProducer.remaining] at h4 ⊢
      simp [h4, h3, unwrap, Outcome.bind]
    | considerProduced k =>
      simp only [BulkProducer.call, TestProducer.producer, TestProducer.considerProduced, TestProducer.takeError, bind_eq, hy, bind_ok]
      simp only [TestProducer.remaining] at h4 ⊢
      simp [h4, h3, unwrap, Outcome.bind]

/-- A `TestProducer` of one item, outside of tests. -/
example : ∃ s : TestProducer Nat Unit String, ProducerRuns (TestProducer.producer false Nat Unit String)
    (TestProducer.new [7] (.error "e") [] none) [7] s [] (some (.error "e")) ∧
    (TestProducer.producer false Nat Unit String).call s [] .slurp = .panic := by
  have h0 := ProducerRuns.start (P := TestProducer.producer false Nat Unit String) (s₀ := TestProducer.new [7] (.error "e") [] none)
  have h1 := h0.call (op := .produce) (s' := ⟨⟨⟨[7], 1⟩, true, 0⟩, some (.error "e"), none, none⟩) (r := ⟨[7], [], none⟩) trivial rfl
  have h2 := h1.call (op := .slurp) (s' := ⟨⟨⟨[7], 1⟩, true, 0⟩, none, none, none⟩) (r := ⟨[], [], some (.error "e")⟩) trivial rfl
  exact ⟨_, h2, test_producer_again false _ _ _ _ h2 _⟩

/-! ## Adaptors -/

/-- **C91, `MapItem`.** At rest if the wrapped producer is. -/
theorem map_item_rests {φ B : Type} (f : φ → I → φ × B) {P : BufferedProducer σ I F E} {s : σ} {last : Except E F}
    (h : BufRests P s last) (a : φ) : BufRests (mapItemBufferedProducer f P) ⟨s, a⟩ last := by
  obtain ⟨R, hR, hs⟩ := h
  refine ⟨fun s => R s.inner, ⟨⟨?_⟩, ?_⟩, hs⟩
  · rintro ⟨s, a⟩ hs
    obtain ⟨s', h1, h2⟩ := hR.produce s hs
    refine ⟨⟨s', a⟩, ?_, h2⟩
    cases last <;> simp [mapItemBufferedProducer, mapItemProducer, h1, Except.map]
  · rintro ⟨s, a⟩ hs
    obtain ⟨s', h1 | ⟨e, rfl, h1⟩, h2⟩ := hR.slurp s hs
    · exact ⟨⟨s', a⟩, .inl (by simp [mapItemBufferedProducer, h1]), h2⟩
    · exact ⟨⟨s', a⟩, .inr ⟨e, rfl, by simp [mapItemBufferedProducer, h1]⟩, h2⟩

example : BufRests (mapItemBufferedProducer (fun (n : Nat) (x : Nat) => (n + 1, n + x)) (FromSlice.producer Nat).toBufferedProducer)
    ⟨⟨[1, 2], 2⟩, 7⟩ (.ok ()) :=
  map_item_rests _ ((from_slice_expose_rests ⟨[1, 2], 2⟩ _ _ rfl).toBufRests) 7

/-- **C91, `Limit`.** When the limit has been reached, every further call returns `None` (`slurp` does what it does). -/
theorem limit_rests (P : BulkProducer σ I F E) (s : σ) : BulkRests (limitBulkProducer P).noSlurp ⟨s, 0⟩ (.ok none) := by
  refine ⟨fun s => s.remaining = 0, ⟨⟨⟨?_⟩, fun s hs => ⟨s, .inl rfl, hs⟩⟩, ?_, ?_⟩, rfl⟩
  · rintro ⟨s, _⟩ rfl
    exact ⟨⟨s, 0⟩, rfl, rfl⟩
  · rintro ⟨s, _⟩ rfl
    exact ⟨⟨s, 0⟩, by simp [BulkProducer.noSlurp, limitBulkProducer, Except.map], rfl⟩
  · rintro ⟨s, _⟩ buf rfl
    exact ⟨⟨s, 0⟩, buf, rfl, rfl, rfl⟩

/-- Around any producer, for instance one that has not ended. -/
example : BulkRests (limitBulkProducer Case.P).noSlurp ⟨Case.pro (.error "e"), 0⟩ (.ok none) := limit_rests _ _

theorem Asked.append {P : Producer σ I F E} {s s₁ s₂ : σ} {rs rs' : List (Except E (I ⊕ F))} (h : Asked P s rs s₁)
    (h' : Asked P s₁ rs' s₂) : Asked P s (rs ++ rs') s₂ := by
  induction h with
  | nil => exact h'
  | cons h _ ih => exact .cons h (ih h')

theorem Asked.of_rests {P : Producer σ I F E} {last : Except E F} (k : Nat) :
    ∀ {s : σ}, Rests P s last → ∃ s', Asked P s (List.replicate k (last.map .inr)) s' := by
  induction k with
  | zero => exact fun {s} _ => ⟨s, .nil s⟩
  | succ k ih =>
    intro s h
    obtain ⟨s₁, h1, h2⟩ := h.produce
    obtain ⟨s', h3⟩ := ih h2
    exact ⟨s', .cons h1 h3⟩

/-- **C91, `Limit` does not rest before the limit.** Every call of `produce` counts, also those after the end: a `Limit` around a
producer that rests at its final value returns `Some` of it as often as items were still allowed, and `None` after that. So its
final value changes if it is asked again. -/
theorem limit_again {P : Producer σ I F E} {f : F} (n k : Nat) : ∀ {s : σ}, Rests P s (.ok f) →
    ∃ s', Asked (limitProducer P) ⟨s, n⟩
      (List.replicate n (.ok (.inr (some f))) ++ List.replicate k (.ok (.inr none))) s' := by
  induction n with
  | zero =>
    intro s _
    have h : Rests (limitProducer P) ⟨s, 0⟩ (.ok none) :=
      ⟨fun t => t.remaining = 0, ⟨by rintro ⟨t, _⟩ rfl; exact ⟨⟨t, 0⟩, rfl, rfl⟩⟩, rfl⟩
    exact Asked.of_rests k h
  | succ n ih =>
    intro s h
    obtain ⟨s₁, h1, h2⟩ := h.produce
    obtain ⟨s', h3⟩ := ih h2
    refine ⟨s', .cons (s₁ := ⟨s₁, n⟩) ?_ h3⟩
    simp [limitProducer, h1, Except.map]

/-- A limit of 2 around a slice that has ended. -/
example : ∃ s', Asked (limitProducer (FromSlice.producer Nat).toProducer) ⟨⟨[1], 1⟩, 2⟩
    [.ok (.inr (some ())), .ok (.inr (some ())), .ok (.inr none)] s' :=
  limit_again 2 1 (from_slice_expose_rests ⟨[1], 1⟩ _ _ rfl).toBufRests.toRests

/-- It does not rest, then. -/
theorem limit_not_resting {P : Producer σ I F E} {s : σ} {f : F} (h : Rests P s (.ok f)) (n : Nat) :
    ¬ ∃ last, Rests (limitProducer P) ⟨s, n + 1⟩ last := by
  rintro ⟨last, R, hR, hs⟩
  obtain ⟨s', h1⟩ := limit_again (P := P) (n + 1) 1 h
  have key : ∀ {s : LimitSt σ} {rs s'}, R s → Asked (limitProducer P) s rs s' → ∀ r ∈ rs, r = last.map .inr := by
    intro s rs s' hs ha
    induction ha with
    | nil => simp
    | cons hp _ ih =>
      obtain ⟨s₁, h2, h3⟩ := hR.produce _ hs
      rw [hp] at h2
      injection h2 with h2
      injection h2 with h2 h4
      subst h2 h4
      intro r hr
      rcases List.mem_cons.mp hr with rfl | hr
      · rfl
      · exact ih h3 r hr
  have h2 := key hs h1 (.ok (.inr (some f))) (by simp)
  have h3 := key hs h1 (.ok (.inr none)) (by simp)
  rw [← h3] at h2
  cases h2

example : ¬ ∃ last, Rests (limitProducer (FromSlice.producer Nat).toProducer) ⟨⟨[1], 1⟩, 2⟩ last :=
  limit_not_resting (from_slice_expose_rests ⟨[1], 1⟩ _ _ rfl).toBufRests.toRests 1

/-- **C91, `MapFinal`.** Asked again after the final value, it panics if the wrapped producer rests. -/
theorem map_final_again {B : Type} {P : BulkProducer σ I F E} {s s' : MapFinalSt σ F B} {b : B}
    (h : (mapFinalBulkProducer P).produce s = ok (s', .ok (.inr b)) ∨ (mapFinalBulkProducer P).exposeItems s = ok (s', .ok (.inr b)))
    {f : F} (hr : BulkRests P s'.inner (.ok f)) :
    (mapFinalBulkProducer P).produce s' = .panic ∧ (mapFinalBulkProducer P).exposeItems s' = .panic := by
  have hs : s'.fn = none := by
    rcases h with h | h <;> obtain ⟨⟨s₁, r⟩, -, h⟩ := bind_eq_ok.mp h <;> rcases r with e | x | g
    · cases h
    · cases h
    · obtain ⟨_, -, h⟩ := bind_eq_ok.mp h
      cases h; rfl
    · cases h
    · cases h
    · obtain ⟨_, -, h⟩ := bind_eq_ok.mp h
      cases h; rfl
  obtain ⟨s, fn⟩ := s'
  obtain ⟨s₁, h1, -⟩ := hr.produce
  obtain ⟨s₂, h2, -⟩ := hr.expose
  simp only at hs
  subst hs
  exact ⟨by simp [mapFinalBulkProducer, mapFinalBufferedProducer, mapFinalProducer, h1, Except.map, unwrap],
    by simp [mapFinalBulkProducer, h2, Except.map, unwrap]⟩

/-- The final value of a slice has been mapped. -/
example : ∃ s, (mapFinalBulkProducer (FromSlice.producer Nat)).produce ⟨⟨[1], 1⟩, some fun _ => true⟩ = ok (s, .ok (.inr true)) ∧
    (mapFinalBulkProducer (FromSlice.producer Nat)).produce s = .panic :=
  ⟨⟨⟨[1], 1⟩, none⟩, rfl, (map_final_again (s := ⟨⟨[1], 1⟩, some fun _ => true⟩) (.inl rfl) (from_slice_expose_rests ⟨[1], 1⟩ _ _ rfl)).1⟩

/-- After an error it rests if the wrapped producer does. -/
theorem map_final_rests {B : Type} {P : BufferedProducer σ I F E} {s : σ} {e : E} (h : BufRests P s (.error e)) (g : Option (F → B)) :
    BufRests (mapFinalBufferedProducer P) ⟨s, g⟩ (.error e) := by
  obtain ⟨R, hR, hs⟩ := h
  refine ⟨fun s => R s.inner, ⟨⟨?_⟩, ?_⟩, hs⟩
  · rintro ⟨s, a⟩ hs
    obtain ⟨s', h1, h2⟩ := hR.produce s hs
    exact ⟨⟨s', a⟩, by simp [mapFinalBufferedProducer, mapFinalProducer, h1, Except.map], h2⟩
  · rintro ⟨s, a⟩ hs
    obtain ⟨s', h1 | ⟨e, ⟨⟩, h1⟩, h2⟩ := hR.slurp s hs
    · exact ⟨⟨s', a⟩, .inl (by simp [mapFinalBufferedProducer, h1]), h2⟩
    · exact ⟨⟨s', a⟩, .inr ⟨e, rfl, by simp [mapFinalBufferedProducer, h1]⟩, h2⟩

/-- A reader of a broken file. -/
theorem Case.broken_rests : BulkRests (bufReaderProducer (chunkReader 1 (.error ⟨.other 7, none⟩))) [] (.error ⟨.other 7, none⟩) := by
  have hread : ∀ buf, (chunkReader 1 (.error ⟨.other 7, none⟩)).read [] buf = ok ([], .error ⟨.other 7, none⟩, buf) := fun _ => rfl
  have hfill : (chunkReader 1 (.error ⟨.other 7, none⟩)).fillBuf [] = ok ([], .error ⟨.other 7, none⟩) := rfl
  refine ⟨fun r => r = [], ⟨⟨⟨?_⟩, ?_⟩, ?_, ?_⟩, rfl⟩
  · rintro _ rfl
    refine ⟨[], ?_, rfl⟩
    have : readExact (chunkReader 1 (.error ⟨.other 7, none⟩)).toAsyncRead [] [0] = ok ([], .error ⟨.other 7, none⟩, [0]) :=
      loop_eq_of_fuel (n := 1) (fun h => by cases h)
    simp [bufReaderProducer, readByte, this, Except.map]
  · rintro _ rfl
    exact ⟨[], .inr ⟨_, rfl, by simp [bufReaderProducer, hfill]⟩, rfl⟩
  · rintro _ rfl
    exact ⟨[], by simp [bufReaderProducer, hfill, Except.map], rfl⟩
  · rintro _ buf rfl
    exact ⟨[], buf, by simp [bufReaderProducer, hread, readAnswer, Except.map], rfl, rfl⟩

example : BufRests (mapFinalBufferedProducer (bufReaderProducer (chunkReader 1 (.error ⟨.other 7, none⟩))).toBufferedProducer)
    ⟨[], some fun _ => true⟩ (.error ⟨.other 7, none⟩) :=
  map_final_rests Case.broken_rests.toBufRests _

/-- **C91, `Invariant` outside of tests.** It rests if the wrapped producer does. (In tests, it panics: C25.) -/
theorem unused_invariant_rests {P : BulkProducer σ I F E} {s : InvariantSt σ} {last : Except E F} (h : BulkRests P s.inner last) :
    BulkRests (unusedInvariantBulkProducer P) s last := by
  obtain ⟨R, hR, hs⟩ := h
  refine ⟨fun s => R s.inner, .of_default rfl ⟨⟨?_⟩, ?_⟩ ?_, hs⟩
  · rintro ⟨s, a, x⟩ hs
    obtain ⟨s', h1, h2⟩ := hR.produce s hs
    exact ⟨⟨s', a, x⟩, by simp [unusedInvariantBulkProducer, h1], h2⟩
  · rintro ⟨s, a, x⟩ hs
    obtain ⟨s', h1 | ⟨e, rfl, h1⟩, h2⟩ := hR.slurp s hs
    · exact ⟨⟨s', a, x⟩, .inl (by simp [unusedInvariantBulkProducer, h1]), h2⟩
    · exact ⟨⟨s', a, x⟩, .inr ⟨e, rfl, by simp [unusedInvariantBulkProducer, h1]⟩, h2⟩
  · rintro ⟨s, a, x⟩ hs
    obtain ⟨s', h1, h2⟩ := hR.expose s hs
    exact ⟨⟨s', a, x⟩, by simp [unusedInvariantBulkProducer, h1], h2⟩

example : BulkRests (publicProducer false (FromSlice.producer Nat)) ⟨⟨[1, 2], 2⟩, true, 0⟩ (.ok ()) :=
  unused_invariant_rests (from_slice_expose_rests ⟨[1, 2], 2⟩ _ _ rfl)

/-! ## Readers -/

theorem readByte_atEnd {ρ : Type} {Rd : AsyncRead ρ} {S : ρ → Prop}
    (hS : ∀ r buf, S r → ∃ r' buf', Rd.read r buf = ok (r', .ok 0, buf') ∧ buf'.length = buf.length ∧ S r') {r : ρ} (hr : S r)
    (init : UInt8) : ∃ r', readByte Rd r init = ok (r', .ok (.inr ())) ∧ S r' := by
  obtain ⟨r', buf', h1, h2, h3⟩ := hS r [init] hr
  refine ⟨r', ?_, h3⟩
  have : readExact Rd r [init] = ok (r', .error ⟨.unexpectedEof, none⟩, buf') := by
    rw [readExact, loop_unfold]
    simp [readExactBody, h1, assert]
  simp [readByte, this]

/-- **C91, `BufReaderToBulkProducer`.** It rests if the reader has reached the end of a file that does not grow. -/
theorem buf_reader_rests {ρ : Type} {Rd : AsyncBufRead ρ} {r : ρ} (h : Rd.AtEnd r) : BulkRests (bufReaderProducer Rd) r (.ok ()) := by
  obtain ⟨S, hr, hread, hfill⟩ := h
  refine ⟨S, ⟨⟨⟨fun r hr => ?_⟩, fun r hr => ?_⟩, fun r hr => ?_, fun r buf hr => ?_⟩, hr⟩
  · exact readByte_atEnd hread hr 0
  · obtain ⟨r', h1, h2⟩ := hfill r hr
    exact ⟨r', .inl (by simp [bufReaderProducer, h1]), h2⟩
  · obtain ⟨r', h1, h2⟩ := hfill r hr
    exact ⟨r', by simp [bufReaderProducer, h1, Except.map], h2⟩
  · obtain ⟨r', buf', h1, h2, h3⟩ := hread r buf hr
    exact ⟨r', buf', by simp [bufReaderProducer, h1, readAnswer, Except.map], h2, h3⟩

theorem Case.chunk_end : (chunkReader 1 (.ok ())).AtEnd [] :=
  ⟨fun r => r = [], rfl, by rintro _ buf rfl; exact ⟨[], buf, by simp [chunkReader], rfl, rfl⟩,
    by rintro _ rfl; exact ⟨[], rfl, rfl⟩⟩

example : BulkRests (bufReaderProducer (chunkReader 1 (.ok ()))) [] (.ok ()) := buf_reader_rests Case.chunk_end

/-- **C91, `ReaderToBulkProducer`**, likewise, when its queue is empty. -/
theorem reader_rests {ρ κ : Type} {Rd : AsyncRead ρ} {r : ρ} (h : Rd.AtEnd r) {Q : Queue κ UInt8} {cap : Nat}
    {RQ : κ → List UInt8 → List UInt8 → Nat → Prop} (hQ : FifoLaw Q cap RQ) (hcap : 0 < cap) {q : κ} (hq : RQ q [] [] 0) :
    BulkRests (readerProducer Rd Q) ⟨r, q⟩ (.ok ()) := by
  obtain ⟨S, hr, hread⟩ := h
  refine ⟨fun s => S s.reader ∧ RQ s.queue [] [] 0, ⟨⟨⟨?_⟩, ?_⟩, ?_, ?_⟩, hr, hq⟩
  · rintro ⟨r, q⟩ ⟨hr, hq⟩
    obtain ⟨r', h1, h2⟩ := readByte_atEnd hread hr 17
    exact ⟨⟨r', q⟩, by simp [readerProducer, hQ.dequeue_empty q _ _ hq, h1, Except.map], h2, hq⟩
  · rintro ⟨r, q⟩ hs
    exact ⟨⟨r, q⟩, .inl rfl, hs⟩
  · rintro ⟨r, q⟩ ⟨hr, hq⟩
    have hemp : Q.isEmpty q = true := by rw [hQ.isEmpty _ _ _ _ hq]; rfl
    obtain ⟨q₁, slots, hne, h1, h2⟩ := hQ.exposeSlots q _ _ _ hq (by simpa using hcap)
    obtain ⟨r', slots', h3, h4, h5⟩ := hread r slots hr
    have h6 := hQ.write _ _ _ _ slots' h2 (by omega)
    exact ⟨⟨r', Q.writeSlots q₁ slots'⟩, by simp [readerProducer, hemp, h1, h3, unwrap, Except.map], h5,
      (hQ.weaken _ _ _ _ 0 h6 (Nat.le_refl _)).1⟩
  · rintro ⟨r, q⟩ buf ⟨hr, hq⟩
    have hemp : Q.isEmpty q = true := by rw [hQ.isEmpty _ _ _ _ hq]; rfl
    obtain ⟨r', buf', h3, h4, h5⟩ := hread r buf hr
    exact ⟨⟨r', q⟩, buf', by simp [readerProducer, hemp, h3, readAnswer, Except.map], h4, h5, hq⟩

example : BulkRests (readerProducer (chunkReader 1 (.ok ())).toAsyncRead (Fixed.queue UInt8)) ⟨[], Fixed.new 3 fun _ => 0⟩ (.ok ()) :=
  let ⟨S, h1, h2, _⟩ := Case.chunk_end
  reader_rests ⟨S, h1, h2⟩ (Fixed.fifoLaw UInt8 3) (by decide) (Fixed.holds_new 3 _)

/-! ## Scramblers -/

/-- **C91, the producer `BulkScrambler`.** If the wrapped producer ends resting, then so does the scrambler. -/
theorem producer_scrambler_ends_resting (debug : Bool) {P : BulkProducer σ I F E} {s : σ} {c : Script I F E} (h : BulkPlays P s c)
    (hrest : BulkEndsResting P s) (ops : List ScrambleProduce) {cap : Nat} (hcap : 0 < cap) (tmp : Nat → I) :
    BulkEndsResting (producerScrambler debug P) (ProducerScrambler.new s ops cap tmp) := by
  obtain ⟨R, hR, n, hn⟩ := h
  intro handed s' shown last hrun
  generalize he : some last = ended at hrun
  cases hrun with
  | start => cases he
  | call hr hop hcall =>
    have hlaw := ProducerScrambler.tail_law debug hR hn hrest (cap := cap)
    obtain ⟨-, h1, -⟩ := hr.after hlaw (ProducerScrambler.tail_new c ops hcap tmp)
    obtain ⟨-, ⟨m, hm⟩, -⟩ := h1 rfl
    obtain ⟨R', h2⟩ := ProducerScrambler.tail_call debug hR hn hrest hm hcall he.symm
    exact ⟨_, ProducerScrambler.over_rests debug, h2⟩

example : BulkEndsResting (producerScrambler true (FromSlice.producer Nat))
    (ProducerScrambler.new (FromSlice.new [1, 2, 3]) [.slurp, .considerProduced ⟨5, by decide⟩] 2 (fun _ => 0)) :=
  producer_scrambler_ends_resting true (from_slice_plays _) (from_slice_ends_resting _) _ (by decide) _

/-- **C27 with `slurp`**, for all producers that end resting: the calls of `slurp` that a scrambler makes after the end of its
producer (`producer_scrambler_slurp_panics`) are harmless for these. -/
theorem producer_scrambler_plays_resting_partial (debug : Bool) {P : BulkProducer σ I F E} {s : σ} {c : Script I F E}
    (h : BulkPlays P s c) (hrest : BulkEndsResting P s) (ops : List ScrambleProduce) {cap : Nat} (hcap : 0 < cap) (tmp : Nat → I) :
    BulkPlays (producerScrambler debug P) (ProducerScrambler.new s ops cap tmp) c := by
  obtain ⟨R, hR, n, hn⟩ := h
  exact ⟨_, ProducerScrambler.tail_law debug hR hn hrest, 0, ProducerScrambler.tail_new c ops hcap tmp⟩

/-- A scrambler around a scrambler. -/
example : BulkPlays (producerScrambler true (producerScrambler true (FromSlice.producer Nat)))
    (ProducerScrambler.new (ProducerScrambler.new (FromSlice.new [1, 2, 3]) [.produce, .slurp] 1 (fun _ => 0)) [.slurp] 2 (fun _ => 0))
    (Script.ofList [1, 2, 3] (.ok ())) :=
  producer_scrambler_plays_resting_partial true
    (producer_scrambler_plays_resting_partial true (from_slice_plays _) (from_slice_ends_resting _) _ (by decide) _)
    (producer_scrambler_ends_resting true (from_slice_plays _) (from_slice_ends_resting _) _ (by decide) _) _ (by decide) _

/-! ## Merges -/

theorem BulkEndsResting.toEndsResting {P : BulkProducer σ I F E} {s : σ} (h : BulkEndsResting P s) : EndsResting P.toProducer s := by
  intro xs s₁ s₂ f he hf
  have hrun : ∀ {t xs s₁}, Emits P.toProducer t xs s₁ → ∀ {handed shown}, ProducerRuns P s handed t shown none →
      ∃ handed shown, ProducerRuns P s handed s₁ shown none := by
    intro t xs s₁ he
    induction he with
    | nil => exact fun h => ⟨_, _, h⟩
    | @cons t t' _ x _ hx _ ih =>
      intro handed shown hr
      exact ih (hr.call (op := .produce) trivial (s' := t') (r := ⟨[x], [], none⟩) (by simp [BulkProducer.call, hx]))
  obtain ⟨handed, shown, hr⟩ := hrun he .start
  have := hr.call (op := .produce) trivial (s' := s₂) (r := ⟨[], [], some (.ok f)⟩) (by simp [BulkProducer.call, hf])
  exact (h _ _ _ _ this).toBufRests.toRests

/-- **C91, `Merge`.** Under fair schedules, a merge of two producers that end resting ends resting: it asks again the producer that
ended last, and its case for two finished producers is never reached. -/
theorem merge_ends_resting {P₁ : Producer σ₁ I F E} {P₂ : Producer σ₂ I F E} {s₁ : σ₁} {s₂ : σ₂} {ready₁ ready₂ : Nat → Bool}
    (h₁ : EndsResting P₁ s₁) (h₂ : EndsResting P₂ s₂) (hr₁ : Fair ready₁) (hr₂ : Fair ready₂) :
    EndsResting (Merge.producer P₁ P₂ ready₁ ready₂) (.new s₁ s₂) := by
  intro xs m₁ m₂ f he hf
  have hgo : (Merge.new s₁ s₂).Going P₁ P₂ s₁ s₂ :=
    ⟨by rintro _ ⟨⟩; exact ⟨[], .nil _⟩, by rintro _ ⟨⟩; exact ⟨[], .nil _⟩⟩
  exact ⟨_, Merge.over_rests hr₁ hr₂, (Merge.going_produce h₁ h₂ (Merge.going_emits h₁ h₂ he hgo) hf).2 f rfl⟩

theorem Case.fair_even : Fair (fun n => n % 2 == 0) := fun n => ⟨2 * n, by omega, by simp⟩

theorem Case.fair_odd : Fair (fun n => n % 2 == 1) := fun n => ⟨2 * n + 1, by omega, by simp⟩

example : EndsResting Case.merge (.new (.new [1, 2]) (.new [3])) :=
  merge_ends_resting (from_slice_ends_resting _).toEndsResting (from_slice_ends_resting _).toEndsResting Case.fair_even Case.fair_odd

/-- A merge of merges. -/
example : EndsResting (Merge.producer Case.merge (FromSlice.producer Nat).toProducer (fun n => n % 2 == 0) (fun n => n % 2 == 1))
    (.new (.new (.new [1, 2]) (.new [3])) (.new [4])) :=
  merge_ends_resting (merge_ends_resting (from_slice_ends_resting _).toEndsResting (from_slice_ends_resting _).toEndsResting
    Case.fair_even Case.fair_odd) (from_slice_ends_resting _).toEndsResting Case.fair_even Case.fair_odd

/-- A producer that has failed and keeps failing. -/
def Case.failing : Producer Unit Nat Unit String where
  produce _ := ok ((), .error "bad")

theorem Case.failing_rests : Rests Case.failing () (.error "bad") := ⟨fun _ => True, ⟨fun _ _ => ⟨(), rfl, trivial⟩⟩, trivial⟩

/-- It and a producer that never ends. -/
noncomputable def Case.failingMerge : Producer (Merge Unit Nat) Nat Unit String :=
  Merge.producer Case.failing Case.endless.toProducer (fun n => n % 2 == 0) (fun _ => true)

/-- **C91, `Merge` does not rest after an error**: although the first producer keeps failing, items of the other one follow. -/
theorem merge_goes_on_after_error : Rests Case.failing () (.error "bad") ∧
    ∃ s, Asked Case.failingMerge (.new () 0) [.error "bad", .ok (.inl 0), .error "bad", .ok (.inl 1)] s := by
  refine ⟨Case.failing_rests, ?_⟩
  have h1 : Case.failingMerge.produce (.new () 0) = ok (⟨some (), some 0, 1⟩, .error "bad") :=
    loop_eq_of_fuel (n := 1) (fun h => by cases h)
  have h2 : Case.failingMerge.produce ⟨some (), some 0, 1⟩ = ok (⟨some (), some 1, 2⟩, .ok (.inl 0)) :=
    loop_eq_of_fuel (n := 1) (fun h => by cases h)
  have h3 : Case.failingMerge.produce ⟨some (), some 1, 2⟩ = ok (⟨some (), some 1, 3⟩, .error "bad") :=
    loop_eq_of_fuel (n := 1) (fun h => by cases h)
  have h4 : Case.failingMerge.produce ⟨some (), some 1, 3⟩ = ok (⟨some (), some 2, 4⟩, .ok (.inl 1)) :=
    loop_eq_of_fuel (n := 1) (fun h => by cases h)
  exact ⟨_, .cons h1 (.cons h2 (.cons h3 (.cons h4 (.nil _))))⟩

/-! ## Decoders -/

theorem decoder_rests_aux {T R : Type} (decode : DecodeFn T R) {P : BulkProducer σ UInt8 F E} {last : Except E F} {S : σ → Prop}
    (hS : BulkRestsLaw P last S) {s : σ} (hs : S s) :
    (∃ s', decoderProduce decode P s = ok (s', (last.mapError DecodeError.fromError).map .inr) ∧ S s') ∧
    ∃ s', ((decoderSlurp P s : Outcome (σ × Except (DecodeError F E R) Unit)) = ok (s', .ok ()) ∨
      ∃ e : DecodeError F E R, last.mapError DecodeError.fromError = .error e ∧ decoderSlurp P s = ok (s', .error e)) ∧ S s' := by
  refine ⟨?_, ?_⟩
  · obtain ⟨s', h1, h2⟩ := hS.expose s hs
    refine ⟨s', ?_, h2⟩
    cases last <;> simp [decoderProduce, h1, Except.map, Except.mapError]
  · obtain ⟨s', h1 | ⟨e, rfl, h1⟩, h2⟩ := hS.slurp s hs
    · exact ⟨s', .inl (by simp [decoderSlurp, h1]), h2⟩
    · exact ⟨s', .inr ⟨_, rfl, by simp [decoderSlurp, h1]⟩, h2⟩

/-- **C91, `Decoder`.** It rests if the wrapped producer does; errors are wrapped. -/
theorem decoder_rests {T R : Type} (t : Decodable T R) {P : BulkProducer σ UInt8 F E} {s : σ} {last : Except E F}
    (h : BulkRests P s last) : BufRests (decoder t P) s (last.mapError DecodeError.fromError) := by
  obtain ⟨S, hS, hs⟩ := h
  exact ⟨S, ⟨⟨fun s hs => (decoder_rests_aux t.decode hS hs).1⟩, fun s hs => (decoder_rests_aux t.decode hS hs).2⟩, hs⟩

example : BufRests (decoder U16BE.decodable.toDecodable (FromSlice.producer UInt8)) ⟨[1, 2], 2⟩ (.ok ()) :=
  decoder_rests _ (from_slice_expose_rests ⟨[1, 2], 2⟩ _ _ rfl)

/-- **C91, `CanonicDecoder`.** -/
theorem canonic_decoder_rests {T R RC : Type} (t : DecodableCanonic T R RC) {P : BulkProducer σ UInt8 F E} {s : σ}
    {last : Except E F} (h : BulkRests P s last) : BufRests (canonicDecoder t P) s (last.mapError DecodeError.fromError) := by
  obtain ⟨S, hS, hs⟩ := h
  exact ⟨S, ⟨⟨fun s hs => (decoder_rests_aux t.decodeCanonic hS hs).1⟩, fun s hs => (decoder_rests_aux t.decodeCanonic hS hs).2⟩, hs⟩

example : BufRests (canonicDecoder U16BE.decodable (FromSlice.producer UInt8)) ⟨[1, 2], 2⟩ (.ok ()) :=
  canonic_decoder_rests _ (from_slice_expose_rests ⟨[1, 2], 2⟩ _ _ rfl)

/-- **C91, `RelativeDecoder`.** -/
theorem relative_decoder_rests {T Rel R B : Type} (t : RelativeDecodable T Rel R) (borrow : B → Rel) {P : BulkProducer σ UInt8 F E}
    {s : RelativeSt σ B} {last : Except E F} (h : BulkRests P s.inner last) :
    BufRests (relativeDecoder t borrow P) s (last.mapError DecodeError.fromError) := by
  obtain ⟨S, hS, hs⟩ := h
  refine ⟨fun s => S s.inner, ⟨⟨fun s hs => ?_⟩, fun s hs => ?_⟩, hs⟩
  · obtain ⟨s', h1, h2⟩ := (decoder_rests_aux (t.relativeDecode (borrow s.relativeTo)) hS hs).1
    exact ⟨{ s with inner := s' }, by simp [relativeDecoder, h1], h2⟩
  · obtain ⟨s', h1 | ⟨e, h0, h1⟩, h2⟩ := (decoder_rests_aux (t.relativeDecode (borrow s.relativeTo)) hS hs).2
    · exact ⟨{ s with inner := s' }, .inl (by simp [relativeDecoder, h1]), h2⟩
    · exact ⟨{ s with inner := s' }, .inr ⟨e, h0, by simp [relativeDecoder, h1]⟩, h2⟩

example : BufRests (relativeDecoder U16BE.decodable.toDecodable.toRelative (fun (_ : Bool) => ()) (FromSlice.producer UInt8))
    ⟨⟨[1, 2], 2⟩, true⟩ (.ok ()) :=
  relative_decoder_rests _ _ (from_slice_expose_rests ⟨[1, 2], 2⟩ _ _ rfl)

/-- **C91, `RelativeCanonicDecoder`.** -/
theorem relative_canonic_decoder_rests {T Rel R RC B : Type} (t : RelativeDecodableCanonic T Rel R RC) (borrow : B → Rel)
    {P : BulkProducer σ UInt8 F E} {s : RelativeSt σ B} {last : Except E F} (h : BulkRests P s.inner last) :
    BufRests (relativeCanonicDecoder t borrow P) s (last.mapError DecodeError.fromError) := by
  obtain ⟨S, hS, hs⟩ := h
  refine ⟨fun s => S s.inner, ⟨⟨fun s hs => ?_⟩, fun s hs => ?_⟩, hs⟩
  · obtain ⟨s', h1, h2⟩ := (decoder_rests_aux (t.relativeDecodeCanonic (borrow s.relativeTo)) hS hs).1
    exact ⟨{ s with inner := s' }, by simp [relativeCanonicDecoder, h1], h2⟩
  · obtain ⟨s', h1 | ⟨e, h0, h1⟩, h2⟩ := (decoder_rests_aux (t.relativeDecodeCanonic (borrow s.relativeTo)) hS hs).2
    · exact ⟨{ s with inner := s' }, .inl (by simp [relativeCanonicDecoder, h1]), h2⟩
    · exact ⟨{ s with inner := s' }, .inr ⟨e, h0, by simp [relativeCanonicDecoder, h1]⟩, h2⟩

example : BufRests (relativeCanonicDecoder U16BE.decodable.toRelative (fun (_ : Bool) => ()) (FromSlice.producer UInt8))
    ⟨⟨[1, 2], 2⟩, true⟩ (.ok ()) :=
  relative_canonic_decoder_rests _ _ (from_slice_expose_rests ⟨[1, 2], 2⟩ _ _ rfl)

/-! ## Shared decoders

A task cannot know that another one has received the final value, so it may well call the shared producer after its end
(finding 11). This is harmless if that producer rests after its end. -/

/-- **C91, shared decoders.** Once some task has received the final value, all tasks receive it whenever they ask. -/
theorem shared_decoder_again {T R ι : Type} [DecidableEq ι] (t : Decodable T R) {P : BulkProducer σ UInt8 F E}
    (hend : ∀ s s' f, P.exposeItems s = ok (s', .ok (.inr f)) → BulkRests P s' (.ok f))
    {m : Suspension σ Unit SharedDecoderOp (SharedDecoderAnswer T F (DecodeError F E R))} (hI : m.Implements (sharedDecoder t P))
    {s : σ} {b : ι → Unit} {st : Shared ι σ Unit SharedDecoderOp (SharedDecoderAnswer T F (DecodeError F E R)) m.κ}
    (h : Shared.Reachable (sharedDecoder t P) m (Shared.init s b) st)
    {l₁ l₂ : List (ι × SharedDecoderOp × SharedDecoderAnswer T F (DecodeError F E R))} {i : ι} {op : SharedDecoderOp} {f : F}
    (hfin : st.finished = l₁ ++ (i, op, .produced (.ok (.inr f))) :: l₂) : ∀ c ∈ l₂, AnswersOver f c.2.2 := by
  obtain ⟨_, h⟩ := h.inv hI
  exact (shared_decoder_over (by rintro b (_ | _); exact .inl ⟨_, rfl⟩; exact .inr (.inl rfl)) hend h.serial _ _ _ _ _ hfin).2

/-- Two tasks that share a decoder of no bytes: both have received the final value. -/
example : ∃ m, ∃ st : Shared Bool (FromSlice UInt8) Unit SharedDecoderOp _ m.κ,
    Shared.Reachable (sharedDecoder U16BE.decodable.toDecodable (FromSlice.producer UInt8)) m (Shared.init (FromSlice.new []) fun _ => ())
      st ∧
    st.finished = [(true, .produce, .produced (.ok (.inr ()))), (false, .produce, .produced (.ok (.inr ())))] ∧
    ∀ c ∈ [(false, SharedDecoderOp.produce, SharedDecoderAnswer.produced (.ok (.inr ())))],
      AnswersOver (T := UInt16) (E := Empty) (R := Empty) () c.2.2 := by
  have h0 := Serial.nil (method := sharedDecoder U16BE.decodable.toDecodable (FromSlice.producer UInt8)) (b := fun _ : Bool => ())
    (s := FromSlice.new [])
  have h1 := h0.locked (i := true) (op := .produce) rfl (s₂ := FromSlice.new []) (a := .produced (.ok (.inr ()))) rfl
  have h2 := h1.locked (i := false) (op := .produce) rfl (s₂ := FromSlice.new []) (a := .produced (.ok (.inr ()))) rfl
  obtain ⟨st, h3, _, _, h4, _⟩ := h2.reachable
  exact ⟨_, st, h3, h4, shared_decoder_again _ from_slice_expose_rests (Suspension.chaotic_implements _) h3 (l₁ := []) h4⟩

/-- **C91, `SharedCanonicDecoder`.** -/
theorem shared_canonic_decoder_again {T R RC ι : Type} [DecidableEq ι] (t : DecodableCanonic T R RC) {P : BulkProducer σ UInt8 F E}
    (hend : ∀ s s' f, P.exposeItems s = ok (s', .ok (.inr f)) → BulkRests P s' (.ok f))
    {m : Suspension σ Unit SharedDecoderOp (SharedDecoderAnswer T F (DecodeError F E RC))} (hI : m.Implements (sharedCanonicDecoder t P))
    {s : σ} {b : ι → Unit} {st : Shared ι σ Unit SharedDecoderOp (SharedDecoderAnswer T F (DecodeError F E RC)) m.κ}
    (h : Shared.Reachable (sharedCanonicDecoder t P) m (Shared.init s b) st)
    {l₁ l₂ : List (ι × SharedDecoderOp × SharedDecoderAnswer T F (DecodeError F E RC))} {i : ι} {op : SharedDecoderOp} {f : F}
    (hfin : st.finished = l₁ ++ (i, op, .produced (.ok (.inr f))) :: l₂) : ∀ c ∈ l₂, AnswersOver f c.2.2 := by
  obtain ⟨_, h⟩ := h.inv hI
  exact (shared_decoder_over (by rintro b (_ | _); exact .inl ⟨_, rfl⟩; exact .inr (.inl rfl)) hend h.serial _ _ _ _ _ hfin).2

example : ∃ m, ∃ st : Shared Bool (FromSlice UInt8) Unit SharedDecoderOp _ m.κ,
    Shared.Reachable (sharedCanonicDecoder U16BE.decodable (FromSlice.producer UInt8)) m (Shared.init (FromSlice.new []) fun _ => ())
      st ∧
    st.finished = [(true, .produce, .produced (.ok (.inr ()))), (false, .produce, .produced (.ok (.inr ())))] ∧
    ∀ c ∈ [(false, SharedDecoderOp.produce, SharedDecoderAnswer.produced (.ok (.inr ())))],
      AnswersOver (T := UInt16) (E := Empty) (R := Empty) () c.2.2 := by
  have h0 := Serial.nil (method := sharedCanonicDecoder U16BE.decodable (FromSlice.producer UInt8)) (b := fun _ : Bool => ())
    (s := FromSlice.new [])
  have h1 := h0.locked (i := true) (op := .produce) rfl (s₂ := FromSlice.new []) (a := .produced (.ok (.inr ()))) rfl
  have h2 := h1.locked (i := false) (op := .produce) rfl (s₂ := FromSlice.new []) (a := .produced (.ok (.inr ()))) rfl
  obtain ⟨st, h3, _, _, h4, _⟩ := h2.reachable
  exact ⟨_, st, h3, h4, shared_canonic_decoder_again _ from_slice_expose_rests (Suspension.chaotic_implements _) h3 (l₁ := []) h4⟩

/-- **C91, `SharedRelativeDecoder`.** -/
theorem shared_relative_decoder_again {T Rel R B ι : Type} [DecidableEq ι] (t : RelativeDecodable T Rel R)
    (borrow : B → Rel) {P : BulkProducer σ UInt8 F E}
    (hend : ∀ s s' f, P.exposeItems s = ok (s', .ok (.inr f)) → BulkRests P s' (.ok f))
    {m : Suspension σ B (SharedRelativeDecoderOp B) (SharedDecoderAnswer T F (DecodeError F E R))}
    (hI : m.Implements (sharedRelativeDecoder t borrow P))
    {s : σ} {b : ι → B} {st : Shared ι σ B (SharedRelativeDecoderOp B) (SharedDecoderAnswer T F (DecodeError F E R)) m.κ}
    (h : Shared.Reachable (sharedRelativeDecoder t borrow P) m (Shared.init s b) st)
    {l₁ l₂ : List (ι × SharedRelativeDecoderOp B × SharedDecoderAnswer T F (DecodeError F E R))} {i : ι}
    {op : SharedRelativeDecoderOp B} {f : F}
    (hfin : st.finished = l₁ ++ (i, op, .produced (.ok (.inr f))) :: l₂) : ∀ c ∈ l₂, AnswersOver f c.2.2 := by
  obtain ⟨_, h⟩ := h.inv hI
  exact (shared_decoder_over (by rintro b (_ | _ | x); exact .inl ⟨_, rfl⟩; exact .inr (.inl rfl); exact .inr (.inr ⟨x, rfl⟩))
    hend h.serial _ _ _ _ _ hfin).2

example : ∃ m, ∃ st : Shared Bool (FromSlice UInt8) Bool (SharedRelativeDecoderOp Bool) _ m.κ,
    Shared.Reachable (sharedRelativeDecoder U16BE.decodable.toDecodable.toRelative (fun (_ : Bool) => ()) (FromSlice.producer UInt8)) m
      (Shared.init (FromSlice.new []) fun _ => true) st ∧
    st.finished = [(true, .produce, .produced (.ok (.inr ()))), (false, .produce, .produced (.ok (.inr ())))] ∧
    ∀ c ∈ [(false, SharedRelativeDecoderOp.produce (B := Bool), SharedDecoderAnswer.produced (.ok (.inr ())))],
      AnswersOver (T := UInt16) (E := Empty) (R := Empty) () c.2.2 := by
  have h0 := Serial.nil
    (method := sharedRelativeDecoder U16BE.decodable.toDecodable.toRelative (fun (_ : Bool) => ()) (FromSlice.producer UInt8))
    (b := fun _ : Bool => true) (s := FromSlice.new [])
  have h1 := h0.locked (i := true) (op := .produce) rfl (s₂ := FromSlice.new []) (a := .produced (.ok (.inr ()))) rfl
  have h2 := h1.locked (i := false) (op := .produce) rfl (s₂ := FromSlice.new []) (a := .produced (.ok (.inr ()))) rfl
  obtain ⟨st, h3, _, _, h4, _⟩ := h2.reachable
  exact ⟨_, st, h3, h4, shared_relative_decoder_again _ _ from_slice_expose_rests (Suspension.chaotic_implements _) h3 (l₁ := []) h4⟩

/-- **C91, `SharedRelativeCanonicDecoder`.** -/
theorem shared_relative_canonic_decoder_again {T Rel R RC B ι : Type} [DecidableEq ι] (t : RelativeDecodableCanonic T Rel R RC)
    (borrow : B → Rel) {P : BulkProducer σ UInt8 F E}
    (hend : ∀ s s' f, P.exposeItems s = ok (s', .ok (.inr f)) → BulkRests P s' (.ok f))
    {m : Suspension σ B (SharedRelativeDecoderOp B) (SharedDecoderAnswer T F (DecodeError F E RC))}
    (hI : m.Implements (sharedRelativeCanonicDecoder t borrow P))
    {s : σ} {b : ι → B} {st : Shared ι σ B (SharedRelativeDecoderOp B) (SharedDecoderAnswer T F (DecodeError F E RC)) m.κ}
    (h : Shared.Reachable (sharedRelativeCanonicDecoder t borrow P) m (Shared.init s b) st)
    {l₁ l₂ : List (ι × SharedRelativeDecoderOp B × SharedDecoderAnswer T F (DecodeError F E RC))} {i : ι}
    {op : SharedRelativeDecoderOp B} {f : F}
    (hfin : st.finished = l₁ ++ (i, op, .produced (.ok (.inr f))) :: l₂) : ∀ c ∈ l₂, AnswersOver f c.2.2 := by
  obtain ⟨_, h⟩ := h.inv hI
  exact (shared_decoder_over (by rintro b (_ | _ | x); exact .inl ⟨_, rfl⟩; exact .inr (.inl rfl); exact .inr (.inr ⟨x, rfl⟩))
    hend h.serial _ _ _ _ _ hfin).2

example : ∃ m, ∃ st : Shared Bool (FromSlice UInt8) Bool (SharedRelativeDecoderOp Bool) _ m.κ,
    Shared.Reachable (sharedRelativeCanonicDecoder U16BE.decodable.toRelative (fun (_ : Bool) => ()) (FromSlice.producer UInt8)) m
      (Shared.init (FromSlice.new []) fun _ => true) st ∧
    st.finished = [(true, .produce, .produced (.ok (.inr ()))), (false, .produce, .produced (.ok (.inr ())))] ∧
    ∀ c ∈ [(false, SharedRelativeDecoderOp.produce (B := Bool), SharedDecoderAnswer.produced (.ok (.inr ())))],
      AnswersOver (T := UInt16) (E := Empty) (R := Empty) () c.2.2 := by
  have h0 := Serial.nil
    (method := sharedRelativeCanonicDecoder U16BE.decodable.toRelative (fun (_ : Bool) => ()) (FromSlice.producer UInt8))
    (b := fun _ : Bool => true) (s := FromSlice.new [])
  have h1 := h0.locked (i := true) (op := .produce) rfl (s₂ := FromSlice.new []) (a := .produced (.ok (.inr ()))) rfl
  have h2 := h1.locked (i := false) (op := .produce) rfl (s₂ := FromSlice.new []) (a := .produced (.ok (.inr ()))) rfl
  obtain ⟨st, h3, _, _, h4, _⟩ := h2.reachable
  exact ⟨_, st, h3, h4,
    shared_relative_canonic_decoder_again _ _ from_slice_expose_rests (Suspension.chaotic_implements _) h3 (l₁ := []) h4⟩

end

end Verif
