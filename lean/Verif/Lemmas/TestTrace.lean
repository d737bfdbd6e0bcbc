import Verif.TestSpec
import Verif.Lemmas.TestConsumer

/-!
# What every single call of a method of a test double does to its yielder and its sizes

For arbitrary states, whether or not the call is allowed.
-/

namespace Verif

open Outcome

section

variable {I F E : Type}

namespace TestProducer

theorem produce_frame {test : Bool} {s s' : TestProducer I F E} {r} (h : s.produce test = ok (s', r)) :
    maybeYield s.yielder = ok s'.yielder ∧ s'.sizes = s.sizes := by
  simp only [produce, bind_eq, bind_eq_ok, pure_eq] at h
  obtain ⟨y, hy, rem, _, h⟩ := h
  split at h
  · simp only [bind_eq, bind_eq_ok] at h
    obtain ⟨_, _, h⟩ := h
    obtain ⟨rfl, _⟩ : _ = s' ∧ _ := by simpa using h
    exact ⟨hy, rfl⟩
  · simp only [bind_eq, bind_eq_ok] at h
    obtain ⟨_, _, _, _, _, _, h⟩ := h
    obtain ⟨rfl, _⟩ : _ = s' ∧ _ := by simpa using h
    exact ⟨hy, rfl⟩

theorem takeError_frame {s s' : TestProducer I F E} {r} (h : s.takeError = ok (s', r)) :
    s'.yielder = s.yielder ∧ s'.sizes = s.sizes ∧ s'.inner = s.inner := by
  simp only [takeError, bind_eq, bind_eq_ok, pure_eq] at h
  obtain ⟨rem, _, h⟩ := h
  split at h
  · obtain ⟨l, _, h⟩ := bind_eq_ok.mp h
    split at h
    all_goals
      obtain ⟨rfl, _⟩ : _ = s' ∧ _ := by simpa using h
      exact ⟨rfl, rfl, rfl⟩
  · obtain ⟨rfl, _⟩ : _ = s' ∧ _ := by simpa using h
    exact ⟨rfl, rfl, rfl⟩

theorem slurp_frame {s s' : TestProducer I F E} {r} (h : s.slurp = ok (s', r)) :
    maybeYield s.yielder = ok s'.yielder ∧ s'.sizes = s.sizes := by
  simp only [slurp, bind_eq, bind_eq_ok, pure_eq] at h
  obtain ⟨y, hy, ⟨s₁, e⟩, ht, h⟩ := h
  obtain ⟨h1, h2, _⟩ := takeError_frame ht
  have : s₁ = s' := by cases e <;> · simp at h; exact h.1
  subst this
  exact ⟨by rw [hy, h1], h2⟩

theorem considerProduced_frame {test : Bool} {s s' : TestProducer I F E} {k r} (h : s.considerProduced test k = ok (s', r)) :
    maybeYield s.yielder = ok s'.yielder ∧ s'.sizes = s.sizes := by
  simp only [considerProduced, bind_eq, bind_eq_ok, pure_eq] at h
  obtain ⟨y, hy, ⟨s₁, e⟩, ht, h⟩ := h
  obtain ⟨h1, h2, _⟩ := takeError_frame ht
  rcases e with _ | e
  · simp only [bind_eq_ok] at h
    obtain ⟨_, _, _, _, h⟩ := h
    obtain ⟨rfl, _⟩ : _ = s' ∧ _ := by simpa using h
    exact ⟨by rw [hy]; exact congrArg ok h1.symm, h2⟩
  · obtain ⟨rfl, _⟩ : _ = s' ∧ _ := by simpa using h
    exact ⟨by rw [hy]; exact congrArg ok h1.symm, h2⟩

/-- The public slice producer exposes everything not yet produced. -/
theorem slice_exposeItems {test : Bool} {s s' : InvariantSt (FromBoxedSlice I)} {xs : List I} {u : Except Empty (List I ⊕ Unit)}
    {v : List I ⊕ Unit} (h : (slice test).exposeItems s = ok (s', u)) (hu : unwrapResult u = ok v) (hv : unwrapLeft v = ok xs) :
    s.inner.notYetProduced = ok xs := by
  rcases u with e | u
  · exact e.elim
  obtain rfl : u = v := by simpa [unwrapResult] using hu
  rcases u with ys | u
  · obtain rfl : ys = xs := by simpa [unwrapLeft] using hv
    have key : ∀ {a r}, s.inner.exposeItems = ok (a, r) → r = .ok (.inl ys) → s.inner.notYetProduced = ok ys := by
      intro a r hk hr
      subst hr
      simp only [FromBoxedSlice.exposeItems, bind_eq, bind_eq_ok, pure_eq] at hk
      obtain ⟨zs, h1, h2⟩ := hk
      split at h2
      · simp at h2
      · obtain ⟨_, rfl⟩ : _ ∧ zs = ys := by simpa using h2
        exact h1
    cases test
    · simp only [slice, publicProducer, if_neg Bool.false_ne_true, unusedInvariantBulkProducer, bind_eq, bind_eq_ok,
        pure_eq] at h
      obtain ⟨⟨a, r⟩, h1, h2⟩ := h
      obtain ⟨_, rfl⟩ : _ ∧ r = _ := by simpa using h2
      exact key h1 rfl
    · simp only [slice, publicProducer, if_pos, invariantBulkProducer, bind_eq, bind_eq_ok, pure_eq] at h
      obtain ⟨_, _, ⟨a, r⟩, h1, h2⟩ := h
      rcases r with e | zs | f
      · exact e.elim
      · obtain ⟨_, rfl⟩ : _ ∧ zs = ys := by simpa using h2
        exact key h1 rfl
      · simp at h2
  · simp [unwrapLeft] at hv

theorem exposeItems_frame {test : Bool} {s s' : TestProducer I F E} {r} (h : s.exposeItems test = ok (s', r)) :
    maybeYield s.yielder = ok s'.yielder ∧
    ((s'.sizes = s.sizes ∧ ∀ xs, r ≠ .ok (.inl xs)) ∨
     ∃ xs, r = .ok (.inl xs) ∧ ((s.sizes = none ∧ s'.sizes = none ∧ s.remaining = ok xs) ∨
       ∃ z z' m rem, s.sizes = some z ∧ s'.sizes = some z' ∧ z.next = ok (z', m) ∧ s.remaining = ok rem ∧
         xs = rem.take (min rem.length m))) := by
  simp only [exposeItems, bind_eq, bind_eq_ok, pure_eq] at h
  obtain ⟨y, hy, rem, hrem, h⟩ := h
  split at h
  · obtain ⟨last, _, h⟩ := bind_eq_ok.mp h
    obtain ⟨rfl, rfl⟩ : _ = s' ∧ _ = r := by simpa using h
    refine ⟨hy, .inl ⟨rfl, ?_⟩⟩
    intro xs; cases last <;> simp [Except.map]
  · rcases hz : s.sizes with _ | z
    · simp only [hz, bind_eq_ok] at h
      obtain ⟨⟨inner, u⟩, h1, v, hv, xs, hxs, h⟩ := h
      obtain ⟨rfl, rfl⟩ : _ = s' ∧ _ = r := by simpa using h
      exact ⟨hy, .inr ⟨xs, rfl, .inl ⟨rfl, rfl, slice_exposeItems h1 hv hxs⟩⟩⟩
    · simp only [hz, bind_eq_ok] at h
      obtain ⟨⟨z', m⟩, hn, ⟨inner, u⟩, h1, v, hv, xs, hxs, ys, hys, h⟩ := h
      obtain ⟨rfl, rfl⟩ : _ = s' ∧ _ = r := by simpa using h
      refine ⟨hy, .inr ⟨ys, rfl, .inr ⟨z, z', m, xs, rfl, rfl, hn, slice_exposeItems h1 hv hxs, ?_⟩⟩⟩
      rw [slice_of_le (Nat.zero_le _) (Nat.min_le_left _ _)] at hys
      simpa using hys.symm

end TestProducer

theorem Sizes.next_eq {z z' : Sizes} {m : Nat} (h : z.next = ok (z', m)) :
    ∃ x, z.sizes[z.index]? = some x ∧ m = x.val ∧ z' = ⟨z.sizes, (z.index + 1) % z.sizes.length⟩ := by
  simp only [Sizes.next, bind_eq, bind_eq_ok, pure_eq] at h
  obtain ⟨x, h1, i, h2, h3⟩ := h
  rcases Nat.lt_or_ge z.index z.sizes.length with hlt | hge
  · rw [index_of_lt hlt] at h1
    rw [mod_of_pos (by omega)] at h2
    obtain ⟨⟩ := h1
    obtain ⟨⟩ := h2
    obtain ⟨⟩ := h3
    exact ⟨_, List.getElem?_eq_getElem hlt, rfl, rfl⟩
  · simp [Outcome.index, List.getElem?_eq_none hge, unwrap] at h1

/-- The sizes after `k` exposures. -/
def sizesAfter (sizes : List NonZero) (k : Nat) : Option Sizes :=
  if sizes.length > 0 then some ⟨sizes, k % sizes.length⟩ else none

theorem sizesAfter_zero (sizes : List NonZero) : sizesAfter sizes 0 = Sizes.new sizes := by
  simp [sizesAfter, Sizes.new]

theorem sizesAfter_next {sizes : List NonZero} {k : Nat} {z z' : Sizes} {m : Nat} (h : sizesAfter sizes k = some z)
    (hn : z.next = ok (z', m)) :
    some z' = sizesAfter sizes (k + 1) ∧ ∃ x, sizes[k % sizes.length]? = some x ∧ m = x.val := by
  unfold sizesAfter at h ⊢
  split at h
  · obtain ⟨⟩ := h
    obtain ⟨x, h1, h2, h3⟩ := Sizes.next_eq hn
    rw [if_pos (by assumption)]
    exact ⟨by simp [h3], x, h1, h2⟩
  · cases h

theorem ProducerExposures.sizes {test : Bool} {items : List I} {last : Except E F} {sizes : List NonZero}
    {pattern : Option (List Bool)} {k : Nat} {s : TestProducer I F E}
    (h : ProducerExposures (TestProducer.producer test I F E) (TestProducer.new items last sizes pattern) k s) :
    s.sizes = sizesAfter sizes k := by
  have hexp : ∀ {k} {s s' : TestProducer I F E} {xs}, s.sizes = sizesAfter sizes k →
      s.exposeItems test = ok (s', .ok (.inl xs)) → s'.sizes = sizesAfter sizes (k + 1) := by
    intro k s s' xs hs he
    obtain ⟨_, ⟨_, h1⟩ | ⟨ys, _, ⟨h1, h2, _⟩ | ⟨z, z', m, rem, h1, h2, h3, _⟩⟩⟩ := TestProducer.exposeItems_frame he
    · exact absurd rfl (h1 xs)
    · rw [h1] at hs
      rw [h2]
      unfold sizesAfter at hs ⊢
      split at hs
      · cases hs
      · rw [if_neg (by assumption)]
    · rw [h1] at hs
      rw [h2]; exact (sizesAfter_next hs.symm h3).1
  induction h with
  | start => exact (sizesAfter_zero sizes).symm
  | produce _ h1 ih => rw [(TestProducer.produce_frame h1).2, ih]
  | slurp _ h1 ih => rw [(TestProducer.slurp_frame h1).2, ih]
  | expose _ h1 ih => exact hexp ih h1
  | consider _ h1 ih => rw [(TestProducer.considerProduced_frame h1).2, ih]
  | @bulkProduce k s₁ s₂ n buf buf' _ h1 ih =>
    have h1' : bulkProduceDefault (TestProducer.exposeItems test) (TestProducer.considerProduced test) s₁ buf =
      ok (s₂, .ok (.inl n), buf') := h1
    simp only [bulkProduceDefault, bind_eq, bind_eq_ok, pure_eq] at h1'
    obtain ⟨⟨s₃, r⟩, h2, h3⟩ := h1'
    rcases r with e | xs | f
    · simp at h3
    · simp only [bind_eq_ok] at h3
      obtain ⟨⟨s₄, r⟩, h4, h5⟩ := h3
      have : s₄ = s₂ := by rcases r with e | _ <;> · simp at h5; try exact h5.1
      subst this
      rw [(TestProducer.considerProduced_frame h4).2]
      exact hexp ih h2
    · simp at h3

namespace TestConsumer

theorem enter_frame {s s' : TestConsumer I F E} {r} (h : s.enter = ok (s', r)) :
    maybeYield s.yielder = ok s'.yielder ∧ s'.sizes = s.sizes ∧
      s'.consumptionsUntilError = s.consumptionsUntilError := by
  simp only [enter, checkError, bind_eq, bind_eq_ok, pure_eq] at h
  obtain ⟨y, hy, h⟩ := h
  split at h
  · simp only [bind_eq_ok] at h
    obtain ⟨_, _, h⟩ := h
    obtain ⟨rfl, _⟩ : _ = s' ∧ _ := by simpa using h
    exact ⟨hy, rfl, rfl⟩
  · obtain ⟨rfl, _⟩ : _ = s' ∧ _ := by simpa using h
    exact ⟨hy, rfl, rfl⟩

variable [Inhabited I]

theorem consume_frame {test : Bool} {s s' : TestConsumer I F E} {x r} (h : s.consume test x = ok (s', r)) :
    maybeYield s.yielder = ok s'.yielder ∧ s'.sizes = s.sizes := by
  simp only [consume, bind_eq, bind_eq_ok, pure_eq] at h
  obtain ⟨⟨s₁, e⟩, h1, h⟩ := h
  obtain ⟨h2, h3, _⟩ := enter_frame h1
  rcases e with _ | e
  · simp only [bind_eq_ok] at h
    obtain ⟨_, _, _, _, _, _, h⟩ := h
    obtain ⟨rfl, _⟩ : _ = s' ∧ _ := by simpa using h
    exact ⟨h2, h3⟩
  · obtain ⟨rfl, _⟩ : _ = s' ∧ _ := by simpa using h
    exact ⟨h2, h3⟩

theorem close_frame {test : Bool} {s s' : TestConsumer I F E} {f r} (h : s.close test f = ok (s', r)) :
    maybeYield s.yielder = ok s'.yielder ∧ s'.sizes = s.sizes := by
  simp only [close, bind_eq, bind_eq_ok, pure_eq] at h
  obtain ⟨⟨s₁, e⟩, h1, h⟩ := h
  obtain ⟨h2, h3, _⟩ := enter_frame h1
  rcases e with _ | e
  · simp only [bind_eq_ok] at h
    obtain ⟨_, _, _, _, h⟩ := h
    obtain ⟨rfl, _⟩ : _ = s' ∧ _ := by simpa using h
    exact ⟨h2, h3⟩
  · obtain ⟨rfl, _⟩ : _ = s' ∧ _ := by simpa using h
    exact ⟨h2, h3⟩

theorem flush_frame {test : Bool} {s s' : TestConsumer I F E} {r} (h : s.flush test = ok (s', r)) :
    maybeYield s.yielder = ok s'.yielder ∧ s'.sizes = s.sizes := by
  simp only [flush, bind_eq, bind_eq_ok, pure_eq] at h
  obtain ⟨⟨s₁, e⟩, h1, h⟩ := h
  obtain ⟨h2, h3, _⟩ := enter_frame h1
  rcases e with _ | e
  · simp only [bind_eq_ok] at h
    obtain ⟨_, _, _, _, h⟩ := h
    obtain ⟨rfl, _⟩ : _ = s' ∧ _ := by simpa using h
    exact ⟨h2, h3⟩
  · obtain ⟨rfl, _⟩ : _ = s' ∧ _ := by simpa using h
    exact ⟨h2, h3⟩

theorem consumeSlots_frame {test : Bool} {s s' : TestConsumer I F E} {k r} (h : s.consumeSlots test k = ok (s', r)) :
    maybeYield s.yielder = ok s'.yielder ∧ s'.sizes = s.sizes := by
  simp only [consumeSlots, bind_eq, bind_eq_ok, pure_eq] at h
  obtain ⟨⟨s₁, e⟩, h1, h⟩ := h
  obtain ⟨h2, h3, _⟩ := enter_frame h1
  rcases e with _ | e
  · simp only [bind_eq_ok] at h
    obtain ⟨_, _, _, _, _, _, h⟩ := h
    obtain ⟨rfl, _⟩ : _ = s' ∧ _ := by simpa using h
    exact ⟨h2, h3⟩
  · obtain ⟨rfl, _⟩ : _ = s' ∧ _ := by simpa using h
    exact ⟨h2, h3⟩

theorem exposeSlots_frame {test : Bool} {s s' : TestConsumer I F E} {r} (h : s.exposeSlots test = ok (s', r)) :
    maybeYield s.yielder = ok s'.yielder ∧
    ((∃ e, s'.sizes = s.sizes ∧ r = .error e) ∨
     ∃ xs, r = .ok xs ∧ ((s.sizes = none ∧ s'.sizes = none) ∨
       ∃ z z' m, s.sizes = some z ∧ s'.sizes = some z' ∧ z.next = ok (z', m))) := by
  simp only [exposeSlots, bind_eq, bind_eq_ok, pure_eq] at h
  obtain ⟨⟨s₁, e⟩, h1, h⟩ := h
  obtain ⟨h2, h3, _⟩ := enter_frame h1
  rcases e with _ | e
  · simp only [bind_eq_ok] at h
    obtain ⟨⟨s₂, m⟩, h4, _, _, _, _, _, _, xs, _, h⟩ := h
    obtain ⟨rfl, rfl⟩ : _ = s' ∧ _ = r := by simpa using h
    rcases hz : s₁.sizes with _ | z
    · simp only [nextSize, hz, pure_eq] at h4
      obtain ⟨⟩ := h4
      exact ⟨h2, .inr ⟨xs, rfl, .inl ⟨by rw [← h3, hz], hz⟩⟩⟩
    · simp only [nextSize, hz, bind_eq, bind_eq_ok, pure_eq] at h4
      obtain ⟨⟨z', m'⟩, h5, h6⟩ := h4
      obtain ⟨⟩ := h6
      exact ⟨h2, .inr ⟨xs, rfl, .inr ⟨z, z', m', by rw [← h3, hz], rfl, h5⟩⟩⟩
  · obtain ⟨rfl, rfl⟩ : _ = s' ∧ _ = r := by simpa using h
    exact ⟨h2, .inl ⟨e, h3, rfl⟩⟩

end TestConsumer

theorem ConsumerExposures.sizes [Inhabited I] {test : Bool} {e : E} {n : Nat} {sizes : List NonZero}
    {pattern : Option (List Bool)} {k : Nat} {s : TestConsumer I F E}
    (h : ConsumerExposures (TestConsumer.consumer test I F E) (TestConsumer.new e n sizes pattern) k s) :
    s.sizes = sizesAfter sizes k := by
  have hexp : ∀ {k} {s s' : TestConsumer I F E} {xs}, s.sizes = sizesAfter sizes k →
      s.exposeSlots test = ok (s', .ok xs) → s'.sizes = sizesAfter sizes (k + 1) := by
    intro k s s' xs hs he
    obtain ⟨_, ⟨e, _, h1⟩ | ⟨ys, _, ⟨h1, h2⟩ | ⟨z, z', m, h1, h2, h3⟩⟩⟩ := TestConsumer.exposeSlots_frame he
    · cases h1
    · rw [h1] at hs
      rw [h2]
      unfold sizesAfter at hs ⊢
      split at hs
      · cases hs
      · rw [if_neg (by assumption)]
    · rw [h1] at hs
      rw [h2]; exact (sizesAfter_next hs.symm h3).1
  induction h with
  | start => exact (sizesAfter_zero sizes).symm
  | consume _ h1 ih => rw [(TestConsumer.consume_frame h1).2, ih]
  | flush _ h1 ih => rw [(TestConsumer.flush_frame h1).2, ih]
  | expose _ h1 ih => exact hexp ih h1
  | write _ ih => exact ih
  | consumeSlots _ h1 ih => rw [(TestConsumer.consumeSlots_frame h1).2, ih]
  | @bulkConsume k s₁ s₂ n buf _ h1 ih =>
    have h1' : bulkConsumeDefault (TestConsumer.exposeSlots test) (TestConsumer.consumer test I F E).writeSlots
      (TestConsumer.consumeSlots test) s₁ buf = ok (s₂, .ok n) := h1
    simp only [bulkConsumeDefault, bind_eq, bind_eq_ok, pure_eq] at h1'
    obtain ⟨⟨s₃, r⟩, h2, h3⟩ := h1'
    rcases r with e | xs
    · simp at h3
    · simp only [bind_eq_ok] at h3
      obtain ⟨⟨s₄, r⟩, h4, h5⟩ := h3
      have : s₄ = s₂ := by rcases r with e | _ <;> · simp at h5; try exact h5.1
      subst this
      rw [(TestConsumer.consumeSlots_frame h4).2]
      show s₃.sizes = _
      exact hexp ih h2

end

end Verif
