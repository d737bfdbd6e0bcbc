import Verif.Model.TestDoubles
import Verif.Lemmas.Spec
import Verif.Lemmas.Slices
import Verif.Lemmas.Loop

/-!
# Helper lemmas about `TestYielder`, `TestProducer` and `TestConsumer`
-/

namespace Verif

open Outcome

/-! ## `TestYielder` -/

namespace TestYielder

/-- The index is in bounds and the pattern contains a `false`. -/
def Live (y : TestYielder) : Prop := y.index < y.pattern.length ∧ false ∈ y.pattern

theorem false_mem_extended (p : List Bool) : false ∈ extended p := by
  unfold extended
  split
  · simp
  · simp_all

theorem length_extended_pos (p : List Bool) : 0 < (extended p).length :=
  List.length_pos_of_mem (false_mem_extended p)

theorem extended_extended (p : List Bool) : extended (extended p) = extended p := by
  rw [extended]
  split
  · rename_i h
    have := List.all_eq_true.mp h false (false_mem_extended p)
    simp at this
  · rfl

theorem live_new (p : List Bool) : (new p).Live := ⟨length_extended_pos p, false_mem_extended p⟩

/-- The state after `j` suspensions. -/
def after (y : TestYielder) (j : Nat) : TestYielder :=
  { y with index := (y.index + j + 1) % y.pattern.length, wakes := y.wakes + j, suspensions := y.suspensions + j }

theorem maybeYield_aux (m : Nat) : ∀ y : TestYielder, y.index < y.pattern.length →
    y.pattern[(y.index + m) % y.pattern.length]? = some false →
    ∃ j, j ≤ m ∧ (∀ t, t < j → y.pattern[(y.index + t) % y.pattern.length]? = some true) ∧
      y.pattern[(y.index + j) % y.pattern.length]? = some false ∧ y.maybeYield = ok (y.after j) := by
  induction m with
  | zero =>
    intro y hi hm
    refine ⟨0, Nat.le_refl _, by simp, hm, ?_⟩
    have hm' := hm
    rw [Nat.add_zero, Nat.mod_eq_of_lt hi, List.getElem?_eq_getElem hi] at hm'
    rw [maybeYield, loop_unfold]
    simp [awaitBody, poll, index_of_lt hi, mod_of_pos (show 0 < y.pattern.length by omega), Option.some.inj hm', after]
  | succ m ih =>
    intro y hi hm
    rcases hb : y.pattern[y.index] with _ | _
    · refine ⟨0, by omega, by simp, ?_, ?_⟩
      · rw [Nat.add_zero, Nat.mod_eq_of_lt hi, List.getElem?_eq_getElem hi, hb]
      · rw [maybeYield, loop_unfold]
        simp [awaitBody, poll, index_of_lt hi, mod_of_pos (show 0 < y.pattern.length by omega), hb, after]
    · have hpos : 0 < y.pattern.length := by omega
      obtain ⟨j, h1, h2, h3, h4⟩ := ih { y with
          index := (y.index + 1) % y.pattern.length, wakes := y.wakes + 1, suspensions := y.suspensions + 1 }
        (Nat.mod_lt _ hpos) (by
          simp only [Nat.mod_add_mod]
          rw [show y.index + 1 + m = y.index + (m + 1) by omega]; exact hm)
      simp only [Nat.mod_add_mod] at h2 h3
      refine ⟨j + 1, by omega, ?_, ?_, ?_⟩
      · intro t ht
        rcases t with _ | t
        · rw [Nat.add_zero, Nat.mod_eq_of_lt hi, List.getElem?_eq_getElem hi, hb]
        · rw [show y.index + (t + 1) = y.index + 1 + t by omega]
          exact h2 t (by omega)
      · rw [show y.index + (j + 1) = y.index + 1 + j by omega]; exact h3
      · rw [maybeYield, loop_unfold]
        simp only [awaitBody, poll, bind_eq, index_of_lt hi, mod_of_pos hpos, bind_ok, hb, if_true, pure_eq]
        rw [if_neg (by omega)]
        simp only [maybeYield] at h4
        simp only [h4, after]
        congr 2
        · rw [Nat.add_assoc, Nat.mod_add_mod]; congr 1; omega
        · omega
        · omega

/-- `maybe_yield` suspends until the first `false` of the pattern, counting cyclically from the current index. -/
theorem maybeYield_spec (y : TestYielder) (h : y.Live) :
    ∃ j, j < y.pattern.length ∧ (∀ t, t < j → y.pattern[(y.index + t) % y.pattern.length]? = some true) ∧
      y.pattern[(y.index + j) % y.pattern.length]? = some false ∧ y.maybeYield = ok (y.after j) := by
  obtain ⟨hi, hf⟩ := h
  obtain ⟨p, hp, hpf⟩ := List.getElem_of_mem hf
  obtain ⟨j, h1, h2⟩ := maybeYield_aux ((p + y.pattern.length - y.index) % y.pattern.length) y hi (by
    rw [Nat.add_mod_mod, show y.index + (p + y.pattern.length - y.index) = p + y.pattern.length by omega,
      Nat.add_mod_right, Nat.mod_eq_of_lt hp, List.getElem?_eq_getElem hp, hpf])
  exact ⟨j, Nat.lt_of_le_of_lt h1 (Nat.mod_lt _ (by omega)), h2⟩

theorem after_live {y : TestYielder} (h : y.Live) (j : Nat) : (y.after j).Live :=
  ⟨Nat.mod_lt _ (Nat.lt_of_le_of_lt (Nat.zero_le _) h.1), h.2⟩

end TestYielder

/-- What happens to an optional yielder when a method suspends `j` times in a row and then goes on. -/
def yielderAfter (y : Option TestYielder) (j : Nat) : Option TestYielder := y.map (·.after j)

/-- An optional yielder is absent or live. -/
def YielderLive (y : Option TestYielder) : Prop := ∀ y', y = some y' → y'.Live

/-- How often an optional yielder has suspended. -/
def suspensions (y : Option TestYielder) : Nat := (y.map (·.suspensions)).getD 0

theorem maybeYield_ok {y : Option TestYielder} (h : YielderLive y) :
    ∃ y', maybeYield y = ok y' ∧ YielderLive y' ∧ y'.map (·.pattern) = y.map (·.pattern) ∧ suspensions y ≤ suspensions y' ∧
      suspensions y' ≤ suspensions y + ((y.map (·.pattern.length)).getD 1 - 1) := by
  rcases y with _ | y
  · exact ⟨none, rfl, by simp [YielderLive], by simp [suspensions]⟩
  · obtain ⟨j, h1, h2, h3, h4⟩ := y.maybeYield_spec (h y rfl)
    refine ⟨some (y.after j), by simp [maybeYield, h4], ?_, by simp [TestYielder.after],
      by simp [suspensions, TestYielder.after], ?_⟩
    · rintro _ ⟨⟩; exact TestYielder.after_live (h y rfl) j
    · simp [suspensions, TestYielder.after]; omega

theorem yielderLive_new (p : Option (List Bool)) :
    YielderLive (p.map fun p => TestYielder.new (TestYielder.extended p)) := by
  rcases p with _ | p
  · simp [YielderLive]
  · rintro _ ⟨⟩; exact TestYielder.live_new _

/-! ## `Sizes` -/

namespace Sizes

def Ok (z : Sizes) : Prop := z.index < z.sizes.length

theorem next_ok {z : Sizes} (h : z.Ok) :
    z.next = ok (⟨z.sizes, (z.index + 1) % z.sizes.length⟩, (z.sizes[z.index]'h : Nat)) ∧
      Ok ⟨z.sizes, (z.index + 1) % z.sizes.length⟩ := by
  have hp : 0 < z.sizes.length := by unfold Ok at h; omega
  refine ⟨?_, Nat.mod_lt _ hp⟩
  simp [next, index_of_lt (show z.index < z.sizes.length from h), mod_of_pos hp]
  rfl

end Sizes

def SizesOk (z : Option Sizes) : Prop := ∀ z', z = some z' → z'.Ok

theorem sizesOk_new (sizes : List NonZero) : SizesOk (Sizes.new sizes) := by
  intro z hz
  unfold Sizes.new at hz
  split at hz
  · obtain ⟨⟩ := hz; assumption
  · cases hz

/-! ## `TestProducer` -/

namespace TestProducer

variable {I F E : Type}

/-- The public `FromBoxedSlice` is usable and at least `n` of its items are exposed. -/
def SliceOk (test : Bool) (s : InvariantSt (FromBoxedSlice I)) (n : Nat) : Prop :=
  s.active = true ∧ s.inner.pos + n ≤ s.inner.data.length ∧ (test = true → n ≤ s.exposedSlots)

theorem SliceOk.mono {test : Bool} {s : InvariantSt (FromBoxedSlice I)} {n m : Nat} (h : SliceOk test s n) (hm : m ≤ n) :
    SliceOk test s m := ⟨h.1, by have := h.2.1; omega, fun ht => by have := h.2.2 ht; omega⟩

theorem SliceOk.notYetProduced {test : Bool} {s : InvariantSt (FromBoxedSlice I)} {n : Nat} (h : SliceOk test s n) :
    s.inner.notYetProduced = ok (s.inner.data.drop s.inner.pos) := by
  rw [FromBoxedSlice.notYetProduced, FromBoxedSlice.offset, slice_of_le (by have := h.2.1; omega) (Nat.le_refl _),
    List.take_length]

theorem SliceOk.produce {test : Bool} {s : InvariantSt (FromBoxedSlice I)} {n : Nat} (h : SliceOk test s n)
    (hne : s.inner.data.drop s.inner.pos ≠ []) :
    ∃ s' x, (slice test).produce s = ok (s', .ok (.inl x)) ∧ SliceOk test s' 0 ∧
      s.inner.data.drop s.inner.pos = x :: s'.inner.data.drop s'.inner.pos ∧ s'.inner.data = s.inner.data ∧
      s'.inner.pos = s.inner.pos + 1 := by
  have hlt : s.inner.pos < s.inner.data.length := by
    have := List.length_pos_iff.mpr hne; simp at this; omega
  have hp : FromBoxedSlice.produce s.inner = ok (⟨s.inner.data, s.inner.pos + 1⟩, .ok (.inl s.inner.data[s.inner.pos])) := by
    simp [FromBoxedSlice.produce, show s.inner.data.length ≠ s.inner.pos by omega, index_of_lt hlt]
  refine ⟨{ s with inner := ⟨s.inner.data, s.inner.pos + 1⟩ }, s.inner.data[s.inner.pos], ?_,
    ⟨h.1, by simp only; omega, by simp⟩, List.drop_eq_getElem_cons hlt, rfl, rfl⟩
  cases test <;> simp [slice, publicProducer, unusedInvariantBulkProducer, invariantBulkProducer, invariantBufferedProducer,
    invariantProducer, InvariantSt.checkInactive, h.1, FromBoxedSlice.producer, hp]

theorem SliceOk.exposeItems {test : Bool} {s : InvariantSt (FromBoxedSlice I)} {n : Nat} (h : SliceOk test s n)
    (hne : s.inner.data.drop s.inner.pos ≠ []) :
    ∃ s', (slice test).exposeItems s = ok (s', .ok (.inl (s.inner.data.drop s.inner.pos))) ∧ s'.inner = s.inner ∧
      SliceOk test s' (s.inner.data.length - s.inner.pos) := by
  have hp : FromBoxedSlice.exposeItems s.inner = ok (s.inner, .ok (.inl (s.inner.data.drop s.inner.pos))) := by
    rw [FromBoxedSlice.exposeItems, slice_of_le (by have := h.2.1; omega) (Nat.le_refl _), List.take_length]
    simp [hne]
  have h2 := h.2.1
  cases test
  · refine ⟨s, ?_, rfl, h.1, by omega, by simp⟩
    simp [slice, publicProducer, unusedInvariantBulkProducer, FromBoxedSlice.producer, hp]
  · refine ⟨⟨s.inner, true, s.inner.data.length - s.inner.pos⟩, ?_, rfl, rfl, by simp only; omega, by simp⟩
    simp [slice, publicProducer, invariantBulkProducer, InvariantSt.checkInactive, h.1, FromBoxedSlice.producer, hp]

theorem SliceOk.considerProduced {test : Bool} {s : InvariantSt (FromBoxedSlice I)} {n k : Nat} (h : SliceOk test s n)
    (hk : k ≤ n) :
    ∃ s', (slice test).considerProduced s k = ok (s', .ok ()) ∧ s'.inner = ⟨s.inner.data, s.inner.pos + k⟩ ∧
      SliceOk test s' (n - k) := by
  obtain ⟨h1, h2, h3⟩ := h
  cases test
  · exact ⟨{ s with inner := ⟨s.inner.data, s.inner.pos + k⟩ }, by simp [slice, publicProducer,
      unusedInvariantBulkProducer, FromBoxedSlice.producer, FromBoxedSlice.considerProduced], rfl, h1,
      by simp only; omega, by simp⟩
  · have h3 := h3 rfl
    refine ⟨⟨⟨s.inner.data, s.inner.pos + k⟩, true, s.exposedSlots - k⟩, ?_, rfl, rfl, by simp only; omega,
      by intro _; simp only; omega⟩
    simp [slice, publicProducer, invariantBulkProducer, InvariantSt.checkInactive, h1, FromBoxedSlice.producer,
      FromBoxedSlice.considerProduced, sub_of_le (show k ≤ s.exposedSlots by omega), show ¬ s.exposedSlots < k by omega]

/-- The items that are left. -/
def left (s : TestProducer I F E) : List I := s.inner.inner.data.drop s.inner.inner.pos

def Ready (test : Bool) (s : TestProducer I F E) (c : Script I F E) (n : Nat) : Prop :=
  SliceOk test s.inner n ∧ SizesOk s.sizes ∧ YielderLive s.yielder ∧
    ∃ last, s.last = some last ∧ c = Script.ofList s.left last

theorem Ready.mono {test : Bool} {s : TestProducer I F E} {c : Script I F E} {n m : Nat} (h : s.Ready test c n) (hm : m ≤ n) :
    s.Ready test c m := ⟨h.1.mono hm, h.2⟩

theorem Ready.remaining {test : Bool} {s : TestProducer I F E} {c : Script I F E} {n : Nat} (h : s.Ready test c n) :
    s.remaining = ok s.left := h.1.notYetProduced

theorem produce_law {test : Bool} {s : TestProducer I F E} {c : Script I F E} {n : Nat} (h : s.Ready test c n) :
    ∃ s', s.produce test = ok (s', c 0) ∧ (s'.inner.inner.data = s.inner.inner.data) ∧
      ((∃ x, c 0 = .ok (.inl x) ∧ s'.Ready test (c.drop 1) 0) ∨ ((∀ x, c 0 ≠ .ok (.inl x)) ∧ s'.last = none)) := by
  obtain ⟨hs, hz, hy, last, hl, rfl⟩ := h
  obtain ⟨y, hy1, hy2, _⟩ := maybeYield_ok hy
  have hr := hs.notYetProduced
  by_cases he : s.left = []
  · refine ⟨{ s with yielder := y, last := none }, ?_, rfl, .inr ⟨?_, rfl⟩⟩
    · simp only [left] at he
      simp [TestProducer.produce, hy1, TestProducer.remaining, hr, he, hl, unwrap, Script.ofList, left]
    · intro x; cases last <;> simp [he, Script.ofList, Except.map]
  · obtain ⟨s', x, h1, h2, h3, h4, h5⟩ := hs.produce he
    have h3' : s.left = x :: s'.inner.data.drop s'.inner.pos := h3
    refine ⟨{ s with yielder := y, inner := s' }, ?_, h4, .inl ⟨x, by simp [h3', Script.ofList], h2, hz, hy2, last, hl, ?_⟩⟩
    · simp only [left] at he
      simp [TestProducer.produce, hy1, TestProducer.remaining, hr, he, h1, unwrapResult, unwrapLeft, h3', Script.ofList]
    · rw [Script.ofList_drop _ _ _ (by simp [h3']), h3']; rfl

theorem takeError_law {test : Bool} {s : TestProducer I F E} {c : Script I F E} {n : Nat} (h : s.Ready test c n) :
    (s.takeError = ok (s, none) ∧ ∀ e, c 0 ≠ .error e) ∨
    (∃ e, c 0 = .error e ∧ s.left = [] ∧ s.takeError = ok ({ s with last := none }, some e)) := by
  have hr := h.remaining
  obtain ⟨_, _, _, last, hl, rfl⟩ := h
  rcases he : s.left with _ | ⟨x, xs⟩
  · rcases last with e | f
    · exact .inr ⟨e, by simp [Script.ofList, Except.map], rfl, by simp [takeError, hr, he, hl, unwrap]⟩
    · exact .inl ⟨by simp [takeError, hr, he, hl, unwrap], by simp [Script.ofList, Except.map]⟩
  · exact .inl ⟨by simp [takeError, hr, he], by simp [Script.ofList]⟩

theorem slurp_law {test : Bool} {s : TestProducer I F E} {c : Script I F E} {n : Nat} (h : s.Ready test c n) :
    ∃ s', s'.inner = s.inner ∧ ((s.slurp = ok (s', .ok ()) ∧ s'.Ready test c n) ∨
      (∃ e, c 0 = .error e ∧ s.slurp = ok (s', .error e) ∧ s'.last = none)) := by
  obtain ⟨y, hy1, hy2, _⟩ := maybeYield_ok h.2.2.1
  have h' : ({ s with yielder := y } : TestProducer I F E).Ready test c n := ⟨h.1, h.2.1, hy2, h.2.2.2⟩
  obtain ⟨h1, _⟩ | ⟨e, h1, _, h2⟩ := takeError_law h'
  · exact ⟨{ s with yielder := y }, rfl, .inl ⟨by simp [slurp, hy1, h1], h'⟩⟩
  · exact ⟨{ s with yielder := y, last := none }, rfl, .inr ⟨e, h1, by simp [slurp, hy1, h2], rfl⟩⟩

theorem expose_law {test : Bool} {s : TestProducer I F E} {c : Script I F E} {n : Nat} (h : s.Ready test c n) :
    ∃ s', s'.inner.inner = s.inner.inner ∧
      ((∃ xs, xs ≠ [] ∧ c.StartsWith xs ∧ s.exposeItems test = ok (s', .ok (.inl xs)) ∧ s'.Ready test c xs.length) ∨
       (∃ f, c 0 = .ok (.inr f) ∧ s.exposeItems test = ok (s', .ok (.inr f)) ∧ s'.last = none) ∨
       (∃ e, c 0 = .error e ∧ s.exposeItems test = ok (s', .error e) ∧ s'.last = none)) := by
  obtain ⟨hs, hz, hy, last, hl, rfl⟩ := h
  obtain ⟨y, hy1, hy2, _⟩ := maybeYield_ok hy
  have hr := hs.notYetProduced
  by_cases he : s.left = []
  · have he' := he
    simp only [left] at he'
    refine ⟨{ s with yielder := y, last := none }, rfl, .inr ?_⟩
    rcases last with e | f
    · exact .inr ⟨e, by simp [he, Script.ofList, Except.map],
        by simp [TestProducer.exposeItems, hy1, TestProducer.remaining, hr, he', hl, unwrap, Except.map], rfl⟩
    · exact .inl ⟨f, by simp [he, Script.ofList, Except.map],
        by simp [TestProducer.exposeItems, hy1, TestProducer.remaining, hr, he', hl, unwrap, Except.map], rfl⟩
  · obtain ⟨s', h1, h2, h3⟩ := hs.exposeItems he
    have he' := he
    simp only [left] at he'
    have hlen : s.left.length = s.inner.inner.data.length - s.inner.inner.pos := by simp [left]
    have hst : ∀ k, (Script.ofList s.left last).StartsWith (s.left.take k) := by
      intro k i x hx
      refine Script.ofList_startsWith _ _ i x ?_
      rw [List.getElem?_take] at hx
      split at hx
      · exact hx
      · cases hx
    rcases hsz : s.sizes with _ | z
    · refine ⟨{ s with yielder := y, inner := s' }, h2, .inl ⟨s.left, he, Script.ofList_startsWith _ _, ?_,
        by rw [hlen]; exact h3, hz, hy2, last, hl, by simp [left, h2]⟩⟩
      simp [TestProducer.exposeItems, hy1, TestProducer.remaining, hr, he', hsz, h1, unwrapResult, unwrapLeft, left]
    · obtain ⟨hn, hok⟩ := Sizes.next_ok (hz z hsz)
      have hpos : 0 < (z.sizes[z.index]'(hz z hsz) : Nat) := (z.sizes[z.index]'(hz z hsz)).2
      have hl0 : 0 < s.left.length := List.length_pos_iff.mpr he
      refine ⟨{ s with yielder := y, inner := s', sizes := some ⟨z.sizes, (z.index + 1) % z.sizes.length⟩ }, h2,
        .inl ⟨s.left.take (min s.left.length (z.sizes[z.index]'(hz z hsz) : Nat)), ?_, hst _, ?_, ?_, ?_, hy2, last, hl,
          by simp [left, h2]⟩⟩
      · intro h0
        have := congrArg List.length h0
        simp only [List.length_take, List.length_nil] at this
        omega
      · simp only [TestProducer.exposeItems, bind_eq, hy1, bind_ok, TestProducer.remaining, hr, hsz, h1, unwrapResult,
          unwrapLeft, hn]
        rw [slice_of_le (Nat.zero_le _) (Nat.min_le_left _ _)]
        simp [he', left]
      · refine h3.mono ?_
        rw [List.length_take]; omega
      · rintro _ ⟨⟩; exact hok

theorem consider_law {test : Bool} {s : TestProducer I F E} {c : Script I F E} {n k : Nat} (h : s.Ready test c n)
    (h0 : 0 < n) (hk : k ≤ n) :
    ∃ s', s.considerProduced test k = ok (s', .ok ()) ∧ s'.Ready test (c.drop k) (n - k) ∧
      s'.inner.inner.data = s.inner.inner.data := by
  obtain ⟨y, hy1, hy2, _⟩ := maybeYield_ok h.2.2.1
  have h' : ({ s with yielder := y } : TestProducer I F E).Ready test c n := ⟨h.1, h.2.1, hy2, h.2.2.2⟩
  have hlen : n ≤ s.left.length := by have := h.1.2.1; simp [left]; omega
  obtain ⟨h1, _⟩ | ⟨e, h1, h2, _⟩ := takeError_law h'
  · obtain ⟨s', h3, h4, h5⟩ := h.1.considerProduced hk
    obtain ⟨hs, hz, hy, last, hl, rfl⟩ := h
    refine ⟨{ s with yielder := y, inner := s' }, by simp [TestProducer.considerProduced, hy1, h1, h3, unwrapResult],
      ⟨h5, hz, hy2, last, hl, ?_⟩, by simp [h4]⟩
    rw [Script.ofList_drop _ _ _ (by omega)]
    simp [left, h4, List.drop_drop]
  · rw [show s.left = [] from h2] at hlen
    simp at hlen; omega

theorem law (test : Bool) : BulkPlaysLaw (producer test I F E) (Ready test) := by
  refine .of_default rfl ⟨⟨?_⟩, ?_⟩ ?_ ?_
  · rintro s c ⟨n, h⟩
    obtain ⟨s', h1, _, ⟨x, h2, h3⟩ | ⟨h2, h3⟩⟩ := produce_law h
    · exact ⟨s', h1, fun _ _ => ⟨0, h3⟩⟩
    · exact ⟨s', h1, fun x hx => absurd hx (h2 x)⟩
  · rintro s c ⟨n, h⟩
    obtain ⟨s', _, ⟨h1, h2⟩ | ⟨e, h1, h2, h3⟩⟩ := slurp_law h
    · exact ⟨s', .inl ⟨h1, n, h2⟩⟩
    · exact ⟨s', .inr ⟨e, h1, h2⟩⟩
  · rintro s c n h
    obtain ⟨s', _, h1 | ⟨f, h1, h2, _⟩ | ⟨e, h1, h2, _⟩⟩ := expose_law h
    · exact ⟨s', .inl h1⟩
    · exact ⟨s', .inr (.inl ⟨f, h1, h2⟩)⟩
    · exact ⟨s', .inr (.inr ⟨e, h1, h2⟩)⟩
  · rintro s c n k h h0 hk
    obtain ⟨s', h1, h2, _⟩ := consider_law h h0 hk
    exact ⟨s', h1, h2⟩

theorem ready_new (test : Bool) (items : List I) (last : Except E F) (sizes : List NonZero) (pattern : Option (List Bool)) :
    (new items last sizes pattern).Ready test (Script.ofList items last) 0 :=
  ⟨⟨rfl, by simp [new, InvariantSt.new, FromBoxedSlice.new], by simp⟩, sizesOk_new sizes, yielderLive_new pattern, last, rfl,
    by simp [new, left, InvariantSt.new, FromBoxedSlice.new]⟩

end TestProducer

end Verif
