import Verif.TimingSpec
import Verif.Lemmas.Timing
import Verif.Props.NetworkExact
import Verif.Props.MergeTree
import Verif.Props.AsyncCountMore

/-!
# C97: the timing of networks
-/

namespace Verif

open Outcome

variable {σ τ I F J G E E₂ : Type}

/-! ## The timeline of a network -/

/-- **C97.** What a network emits, and how often it is pending before each answer, is a function of what its leaves emit and how often
they are pending. -/
theorem Async.network_timed {P : Async.Producer σ I F E} {s : σ} {t : Timeline E I F} {times : List Nat}
    (h : Async.TimedNetwork P s t times) : Async.Timed P s t := by
  induction h with
  | leaf h => exact h
  | stack L _ ih => exact ih.stack L
  | merge _ _ ih₁ ih₂ => exact Async.Merge.timed _ rfl (Async.timedFrom_new.mpr ih₁) (Async.timedFrom_new.mpr ih₂)

namespace Case

/-- 1 after two polls that leave the future pending, 2 after none, 3 after one, and then the final value after none. -/
def slowly : Timeline String Nat Unit := .item 2 1 (.item 0 2 (.item 1 3 (.last 0 (.ok ()))))

/-- 7 after one poll that leaves the future pending, 8 after two, and then the final value after three. -/
def steadily : Timeline String Nat Unit := .item 1 7 (.item 2 8 (.last 3 (.ok ())))

theorem slowly_merge : slowly.merge steadily =
    .item 1 7 (.item 0 1 (.item 0 2 (.item 1 3 (.item 1 8 (.last 3 (.ok ())))))) := by
  simp [slowly, steadily, Timeline.merge.eq_def, Timeline.wait, Timeline.after]

theorem merge_network : Async.TimedNetwork (Async.Merge.producer (Async.timedProducer String Nat Unit) (Async.timedProducer String Nat Unit))
    (.new _ _ slowly steadily) (slowly.merge steadily) [3, 6] :=
  .merge (.leaf (Async.timedProducer_timed slowly)) (.leaf (Async.timedProducer_timed steadily))

end Case

/-- 7 is emitted first, since 1 is not available before the third poll; 1 and 2 follow within one poll. -/
example : Async.Timed (Async.Merge.producer (Async.timedProducer String Nat Unit) (Async.timedProducer String Nat Unit))
    (.new _ _ Case.slowly Case.steadily) (.item 1 7 (.item 0 1 (.item 0 2 (.item 1 3 (.item 1 8 (.last 3 (.ok ()))))))) :=
  Case.slowly_merge ▸ Async.network_timed Case.merge_network

/-- A `TestProducer` that yields before each answer, and one that never does, merged in this order: between two items of the first one
there is one of the second one as long as there are any. -/
example : Async.Timed (Async.Merge.producer (Async.TestProducer.producer true Nat Unit String).toProducer
      (Async.timedProducer String Nat Unit)) (.new _ _ Async.Case.yielding (.item 0 1 (.item 0 2 (.item 0 3 (.last 0 (.ok ()))))))
    (.item 0 1 (.item 0 4 (.item 0 2 (.item 0 5 (.item 0 3 (.last 0 (.ok ()))))))) := by
  have h : Async.Timed (Async.TestProducer.producer true Nat Unit String).toProducer Async.Case.yielding
      (.item 1 4 (.item 1 5 (.last 1 (.ok ())))) :=
    .item (.pending rfl (.ready rfl)) (.item (.pending rfl (.ready rfl)) (.last (.pending rfl (.ready rfl))))
  have h' := Async.network_timed (.merge (.leaf h) (.leaf (Async.timedProducer_timed
    (.item 0 1 (.item 0 2 (.item 0 3 (.last 0 (.ok ()))))))))
  simpa [Timeline.merge.eq_def, Timeline.wait, Timeline.after] using h'

/-- A `Limit` of 2 on top. -/
example : Async.Timed (Async.limitProducer (Async.Merge.producer (Async.timedProducer String Nat Unit) (Async.timedProducer String Nat Unit)))
    ⟨.new _ _ Case.slowly Case.steadily, 2⟩ (.item 1 7 (.item 0 1 (.last 0 (.ok none)))) := by
  have h := Async.network_timed (.stack (.limit .nil 2) Case.merge_network)
  rw [SourceLayers.timeline, SourceLayers.timeline, Case.slowly_merge] at h
  exact h

/-! ## What networks can emit, `Limit` below merges included -/

/-- Every network of a given shape follows a timeline that some timing of its leaves leads to. -/
theorem Shape.Built.times {N : Shape E I F} {P : Async.Producer σ I F E} {s : σ} (h : N.Built P s) : ∃ t, N.Times t ∧ Async.Timed P s t := by
  induction h with
  | leaf h1 h2 =>
    obtain ⟨t, h3, rfl, rfl⟩ := Async.Timed.of_plays h1 h2
    exact ⟨t, .leaf t, h3⟩
  | stack L _ ih =>
    obtain ⟨t, h1, h2⟩ := ih
    exact ⟨_, .stack L h1, h2.stack L⟩
  | merge _ _ ih₁ ih₂ =>
    obtain ⟨t₁, h1, h2⟩ := ih₁
    obtain ⟨t₂, h3, h4⟩ := ih₂
    exact ⟨_, .merge h1 h3, Async.Merge.timed _ rfl (Async.timedFrom_new.mpr h2) (Async.timedFrom_new.mpr h4)⟩

/-- Every such timeline is followed by some network of the shape. -/
theorem Shape.Times.built {N : Shape E I F} {t : Timeline E I F} (h : N.Times t) :
    ∃ (σ : Type) (P : Async.Producer σ I F E) (s : σ), N.Built P s ∧ Async.Timed P s t := by
  induction h with
  | leaf t =>
    have h := Async.timedProducer_timed t
    exact ⟨_, _, _, .leaf h.plays (Script.is_ofList _ _), h⟩
  | stack L _ ih =>
    obtain ⟨σ, P, s, h1, h2⟩ := ih
    exact ⟨_, _, _, .stack L h1, h2.stack L⟩
  | merge _ _ ih₁ ih₂ =>
    obtain ⟨_, P₁, s₁, h1, h2⟩ := ih₁
    obtain ⟨_, P₂, s₂, h3, h4⟩ := ih₂
    exact ⟨_, _, _, .merge h1 h3, Async.Merge.timed _ rfl (Async.timedFrom_new.mpr h2) (Async.timedFrom_new.mpr h4)⟩

/-- **C97, exactness.** A network can emit exactly what some timing of its leaves leads to. There is no restriction on the network (as
opposed to C93). -/
theorem network_exact_timed (N : Shape E I F) (xs : List I) (r : Except E F) :
    N.CanEmit xs r ↔ ∃ t, N.Times t ∧ t.items = xs ∧ t.result = r := by
  constructor
  · rintro ⟨σ, P, s, c, h1, h2, h3⟩
    obtain ⟨t, h4, h5⟩ := h1.times
    obtain ⟨rfl, rfl⟩ := h2.is_unique h5.plays h3 (Script.is_ofList _ _)
    exact ⟨t, h4, rfl, rfl⟩
  · rintro ⟨t, h, rfl, rfl⟩
    obtain ⟨σ, P, s, h1, h2⟩ := h.built
    exact ⟨σ, P, s, _, h1, h2.plays, Script.is_ofList _ _⟩

/-- `Limit`s below a merge: 7, which is beyond the limit of the second leaf, cannot be emitted; that the second `Limit` ends last is
possible. -/
example : (Shape.merge (.stack (.limit .nil 1) (.leaf [1, 2] (.ok ()))) (.stack (.limit .nil 1) (.leaf (E := String) [6, 7] (.ok ())))).CanEmit
    [6, 1] (.ok none) := by
  refine (network_exact_timed _ _ _).mpr ⟨_, .merge (.stack _ (.leaf (.item 1 1 (.item 0 2 (.last 0 (.ok ()))))))
    (.stack _ (.leaf (.item 0 6 (.item 0 7 (.last 0 (.ok ())))))), ?_, ?_⟩ <;>
  simp [SourceLayers.timeline, Timeline.limit, Timeline.merge.eq_def, Timeline.wait, Timeline.after, Timeline.items, Timeline.result]

/-- The negative result of C93 on `Limit`s is a consequence. -/
example : ¬ (Shape.merge (.stack (.limit .nil 0) (.leaf (E := Empty) (I := Nat) [] (.ok ())))
    (.stack (.mapFinal .nil some) (.leaf [] (.ok ())))).CanEmit [] (.ok none) := by
  rw [network_exact_timed]
  rintro ⟨_, h, -, h2⟩
  cases h with
  | merge h h' =>
    cases h with
    | stack _ h =>
      cases h' with
      | @stack _ _ _ _ _ t' _ h' =>
        generalize hN : (Shape.leaf [] (.ok ()) : Shape Empty Nat Unit) = N at h'
        cases h' with
        | leaf t' =>
          injection hN with _ _ hx hr
          cases t' with
          | item => cases hx
          | last d r =>
            simp only [Timeline.result] at hr
            subst hr
            simp [SourceLayers.timeline, Timeline.limit, Timeline.mapFinal, Timeline.merge.eq_def, Timeline.wait, Timeline.result,
              Except.map] at h2
        | stack => cases hN
        | merge => cases hN

/-! ## The first producer of a merge has priority -/

private theorem prompt_merge {t₁ t₂ : Timeline E I F} (h : t₁.Prompt) :
    (∀ f, t₁.result = .ok f → (t₁.merge t₂).items = t₁.items ++ t₂.items ∧ (t₁.merge t₂).result = t₂.result ∧
      (t₁.merge t₂).time = t₂.time) ∧
    (∀ e, t₁.result = .error e → (t₁.merge t₂).items = t₁.items ∧ (t₁.merge t₂).result = .error e ∧ (t₁.merge t₂).Prompt) := by
  induction t₁ with
  | last d r =>
    obtain rfl : d = 0 := h
    cases r <;> rw [Timeline.merge.eq_def] <;>
      simp [Timeline.wait, Timeline.items, Timeline.result, Timeline.Prompt, Timeline.time]
  | item d x t ih =>
    have h' : d + t.time = 0 := h
    obtain rfl : d = 0 := by omega
    have ih := ih (show t.time = 0 by omega)
    have hm : (Timeline.item 0 x t).merge t₂ = .item 0 x (t.merge t₂) := by
      rw [Timeline.merge.eq_def]; simp [Timeline.wait, Timeline.after_zero]
    rw [hm]
    refine ⟨fun f hf => ?_, fun e he => ?_⟩
    · obtain ⟨h1, h2, h3⟩ := ih.1 f hf
      exact ⟨by simp [Timeline.items, h1], h2, by simp [Timeline.time, h3]⟩
    · obtain ⟨h1, h2, h3⟩ := ih.2 e he
      exact ⟨by simp [Timeline.items, h1], h2, by simpa [Timeline.Prompt, Timeline.time] using h3⟩

/-- **C97, priority.** If the first producer is never pending, then a merge emits all of its items before any of the second one: it is
a concatenation. -/
theorem Async.merge_prompt_first {σ₁ σ₂ : Type} {P₁ : Async.Producer σ₁ I F E} {P₂ : Async.Producer σ₂ I F E} {s₁ : σ₁} {s₂ : σ₂}
    {t₁ t₂ : Timeline E I F} (h₁ : Async.Timed P₁ s₁ t₁) (h₂ : Async.Timed P₂ s₂ t₂) (hp : t₁.Prompt) :
    ∃ t, Async.Timed (Async.Merge.producer P₁ P₂) (.new P₁ P₂ s₁ s₂) t ∧
      (∀ f, t₁.result = .ok f → t.items = t₁.items ++ t₂.items ∧ t.result = t₂.result ∧ t.time = t₂.time) ∧
      (∀ e, t₁.result = .error e → t.items = t₁.items ∧ t.result = .error e ∧ t.Prompt) :=
  ⟨_, Async.network_timed (.merge (.leaf h₁) (.leaf h₂)), prompt_merge hp⟩

/-- The second producer is always ready, too, but has to wait. -/
example : ∃ t, Async.Timed (Async.Merge.producer (Async.timedProducer String Nat Unit) (Async.timedProducer String Nat Unit))
    (.new _ _ (.item 0 1 (.item 0 2 (.last 0 (.ok ())))) (.item 0 7 (.last 0 (.ok ())))) t ∧ t.items = [1, 2, 7] := by
  obtain ⟨t, h1, h2, -⟩ := Async.merge_prompt_first (Async.timedProducer_timed (.item 0 1 (.item 0 2 (.last 0 (.ok ())))))
    (Async.timedProducer_timed (E := String) (F := Unit) (.item 0 7 (.last 0 (.ok ())))) rfl
  exact ⟨t, h1, (h2 () rfl).1⟩

/-- The items `ys` of a producer that is never pending, in between those of the timeline: as many of them before each answer as the
producer with the timeline is pending. A final value is followed by the rest of them, an error is not. -/
def Timeline.weave : Timeline E I F → List I → List I
  | .last d (.error _), ys => ys.take d
  | .last _ (.ok _), ys => ys
  | .item d x t, ys => ys.take d ++ x :: t.weave (ys.drop d)

private theorem Timeline.weave_cons (t : Timeline E I F) (y : I) (ys : List I) (h : 0 < t.wait) :
    t.weave (y :: ys) = y :: (t.after 1).weave ys := by
  cases t with
  | last d r =>
    obtain ⟨d, rfl⟩ : ∃ d', d = d' + 1 := ⟨d - 1, by simp only [Timeline.wait] at h; omega⟩
    cases r <;> simp [Timeline.weave, Timeline.after]
  | item d x t =>
    obtain ⟨d, rfl⟩ : ∃ d', d = d' + 1 := ⟨d - 1, by simp only [Timeline.wait] at h; omega⟩
    simp [Timeline.weave, Timeline.after]

private theorem Timeline.weave_nil (t : Timeline E I F) : t.weave [] = t.items := by
  induction t with
  | last d r => cases r <;> simp [Timeline.weave, Timeline.items]
  | item d x t ih => simp [Timeline.weave, Timeline.items, ih]

private theorem merge_prompt {t₁ t₂ : Timeline E I F} (h : t₂.Prompt) {g : F} (hg : t₂.result = .ok g) :
    (t₁.merge t₂).items = t₁.weave t₂.items := by
  generalize hk : t₁.items.length + t₂.items.length = k
  induction k generalizing t₁ t₂ with
  | zero => ?_
  | succ k ih => ?_
  all_goals
    have hw : t₂.wait = 0 := Nat.le_zero.mp (h ▸ t₂.wait_le_time)
    rw [Timeline.merge.eq_def, hw]
    split
    · rename_i hd
      split
      · rename_i d x t
        obtain rfl : d = 0 := Nat.le_zero.mp hd
        first
          | (simp only [Timeline.items, List.length_cons] at hk; omega)
          | (rw [Timeline.after_zero, Timeline.items, ih h hg (by simp only [Timeline.items, List.length_cons] at hk; omega)]
             simp [Timeline.weave])
      · rename_i d e
        obtain rfl : d = 0 := Nat.le_zero.mp hd
        simp [Timeline.weave, Timeline.items]
      · rfl
    · rename_i hd
      split
      · rename_i d x t
        have h' : d + t.time = 0 := h
        obtain rfl : d = 0 := by omega
        first
          | (simp only [Timeline.items, List.length_cons] at hk; omega)
          | (rw [Timeline.items, ih (show t.time = 0 by omega) hg
               (by simp only [Timeline.items, Timeline.items_after, List.length_cons] at hk ⊢; omega),
               Timeline.items, Timeline.weave_cons _ _ _ (by omega)])
      · cases hg
      · rw [Timeline.items_after, Timeline.items, Timeline.weave_nil]

/-- **C97, taking turns.** If the second producer is never pending, then before each answer of the first one a merge emits as many items of
the second one as the first one is pending. -/
theorem Async.merge_prompt_second {σ₁ σ₂ : Type} {P₁ : Async.Producer σ₁ I F E} {P₂ : Async.Producer σ₂ I F E} {s₁ : σ₁} {s₂ : σ₂}
    {t₁ t₂ : Timeline E I F} (h₁ : Async.Timed P₁ s₁ t₁) (h₂ : Async.Timed P₂ s₂ t₂) (hp : t₂.Prompt) {g : F} (hg : t₂.result = .ok g) :
    ∃ t, Async.Timed (Async.Merge.producer P₁ P₂) (.new P₁ P₂ s₁ s₂) t ∧ t.items = t₁.weave t₂.items :=
  ⟨_, Async.network_timed (.merge (.leaf h₁) (.leaf h₂)), merge_prompt hp hg⟩

/-- The first producer is pending twice before 1, and once before 3. -/
example : ∃ t, Async.Timed (Async.Merge.producer (Async.timedProducer String Nat Unit) (Async.timedProducer String Nat Unit))
    (.new _ _ Case.slowly (.item 0 7 (.item 0 8 (.item 0 9 (.item 0 10 (.last 0 (.ok ()))))))) t ∧ t.items = [7, 8, 1, 2, 9, 3, 10] :=
  Async.merge_prompt_second (Async.timedProducer_timed Case.slowly)
    (Async.timedProducer_timed (.item 0 7 (.item 0 8 (.item 0 9 (.item 0 10 (.last 0 (.ok ()))))))) rfl rfl

/-! ## Waiting happens at the same time -/

theorem Timeline.time_merge {t₁ t₂ : Timeline E I F} {m : Nat} (h₁ : t₁.time ≤ m) (h₂ : t₂.time ≤ m) : (t₁.merge t₂).time ≤ m := by
  generalize hk : t₁.items.length + t₂.items.length = k
  induction k generalizing t₁ t₂ m with
  | zero => ?_
  | succ k ih => ?_
  all_goals
    rw [Timeline.merge.eq_def]
    split
    · rename_i hd
      split
      · rename_i d x t
        first
          | (simp only [Timeline.items, List.length_cons] at hk; omega)
          | (simp only [Timeline.time, Timeline.wait] at h₁ hd ⊢
             have h3 := ih (t₁ := t) (t₂ := t₂.after d) (m := m - d) (by omega) (by rw [Timeline.time_after hd]; omega)
               (by simp only [Timeline.items, Timeline.items_after, List.length_cons] at *; omega)
             omega)
      · exact h₁
      · exact h₂
    · rename_i hd
      split
      · rename_i d x t
        first
          | (simp only [Timeline.items, List.length_cons] at hk; omega)
          | (have hd : d < t₁.wait := Nat.lt_of_not_le hd
             simp only [Timeline.time] at h₂ ⊢
             have h3 := ih (t₁ := t₁.after (d + 1)) (t₂ := t) (m := m - d) (by rw [Timeline.time_after (by omega)]; omega) (by omega)
               (by simp only [Timeline.items, Timeline.items_after, List.length_cons] at *; omega)
             omega)
      · exact h₂
      · have := Timeline.wait_le_time t₁
        rw [Timeline.time_after (by omega)]
        omega

theorem Timeline.time_limit (n : Nat) (t : Timeline E I F) : (t.limit n).time ≤ t.time := by
  induction n generalizing t with
  | zero => exact Nat.zero_le _
  | succ n ih =>
    cases t with
    | last => exact Nat.le_refl _
    | item d x t => simpa [Timeline.limit, Timeline.time] using ih t

theorem SourceLayers.time (L : SourceLayers I F J G) (t : Timeline E I F) : (L.timeline t).time ≤ t.time := by
  have hI : ∀ {I J F φ : Type} (f : φ → I → φ × J) (t : Timeline E I F) a, (t.mapItem f a).time = t.time := by
    intro I J F φ f t
    induction t with
    | last => exact fun _ => rfl
    | item d x t ih => exact fun a => by simp [Timeline.mapItem, Timeline.time, ih]
  have hF : ∀ {I F G : Type} (g : F → G) (t : Timeline E I F), (t.mapFinal g).time = t.time := by
    intro I F G g t
    induction t with
    | last => rfl
    | item d x t ih => simp [Timeline.mapFinal, Timeline.time, ih]
  induction L with
  | nil => exact Nat.le_refl _
  | limit L n ih => exact Nat.le_trans (Timeline.time_limit n _) ih
  | mapItem L f a ih => exact Nat.le_trans (Nat.le_of_eq (hI f _ a)) ih
  | mapFinal L g ih => exact Nat.le_trans (Nat.le_of_eq (hF g _)) ih
  | invariant L ih => exact ih

/-- **C97, time.** A network is pending at most as often as the leaf that is pending most often: while one leaf is pending, the others
go on. -/
theorem Async.network_time {P : Async.Producer σ I F E} {s : σ} {t : Timeline E I F} {times : List Nat}
    (h : Async.TimedNetwork P s t times) {m : Nat} (hm : ∀ n ∈ times, n ≤ m) : t.time ≤ m := by
  induction h with
  | leaf => exact hm _ (by simp)
  | stack L _ ih => exact Nat.le_trans (L.time _) (ih hm)
  | merge _ _ ih₁ ih₂ =>
    exact Timeline.time_merge (ih₁ fun n hn => hm n (List.mem_append_left _ hn)) (ih₂ fun n hn => hm n (List.mem_append_right _ hn))

example : (Case.slowly.merge Case.steadily).time ≤ 6 := Async.network_time Case.merge_network (by decide)

/-! ## Piping -/

namespace Async

variable {P : Producer σ I F E} {s : σ} {t : Timeline E I F} {C : Consumer τ I F E₂} {D : τ → List I → Option F → Prop}
  {q : Policy I F E₂} {u : τ} {l : List I}

private theorem Consumer.Prompt.consumed (hp : C.Prompt) {u' : τ} {x : I} {r : Except E₂ Unit} (h : C.seq.consume u x = ok (u', r)) :
    Fut.Ends (C.consume u x).poll (C.consume u x).start 0 (u', r) := by
  obtain ⟨n, h1⟩ := Fut.run_ok_ends (f := C.consume u x) h
  rwa [hp.consume _ _ _ _ h1] at h1

private theorem Consumer.Prompt.closed (hp : C.Prompt) {u' : τ} {f : F} {r : Except E₂ Unit} (h : C.seq.close u f = ok (u', r)) :
    Fut.Ends (C.close u f).poll (C.close u f).start 0 (u', r) := by
  obtain ⟨n, h1⟩ := Fut.run_ok_ends (f := C.close u f) h
  rwa [hp.close _ _ _ _ h1] at h1

/-- **C97, piping.** Piping a network into a consumer that is never pending and accepts everything is pending exactly as often as the
network; the consumer gets exactly the items of the timeline. -/
theorem pipe_timed {times : List Nat} (h : TimedNetwork P s t times) (hC : Collects C.seq D q u l) (hp : C.Prompt)
    (hq : ∀ l x, q.answer l x = none) (hq' : ∀ l f, q.refuseClose l f = none) :
    ∃ s' u' res, Fut.Ends (pipe P C s u).poll (pipe P C s u).start t.time ((s', u'), res) ∧
      (∀ f, t.result = .ok f → res = .ok () ∧ D u' (l ++ t.items) (some f)) ∧
      (∀ e, t.result = .error e → res = .error (.producer e) ∧ D u' (l ++ t.items) none) := by
  replace h := network_timed h
  induction h generalizing u l with
  | @last s s' n r h =>
    rcases r with e | f
    · refine ⟨s', u, .error (.producer e), ?_, nofun, fun e' he => ?_⟩
      · refine Fut.Ends.loop_done ?_
        exact Fut.Ends.bind_pure h rfl
      · cases he
        exact ⟨rfl, by simpa [Timeline.items] using hC.observe⟩
    · obtain ⟨u', h1, h2⟩ := hC.close_ok f (hq' _ _)
      refine ⟨s', u', .ok (), ?_, fun f' hf => ?_, nofun⟩
      · refine Fut.Ends.loop_done ?_
        exact Fut.Ends.andThen (m := 0) h (Fut.Ends.bind_pure (hp.closed h1) rfl)
      · cases hf
        exact ⟨rfl, by simpa [Timeline.items] using h2⟩
  | @item s s' n x t h _ ih =>
    obtain ⟨u₁, h1, h2⟩ := hC.consume_ok x (hq _ _)
    obtain ⟨s'', u', res, h3, h4, h5⟩ := ih h2
    refine ⟨s'', u', res, ?_, ?_, ?_⟩
    · refine Fut.Ends.loop_continue (n := n) (s' := (s', u₁)) ?_ h3
      exact Fut.Ends.andThen (m := 0) h (Fut.Ends.bind_pure (hp.consumed h1) rfl)
    · simpa [Timeline.items, Timeline.result] using h4
    · simpa [Timeline.items, Timeline.result] using h5

/-- **C97, piping takes no longer than the slowest leaf.** Whether or not the consumer refuses items, piping is pending at most as often
as the leaf that is pending most often. -/
theorem pipe_time {times : List Nat} (h : TimedNetwork P s t times) (hC : Collects C.seq D q u l) (hp : C.Prompt) {m : Nat}
    (hm : ∀ n ∈ times, n ≤ m) : ∃ n a, n ≤ m ∧ Fut.Ends (pipe P C s u).poll (pipe P C s u).start n a := by
  suffices hs : ∃ n a, n ≤ t.time ∧ Fut.Ends (pipe P C s u).poll (pipe P C s u).start n a by
    obtain ⟨n, a, h1, h2⟩ := hs
    exact ⟨n, a, Nat.le_trans h1 (network_time h hm), h2⟩
  replace h := network_timed h
  induction h generalizing u l with
  | @last s s' n r h =>
    rcases r with e | f
    · exact ⟨n, ((s', u), .error (.producer e)), Nat.le_refl _, Fut.Ends.loop_done (Fut.Ends.bind_pure h rfl)⟩
    · rcases hf : q.refuseClose l f with _ | e
      · obtain ⟨u', h1, -⟩ := hC.close_ok f hf
        exact ⟨n, ((s', u'), .ok ()), Nat.le_refl _,
          Fut.Ends.loop_done (Fut.Ends.andThen (m := 0) h (Fut.Ends.bind_pure (hp.closed h1) rfl))⟩
      · obtain ⟨u', h1, -⟩ := hC.close_err f hf
        exact ⟨n, ((s', u'), .error (.consumer e)), Nat.le_refl _,
          Fut.Ends.loop_done (Fut.Ends.andThen (m := 0) h (Fut.Ends.bind_pure (hp.closed h1) rfl))⟩
  | @item s s' n x t h _ ih =>
    rcases hx : q.answer l x with _ | e
    · obtain ⟨u₁, h1, h2⟩ := hC.consume_ok x hx
      obtain ⟨k, a, h3, h4⟩ := ih h2
      exact ⟨n + k, a, Nat.add_le_add_left h3 n, Fut.Ends.loop_continue (n := n) (s' := (s', u₁))
        (Fut.Ends.andThen (m := 0) h (Fut.Ends.bind_pure (hp.consumed h1) rfl)) h4⟩
    · obtain ⟨u', h1, -⟩ := hC.consume_err x hx
      exact ⟨n, ((s', u'), .error (.consumer e)), Nat.le_add_right _ _,
        Fut.Ends.loop_done (Fut.Ends.andThen (m := 0) h (Fut.Ends.bind_pure (hp.consumed h1) rfl))⟩

theorem Case.vector_prompt : Case.vector.Prompt where
  consume s x := Fut.Always.lift (o := Verif.Case.V.consume s x) (Q := fun n _ => n = 0) fun _ _ => rfl
  close s f := Fut.Always.lift (o := Verif.Case.V.close s f) (Q := fun n _ => n = 0) fun _ _ => rfl

/-- The two producers are pending 3 and 6 times; the pipe is pending 6 times. -/
example : ∃ s' u', Fut.Ends (pipe (Merge.producer (timedProducer String Nat Unit) (timedProducer String Nat Unit)) Case.vector
      (.new _ _ Verif.Case.slowly Verif.Case.steadily) (IntoVec.fromVec [9])).poll (pipe _ _ _ _).start 6 ((s', u'), .ok ()) ∧
    Verif.Case.Contents u' [9, 7, 1, 2, 3, 8] (some ()) := by
  obtain ⟨s', u', res, h1, h2, -⟩ := pipe_timed Verif.Case.merge_network (Case.vector_collects [9]) Case.vector_prompt
    (fun _ _ => rfl) (fun _ _ => rfl)
  rw [Verif.Case.slowly_merge] at h1 h2
  obtain ⟨rfl, h3⟩ := h2 () rfl
  exact ⟨s', u', h1, h3⟩

example : ∃ n a, n ≤ 6 ∧ Fut.Ends (pipe (Merge.producer (timedProducer String Nat Unit) (timedProducer String Nat Unit)) Case.vector
      (.new _ _ Verif.Case.slowly Verif.Case.steadily) (IntoVec.fromVec [9])).poll (pipe _ _ _ _).start n a :=
  pipe_time Verif.Case.merge_network (Case.vector_collects [9]) Case.vector_prompt (by decide)

end Async

end Verif
