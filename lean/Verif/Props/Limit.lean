import Verif.Lemmas.Maps
import Verif.Props.Slices
import Verif.Cases

/-!
# C20, C21: `Limit`
-/

namespace Verif

open Outcome

section

variable {σ I F E : Type}

/-! ## C20: producers -/

/-- **C20, item-wise.** `Limit` emits the first `n` items, then `None`; an earlier final value `f` becomes `Some(f)`; an
earlier error is unchanged. -/
theorem limit_plays {P : Producer σ I F E} {s : σ} {c : Script I F E} (h : Plays P s c) (n : Nat) :
    Plays (limitProducer P) ⟨s, n⟩ (c.limit n) := by
  obtain ⟨R, hR, hs⟩ := h
  exact ⟨_, hR.limit, c, hs, rfl⟩

example : Plays (limitProducer Case.P.toProducer) ⟨Case.pro (.error "broken"), 2⟩ ((Case.script (.error "broken")).limit 2) :=
  limit_plays (Case.plays _).toPlays 2

/-- **C20, all methods, partial.** The same for every mix of calls, provided the wrapped producer does not have an error
directly after its first `n` items (then `slurp` at the limit may report that error, see `limit_slurp_leaks_error`; for what
holds without this restriction see `limit_histories` and `limit_lawful_histories`). -/
theorem limit_bulk_plays_partial {P : BulkProducer σ I F E} {s : σ} {c : Script I F E} (h : BulkPlays P s c) (n : Nat)
    (hn : ∀ e, c n = .error e → ∃ i, i < n ∧ ∀ x, c i ≠ .ok (.inl x)) :
    BulkPlays (limitBulkProducer P) ⟨s, n⟩ (c.limit n) := by
  obtain ⟨R, hR, k, hk⟩ := h
  exact ⟨_, hR.limit, 0, c, k, [], hk, Nat.zero_le _, Nat.zero_le _, rfl, hn, by simp, rfl⟩

/-- The limit is neither reached when the error occurs, nor directly before. -/
example : BulkPlays (limitBulkProducer Case.P) ⟨Case.pro (.error "broken"), 5⟩ ((Case.script (.error "broken")).limit 5) :=
  limit_bulk_plays_partial (Case.plays _) 5 (fun _ _ => ⟨3, by decide, fun x h => by cases h⟩)

example : BulkPlays (limitBulkProducer Case.P) ⟨Case.pro (.error "broken"), 2⟩ ((Case.script (.error "broken")).limit 2) :=
  limit_bulk_plays_partial (Case.plays _) 2 (fun _ h => by cases h)

/-- A producer whose `slurp` does nothing, otherwise the same. -/
def BulkProducer.noSlurp (P : BulkProducer σ I F E) : BulkProducer σ I F E where
  produce := P.produce
  slurp s := ok (s, .ok ())
  exposeItems := P.exposeItems
  considerProduced := P.considerProduced
  bulkProduce := P.bulkProduce

theorem no_slurp_plays {P : BulkProducer σ I F E} {s : σ} {c : Script I F E} (h : BulkPlays P s c) :
    BulkPlays P.noSlurp s c := by
  obtain ⟨R, hR, hs⟩ := h
  exact ⟨R, ⟨⟨⟨hR.base.produce⟩, fun s c hs => ⟨s, .inl ⟨rfl, hs⟩⟩⟩, hR.expose, hR.consider, hR.bulkProduce⟩, hs⟩

example : BulkPlays Case.P.noSlurp (Case.pro (.error "broken")) (Case.script (.error "broken")) := no_slurp_plays (Case.plays _)

/-- **C20, all methods except `slurp`.** For every mix of `produce`, `expose_items`/`consider_produced` and `bulk_produce`,
without any restriction. -/
theorem limit_bulk_plays_without_slurp {P : BulkProducer σ I F E} {s : σ} {c : Script I F E} (h : BulkPlays P s c) (n : Nat) :
    BulkPlays (limitBulkProducer P).noSlurp ⟨s, n⟩ (c.limit n) := by
  obtain ⟨R, hR, k, hk⟩ := h
  refine ⟨LimitSt.Plays (fun _ _ => True) R, .of_default rfl
    ⟨⟨(hR.limit_produce (fun _ _ _ _ _ _ _ _ => trivial)).produce⟩, fun s c hs => ⟨s, .inl ⟨rfl, hs⟩⟩⟩
    hR.limit_expose (hR.limit_consider (fun _ _ _ _ _ _ _ _ => trivial)),
    0, c, k, [], hk, Nat.zero_le _, Nat.zero_le _, rfl, trivial, by simp, rfl⟩

/-- With an error exactly when the limit is reached. -/
example : BulkPlays (limitBulkProducer Case.P).noSlurp ⟨Case.pro (.error "broken"), 3⟩ ((Case.script (.error "broken")).limit 3) :=
  limit_bulk_plays_without_slurp (Case.plays _) 3

/-- The first two of three items; all of them, with the final value, if the limit is larger. -/
example : BulkPlays (limitBulkProducer (FromSlice.producer Nat)) ⟨FromSlice.new [1, 2, 3], 2⟩
    ((Script.ofList [1, 2, 3] (.ok ())).limit 2) :=
  limit_bulk_plays_partial (from_slice_plays _) 2 (by simp [Script.ofList])

example : (Script.ofList [1, 2, 3] (.ok ()) : Script Nat Unit Empty).limit 2 = Script.ofList [1, 2] (.ok none) := by
  funext i
  match i with
  | 0 => rfl
  | 1 => rfl
  | i + 2 => simp [Script.limit, Script.ofList, Except.map, show ¬ i + 2 < 2 by omega]

example : (Script.ofList [1, 2, 3] (.ok ()) : Script Nat Unit Empty).limit 9 0 = .ok (.inl 1) ∧
    (Script.ofList [1, 2, 3] (.ok ()) : Script Nat Unit Empty).limit 9 3 = .ok (.inr (some ())) := ⟨rfl, rfl⟩

/-- **C20, item-wise, for arbitrary producers (lawful or not).** The items that `Limit` emits are exactly items that the
wrapped producer emits, at most `n` of them. -/
theorem limit_emits {P : Producer σ I F E} {s s' : σ} {n m : Nat} {xs : List I} :
    Emits (limitProducer P) ⟨s, n⟩ xs ⟨s', m⟩ ↔ Emits P s xs s' ∧ xs.length + m = n := by
  constructor
  · intro h
    generalize ha : (⟨s, n⟩ : LimitSt σ) = a at h
    generalize hb : (⟨s', m⟩ : LimitSt σ) = b at h
    induction h generalizing s n with
    | nil => subst hb; cases ha; exact ⟨.nil _, by simp⟩
    | @cons a t₁ _ x xs hp _ ih =>
      subst ha
      cases n with
      | zero => simp [limitProducer] at hp
      | succ n =>
        simp only [limitProducer] at hp
        rcases hq : P.produce s with ⟨s₁, e | y | f⟩ | _ | _ <;> simp [hq] at hp
        obtain ⟨rfl, rfl⟩ := hp
        obtain ⟨h1, h2⟩ := ih rfl hb
        exact ⟨.cons hq h1, by simp; omega⟩
  · rintro ⟨h, rfl⟩
    induction h with
    | nil => simpa using Emits.nil _
    | @cons s s₁ s₂ x xs hp _ ih =>
      refine .cons (s₁ := ⟨s₁, xs.length + m⟩) ?_ ih
      rw [show (x :: xs).length + m = xs.length + m + 1 by simp; omega]
      simp [limitProducer, hp]

/-- How the end of a history of `Limit` is related to that of the wrapped producer: `None` exactly when the limit is reached,
`Some(f)` if the wrapped producer ended with `f` before that, an error if the wrapped producer ended with it. -/
def LimitEnd (n : Nat) (handed : List I) : Option (Except E (Option F)) → Option (Except E F) → Prop
  | none, e => e = none
  | some (.ok none), e => e = none ∧ handed.length = n
  | some (.ok (some f)), e => e = some (.ok f) ∧ handed.length < n
  | some (.error err), e => e = some (.error err)

/-- **C20, all methods, for arbitrary producers that do not expose zero items.** Every history of calls of `Limit` is, for the
wrapped producer, a history of allowed calls that hands out the same items; at most `n` items are ever handed out or exposed.
-/
theorem limit_histories {P : BulkProducer σ I F E} {s : σ}
    (hP : ∀ {handed u shown u'}, ProducerRuns P s handed u shown none → P.exposeItems u ≠ ok (u', .ok (.inl []))) {n : Nat}
    {handed : List I} {t : LimitSt σ} {shown : List I} {ended : Option (Except E (Option F))}
    (h : ProducerRuns (limitBulkProducer P) ⟨s, n⟩ handed t shown ended) :
    ∃ shown' ended', ProducerRuns P s handed t.inner shown' ended' ∧ shown <+: shown' ∧ LimitEnd n handed ended ended' ∧
      handed.length + shown.length ≤ n ∧ (ended = none → handed.length + t.remaining = n ∧ shown.length ≤ t.remaining) := by
  induction h with
  | start => exact ⟨[], none, .start, List.prefix_refl _, rfl, by simp, by simp⟩
  | @call handed t shown op t' r h hop hcall ih =>
    obtain ⟨shown', ended', h1, h2, h3, h4, h5⟩ := ih
    obtain rfl : ended' = none := h3
    obtain ⟨h5, h6⟩ := h5 rfl
    obtain ⟨u, m⟩ := t
    simp only at h1 h5 h6
    cases op with
    | produce =>
      simp only [BulkProducer.call, limitBulkProducer, limitBufferedProducer, limitProducer] at hcall
      cases m with
      | zero =>
        simp at hcall; obtain ⟨rfl, rfl⟩ := hcall
        exact ⟨shown', none, by simpa using h1, by simp, ⟨rfl, by simpa using h5⟩, by simp; omega, by simp⟩
      | succ m =>
        rcases hp : P.produce u with ⟨u', e | x | f⟩ | _ | _ <;> simp [hp] at hcall <;> obtain ⟨rfl, rfl⟩ := hcall
        · exact ⟨[], some (.error e), h1.call (op := .produce) (r := ⟨[], [], some (.error e)⟩) trivial
            (by simp [BulkProducer.call, hp]), by simp, rfl, by simp; omega, by simp⟩
        · exact ⟨[], none, h1.call (op := .produce) (r := ⟨[x], [], none⟩) trivial
            (by simp [BulkProducer.call, hp]), by simp, rfl, by simp; omega, by simp; omega⟩
        · exact ⟨[], some (.ok f), h1.call (op := .produce) (r := ⟨[], [], some (.ok f)⟩) trivial
            (by simp [BulkProducer.call, hp]), by simp, ⟨rfl, by simp; omega⟩, by simp; omega, by simp⟩
    | slurp =>
      simp only [BulkProducer.call, limitBulkProducer, limitBufferedProducer] at hcall
      rcases hp : P.slurp u with ⟨u', e | _⟩ | _ | _ <;> simp [hp] at hcall <;> obtain ⟨rfl, rfl⟩ := hcall
      · exact ⟨[], some (.error e), h1.call (op := .slurp) (r := ⟨[], [], some (.error e)⟩) trivial
          (by simp [BulkProducer.call, hp]), by simp, rfl, by simp; omega, by simp⟩
      · exact ⟨[], none, h1.call (op := .slurp) (r := ⟨[], [], none⟩) trivial
          (by simp [BulkProducer.call, hp]), by simp, rfl, by simp; omega, by simp; omega⟩
    | exposeItems =>
      simp only [BulkProducer.call, limitBulkProducer] at hcall
      split at hcall
      · rename_i h0
        simp at hcall; obtain ⟨rfl, rfl⟩ := hcall
        exact ⟨shown', none, by simpa using h1, by simp, ⟨rfl, by simp; omega⟩, by simp; omega, by simp⟩
      · rename_i h0
        rcases hp : P.exposeItems u with ⟨u', e | xs | f⟩ | _ | _
        · simp [hp] at hcall; obtain ⟨rfl, rfl⟩ := hcall
          exact ⟨[], some (.error e), h1.call (op := .exposeItems) (r := ⟨[], [], some (.error e)⟩) trivial
            (by simp [BulkProducer.call, hp]), by simp, rfl, by simp; omega, by simp⟩
        · simp [hp, slice_of_le (Nat.zero_le _) (Nat.min_le_right m xs.length)] at hcall
          obtain ⟨rfl, rfl⟩ := hcall
          exact ⟨xs, none, h1.call (op := .exposeItems) (r := ⟨[], xs, none⟩) trivial
            (by simp [BulkProducer.call, hp]), List.take_prefix _ _, rfl, by simp; omega, by simp; omega⟩
        · simp [hp] at hcall; obtain ⟨rfl, rfl⟩ := hcall
          exact ⟨[], some (.ok f), h1.call (op := .exposeItems) (r := ⟨[], [], some (.ok f)⟩) trivial
            (by simp [BulkProducer.call, hp]), by simp, ⟨rfl, by simp; omega⟩, by simp; omega, by simp⟩
        · simp [hp] at hcall
        · simp [hp] at hcall
    | considerProduced k =>
      obtain ⟨hne, hk⟩ := hop
      have hle := h2.length_le
      have hne' : shown' ≠ [] := by rintro rfl; exact hne (List.prefix_nil.mp h2)
      have htk : shown'.take k = shown.take k := by
        rw [List.prefix_iff_eq_take.mp h2, List.take_take, Nat.min_eq_left hk]
      simp only [BulkProducer.call, limitBulkProducer, sub_of_le (show k ≤ m by omega)] at hcall
      rcases hp : P.considerProduced u k with ⟨u', e | _⟩ | _ | _ <;> simp [hp] at hcall <;> obtain ⟨rfl, rfl⟩ := hcall
      · exact ⟨[], some (.error e), h1.call (op := .considerProduced k) (r := ⟨[], [], some (.error e)⟩) ⟨hne', by omega⟩
          (by simp [BulkProducer.call, hp]), by simp, rfl, by simp; omega, by simp⟩
      · refine ⟨shown'.drop k, none, ?_, ?_, rfl, by simp; omega, by simp; omega⟩
        · simp only
          rw [← htk]
          exact h1.call (op := .considerProduced k) (r := ⟨shown'.take k, shown'.drop k, none⟩) ⟨hne', by omega⟩
            (by simp [BulkProducer.call, hp])
        · rw [List.prefix_iff_eq_take.mp h2, List.drop_take]; exact List.take_prefix _ _
    | bulkProduce buf =>
      have hb : 0 < buf.length := List.length_pos_iff.mpr hop
      simp only [BulkProducer.call, limitBulkProducer, bulkProduceDefault] at hcall
      by_cases h0 : m = 0
      · simp [h0] at hcall; obtain ⟨rfl, rfl⟩ := hcall
        exact ⟨shown', none, by simpa using h1, by simp, ⟨rfl, by simp; omega⟩, by simp; omega, by simp⟩
      · rcases hp : P.exposeItems u with ⟨u', e | xs | f⟩ | _ | _
        · simp [hp, h0] at hcall; obtain ⟨rfl, rfl⟩ := hcall
          exact ⟨[], some (.error e), h1.call (op := .exposeItems) (r := ⟨[], [], some (.error e)⟩) trivial
            (by simp [BulkProducer.call, hp]), by simp, rfl, by simp; omega, by simp⟩
        · have hx : xs ≠ [] := by rintro rfl; exact hP h1 hp
          have hx' : 0 < xs.length := List.length_pos_iff.mpr hx
          have h1' := h1.call (op := .exposeItems) (r := ⟨[], xs, none⟩) (s' := u') trivial
            (by simp [BulkProducer.call, hp])
          simp only [List.append_nil] at h1'
          simp only [hp, h0, if_false, bind_eq, bind_ok, pure_eq,
            slice_of_le (Nat.zero_le _) (Nat.min_le_right m xs.length), List.drop_zero, List.length_take] at hcall
          generalize hk : min (min (min m xs.length) xs.length) buf.length = k at hcall
          rw [sub_of_le (show k ≤ m by omega)] at hcall
          rcases hc : P.considerProduced u' k with ⟨u'', e | _⟩ | _ | _ <;> simp [hc] at hcall <;>
            obtain ⟨rfl, rfl⟩ := hcall
          · exact ⟨[], some (.error e), h1'.call (op := .considerProduced k) (r := ⟨[], [], some (.error e)⟩) ⟨hx, by omega⟩
              (by simp [BulkProducer.call, hc]), by simp, rfl, by simp; omega, by simp⟩
          · refine ⟨xs.drop k, none, ?_, by simp, rfl, by simp; omega, by simp; omega⟩
            have : xs.take k = List.take k (List.take k (xs.take (min m xs.length)) ++ buf.drop k) := by
              rw [List.take_append_of_le_length (by simp; omega), List.take_take, List.take_take]
              congr 1; omega
            simp only at this ⊢
            rw [← this]
            exact h1'.call (op := .considerProduced k) (r := ⟨xs.take k, xs.drop k, none⟩) ⟨hx, by omega⟩
              (by simp [BulkProducer.call, hc])
        · simp [hp, h0] at hcall; obtain ⟨rfl, rfl⟩ := hcall
          exact ⟨[], some (.ok f), h1.call (op := .exposeItems) (r := ⟨[], [], some (.ok f)⟩) trivial
            (by simp [BulkProducer.call, hp]), by simp, ⟨rfl, by simp; omega⟩, by simp; omega, by simp⟩
        · simp [hp, h0] at hcall
        · simp [hp, h0] at hcall

example : ∃ t, ProducerRuns (limitBulkProducer (FromSlice.producer Nat)) ⟨FromSlice.new [1, 2, 3], 2⟩ [1] t [2] none ∧
    ∃ shown' ended', ProducerRuns (FromSlice.producer Nat) (FromSlice.new [1, 2, 3]) [1] t.inner shown' ended' ∧ [2] <+: shown' ∧
      LimitEnd 2 [1] none ended' ∧ [1].length + [2].length ≤ 2 ∧
      ((none : Option (Except Empty (Option Unit))) = none → [1].length + t.remaining = 2 ∧ [2].length ≤ t.remaining) := by
  have h0 := ProducerRuns.start (P := limitBulkProducer (FromSlice.producer Nat)) (s₀ := ⟨FromSlice.new [1, 2, 3], 2⟩)
  have h1 := h0.call (op := .exposeItems) (r := ⟨[], [1, 2], none⟩) trivial rfl
  have h2 := h1.call (op := .considerProduced 1) (r := ⟨[1], [2], none⟩) ⟨by decide, by decide⟩ rfl
  refine ⟨_, h2, limit_histories (fun {_ u _ _} _ h => ?_) h2⟩
  have h : u.exposeItems = _ := h
  simp only [FromSlice.exposeItems, bind_eq, bind_eq_ok] at h
  obtain ⟨xs, _, h⟩ := h
  split at h <;> simp_all

/-- **C20, all methods, for every lawful producer.** Every history of `Limit` hands out the first items of the wrapped
producer, at most `n`, and ends like the limited sequence; the only exception is that after `n` items an error of the wrapped
producer can be reported (by `slurp`) instead of the final value `None`. -/
theorem limit_lawful_histories {P : BulkProducer σ I F E} {s : σ} {c : Script I F E} (hP : BulkPlays P s c) {n : Nat}
    {handed : List I} {t : LimitSt σ} {shown : List I} {ended : Option (Except E (Option F))}
    (h : ProducerRuns (limitBulkProducer P) ⟨s, n⟩ handed t shown ended) :
    (c.limit n).StartsWith handed ∧ handed.length ≤ n ∧
      (ended = none → (c.limit n).StartsWith (handed ++ shown)) ∧
      ∀ r, ended = some r → (c.limit n) handed.length = r.map .inr ∨
        ∃ e, r = .error e ∧ handed.length = n ∧ c n = .error e := by
  obtain ⟨R, hR, k, hk⟩ := hP
  have hne : ∀ {handed u shown u'}, ProducerRuns P s handed u shown none → P.exposeItems u ≠ ok (u', .ok (.inl [])) := by
    intro handed u shown u' hrun hexp
    obtain ⟨_, h2, _⟩ := hrun.after hR hk
    obtain ⟨_, ⟨m, hm⟩, _⟩ := h2 rfl
    obtain ⟨s', ⟨xs, h3, _, h4, _⟩ | ⟨f, _, h4⟩ | ⟨e, _, h4⟩⟩ := hR.expose _ _ _ hm <;> rw [hexp] at h4 <;>
      simp at h4
    exact h3 h4.2
  obtain ⟨shown', ended', h1, h2, h3, h4, h5⟩ := limit_histories hne h
  obtain ⟨h6, h7, h8⟩ := h1.after hR hk
  have hlen : handed.length ≤ n := by omega
  refine ⟨h6.limit hlen, hlen, fun hn => ?_, fun r hr => ?_⟩
  · subst hn
    obtain rfl : ended' = none := h3
    have := (h7 rfl).1.take shown.length
    rw [← List.prefix_iff_eq_take.mp h2] at this
    exact (h6.append this).limit (by simpa using h4)
  · subst hr
    match r with
    | .ok none => exact .inl (by simp [Script.limit, h3.2, Except.map])
    | .ok (some f) =>
      obtain ⟨rfl, hlt⟩ := h3
      exact .inl (by simp [Script.limit, hlt, h8 _ rfl, Except.map])
    | .error e =>
      subst h3
      by_cases hlt : handed.length < n
      · exact .inl (by simp [Script.limit, hlt, h8 _ rfl, Except.map])
      · obtain rfl : handed.length = n := by omega
        exact .inr ⟨e, rfl, rfl, by simp [h8 _ rfl, Except.map]⟩

example : ∃ t, ProducerRuns (limitBulkProducer Case.P) ⟨Case.pro (.error "broken"), 2⟩ [1] t [2] none ∧
    ((Case.script (.error "broken")).limit 2).StartsWith [1] := by
  have h0 := ProducerRuns.start (P := limitBulkProducer Case.P) (s₀ := ⟨Case.pro (.error "broken"), 2⟩)
  have h1 := h0.call (op := .exposeItems) (r := ⟨[], [1, 2], none⟩) trivial rfl
  have h2 := h1.call (op := .considerProduced 1) (r := ⟨[1], [2], none⟩) ⟨by decide, by decide⟩ rfl
  exact ⟨_, h2, (limit_lawful_histories (Case.plays _) h2).1⟩

/-- A producer that only reports errors. -/
def failingProducer (I F : Type) {E : Type} (e : E) : BulkProducer Unit I F E where
  produce s := ok (s, .error e)
  slurp s := ok (s, .error e)
  exposeItems s := ok (s, .error e)
  considerProduced s _ := ok (s, .error e)

theorem failing_producer_plays (e : E) : BulkPlays (failingProducer I F e) () (fun _ => .error e) :=
  ⟨fun _ c n => c = (fun _ => .error e) ∧ n = 0, .of_default rfl
    ⟨⟨by rintro _ _ ⟨_, rfl, _⟩; exact ⟨(), rfl, by simp⟩⟩,
      by rintro _ _ ⟨_, rfl, _⟩; exact ⟨(), .inr ⟨e, rfl, rfl⟩⟩⟩
    (by rintro _ _ _ ⟨rfl, _⟩; exact ⟨(), .inr (.inr ⟨e, rfl, rfl⟩)⟩)
    (by rintro _ _ _ _ ⟨_, rfl⟩ h; exact absurd h (Nat.lt_irrefl 0)), 0, rfl, rfl⟩

/-- **C20, the full claim is false.** `slurp` is forwarded even if the limit is reached, so an error of the wrapped producer
is reported although the sequence of `Limit` is over (limit 0, every error type). -/
theorem limit_slurp_leaks_error (e : E) :
    BulkPlays (failingProducer I F e) () (fun _ => .error e) ∧
    (limitBulkProducer (failingProducer I F e)).produce ⟨(), 0⟩ = ok (⟨(), 0⟩, .ok (.inr none)) ∧
    (limitBulkProducer (failingProducer I F e)).slurp ⟨(), 0⟩ = ok (⟨(), 0⟩, .error e) ∧
    ¬ BulkPlays (limitBulkProducer (failingProducer I F e)) ⟨(), 0⟩ (Script.limit (fun _ => .error e) 0) := by
  refine ⟨failing_producer_plays e, rfl, rfl, ?_⟩
  rintro ⟨R, hR, n, hn⟩
  obtain ⟨s', ⟨h1, _⟩ | ⟨e', h1, _⟩⟩ := hR.base.slurp _ _ ⟨n, hn⟩
  · have h2 : (limitBulkProducer (failingProducer I F e)).slurp ⟨(), 0⟩ = ok (⟨(), 0⟩, .error e) := rfl
    rw [h2] at h1
    simp at h1
  · simp [Script.limit] at h1

/-- A history with limit 2 of a producer of three items: expose (two items), consider one produced, produce the other, end. -/
example : ProducerRuns (limitBulkProducer (FromSlice.producer Nat)) ⟨FromSlice.new [1, 2, 3], 2⟩ [1, 2]
    ⟨⟨[1, 2, 3], 2⟩, 0⟩ [] (some (.ok none)) := by
  have h0 := ProducerRuns.start (P := limitBulkProducer (FromSlice.producer Nat)) (s₀ := ⟨FromSlice.new [1, 2, 3], 2⟩)
  have h1 := h0.call (op := .exposeItems) (s' := ⟨⟨[1, 2, 3], 0⟩, 2⟩) (r := ⟨[], [1, 2], none⟩) trivial rfl
  have h2 := h1.call (op := .considerProduced 1) (s' := ⟨⟨[1, 2, 3], 1⟩, 1⟩) (r := ⟨[1], [2], none⟩)
    ⟨by decide, by decide⟩ rfl
  have h3 := h2.call (op := .produce) (s' := ⟨⟨[1, 2, 3], 2⟩, 0⟩) (r := ⟨[2], [], none⟩) trivial rfl
  exact h3.call (op := .bulkProduce [0]) (s' := ⟨⟨[1, 2, 3], 2⟩, 0⟩) (r := ⟨[], [], some (.ok none)⟩)
    (by simp [ProducerOp.Allowed]) rfl

/-! ## C21: consumers -/

/-- **C21.** `Limit` around a lawful consumer that has consumed `l` so far accepts what the consumer accepts until `n` further
items have been consumed, then refuses every item with `None`; errors `e` of the consumer become `Some(e)`; `close` and
`flush` are unaffected by the limit; under every mix of calls. -/
theorem limit_collects {C : BulkConsumer σ I F E} {D : σ → List I → Option F → Prop} {q : Policy I F E} {s : σ} {l : List I}
    (h : BulkCollects C D q s l) (n : Nat) :
    BulkCollects (limitBulkConsumer C) (fun t => D t.inner) (q.limit (l.length + n)) ⟨s, n⟩ l := by
  obtain ⟨R, hR, slots, hs⟩ := h
  exact ⟨_, hR.limit (l.length + n), [], rfl, slots, hs, by simp, by simp⟩

example : BulkCollects (limitBulkConsumer Case.C) (fun t => TestConsumer.Seen t.inner) ((Case.policy 4).limit 2) ⟨Case.con 4, 2⟩ [] :=
  limit_collects (Case.collects 4) 2

/-- **C21**, for consumers that delay their effects. -/
theorem limit_delays {C : BulkConsumer σ I F E} {D : σ → List I → Option F → Prop} {s : σ} {l : List I}
    (h : BulkDelays C D s l) (n : Nat) : BulkDelays (limitBulkConsumer C) (fun t => D t.inner) ⟨s, n⟩ l := by
  obtain ⟨R, hR, slots, hs⟩ := h
  exact ⟨_, BulkDelaysLaw.limit hR (l.length + n), [], rfl, slots, hs, by simp, by simp⟩

example : BulkDelays (limitBulkConsumer Case.B) (fun t => Case.SeenInside t.inner) ⟨Case.del 4, 2⟩ [] := limit_delays (Case.delays 4) 2

example : BulkCollects (limitBulkConsumer (IntoVec.consumer Nat)) (fun t l _ => t.inner.asRef = ok l ∧ t.inner.intoVec = l)
    ((Policy.acceptAll : Policy Nat Unit Empty).limit 3) ⟨IntoVec.fromVec [7], 2⟩ [7] :=
  limit_collects (into_vec_collects [7]) 2

example : ((Policy.acceptAll : Policy Nat Unit Empty).limit 3).answer [7, 8] 9 = none ∧
    ((Policy.acceptAll : Policy Nat Unit Empty).limit 3).answer [7, 8, 9] 9 = some none ∧
    ((Policy.acceptAll : Policy Nat Unit Empty).limit 3).refuseClose [7, 8, 9] () = none := ⟨rfl, rfl, rfl⟩

/-- **C21, item-wise, for arbitrary consumers.** `Limit` consumes a list exactly if the wrapped consumer does and it is not
longer than the limit. -/
theorem limit_consumes {C : Consumer σ I F E} {s s' : σ} {n m : Nat} {xs : List I} :
    Consumes (limitConsumer C) ⟨s, n⟩ xs ⟨s', m⟩ ↔ Consumes C s xs s' ∧ xs.length + m = n := by
  constructor
  · intro h
    generalize ha : (⟨s, n⟩ : LimitSt σ) = a at h
    generalize hb : (⟨s', m⟩ : LimitSt σ) = b at h
    induction h generalizing s n with
    | nil => subst hb; cases ha; exact ⟨.nil _, by simp⟩
    | @cons a t₁ _ x xs hp _ ih =>
      subst ha
      cases n with
      | zero => simp [limitConsumer] at hp
      | succ n =>
        simp only [limitConsumer] at hp
        rcases hq : C.consume s x with ⟨s₁, e | _⟩ | _ | _ <;> simp [hq, Except.mapError] at hp
        subst hp
        obtain ⟨h1, h2⟩ := ih rfl hb
        exact ⟨.cons hq h1, by simp; omega⟩
  · rintro ⟨h, rfl⟩
    induction h with
    | nil => simpa using Consumes.nil _
    | @cons s s₁ s₂ x xs hp _ ih =>
      refine .cons (s₁ := ⟨s₁, xs.length + m⟩) ?_ ih
      rw [show (x :: xs).length + m = xs.length + m + 1 by simp; omega]
      simp [limitConsumer, hp, Except.mapError]

/-- **C21, at the limit.** Once nothing remains, every attempt to consume, expose slots or bulk-consume is answered with
`None`, and the wrapped consumer is not touched. -/
theorem limit_reached {C : BulkConsumer σ I F E} (s : σ) :
    (∀ x, (limitBulkConsumer C).consume ⟨s, 0⟩ x = ok (⟨s, 0⟩, .error none)) ∧
    (limitBulkConsumer C).exposeSlots ⟨s, 0⟩ = ok (⟨s, 0⟩, .error none) ∧
    ∀ buf, (limitBulkConsumer C).bulkConsume ⟨s, 0⟩ buf = ok (⟨s, 0⟩, .error none) := ⟨fun _ => rfl, rfl, fun _ => rfl⟩

/-- What a history of `Limit` and that of the wrapped consumer have in common at the end. -/
def LimitConsumerEnd : Option (ConsumerEnd I F (Option E)) → Option (ConsumerEnd I F E) → Prop
  | none, e => e = none
  | some (.closed f), e => e = some (.closed f)
  | some (.failed none _), e => e = none
  | some (.failed (some err) xs), e => ∃ ys, ys <+: xs ∧ e = some (.failed err ys)
  | some (.closeFailed none _), _ => False
  | some (.closeFailed (some err) f), e => e = some (.closeFailed err f)
  | some (.flushFailed none), _ => False
  | some (.flushFailed (some err)), e => e = some (.flushFailed err)

/-- **C21, all methods, for arbitrary consumers that do not expose zero slots.** Every history of calls of `Limit` is, for the
wrapped consumer, a history of allowed calls that consumes the same items; never more than `n` items are consumed or slots
exposed; the error `None` occurs only after exactly `n` items, and then the wrapped consumer has not ended. -/
theorem limit_consumer_histories {C : BulkConsumer σ I F E} {s : σ}
    (hC : ∀ {taken u slots u'}, ConsumerRuns C s taken u slots none → C.exposeSlots u ≠ ok (u', .ok [])) {n : Nat}
    {taken : List I} {t : LimitSt σ} {slots : List I} {ended : Option (ConsumerEnd I F (Option E))}
    (h : ConsumerRuns (limitBulkConsumer C) ⟨s, n⟩ taken t slots ended) :
    ∃ slots' ended', ConsumerRuns C s taken t.inner slots' ended' ∧ slots <+: slots' ∧ LimitConsumerEnd ended ended' ∧
      taken.length + slots.length ≤ n ∧ (ended = none → taken.length + t.remaining = n ∧ slots.length ≤ t.remaining) ∧
      (∀ xs, ended = some (.failed none xs) → taken.length = n) := by
  induction h with
  | start => exact ⟨[], none, .start, List.prefix_refl _, rfl, by simp, by simp, by simp⟩
  | @call taken t slots op t' r h hop hcall ih =>
    obtain ⟨slots', ended', h1, h2, h3, h4, h5, -⟩ := ih
    obtain rfl : ended' = none := h3
    obtain ⟨h5, h6⟩ := h5 rfl
    obtain ⟨u, m⟩ := t
    simp only at h1 h5 h6
    have hle := h2.length_le
    cases op with
    | consume x =>
      simp only [BulkConsumer.call, limitBulkConsumer, limitBufferedConsumer, limitConsumer] at hcall
      cases m with
      | zero =>
        simp at hcall; obtain ⟨rfl, rfl⟩ := hcall
        exact ⟨slots', none, by simpa using h1, by simp, rfl, by simp; omega, by simp, by simp; omega⟩
      | succ m =>
        rcases hp : C.consume u x with ⟨u', e | _⟩ | _ | _ <;> simp [hp, Except.mapError] at hcall <;>
          obtain ⟨rfl, rfl⟩ := hcall
        · exact ⟨[], some (.failed e [x]), h1.call (op := .consume x) (r := ⟨[], [], some (.failed e [x])⟩) trivial
            (by simp [BulkConsumer.call, hp]), by simp, ⟨[x], List.prefix_refl _, rfl⟩, by simp; omega, by simp, by simp⟩
        · exact ⟨[], none, h1.call (op := .consume x) (r := ⟨[x], [], none⟩) trivial
            (by simp [BulkConsumer.call, hp]), by simp, rfl, by simp; omega, by simp; omega, by simp⟩
    | flush =>
      simp only [BulkConsumer.call, limitBulkConsumer, limitBufferedConsumer] at hcall
      rcases hp : C.flush u with ⟨u', e | _⟩ | _ | _ <;> simp [hp, Except.mapError] at hcall <;> obtain ⟨rfl, rfl⟩ := hcall
      · exact ⟨[], some (.flushFailed e), h1.call (op := .flush) (r := ⟨[], [], some (.flushFailed e)⟩) trivial
          (by simp [BulkConsumer.call, hp]), by simp, rfl, by simp; omega, by simp, by simp⟩
      · exact ⟨[], none, h1.call (op := .flush) (r := ⟨[], [], none⟩) trivial
          (by simp [BulkConsumer.call, hp]), by simp, rfl, by simp; omega, by simp; omega, by simp⟩
    | close f =>
      simp only [BulkConsumer.call, limitBulkConsumer, limitBufferedConsumer, limitConsumer] at hcall
      rcases hp : C.close u f with ⟨u', e | _⟩ | _ | _ <;> simp [hp, Except.mapError] at hcall <;> obtain ⟨rfl, rfl⟩ := hcall
      · exact ⟨[], some (.closeFailed e f), h1.call (op := .close f) (r := ⟨[], [], some (.closeFailed e f)⟩) trivial
          (by simp [BulkConsumer.call, hp]), by simp, rfl, by simp; omega, by simp, by simp⟩
      · exact ⟨[], some (.closed f), h1.call (op := .close f) (r := ⟨[], [], some (.closed f)⟩) trivial
          (by simp [BulkConsumer.call, hp]), by simp, rfl, by simp; omega, by simp, by simp⟩
    | exposeSlots =>
      simp only [BulkConsumer.call, limitBulkConsumer] at hcall
      split at hcall
      · rename_i h0
        simp at hcall; obtain ⟨rfl, rfl⟩ := hcall
        exact ⟨slots', none, by simpa using h1, by simp, rfl, by simp; omega, by simp, by simp; omega⟩
      · rename_i h0
        rcases hp : C.exposeSlots u with ⟨u', e | xs⟩ | _ | _
        · simp [hp] at hcall; obtain ⟨rfl, rfl⟩ := hcall
          exact ⟨[], some (.failed e []), h1.call (op := .exposeSlots) (r := ⟨[], [], some (.failed e [])⟩) trivial
            (by simp [BulkConsumer.call, hp]), by simp, ⟨[], List.prefix_refl _, rfl⟩, by simp; omega, by simp, by simp⟩
        · simp [hp, slice_of_le (Nat.zero_le _) (Nat.min_le_right m xs.length)] at hcall
          obtain ⟨rfl, rfl⟩ := hcall
          exact ⟨xs, none, h1.call (op := .exposeSlots) (r := ⟨[], xs, none⟩) trivial
            (by simp [BulkConsumer.call, hp]), List.take_prefix _ _, rfl, by simp; omega, by simp; omega, by simp⟩
        · simp [hp] at hcall
        · simp [hp] at hcall
    | write ws =>
      simp only [ConsumerOp.Allowed] at hop
      simp [BulkConsumer.call, limitBulkConsumer] at hcall
      obtain ⟨rfl, rfl⟩ := hcall
      refine ⟨ws ++ slots'.drop ws.length, none, h1.call (op := .write ws) (r := ⟨[], ws ++ slots'.drop ws.length, none⟩)
        (by simp only [ConsumerOp.Allowed]; omega) rfl, ?_, rfl, by simp; omega, by simp; omega, by simp⟩
      rw [List.prefix_append_right_inj, List.prefix_iff_eq_take.mp h2, List.drop_take]
      exact List.take_prefix _ _
    | consumeSlots k =>
      obtain ⟨hne, hk⟩ := hop
      have hne' : slots' ≠ [] := by rintro rfl; exact hne (List.prefix_nil.mp h2)
      have htk : slots'.take k = slots.take k := by
        rw [List.prefix_iff_eq_take.mp h2, List.take_take, Nat.min_eq_left hk]
      simp only [BulkConsumer.call, limitBulkConsumer, sub_of_le (show k ≤ m by omega)] at hcall
      rcases hp : C.consumeSlots u k with ⟨u', e | _⟩ | _ | _ <;> simp [hp, Except.mapError] at hcall <;>
        obtain ⟨rfl, rfl⟩ := hcall
      · exact ⟨[], some (.failed e (slots'.take k)), h1.call (op := .consumeSlots k)
          (r := ⟨[], [], some (.failed e (slots'.take k))⟩) ⟨hne', by omega⟩
          (by simp [BulkConsumer.call, hp]), by simp, ⟨_, by rw [htk]; exact List.prefix_refl _, rfl⟩, by simp; omega,
          by simp, by simp⟩
      · refine ⟨slots'.drop k, none, ?_, ?_, rfl, by simp; omega, by simp; omega, by simp⟩
        · simp only
          rw [← htk]
          exact h1.call (op := .consumeSlots k) (r := ⟨slots'.take k, slots'.drop k, none⟩) ⟨hne', by omega⟩
            (by simp [BulkConsumer.call, hp])
        · rw [List.prefix_iff_eq_take.mp h2, List.drop_take]; exact List.take_prefix _ _
    | bulkConsume buf =>
      have hb : 0 < buf.length := List.length_pos_iff.mpr hop
      simp only [BulkConsumer.call, limitBulkConsumer, bulkConsumeDefault] at hcall
      by_cases h0 : m = 0
      · simp [h0] at hcall; obtain ⟨rfl, rfl⟩ := hcall
        exact ⟨slots', none, by simpa using h1, by simp, rfl, by simp; omega, by simp, by simp; omega⟩
      · rcases hp : C.exposeSlots u with ⟨u', e | xs⟩ | _ | _
        · simp [hp, h0] at hcall; obtain ⟨rfl, rfl⟩ := hcall
          exact ⟨[], some (.failed e []), h1.call (op := .exposeSlots) (r := ⟨[], [], some (.failed e [])⟩) trivial
            (by simp [BulkConsumer.call, hp]), by simp, ⟨[], List.nil_prefix, rfl⟩, by simp; omega, by simp, by simp⟩
        · have hx : xs ≠ [] := by rintro rfl; exact hC h1 hp
          have hx' : 0 < xs.length := List.length_pos_iff.mpr hx
          have h1' := h1.call (op := .exposeSlots) (r := ⟨[], xs, none⟩) (s' := u') trivial
            (by simp [BulkConsumer.call, hp])
          simp only [hp, h0, if_false, bind_eq, bind_ok, pure_eq,
            slice_of_le (Nat.zero_le _) (Nat.min_le_right m xs.length), List.drop_zero, List.length_take] at hcall
          generalize hk : min (min (min m xs.length) xs.length) buf.length = k at hcall
          have hbl : (buf.take k).length = k := by simp; omega
          have h2' := h1'.call (op := .write (buf.take k)) (r := ⟨[], buf.take k ++ xs.drop (buf.take k).length, none⟩)
            (s' := C.writeSlots u' (buf.take k)) (by simp only [ConsumerOp.Allowed, hbl]; omega) rfl
          simp only [List.append_nil] at h2'
          have hne : buf.take k ++ xs.drop (buf.take k).length ≠ [] := by
            intro h0
            have := congrArg List.length h0
            rw [List.length_append, hbl, List.length_nil] at this; omega
          have htk : (buf.take k ++ xs.drop (buf.take k).length).take k = buf.take k := List.take_left' hbl
          rw [sub_of_le (show k ≤ m by omega)] at hcall
          rcases hc : C.consumeSlots (C.writeSlots u' (buf.take k)) k with ⟨u'', e | _⟩ | _ | _ <;>
            simp [hc, Except.mapError] at hcall <;> obtain ⟨rfl, rfl⟩ := hcall
          · refine ⟨[], some (.failed e (buf.take k)), ?_, by simp, ⟨_, List.take_prefix _ _, rfl⟩, by simp; omega,
              by simp, by simp⟩
            exact h2'.call (op := .consumeSlots k) (r := ⟨[], [], some (.failed e (buf.take k))⟩)
              ⟨hne, by simp; omega⟩ (by simp only [BulkConsumer.call, hc, bind_ok, htk])
          · refine ⟨(buf.take k ++ xs.drop (buf.take k).length).drop k, none, ?_, by simp, rfl, ?_, ?_, by simp⟩
            rotate_left
            · simp only [List.length_append, hbl, List.length_nil]; omega
            · simp only [List.length_append, hbl, List.length_nil]; omega
            exact h2'.call (op := .consumeSlots k)
              (r := ⟨buf.take k, (buf.take k ++ xs.drop (buf.take k).length).drop k, none⟩)
              ⟨hne, by simp; omega⟩ (by simp only [BulkConsumer.call, hc, bind_ok, htk])
        · simp [hp, h0] at hcall
        · simp [hp, h0] at hcall

/-- A history of an `IntoVec` limited to two items: bulk-consume one item, expose slots (one), be refused. -/
example : ConsumerRuns (limitBulkConsumer (IntoVec.consumer Nat)) ⟨IntoVec.new, 2⟩ [5, 6] ⟨⟨[5, 6, 0], 2⟩, 0⟩ []
    (some (.failed none [8])) := by
  have h0 := ConsumerRuns.start (C := limitBulkConsumer (IntoVec.consumer Nat)) (s₀ := ⟨IntoVec.new, 2⟩)
  have h1 := h0.call (op := .bulkConsume [5]) (s' := ⟨⟨[5], 1⟩, 1⟩) (r := ⟨[5], [], none⟩)
    (by simp [ConsumerOp.Allowed]) rfl
  have h2 := h1.call (op := .exposeSlots) (s' := ⟨⟨[5, 0, 0], 1⟩, 1⟩) (r := ⟨[], [0], none⟩) trivial rfl
  have h3 := h2.call (op := .write [6]) (s' := ⟨⟨[5, 6, 0], 1⟩, 1⟩) (r := ⟨[], [6], none⟩)
    (by simp [ConsumerOp.Allowed]) rfl
  have h4 := h3.call (op := .consumeSlots 1) (s' := ⟨⟨[5, 6, 0], 2⟩, 0⟩) (r := ⟨[6], [], none⟩)
    ⟨by decide, by decide⟩ rfl
  exact h4.call (op := .consume 8) (s' := ⟨⟨[5, 6, 0], 2⟩, 0⟩) (r := ⟨[], [], some (.failed none [8])⟩) trivial rfl

end

end Verif
