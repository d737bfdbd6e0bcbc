import Verif.Lemmas.Stream
import Verif.Props.Network
import Verif.Props.PipeAtMost

/-!
# C95: networks on top of endless producers
-/

namespace Verif.Async

open Outcome

variable {σ τ I F E E₂ : Type}

/-- **C95.** A network on top of producers that may be endless answers every call of `produce`. At any time it has emitted what the
adaptors and merges make of beginnings of the sequences of its leaves, and it ends only if a `Limit` has been reached or the
producers it depends on have ended. -/
theorem stream_network_plays {P : Producer σ I F E} {s : σ} {B : List I → Prop} {S : List I → Except E F → Prop}
    (h : StreamNetwork P s B S) : ∃ c, Plays P.seq s c ∧ (∀ xs, c.StartsWith xs → B xs) ∧ ∀ xs r, c.Is xs r → S xs r := by
  induction h with
  | leaf h => exact ⟨_, h, fun _ => id, fun _ _ => id⟩
  | stack L _ ih =>
    obtain ⟨c, h1, h2, h3⟩ := ih
    refine ⟨L.script c, ?_, fun ys hy => ?_, fun ys r hy => ?_⟩
    · rw [source_stack_seq]
      exact source_stack_plays h1 L
    · obtain ⟨xs, h4, rfl⟩ := L.startsWith_script hy
      exact ⟨xs, h2 _ h4, rfl⟩
    · rcases L.is_script hy with ⟨xs, r, h4, rfl, rfl⟩ | ⟨xs, h4, rfl, h5⟩
      · exact .inl ⟨xs, r, h3 _ _ h4, rfl, rfl⟩
      · exact .inr ⟨xs, h2 _ h4, rfl, h5⟩
  | merge _ _ ih₁ ih₂ =>
    obtain ⟨c₁, h1, h2, h3⟩ := ih₁
    obtain ⟨c₂, h4, h5, h6⟩ := ih₂
    obtain ⟨c, h7, h8⟩ := merge_polled_plays h1 h4
    refine ⟨c, h7, fun zs hz => ?_, fun zs r hz => ?_⟩
    · obtain ⟨l₁, l₂, h9, h10, h11, -⟩ := MergeTrace.parts h8 hz
      exact ⟨l₁, l₂, h2 _ h9, h5 _ h10, h11⟩
    · obtain ⟨l₁, l₂, h9, h10, h11, hf, he⟩ := MergeTrace.parts h8 hz.1
      refine ⟨l₁, l₂, h11, ?_⟩
      cases r with
      | ok f =>
        obtain ⟨f₁, f₂, h12, h13, h14⟩ := hf f hz.2
        exact .inl ⟨f₁, f₂, f, h3 _ _ ⟨h9, h12⟩, h6 _ _ ⟨h10, h13⟩, h14, rfl⟩
      | error e =>
        rcases he e hz.2 with h12 | h12
        · exact .inr (.inl ⟨e, h3 _ (.error e) ⟨h9, h12⟩, h5 _ h10, rfl⟩)
        · exact .inr (.inr ⟨e, h2 _ h9, h6 _ (.error e) ⟨h10, h12⟩, rfl⟩)

/-- An endless producer as one that is polled. -/
theorem Case.endless_stream (n : Nat) : StreamNetwork (BulkProducer.ofSeq Verif.Case.endless).toProducer n
    (Verif.Case.endlessScript n).StartsWith (Verif.Case.endlessScript n).Is := by
  refine .leaf ?_
  have h := (Verif.Case.endless_plays n).toPlays
  rw [← BulkProducer.ofSeq_seq Verif.Case.endless] at h
  exact h

/-- An endless sequence does not end. -/
theorem Case.endless_not_is {n : Nat} {xs : List Nat} {r : Except String Unit} : ¬ (Verif.Case.endlessScript n).Is xs r := by
  intro h
  have := h.2
  cases r <;> cases this

/-- A merge of two endless producers never ends. -/
example : ∃ c, Plays (Merge.producer (BulkProducer.ofSeq Verif.Case.endless).toProducer
      (BulkProducer.ofSeq Verif.Case.endless).toProducer).seq (.new _ _ 7 3) c ∧
    (∀ zs, c.StartsWith zs → ∃ xs ys, (Verif.Case.endlessScript 7).StartsWith xs ∧ (Verif.Case.endlessScript 3).StartsWith ys ∧
      Interleaving xs ys zs) ∧ ∀ zs r, ¬ c.Is zs r := by
  obtain ⟨c, h1, h2, h3⟩ := stream_network_plays (.merge (Case.endless_stream 7) (Case.endless_stream 3))
  refine ⟨c, h1, h2, fun zs r h => ?_⟩
  obtain ⟨_, _, _, ⟨_, _, _, h, _⟩ | ⟨_, h, _⟩ | ⟨_, _, h, _⟩⟩ := h3 zs r h <;> exact Case.endless_not_is h

/-- **C95, limits.** A `Limit` makes every network finite: it emits the first `n` items of a sequence that the network may have emitted
and then `None`, or all items of the network and then `Some` of its final value, or its error. -/
theorem limited_stream_ends {P : Producer σ I F E} {s : σ} {B : List I → Prop} {S : List I → Except E F → Prop}
    (h : StreamNetwork P s B S) (n : Nat) :
    ∃ c zs r, Plays ((SourceLayers.limit .nil n).applyAsync P).seq ((SourceLayers.limit .nil n).wrap s) c ∧ c.Is zs r ∧
      ((zs.length = n ∧ B zs ∧ r = .ok none) ∨ (zs.length < n ∧ ∃ r', S zs r' ∧ r = r'.map some)) := by
  obtain ⟨c, h1, h2, h3⟩ := stream_network_plays h
  have hseq : Plays ((SourceLayers.limit .nil n).applyAsync P).seq ((SourceLayers.limit .nil n).wrap s)
      ((SourceLayers.limit .nil n).script c) := by
    rw [source_stack_seq]
    exact source_stack_plays h1 _
  obtain ⟨zs, hz, h4⟩ : ∃ zs, c.StartsWith zs ∧ (zs.length = n ∨ zs.length < n ∧ ∀ x, c zs.length ≠ .ok (.inl x)) := by
    clear h hseq h1 h2 h3
    induction n with
    | zero => exact ⟨[], by simp, .inl rfl⟩
    | succ n ih =>
      obtain ⟨zs, hz, rfl | ⟨h4, h5⟩⟩ := ih
      · by_cases hx : ∃ x, c zs.length = .ok (.inl x)
        · obtain ⟨x, hx⟩ := hx
          exact ⟨zs ++ [x], hz.snoc hx, .inl (by simp)⟩
        · exact ⟨zs, hz, .inr ⟨by omega, fun x h => hx ⟨x, h⟩⟩⟩
      · exact ⟨zs, hz, .inr ⟨by omega, h5⟩⟩
  have hs : ((SourceLayers.limit .nil n).script c).StartsWith zs := by
    intro i x hi
    have : i < zs.length := (List.getElem?_eq_some_iff.mp hi).1
    have hn : i < n := by omega
    simp [SourceLayers.script, Script.limit, hn, hz i x hi]
  rcases h4 with rfl | ⟨h4, h5⟩
  · exact ⟨_, zs, .ok none, hseq, ⟨hs, by simp [SourceLayers.script, Script.limit, Except.map]⟩, .inl ⟨rfl, h2 _ hz, rfl⟩⟩
  · obtain ⟨r', hr⟩ : ∃ r' : Except E F, c zs.length = r'.map .inr := by
      rcases hc : c zs.length with e | x | f
      · exact ⟨.error e, rfl⟩
      · exact absurd hc (h5 x)
      · exact ⟨.ok f, rfl⟩
    refine ⟨_, zs, r'.map some, hseq, ⟨hs, ?_⟩, .inr ⟨h4, r', h3 _ _ ⟨hz, hr⟩, rfl⟩⟩
    simp only [SourceLayers.script, Script.limit, h4, if_true, hr]
    cases r' <;> rfl

/-- The first four items of a merge of two endless producers, one of which is doubled. -/
example : ∃ c zs xs ys, Plays ((SourceLayers.limit .nil 4).applyAsync (Merge.producer (BulkProducer.ofSeq Verif.Case.endless).toProducer
      ((SourceLayers.mapItem .nil (fun (_ : Unit) x => ((), 2 * x)) ()).applyAsync (BulkProducer.ofSeq Verif.Case.endless).toProducer))).seq
      ((SourceLayers.limit .nil 4).wrap (.new _ _ 7 ((SourceLayers.mapItem .nil (fun (_ : Unit) x => ((), 2 * x)) ()).wrap 3))) c ∧
    c.Is zs (.ok none) ∧ zs.length = 4 ∧ (Verif.Case.endlessScript 7).StartsWith xs ∧ (Verif.Case.endlessScript 3).StartsWith ys ∧
    Interleaving xs (results (fun (_ : Unit) x => ((), 2 * x)) () ys) zs := by
  obtain ⟨c, zs, r, h1, h2, h3⟩ := limited_stream_ends (.merge (Case.endless_stream 7)
    (.stack (SourceLayers.mapItem .nil (fun (_ : Unit) x => ((), 2 * x)) ()) (Case.endless_stream 3))) 4
  rcases h3 with ⟨h4, ⟨xs, _, h5, ⟨ys, h6, rfl⟩, h7⟩, rfl⟩ | ⟨_, r', ⟨xs, ys, _, h4⟩, rfl⟩
  · exact ⟨c, zs, xs, ys, h1, h2, h4, h5, h6, h7⟩
  · exfalso
    rcases h4 with ⟨_, _, _, h, _⟩ | ⟨_, h, _⟩ | ⟨_, _, h, _⟩
    · exact Case.endless_not_is h
    · exact Case.endless_not_is h
    · rcases h with ⟨_, _, h, _⟩ | ⟨_, _, _, h⟩
      · exact Case.endless_not_is h
      · cases h

/-- **C95, bounded pipes.** Piping at most `count` items from such a network into a consumer that accepts everything returns: with
`count` items that the network may have emitted, or with fewer if the network ends after them. -/
theorem pipe_at_most_from_stream {P : Producer σ I F E} {s : σ} {B : List I → Prop} {S : List I → Except E F → Prop}
    (h : StreamNetwork P s B S) {C : Consumer τ I F E₂} {D : τ → List I → Option F → Prop} {q : Policy I F E₂} {t : τ} {l : List I}
    (hC : Collects C.seq D q t l) (hq : ∀ l x, q.answer l x = none) (hq' : ∀ l f, q.refuseClose l f = none) (count : Nat) :
    ∃ s' t' zs fin res, (pipeAtMost P C s t count).run = ok ((s', t'), res) ∧ D t' (l ++ zs) fin ∧
      ((zs.length = count ∧ B zs ∧ fin = none ∧ res = .ok count) ∨
       (zs.length < count ∧ ∃ f, S zs (.ok f) ∧ fin = some f ∧ res = .ok zs.length) ∨
       (zs.length < count ∧ ∃ e, S zs (.error e) ∧ fin = none ∧ res = .error (.producer e))) := by
  obtain ⟨c, h1, h2, h3⟩ := stream_network_plays h
  obtain ⟨zs, fin, res, h4⟩ := AtMostResult.exists c q l count
  obtain ⟨s', t', h5, h6, -⟩ := pipe_at_most_spec h1 hC h4
  refine ⟨s', t', zs, fin, res, (pipeAtMost_run _ _ _ _ _).trans h5, h6, ?_⟩
  cases h4 with
  | full hl h7 h8 => exact .inl ⟨hl, h2 _ h7, rfl, rfl⟩
  | closed hlt h =>
    cases h with
    | closed h7 _ hc _ => exact .inr (.inl ⟨hlt, _, h3 _ (.ok _) ⟨h7, hc⟩, rfl, rfl⟩)
  | failed hlt h =>
    cases h with
    | closeRefused _ _ hc hq'' => rw [hq'] at hq''; cases hq''
    | producerFailed h7 _ hc => exact .inr (.inr ⟨hlt, _, h3 _ (.error _) ⟨h7, hc⟩, rfl, rfl⟩)
    | itemRefused _ _ hc hq'' => rw [hq] at hq''; cases hq''

/-- Five items of a merge of two endless producers into a vector. -/
example : ∃ s' t' zs xs ys, (pipeAtMost (Merge.producer (BulkProducer.ofSeq Verif.Case.endless).toProducer
      (BulkProducer.ofSeq Verif.Case.endless).toProducer) (BulkConsumer.ofSeq Verif.Case.V).toConsumer (.new _ _ 7 3)
      (IntoVec.fromVec [9]) 5).run = ok ((s', t'), .ok 5) ∧ Verif.Case.Contents t' (9 :: zs) none ∧ zs.length = 5 ∧
    (Verif.Case.endlessScript 7).StartsWith xs ∧ (Verif.Case.endlessScript 3).StartsWith ys ∧ Interleaving xs ys zs := by
  have hC : BulkCollects (BulkConsumer.ofSeq Verif.Case.V).seq Verif.Case.Contents Policy.acceptAll (IntoVec.fromVec [9]) [9] := by
    rw [BulkConsumer.ofSeq_seq]; exact Verif.Case.vec_collects [9]
  obtain ⟨s', t', zs, fin, res, h1, h2, ⟨h3, ⟨xs, ys, h4, h5, h6⟩, rfl, rfl⟩ | ⟨_, f, h3, -⟩ | ⟨_, e, h3, -⟩⟩ :=
    pipe_at_most_from_stream (.merge (Case.endless_stream 7) (Case.endless_stream 3))
      (C := (BulkConsumer.ofSeq Verif.Case.V).toConsumer) hC.toCollects (fun _ _ => rfl) (fun _ _ => rfl) 5
  · exact ⟨s', t', zs, xs, ys, h1, h2, h3, h4, h5, h6⟩
  all_goals
    obtain ⟨_, _, _, ⟨_, _, _, h, _⟩ | ⟨_, h, _⟩ | ⟨_, _, h, _⟩⟩ := h3 <;> exact absurd h Case.endless_not_is

end Verif.Async
