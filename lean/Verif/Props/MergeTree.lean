import Verif.Lemmas.MergeTree
import Verif.Props.AsyncMerge
import Verif.Props.AsyncTransfer

/-!
# Trees of merges, from end to end (C85)
-/

namespace Verif.Async

open Outcome

variable {σ τ I F E E₁ E₂ : Type}

/-- A tree of merges is a producer; it never panics, and what it emits is a merge of what its leaves emit, however often each of
them is pending. -/
theorem merge_tree_plays {P : Producer σ I F E} {s : σ} {cs : List (Script I F E)} (h : MergeTree P s cs) :
    ∃ c, Plays P.seq s c ∧ MergeOf cs c := by
  induction h with
  | leaf h => exact ⟨_, h, .self _⟩
  | node _ _ ih₁ ih₂ =>
    obtain ⟨c₁, h1, h2⟩ := ih₁
    obtain ⟨c₂, h3, h4⟩ := ih₂
    obtain ⟨c, h5, h6⟩ := merge_polled_plays h1 h3
    exact ⟨c, h5, h2.merge h4 h6⟩

/-- Piping a tree of merges of finite producers into any consumer returns, and what has been consumed is a shuffle of
prefixes of what the leaves emit. On success, the leaves have been exhausted, and the consumer has been closed with one of their
final values. An error of a leaf is reported as such, the error of the consumer only if its policy refuses an item or the final
value. -/
theorem merge_tree_piped {P : Producer σ I F E₁} {s : σ} {cs : List (Script I F E₁)} (h : MergeTree P s cs)
    (hend : ∀ c ∈ cs, ∃ n, ∀ x, c n ≠ .ok (.inl x))
    {C : Consumer τ I F E₂} {D : τ → List I → Option F → Prop} {q : Policy I F E₂} {t : τ} {l : List I}
    (hC : Collects C.seq D q t l) :
    ∃ s' t' res zs fin, ∃ parts : List (Script I F E₁ × List I),
      (pipe P C s t).run = ok ((s', t'), res) ∧ D t' (l ++ zs) fin ∧ q.Accepts l zs ∧
      parts.map (·.1) = cs ∧ (∀ p ∈ parts, p.1.StartsWith p.2) ∧ Shuffle (parts.map (·.2)) zs ∧
      ((∃ f, res = .ok () ∧ fin = some f ∧ (∀ p ∈ parts, ∃ g, p.1 p.2.length = .ok (.inr g)) ∧
          ∃ p ∈ parts, p.1 p.2.length = .ok (.inr f)) ∨
       (∃ e, res = .error (.producer e) ∧ fin = none ∧ ∃ p ∈ parts, p.1 p.2.length = .error e) ∨
       (∃ e, res = .error (.consumer e) ∧ fin = none ∧
          ((∃ x, q.answer (l ++ zs) x = some e) ∨
           ∃ f, q.refuseClose (l ++ zs) f = some e ∧ (∀ p ∈ parts, ∃ g, p.1 p.2.length = .ok (.inr g)) ∧
             ∃ p ∈ parts, p.1 p.2.length = .ok (.inr f)))) := by
  obtain ⟨c, hP, hm⟩ := merge_tree_plays h
  have hres : ∃ zs fin res, PipeResult c q l zs fin res := by
    rcases PipeResult.exists_or_endless c q l with h1 | h1
    · exact h1
    · obtain ⟨N, hN⟩ := hm.bounded hend
      obtain ⟨xs, h2, h3, _⟩ := h1 (N + 1)
      have := hN xs h3
      omega
  obtain ⟨zs, fin, res, hr⟩ := hres
  obtain ⟨s', t', h1, h2⟩ := pipe_polled hP hC hr
  obtain ⟨parts, h3, h4, h5, hf, he⟩ := hm zs hr.startsWith
  refine ⟨s', t', res, zs, fin, parts, h1, h2, hr.accepts, h3, h4, h5, ?_⟩
  cases hr with
  | closed _ _ hc _ => exact .inl ⟨_, rfl, rfl, hf _ hc⟩
  | closeRefused _ _ hc hq => exact .inr (.inr ⟨_, rfl, rfl, .inr ⟨_, hq, hf _ hc⟩⟩)
  | itemRefused _ _ hc hq => exact .inr (.inr ⟨_, rfl, rfl, .inl ⟨_, hq⟩⟩)
  | producerFailed _ _ hc => exact .inr (.inl ⟨_, rfl, rfl, he _ hc⟩)

/-- Fan-in: if no leaf fails, the consumer that accepts everything ends up with all items of all leaves: those of each leaf in
order, and each exactly as often as the leaves emit it. -/
theorem merge_tree_collected {P : Producer σ I F E₁} {s : σ} {lists : List (List I × F)}
    (h : MergeTree P s (lists.map fun p => Script.ofList p.1 (.ok p.2)))
    {C : Consumer τ I F E₂} {D : τ → List I → Option F → Prop} {t : τ} {l : List I}
    (hC : Collects C.seq D Policy.acceptAll t l) :
    ∃ s' t' zs f, (pipe P C s t).run = ok ((s', t'), .ok ()) ∧ D t' (l ++ zs) (some f) ∧ Shuffle (lists.map (·.1)) zs ∧
      zs.Perm (lists.map (·.1)).flatten ∧ (∀ p ∈ lists, p.1.Sublist zs) ∧ ∃ p ∈ lists, p.2 = f := by
  have hend : ∀ c ∈ lists.map fun p => (Script.ofList p.1 (.ok p.2) : Script I F E₁), ∃ n, ∀ x, c n ≠ .ok (.inl x) := by
    intro c hc
    obtain ⟨p, _, rfl⟩ := List.mem_map.mp hc
    exact ⟨p.1.length, fun x hx => by simp [Script.ofList] at hx; cases hx⟩
  obtain ⟨s', t', res, zs, fin, parts, h1, h2, _, h3, h4, h5, h6⟩ := merge_tree_piped h hend hC
  rcases h6 with ⟨f, rfl, rfl, h7, h8⟩ | ⟨e, _, _, p, hp, h7⟩ | ⟨e, _, _, ⟨x, h7⟩ | ⟨f, h7, _⟩⟩
  · have hparts : parts.map (·.2) = lists.map (·.1) := by
      clear h5 h8 h1 h2 h hend
      induction parts generalizing lists with
      | nil => cases lists with
        | nil => rfl
        | cons _ _ => simp at h3
      | cons p parts ih =>
        cases lists with
        | nil => simp at h3
        | cons q lists =>
          simp only [List.map_cons, List.cons.injEq] at h3 ⊢
          refine ⟨?_, ih h3.2 (fun p hp => h4 p (by simp [hp])) (fun p hp => h7 p (by simp [hp]))⟩
          have h9 := h4 p (by simp)
          obtain ⟨g, h10⟩ := h7 p (by simp)
          rw [h3.1] at h9 h10
          exact (Script.ofList_exhausted h9 (by rw [h10]; exact fun x hx => by cases hx)).1
    rw [hparts] at h5
    refine ⟨s', t', zs, f, h1, h2, h5, h5.perm, ?_, ?_⟩
    · intro p hp
      exact h5.sublist _ (List.mem_map_of_mem hp)
    · obtain ⟨p, hp, h9⟩ := h8
      have h10 := List.mem_map_of_mem (f := (·.1)) hp
      rw [h3] at h10
      obtain ⟨q, hq, h11⟩ := List.mem_map.mp h10
      refine ⟨q, hq, ?_⟩
      have h12 := h4 p hp
      rw [← h11] at h9 h12
      have h13 := (Script.ofList_exhausted h12 (by rw [h9]; exact fun x hx => by cases hx)).2
      rw [h9] at h13
      cases h13
      rfl
  · have h10 := List.mem_map_of_mem (f := (·.1)) hp
    rw [h3] at h10
    obtain ⟨q, _, h11⟩ := List.mem_map.mp h10
    have h12 := h4 p hp
    rw [← h11] at h7 h12
    have h13 := (Script.ofList_exhausted h12 (by rw [h7]; exact fun x hx => by cases hx)).2
    rw [h7] at h13
    cases h13
  · simp at h7
  · simp [Policy.acceptAll] at h7

/-- A vector as a consumer that is never pending. -/
abbrev Case.vector : Consumer (IntoVec Nat) Nat Unit Empty := (BulkConsumer.ofSeq Verif.Case.V).toConsumer

theorem Case.vector_collects (v : List Nat) :
    Collects Case.vector.seq Verif.Case.Contents Policy.acceptAll (IntoVec.fromVec v) v :=
  have h : BulkCollects (BulkConsumer.ofSeq Verif.Case.V).seq Verif.Case.Contents Policy.acceptAll (IntoVec.fromVec v) v := by
    rw [BulkConsumer.ofSeq_seq]; exact Verif.Case.vec_collects v
  h.toCollects

/-- A merge of a test producer that yields and a merge of two further ones. -/
theorem Case.tree : MergeTree (Merge.producer Case.testProducer (Merge.producer Case.testProducer Case.testProducer))
    (.new _ _ slowProducer (.new _ _ otherProducer slowProducer))
    ([([1, 2, 3], ()), ([4], ()), ([1, 2, 3], ())].map fun p => Script.ofList p.1 (.ok p.2)) :=
  .node (.leaf Case.slow_plays) (.node (.leaf Case.other_plays) (.leaf Case.slow_plays))

/-- It is piped into a vector that contains 9. -/
example : ∃ s' t' zs f, (pipe (Merge.producer Case.testProducer (Merge.producer Case.testProducer Case.testProducer)) Case.vector
      (.new _ _ slowProducer (.new _ _ otherProducer slowProducer)) (IntoVec.fromVec [9])).run = ok ((s', t'), .ok ()) ∧
    Verif.Case.Contents t' ([9] ++ zs) (some f) ∧ Shuffle [[1, 2, 3], [4], [1, 2, 3]] zs ∧
    zs.Perm [1, 2, 3, 4, 1, 2, 3] ∧
    (∀ p ∈ [([1, 2, 3], ()), ([4], ()), ([1, 2, 3], ())], p.1.Sublist zs) ∧
    ∃ p ∈ [([1, 2, 3], ()), ([4], ()), ([1, 2, 3], ())], p.2 = f :=
  merge_tree_collected Case.tree (Case.vector_collects [9])

/-- Produces 5, then fails. -/
def failingProducer : TestProducer Nat Unit String := TestProducer.new [5] (.error "bad") [] (some [true])

theorem Case.failing_plays : Plays Case.testProducer.seq failingProducer (Script.ofList [5] (.error "bad")) :=
  have h : BulkPlays (TestProducer.producer false Nat Unit String).seq failingProducer (Script.ofList [5] (.error "bad")) := by
    rw [testProducer_seq]; exact test_producer_plays false [5] (.error "bad") [] _
  h.toPlays

/-- With a leaf that fails, the pipe fails with that error: the other leaf has none. -/
example : ∃ s' t' zs, (pipe (Merge.producer Case.testProducer Case.testProducer) Case.vector
      (.new _ _ slowProducer failingProducer) (IntoVec.fromVec [])).run = ok ((s', t'), .error (.producer "bad")) ∧
    t'.intoVec = zs ∧ ∃ l, l <+: [1, 2, 3] ∧ Shuffle [l, [5]] zs := by
  obtain ⟨s', t', res, zs, fin, parts, h1, h2, _, h3, h4, h5, h6⟩ := merge_tree_piped
    (.node (.leaf Case.slow_plays) (.leaf Case.failing_plays)) (by
      intro c hc
      simp only [List.singleton_append, List.mem_cons, List.not_mem_nil, or_false] at hc
      rcases hc with rfl | rfl
      · exact ⟨3, nofun⟩
      · exact ⟨1, nofun⟩) (Case.vector_collects [])
  have hparts : ∃ l₁ l₂, parts = [(Script.ofList [1, 2, 3] (.ok ()), l₁), (Script.ofList [5] (.error "bad"), l₂)] := by
    match parts, h3 with
    | [(a, l₁), (b, l₂)], h3 =>
      simp only [List.map_cons, List.map_nil, List.singleton_append, List.cons.injEq, and_true] at h3
      exact ⟨l₁, l₂, by rw [h3.1, h3.2]⟩
  obtain ⟨l₁, l₂, rfl⟩ := hparts
  have hs₁ : (Script.ofList [1, 2, 3] (.ok ()) : Script Nat Unit String).StartsWith l₁ := h4 _ (.head _)
  have hs₂ : (Script.ofList [5] (.error "bad") : Script Nat Unit String).StartsWith l₂ := h4 _ (.tail _ (.head _))
  have hfail : ∀ g, (Script.ofList [5] (.error "bad") : Script Nat Unit String) l₂.length ≠ .ok (.inr g) := by
    intro g hg
    have := (Script.ofList_exhausted hs₂ (by rw [hg]; exact nofun)).2
    rw [hg] at this
    cases this
  rcases h6 with ⟨f, _, _, h7, _⟩ | ⟨e, rfl, rfl, p, hp, h7⟩ | ⟨e, _, _, ⟨x, h7⟩ | ⟨f, h7, _⟩⟩
  · obtain ⟨g, hg⟩ := h7 _ (.tail _ (.head _))
    exact absurd hg (hfail g)
  · simp only [List.mem_cons, List.not_mem_nil, or_false] at hp
    rcases hp with rfl | rfl
    · have h7 : (Script.ofList [1, 2, 3] (.ok ()) : Script Nat Unit String) l₁.length = .error e := h7
      have := (Script.ofList_exhausted hs₁ (by rw [h7]; exact nofun)).2
      rw [h7] at this
      cases this
    · have h7 : (Script.ofList [5] (.error "bad") : Script Nat Unit String) l₂.length = .error e := h7
      obtain ⟨rfl, h8⟩ := Script.ofList_exhausted hs₂ (by rw [h7]; exact nofun)
      rw [h7] at h8
      cases h8
      exact ⟨s', t', zs, h1, h2.2, l₁, Script.ofList_prefix hs₁, h5⟩
  · simp at h7
  · simp [Policy.acceptAll] at h7

end Verif.Async
