import Verif.Lemmas.Network
import Verif.Props.AsyncStacks
import Verif.Props.MergeTree

/-!
# C89: networks of adaptors and merges
-/

namespace Verif.Async

open Outcome

section

variable {σ σ₁ σ₂ τ I J K F G E E₁ E₂ E' F₂ : Type}

/-- **C89.** A network is a producer that emits one of the sequences which the adaptors and merges allow, however often its leaves are
pending. -/
theorem network_plays {P : Producer σ I F E} {s : σ} {S : List I → Except E F → Prop} (h : Network P s S) :
    ∃ c xs r, Plays P.seq s c ∧ c.Is xs r ∧ S xs r := by
  induction h with
  | leaf h1 h2 => exact ⟨_, _, _, h1, h2, rfl, rfl⟩
  | stack L _ ih =>
    obtain ⟨c, xs, r, h1, h2, h3⟩ := ih
    refine ⟨_, _, _, ?_, source_stack_is h2 L, xs, r, h3, rfl, rfl⟩
    rw [source_stack_seq]
    exact source_stack_plays h1 L
  | merge _ _ ih₁ ih₂ =>
    obtain ⟨c₁, xs₁, r₁, h1, h2, h3⟩ := ih₁
    obtain ⟨c₂, xs₂, r₂, h4, h5, h6⟩ := ih₂
    obtain ⟨c, h7, h8⟩ := merge_polled_plays h1 h4
    obtain ⟨zs, r, h9, h10⟩ := Merged.of_trace h2 h5 h8
    exact ⟨c, zs, r, h7, h9, xs₁, r₁, xs₂, r₂, h3, h6, h10⟩

/-- The first three partial sums. -/
abbrev SourceLayers.sums : SourceLayers Nat Unit Nat Unit :=
  SourceLayers.nil.mapItem (fun (a x : Nat) => (a + x, a + x)) 0 |>.limit 3 |>.mapFinal fun _ => ()

/-- A network: the first partial sums of a merge of two producers, merged with the items of a third one which fails. It emits the
beginning of the first three partial sums of a list in which 1, 2, 3 come in this order and 4 comes once, and 5 among them. -/
example : ∃ c xs ys zs, Plays (Merge.producer (SourceLayers.sums.applyAsync (Merge.producer Case.testProducer Case.testProducer))
      Case.testProducer).seq (.new _ _ (SourceLayers.sums.wrap (.new _ _ slowProducer otherProducer)) failingProducer) c ∧
    c.Is zs (.error "bad") ∧ Interleaving [1, 2, 3] [4] xs ∧
    ys <+: (results (fun (a x : Nat) => (a + x, a + x)) 0 xs).take 3 ∧ Interleaving ys [5] zs := by
  obtain ⟨c, zs, r, h1, h2, _, _, _, _, ⟨xs, _, ⟨_, _, _, _, ⟨rfl, rfl⟩, ⟨rfl, rfl⟩, h3⟩, rfl, rfl⟩, ⟨rfl, rfl⟩, h4⟩ :=
    network_plays (.merge (.stack SourceLayers.sums (.merge (.leaf Case.slow_plays (Script.is_ofList [1, 2, 3] (.ok ())))
      (.leaf Case.other_plays (Script.is_ofList [4] (.ok ()))))) (.leaf Case.failing_plays (Script.is_ofList [5] (.error "bad"))))
  cases h3 with
  | first a => cases a
  | second a => cases a
  | final _ _ _ h5 =>
    have hl : xs.length = 4 := (Shuffle.interleave h5 (.self _) (.self _)).perm.length_eq
    cases h4 with
    | final _ a => cases a
    | first a =>
      simp [SourceLayers.last, SourceLayers.items, hl, Except.map] at a
    | second a h6 h7 =>
      cases a
      exact ⟨c, xs, _, zs, h1, h2, h5, h6, h7⟩

/-- **C89, pipes.** Piping from a network through a stack into a consumer that accepts everything returns. If all items `xs` which the
network emits fit through the limits of the stack, all are consumed, mapped, and the consumer is closed with the mapped final value, or
the error of the network is reported; otherwise those that fit are consumed, and an error is reported. -/
theorem pipe_from_network {P : Producer σ J G E₁} {s : σ} {S : List J → Except E₁ G → Prop} (h : Network P s S)
    {C : BufferedConsumer τ K F₂ E₂} {D : τ → List K → Option F₂ → Prop} {q : Policy K F₂ E₂} {t : τ} {l : List K}
    (hC : BufCollects C.seq D q t l) (hq : ∀ l x, q.answer l x = none) (hq' : ∀ l f, q.refuseClose l f = none)
    (M : SinkLayers K F₂ E₂ J G E') :
    ∃ s' t' res xs r, (pipe P (M.applyAsync C).toConsumer s (M.wrap t)).run = ok ((s', t'), res) ∧ S xs r ∧
      (M.Fits xs.length →
        (∀ g, r = .ok g → res = .ok () ∧ D (M.core t') (l ++ M.items xs) (some (M.final g))) ∧
        (∀ e, r = .error e → res = .error (.producer e) ∧ D (M.core t') (l ++ M.items xs) none)) ∧
      (¬ M.Fits xs.length → ∃ k e, M.Fits k ∧ ¬ M.Fits (k + 1) ∧ res = .error (.consumer e) ∧
        D (M.core t') (l ++ M.items (xs.take k)) none) := by
  obtain ⟨c, xs, r, h1, h2, h3⟩ := network_plays h
  obtain ⟨s', t', res, h4, h5, h6⟩ := pipe_through_stacks h1 h2 .nil hC hq hq' M
  refine ⟨s', t', res, xs, r, ?_, h3, h5, h6⟩
  rw [← sink_stack_seq] at h4
  exact (pipe_run _ _ _ _).trans h4

/-- A merge of two producers into a consumer that is limited to two items. -/
example : ∃ s' t' e zs, (pipe (Merge.producer Case.testProducer Case.testProducer)
      ((SinkLayers.nil.limit 2).applyAsync (BulkConsumer.ofSeq Verif.Case.V).toBufferedConsumer).toConsumer
      (.new _ _ slowProducer otherProducer) ((SinkLayers.nil.limit 2).wrap (IntoVec.fromVec [9]))).run =
        ok ((s', t'), .error (.consumer e)) ∧
    Interleaving [1, 2, 3] [4] zs ∧ Verif.Case.Contents t'.inner (9 :: zs.take 2) none := by
  have hC : BulkCollects (BulkConsumer.ofSeq Verif.Case.V).seq Verif.Case.Contents Policy.acceptAll (IntoVec.fromVec [9]) [9] := by
    rw [BulkConsumer.ofSeq_seq]; exact Verif.Case.vec_collects [9]
  obtain ⟨s', t', res, zs, r, h1, ⟨_, _, _, _, ⟨rfl, rfl⟩, ⟨rfl, rfl⟩, h2⟩, -, h3⟩ := pipe_from_network
    (.merge (.leaf Case.slow_plays (Script.is_ofList [1, 2, 3] (.ok ()))) (.leaf Case.other_plays (Script.is_ofList [4] (.ok ()))))
    (C := (BulkConsumer.ofSeq Verif.Case.V).toBufferedConsumer) hC.toBufCollects (fun _ _ => rfl) (fun _ _ => rfl)
    (SinkLayers.nil.limit 2)
  cases h2 with
  | first a => cases a
  | second a => cases a
  | final _ _ _ h5 =>
    have hl : zs.length = 4 := (Shuffle.interleave h5 (.self _) (.self _)).perm.length_eq
    obtain ⟨k, e, h6, h7, rfl, h8⟩ := h3 fun h => by have := h.1; omega
    have : k = 2 := by
      have := h6.1
      have : ¬ k + 1 ≤ 2 := fun h => h7 ⟨h, trivial⟩
      omega
    subst this
    exact ⟨s', t', e, zs, h1, h5, h8⟩

/-- Every item is tagged. -/
abbrev SourceLayers.tagged (I F : Type) {A : Type} (f : I → A) : SourceLayers I F A F :=
  SourceLayers.nil.mapItem (fun (_ : Unit) x => ((), f x)) ()

/-- **C89, multiplexing.** Two producers, of items of different types, whose items are tagged by `MapItem`, are merged and piped into a
consumer: it gets both sequences, each complete and in order. -/
theorem multiplexed {P₁ : Producer σ₁ I F E₁} {s₁ : σ₁} {c₁ : Script I F E₁} {xs₁ : List I} {f₁ : F} (h₁ : Plays P₁.seq s₁ c₁)
    (hc₁ : c₁.Is xs₁ (.ok f₁)) {P₂ : Producer σ₂ J F E₁} {s₂ : σ₂} {c₂ : Script J F E₁} {xs₂ : List J} {f₂ : F}
    (h₂ : Plays P₂.seq s₂ c₂) (hc₂ : c₂.Is xs₂ (.ok f₂)) {C : BufferedConsumer τ (I ⊕ J) F E₂}
    {D : τ → List (I ⊕ J) → Option F → Prop} {q : Policy (I ⊕ J) F E₂} {t : τ} (hC : BufCollects C.seq D q t [])
    (hq : ∀ l x, q.answer l x = none) (hq' : ∀ l f, q.refuseClose l f = none) :
    ∃ s' t' zs f, (pipe (Merge.producer ((SourceLayers.tagged I F Sum.inl).applyAsync P₁) ((SourceLayers.tagged J F Sum.inr).applyAsync P₂))
        C.toConsumer (.new _ _ ((SourceLayers.tagged I F Sum.inl).wrap s₁) ((SourceLayers.tagged J F Sum.inr).wrap s₂)) t).run =
          ok ((s', t'), .ok ()) ∧
      D t' zs (some f) ∧ (f = f₁ ∨ f = f₂) ∧ zs.filterMap Sum.getLeft? = xs₁ ∧ zs.filterMap Sum.getRight? = xs₂ := by
  obtain ⟨s', t', res, zs, r, h3, ⟨_, _, _, _, ⟨_, _, ⟨rfl, rfl⟩, rfl, rfl⟩, ⟨_, _, ⟨rfl, rfl⟩, rfl, rfl⟩, h4⟩, h5, -⟩ :=
    pipe_from_network (.merge (.stack (SourceLayers.tagged I F Sum.inl) (.leaf h₁ hc₁))
      (.stack (SourceLayers.tagged J F Sum.inr) (.leaf h₂ hc₂))) hC hq hq' SinkLayers.nil
  have e₁ : ∀ (xs : List I), results (fun (_ : Unit) x => ((), (Sum.inl x : I ⊕ J))) () xs = xs.map Sum.inl := fun xs => by
    induction xs with
    | nil => rfl
    | cons x xs ih => simp only [results, List.map_cons, ih]
  have e₂ : ∀ (xs : List J), results (fun (_ : Unit) x => ((), (Sum.inr x : I ⊕ J))) () xs = xs.map Sum.inr := fun xs => by
    induction xs with
    | nil => rfl
    | cons x xs ih => simp only [results, List.map_cons, ih]
  cases h4 with
  | final a b hf hi =>
    cases a
    cases b
    obtain ⟨rfl, h6⟩ := (h5 trivial).1 _ rfl
    refine ⟨s', t', zs, _, h3, h6, hf, ?_, ?_⟩
    · have h7 := hi.filterMap Sum.getLeft?
      have h8 : ∀ ys : List J, (ys.map (Sum.inr : J → I ⊕ J)).filterMap Sum.getLeft? = [] := fun ys => by
        induction ys <;> simp_all
      have h9 : ∀ xs : List I, (xs.map (Sum.inl : I → I ⊕ J)).filterMap Sum.getLeft? = xs := fun xs => by
        induction xs <;> simp_all
      simp only [SourceLayers.items, e₁, e₂, h8, h9] at h7
      exact h7.right_nil
    · have h7 := hi.filterMap Sum.getRight?
      have h8 : ∀ ys : List J, (ys.map (Sum.inr : J → I ⊕ J)).filterMap Sum.getRight? = ys := fun ys => by
        induction ys <;> simp_all
      have h9 : ∀ xs : List I, (xs.map (Sum.inl : I → I ⊕ J)).filterMap Sum.getRight? = [] := fun xs => by
        induction xs <;> simp_all
      simp only [SourceLayers.items, e₁, e₂, h8, h9] at h7
      exact h7.left_nil
  | first a => cases a
  | second a => cases a

instance : Inhabited (Nat ⊕ Nat) := ⟨.inl 0⟩

/-- Two test producers that yield, into a vector. -/
example : ∃ s' t' zs f, (pipe (Merge.producer ((SourceLayers.tagged Nat Unit Sum.inl).applyAsync Case.testProducer)
      ((SourceLayers.tagged Nat Unit Sum.inr).applyAsync Case.testProducer))
      (BulkConsumer.ofSeq (IntoVec.consumer (Nat ⊕ Nat))).toConsumer
      (.new _ _ ((SourceLayers.tagged Nat Unit Sum.inl).wrap slowProducer) ((SourceLayers.tagged Nat Unit Sum.inr).wrap otherProducer))
      (IntoVec.fromVec [])).run = ok ((s', t'), .ok ()) ∧
    (t'.asRef = ok zs ∧ t'.intoVec = zs) ∧ (f = () ∨ f = ()) ∧
    zs.filterMap Sum.getLeft? = [1, 2, 3] ∧ zs.filterMap Sum.getRight? = [4] :=
  have h : BulkCollects (BulkConsumer.ofSeq (IntoVec.consumer (Nat ⊕ Nat))).seq (fun s l _ => s.asRef = ok l ∧ s.intoVec = l)
      Policy.acceptAll (IntoVec.fromVec []) [] := by
    rw [BulkConsumer.ofSeq_seq]; exact into_vec_collects []
  multiplexed (C := (BulkConsumer.ofSeq (IntoVec.consumer (Nat ⊕ Nat))).toBufferedConsumer)
    Case.slow_plays (Script.is_ofList [1, 2, 3] (.ok ())) Case.other_plays (Script.is_ofList [4] (.ok ()))
    h.toBufCollects (fun _ _ => rfl) (fun _ _ => rfl)

end

end Verif.Async
