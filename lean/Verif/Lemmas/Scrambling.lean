import Verif.ScramblingSpec
import Verif.Lemmas.ScramblerCalls
import Verif.Lemmas.WordSame
import Verif.Props.Limit

/-!
# Lemmas for C86
-/

namespace Verif

open Outcome

namespace ProducerScrambler

variable {σ I F E : Type}

/-- Without the operation, `slurp` of the wrapped producer is not called. -/
theorem perform_noSlurp (debug : Bool) (P : BulkProducer σ I F E) {s : ProducerScrambler σ I F E}
    (h : ScrambleProduce.slurp ∉ s.operations) : s.performOperation debug P = s.performOperation debug P.noSlurp := by
  simp only [performOperation, bind_eq]
  congr 1
  funext _
  rcases hi : Outcome.index s.operations s.index with op | _ | _
  · cases op with
    | produce => rfl
    | considerProduced n => rfl
    | slurp =>
      refine absurd ?_ h
      rcases hx : s.operations[s.index]? with _ | op
      · rw [Outcome.index, hx] at hi; cases hi
      · rw [Outcome.index, hx] at hi; cases hi; exact List.mem_of_getElem? hx
  · rfl
  · rfl

theorem advance_operations {s : ProducerScrambler σ I F E} : s.advance.When fun s' => s'.operations = s.operations :=
  When.bind when_true fun _ _ => .pure rfl

theorem perform_operations (debug : Bool) (P : BulkProducer σ I F E) (s : ProducerScrambler σ I F E) :
    (s.performOperation debug P).When fun r => r.1.operations = s.operations := by
  simp only [performOperation, bind_eq]
  refine When.bind when_true fun _ _ => When.bind when_true fun op _ => ?_
  cases op with
  | produce =>
    refine When.bind when_true ?_
    rintro ⟨inner, e | x | f⟩ _
    · exact .pure rfl
    · exact When.bind when_true fun _ _ => When.bind when_true fun _ _ => When.bind advance_operations fun _ h => .pure h
    · exact .pure rfl
  | considerProduced n =>
    refine When.bind when_true ?_
    rintro ⟨inner, e | x | f⟩ _
    · exact .pure rfl
    · refine When.bind when_true fun _ _ => When.bind when_true fun _ _ => When.bind when_true ?_
      rintro ⟨inner, e | ⟨⟩⟩ _
      · exact .pure rfl
      · exact When.bind advance_operations fun _ h => .pure h
    · exact .pure rfl
  | slurp =>
    refine When.bind when_true ?_
    rintro ⟨inner, e | ⟨⟩⟩ _
    · exact .pure rfl
    · exact When.bind advance_operations fun _ h => .pure h

theorem fillBody_operations (debug : Bool) (P : BulkProducer σ I F E) (s : ProducerScrambler σ I F E) :
    (fillBody debug P s).When fun r => match r with
      | .continue s' => s'.operations = s.operations
      | .done s' => s'.operations = s.operations := by
  simp only [fillBody, bind_eq]
  refine When.ite (fun _ => When.bind (perform_operations debug P s) ?_) fun _ => .pure rfl
  rintro ⟨s', e | _ | f⟩ h
  · exact .pure h
  · exact .pure h
  · exact .pure h

theorem fillQueue_operations (debug : Bool) (P : BulkProducer σ I F E) (s : ProducerScrambler σ I F E) :
    (fillQueue debug P s).When fun r => r.1.operations = s.operations := by
  simp only [fillQueue, bind_eq]
  refine When.bind (Q := fun s' => s'.operations = s.operations) (When.loop (fun s' => s'.operations = s.operations) _ ?_ rfl) ?_
  · intro s' hs' r hr
    have := fillBody_operations debug P s' r hr
    cases r with
    | «continue» s'' => exact this.trans hs'
    | done s'' => exact this.trans hs'
  · intro s' hs'
    exact When.ite (fun _ => .pure hs') fun _ => .pure hs'

theorem fillQueue_noSlurp (debug : Bool) (P : BulkProducer σ I F E) {s : ProducerScrambler σ I F E}
    (h : ScrambleProduce.slurp ∉ s.operations) : s.fillQueue debug P = s.fillQueue debug P.noSlurp := by
  simp only [fillQueue]
  rw [loop_agree (body := fillBody debug P) (body' := fillBody debug P.noSlurp) (fun s => ScrambleProduce.slurp ∉ s.operations) ?_ h]
  intro s hs
  refine ⟨by simp only [fillBody, perform_noSlurp debug P hs], fun s' h' => ?_⟩
  have : s'.operations = s.operations := fillBody_operations debug P.noSlurp s _ h'
  rw [this]
  exact hs

theorem new_noSlurp {inner : σ} {ops : List ScrambleProduce} {cap : Nat} {tmp : Nat → I} (h : ScrambleProduce.slurp ∉ ops) :
    ScrambleProduce.slurp ∉ (new inner ops cap tmp : ProducerScrambler σ I F E).operations := by
  simp only [new]
  split
  · exact h
  · simp [h]

/-- A scrambler that has not been told to slurp does not distinguish a producer from one whose `slurp` does nothing. -/
theorem plays_of_noSlurp (debug : Bool) {P : BulkProducer σ I F E} {s : ProducerScrambler σ I F E} {c : Script I F E}
    (hs : ScrambleProduce.slurp ∉ s.operations) (h : BulkPlays (producerScrambler debug P.noSlurp).noSlurp s c) :
    BulkPlays (producerScrambler debug P).noSlurp s c := by
  obtain ⟨R, hR, n, hn⟩ := h
  have hprod : ∀ s : ProducerScrambler σ I F E, ScrambleProduce.slurp ∉ s.operations →
      s.produce debug P = s.produce debug P.noSlurp ∧
        (s.produce debug P.noSlurp).When fun r => ScrambleProduce.slurp ∉ r.1.operations := by
    intro s hs
    refine ⟨by simp only [produce, fillQueue_noSlurp debug P hs], ?_⟩
    simp only [produce, bind_eq]
    refine When.bind (fillQueue_operations debug P.noSlurp s) ?_
    rintro ⟨s', _ | last⟩ h
    · refine When.bind when_true fun _ _ => When.bind when_true fun _ _ => .pure ?_
      show _ ∉ s'.operations
      rw [h]; exact hs
    · refine .pure ?_
      show _ ∉ s'.operations
      rw [h]; exact hs
  have hexp : ∀ s : ProducerScrambler σ I F E, ScrambleProduce.slurp ∉ s.operations →
      s.exposeItems debug P = s.exposeItems debug P.noSlurp ∧
        (s.exposeItems debug P.noSlurp).When fun r => ScrambleProduce.slurp ∉ r.1.operations := by
    intro s hs
    refine ⟨by simp only [exposeItems, fillQueue_noSlurp debug P hs], ?_⟩
    simp only [exposeItems, bind_eq]
    refine When.bind (fillQueue_operations debug P.noSlurp s) ?_
    rintro ⟨s', _ | last⟩ h
    · refine When.bind when_true fun _ _ => When.bind when_true fun _ _ => .pure ?_
      show _ ∉ s'.operations
      rw [h]; exact hs
    · refine .pure ?_
      show _ ∉ s'.operations
      rw [h]; exact hs
  have hcon : ∀ (s : ProducerScrambler σ I F E) (k : Nat), ScrambleProduce.slurp ∉ s.operations →
      (s.considerProduced k).When fun r => ScrambleProduce.slurp ∉ r.1.operations := by
    intro s k hs
    simp only [considerProduced, bind_eq]
    exact When.bind when_true fun _ _ => .pure hs
  refine ⟨fun s c n => R s c n ∧ ScrambleProduce.slurp ∉ s.operations, .of_default rfl ⟨⟨?_⟩, ?_⟩ ?_ ?_, n, hn, hs⟩
  · rintro s c ⟨n, hn, hs⟩
    obtain ⟨s', h1, h2⟩ := hR.base.produce s c ⟨n, hn⟩
    refine ⟨s', (hprod s hs).1.trans h1, fun x hx => ?_⟩
    obtain ⟨m, hm⟩ := h2 x hx
    exact ⟨m, hm, (hprod s hs).2 _ h1⟩
  · rintro s c ⟨n, hn, hs⟩
    exact ⟨s, .inl ⟨rfl, n, hn, hs⟩⟩
  · rintro s c n ⟨hn, hs⟩
    obtain ⟨s', ⟨xs, h1, h2, h3, h4⟩ | ⟨f, h1, h2⟩ | ⟨e, h1, h2⟩⟩ := hR.expose s c n hn
    · exact ⟨s', .inl ⟨xs, h1, h2, (hexp s hs).1.trans h3, h4, (hexp s hs).2 _ h3⟩⟩
    · exact ⟨s', .inr (.inl ⟨f, h1, (hexp s hs).1.trans h2⟩)⟩
    · exact ⟨s', .inr (.inr ⟨e, h1, (hexp s hs).1.trans h2⟩)⟩
  · rintro s c n k ⟨hn, hs⟩ h0 hk
    obtain ⟨s', h1, h2⟩ := hR.consider s c n k hn h0 hk
    exact ⟨s', h1, h2, hcon s k hs _ h1⟩

end ProducerScrambler

end Verif
