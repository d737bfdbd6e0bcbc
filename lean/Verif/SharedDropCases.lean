import Verif.SharedCases
import Verif.Lemmas.SharedDrop

/-!
# Concrete suspension points of shared decoders

The cases that the examples beside the theorems about dropped futures use.
-/

namespace Verif

open Outcome

section

variable {σ F E T : Type} {N : Nat}

theorem difference_suspension_writesParts {C : BulkConsumer σ UInt8 F E} {D : σ → List UInt8 → Option F → Prop}
    {q : Policy UInt8 F E} :
    (writeSuspension C (differenceSlice (F := F))).WritesParts D (relativeOpBytes (fun r x => [x - r]) id) C q := by
  have e : relativeOpBytes (F := F) (fun r x => [x - r]) id = fun b op => (differenceSlice b op).getD [] := by
    funext b op
    cases op <;> rfl
  rw [e]
  exact writeSuspension_writesParts _

/-- A future that awaits items, or reads bytes with `bulk_overwrite_full_slice`, or slurps. -/
inductive Reading where
  | exposing
  | reading (buf : List UInt8) (produced : Nat)
  | slurping

/-- The methods of a shared endian decoder, where `expose_items` and each of the `bulk_produce` calls can be pending for a while
and the other tasks can run between any two of them. -/
def FixedInt.readSuspension (i : FixedInt T N) (o : ByteOrder) (P : BulkProducer σ UInt8 F E) :
    Suspension σ Unit SharedDecoderOp (SharedDecoderAnswer T F (DecodeError F E Empty)) where
  κ := Reading
  start _ op := match op with
    | .produce => .exposing
    | .slurp => .slurping
  step k s k' s' := (k' = k ∧ s' = s) ∨
    (∃ items, k = .exposing ∧ P.exposeItems s = ok (s', .ok (.inl items)) ∧ k' = .reading (List.replicate N 0) 0) ∨
    ∃ buf n buf' n', k = .reading buf n ∧ bulkOverwriteFullSliceBody P (s, buf, n) = ok (.continue (s', buf', n')) ∧
      k' = .reading buf' n'
  ret k s a s' :=
    (∃ f, k = .exposing ∧ P.exposeItems s = ok (s', .ok (.inr f)) ∧ a = .produced (.ok (.inr f))) ∨
    (∃ e, k = .exposing ∧ P.exposeItems s = ok (s', .error e) ∧ a = .produced (.error (.fromError e))) ∨
    (∃ buf n r buf', k = .reading buf n ∧ bulkOverwriteFullSliceBody P (s, buf, n) = ok (.done (s', r, buf')) ∧
      a = .produced (match r with
        | .ok () => .ok (.inl (i.fromBytes o buf'))
        | .error err => .error (.fromProduceAtLeast err))) ∨
    (∃ r, k = .slurping ∧ decoderSlurp P s = ok (s', r) ∧ a = .slurped r)

theorem FixedInt.readSuspension_path {i : FixedInt T N} {o : ByteOrder} {P : BulkProducer σ UInt8 F E} {b : Unit}
    {op : SharedDecoderOp} {s s₁ : σ} {k : (i.readSuspension o P).κ}
    (h : (i.readSuspension o P).Path ((i.readSuspension o P).start b op) s k s₁) :
    (op = .produce ∧ k = Reading.exposing ∧ s₁ = s) ∨
    (∃ s' items buf n, op = .produce ∧ P.exposeItems s = ok (s', .ok (.inl items)) ∧ k = Reading.reading buf n ∧
      loop (bulkOverwriteFullSliceBody P) (s', List.replicate N 0, 0) = loop (bulkOverwriteFullSliceBody P) (s₁, buf, n)) ∨
    (op = .slurp ∧ k = Reading.slurping ∧ s₁ = s) := by
  induction h with
  | refl =>
    cases op with
    | produce => exact .inl ⟨rfl, rfl, rfl⟩
    | slurp => exact .inr (.inr ⟨rfl, rfl, rfl⟩)
  | snoc _ hstep ih =>
    rcases ih with ⟨h1, rfl, rfl⟩ | ⟨s', items, buf, n, h1, h2, rfl, h3⟩ | ⟨h1, rfl, rfl⟩
    · rcases hstep with ⟨rfl, rfl⟩ | ⟨items, _, h2, rfl⟩ | ⟨buf, n, buf', n', h2, _⟩
      · exact .inl ⟨h1, rfl, rfl⟩
      · exact .inr (.inl ⟨_, items, _, 0, h1, h2, rfl, rfl⟩)
      · cases h2
    · rcases hstep with ⟨rfl, rfl⟩ | ⟨items, h4, _⟩ | ⟨buf, n, buf', n', h4, h5, rfl⟩
      · exact .inr (.inl ⟨s', items, buf, n, h1, h2, rfl, h3⟩)
      · cases h4
      · cases h4
        refine .inr (.inl ⟨s', items, buf', n', h1, h2, rfl, ?_⟩)
        rw [h3, loop_unfold _ (_, buf, n), h5]
    · rcases hstep with ⟨rfl, rfl⟩ | ⟨items, h4, _⟩ | ⟨buf, n, buf', n', h4, _⟩
      · exact .inr (.inr ⟨h1, rfl, rfl⟩)
      · cases h4
      · cases h4

theorem FixedInt.readSuspension_implements (i : FixedInt T N) (o : ByteOrder) (P : BulkProducer σ UInt8 F E) :
    (i.readSuspension o P).Implements (sharedDecoder (i.decodable o).toDecodable P) := by
  intro b op run hm s k s₁ a s₂ hp hret
  rcases readSuspension_path hp with ⟨rfl, rfl, rfl⟩ | ⟨s', items, buf, n, rfl, h1, rfl, h2⟩ | ⟨rfl, rfl, rfl⟩
  · cases hm
    rcases hret with ⟨f, _, h3, rfl⟩ | ⟨e, _, h3, rfl⟩ | ⟨_, _, _, _, h3, _⟩ | ⟨_, h3, _⟩
    · exact withAnswer_ok (f := SharedDecoderAnswer.produced) (by simp [decoderProduce, h3])
    · exact withAnswer_ok (f := SharedDecoderAnswer.produced) (by simp [decoderProduce, h3])
    · cases h3
    · cases h3
  · cases hm
    rcases hret with ⟨f, h3, _⟩ | ⟨e, h3, _⟩ | ⟨buf', n', r, out, h3, h4, rfl⟩ | ⟨_, h3, _⟩
    · cases h3
    · cases h3
    · cases h3
      rw [loop_unfold _ (_, buf, n), h4] at h2
      refine withAnswer_ok (f := SharedDecoderAnswer.produced) ?_
      simp only [decoderProduce, h1, bind_eq, bind_ok, decodable, decode, bulkOverwriteFullSlice, h2]
      cases r <;> rfl
    · cases h3
  · cases hm
    rcases hret with ⟨f, h3, _⟩ | ⟨e, h3, _⟩ | ⟨_, _, _, _, h3, _⟩ | ⟨r, _, h3, rfl⟩
    · cases h3
    · cases h3
    · cases h3
    · exact withAnswer_ok (f := SharedDecoderAnswer.slurped) h3

theorem FixedInt.readSuspension_readsParts (i : FixedInt T N) (o : ByteOrder) (P : BulkProducer σ UInt8 F E) :
    (i.readSuspension o P).ReadsParts (i.grammar o) P := by
  intro b op s c k s₁ hP hp
  have key : ∃ part, c.StartsWith part ∧ part.length ≤ N ∧ (op = .slurp → part = []) ∧ BulkPlays P s₁ (c.drop part.length) ∧
      (∀ buf n, k = Reading.reading buf n → buf.length = N ∧ n = part.length) ∧ (op = .slurp → k = Reading.slurping) ∧
      ((∀ buf n, k ≠ Reading.reading buf n) → part = []) := by
    induction hp with
    | refl =>
      refine ⟨[], by simp, by simp, fun _ => rfl, by simpa using hP, ?_, ?_, fun _ => rfl⟩
      · intro buf n h; cases op <;> cases h
      · rintro rfl; rfl
    | @snoc k₁ s₁ k₂ s₂ _ hstep ih =>
      obtain ⟨part, h1, h2, h3, h4, h5, h6, h7⟩ := ih
      rcases hstep with ⟨rfl, rfl⟩ | ⟨items, rfl, h8, rfl⟩ | ⟨buf, n, buf', n', rfl, h8, rfl⟩
      · exact ⟨part, h1, h2, h3, h4, h5, h6, h7⟩
      · obtain rfl := h7 (fun _ _ h => nomatch h)
        refine ⟨[], h1, h2, h3, ?_, ?_, (fun h => nomatch h6 h), fun h => absurd rfl (h _ _)⟩
        · obtain ⟨R, hR, m, hs⟩ := h4
          obtain ⟨s', ⟨xs, _, _, h9, h10⟩ | ⟨f, _, h9⟩ | ⟨e, _, h9⟩⟩ := hR.expose _ _ _ hs
          · rw [h8] at h9; cases h9; exact ⟨R, hR, _, h10⟩
          · rw [h8] at h9; cases h9
          · rw [h8] at h9; cases h9
        · rintro buf n h; cases h; exact ⟨by simp, rfl⟩
      · obtain ⟨h9, rfl⟩ := h5 _ _ rfl
        by_cases hlt : part.length < buf.length
        · have hne : buf.drop part.length ≠ [] := by
            intro he
            have := congrArg List.length he
            simp only [List.length_drop, List.length_nil] at this
            omega
          obtain ⟨R, hR, m, hs⟩ := h4
          obtain ⟨s', out, hl, ⟨j, hj1, hj2, h10, h11, h12⟩ | ⟨f, _, h10⟩ | ⟨e, _, h10⟩⟩ := hR.bulkProduce _ _ _ _ hs hne
          · simp [bulkOverwriteFullSliceBody, hlt, h10] at h8
            obtain ⟨rfl, rfl, rfl⟩ := h8
            have hl' : (out.take j).length = j := by simp; omega
            rw [List.length_drop] at hl hj2
            refine ⟨part ++ out.take j, h1.append h11, ?_, (fun h => nomatch h6 h), ?_, ?_, (fun h => nomatch h6 h),
              fun h => absurd rfl (h _ _)⟩
            · rw [List.length_append, hl']; omega
            · rw [List.length_append, hl', ← Script.drop_drop]
              exact ⟨R, hR, h12⟩
            · rintro buf' n' h
              cases h
              constructor
              · rw [List.length_append, List.length_take, hl]; omega
              · rw [List.length_append, hl']
          · simp [bulkOverwriteFullSliceBody, hlt, h10] at h8
          · simp [bulkOverwriteFullSliceBody, hlt, h10] at h8
        · simp [bulkOverwriteFullSliceBody, hlt] at h8
  obtain ⟨part, h1, h2, h3, h4, _⟩ := key
  refine ⟨part, h1, fun n hn => ?_, h3, h4⟩
  simp [FixedInt.grammar]
  omega

end

section

variable {σ T R B Rel F E : Type} {d : RelativeDecodable T Rel R} {borrow : B → Rel} {P : BulkProducer σ UInt8 F E}

/-- The methods of a shared relative decoder, where calls can be pending before they do anything, and `produce` also after a value
has been decoded. -/
def lateSuspension (d : RelativeDecodable T Rel R) (borrow : B → Rel) (P : BulkProducer σ UInt8 F E) :
    Suspension σ B (SharedRelativeDecoderOp B) (SharedDecoderAnswer T F (DecodeError F E R)) where
  κ := (B × SharedRelativeDecoderOp B) ⊕ T
  start b op := .inl (b, op)
  step k s k' s' := (k' = k ∧ s' = s) ∨
    ∃ b x, k = .inl (b, .produce) ∧ decoderProduce (d.relativeDecode (borrow b)) P s = ok (s', .ok (.inl x)) ∧ k' = .inr x
  ret k s a s' :=
    (∃ b op run, k = .inl (b, op) ∧ sharedRelativeDecoder d borrow P b op = .locked run ∧ run s = ok (s', a)) ∨
    (∃ x, k = .inr x ∧ s' = s ∧ a = .produced (.ok (.inl x)))

theorem lateSuspension_path {b : B} {op : SharedRelativeDecoderOp B} {s s₁ : σ} {k : (lateSuspension d borrow P).κ}
    (h : (lateSuspension d borrow P).Path ((lateSuspension d borrow P).start b op) s k s₁) :
    (k = .inl (b, op) ∧ s₁ = s) ∨
    (∃ x, op = .produce ∧ k = .inr x ∧ decoderProduce (d.relativeDecode (borrow b)) P s = ok (s₁, .ok (.inl x))) := by
  induction h with
  | refl => exact .inl ⟨rfl, rfl⟩
  | snoc _ hstep ih =>
    rcases ih with ⟨rfl, rfl⟩ | ⟨x, rfl, rfl, h1⟩
    · rcases hstep with ⟨rfl, rfl⟩ | ⟨b', x, h1, h2, rfl⟩
      · exact .inl ⟨rfl, rfl⟩
      · cases h1; exact .inr ⟨x, rfl, rfl, h2⟩
    · rcases hstep with ⟨rfl, rfl⟩ | ⟨b', x, h2, _⟩
      · exact .inr ⟨x, rfl, rfl, h1⟩
      · cases h2

theorem lateSuspension_implements (d : RelativeDecodable T Rel R) (borrow : B → Rel) (P : BulkProducer σ UInt8 F E) :
    (lateSuspension d borrow P).Implements (sharedRelativeDecoder d borrow P) := by
  intro b op run hm s k s₁ a s₂ hp hret
  rcases lateSuspension_path hp with ⟨rfl, rfl⟩ | ⟨x, rfl, rfl, h1⟩
  · rcases hret with ⟨b', op', run', h2, h3, h4⟩ | ⟨x, h2, _⟩
    · cases h2; rw [hm] at h3; cases h3; exact h4
    · cases h2
  · rcases hret with ⟨b', op', run', h2, _⟩ | ⟨x', h2, rfl, rfl⟩
    · cases h2
    · cases h2; cases hm; exact withAnswer_ok (f := SharedDecoderAnswer.produced) h1

theorem lateSuspension_readsParts {g : Rel → Grammar T R} (hd : ∀ r, DecodesLaw (d.relativeDecode r) (g r))
    (hg : ∀ r, g r [] = .more) (hdec : ∀ r (c : Script UInt8 F E), ∃ a k, DecodesNext (g r) c a k) :
    (lateSuspension d borrow P).ReadsPartsRelative g borrow P := by
  intro b op s c k s₁ hP hp
  rcases lateSuspension_path hp with ⟨rfl, rfl⟩ | ⟨x, rfl, rfl, h1⟩
  · exact ⟨[], by simp, fun k hk => by simp at hk, fun _ => rfl, by simpa using hP⟩
  · obtain ⟨a, n, hn⟩ := hdec (borrow b) c
    obtain ⟨s', h2, h3⟩ := decoderProduce_spec (hd _) (hg _) hP hn
    rw [h1] at h2; cases h2
    cases hn with
    | @value bs _ hst henc => exact ⟨bs, hst, henc.1, (fun h => nomatch h), h3 x rfl⟩

end

/-- Whatever comes, a difference is one byte. -/
theorem difference_decodesNext (r : UInt8) (c : Script UInt8 F E) : ∃ a k, DecodesNext (differenceGrammar r) c a k := by
  rcases h : c 0 with e | x | f
  · exact decodesNext_of_ends _ (m := 0) fun b hb => by rw [h] at hb; cases hb
  · refine ⟨_, _, .value (bs := [x]) (x := x + r) (fun i y hi => ?_) (byteGrammar_encoding rfl)⟩
    obtain ⟨hlt, rfl⟩ := List.getElem?_eq_some_iff.mp hi
    obtain rfl : i = 0 := by simpa using hlt
    exact h
  · exact decodesNext_of_ends _ (m := 0) fun b hb => by rw [h] at hb; cases hb

/-- A producer of bytes; its `expose_items` and `bulk_produce` give one at a time. -/
def drip : BulkProducer (List UInt8) UInt8 Unit Empty where
  produce s := match s with
    | [] => ok ([], .ok (.inr ()))
    | x :: s => ok (s, .ok (.inl x))
  slurp s := ok (s, .ok ())
  exposeItems s := match s with
    | [] => ok ([], .ok (.inr ()))
    | x :: s => ok (x :: s, .ok (.inl [x]))
  considerProduced s k := if k ≤ 1 then ok (s.drop k, .ok ()) else .panic

theorem drip_plays (bs : List UInt8) : BulkPlays drip bs (Script.ofList bs (.ok ())) := by
  refine ⟨fun s c n => c = Script.ofList s (.ok ()) ∧ n ≤ 1 ∧ n ≤ s.length, BulkPlaysLaw.of_default rfl ⟨⟨?_⟩, ?_⟩ ?_ ?_, 0, rfl, by omega, by omega⟩
  · rintro s c ⟨n, rfl, _⟩
    cases s with
    | nil => exact ⟨[], rfl, fun x h => nomatch h⟩
    | cons x s =>
      refine ⟨s, rfl, fun y h => ⟨0, ?_, by omega, by omega⟩⟩
      rw [Script.ofList_drop _ _ _ (by simp)]; rfl
  · rintro s c h; exact ⟨s, .inl ⟨rfl, h⟩⟩
  · rintro s c n ⟨rfl, _, _⟩
    cases s with
    | nil => exact ⟨[], .inr (.inl ⟨(), rfl, rfl⟩)⟩
    | cons x s =>
      refine ⟨x :: s, .inl ⟨[x], by simp, ?_, rfl, rfl, by simp, by simp⟩⟩
      intro i y hi
      obtain ⟨hlt, rfl⟩ := List.getElem?_eq_some_iff.mp hi
      obtain rfl : i = 0 := by simpa using hlt
      rfl
  · rintro s c n k ⟨rfl, h1, h2⟩ h3 h4
    refine ⟨s.drop k, by simp [drip, show k ≤ 1 by omega], ?_, by omega, by rw [List.length_drop]; omega⟩
    rw [Script.ofList_drop _ _ _ (by omega)]

abbrev TwoDecoders := Shared Bool (List UInt8) Unit SharedDecoderOp
  (SharedDecoderAnswer UInt16 Unit (DecodeError Unit Empty Empty)) Reading

end Verif
