import Verif.Lemmas.Progress
import Verif.Lemmas.ProducerScrambler
import Verif.Lemmas.ConsumerScrambler

/-!
# The methods of the scramblers end, whatever they wrap
-/

namespace Verif

open Outcome

section

variable {σ I F E : Type}

theorem sat_debugAssert (debug b : Bool) : (debugAssert debug b).Sat (fun _ => True) := by
  cases debug <;> cases b <;> trivial

namespace ProducerScrambler

variable {P : BulkProducer σ I F E} {cap : Nat}

theorem perform_sat (debug : Bool) (hP : P.Returns) {s : ProducerScrambler σ I F E} {l : List I} {n : Nat} (hs : s.Ok cap l n)
    (hl : l.length < cap) :
    (s.performOperation debug P).Sat fun (s', r) => ∃ l', s'.Ok cap l' n ∧ s'.last = s.last ∧
      (r = .ok none → l.length < l'.length ∨ (l' = l ∧ s.operations[s.index]? = some .slurp ∧
        s'.operations = s.operations ∧ s'.index = (s.index + 1) % s.operations.length)) := by
  have hop : s.operations[s.index]? = some (s.operations[s.index]'hs.index) := List.getElem?_eq_getElem hs.index
  simp only [performOperation, index_of_lt hs.index, bind_eq, bind_ok]
  refine (sat_debugAssert debug _).bind fun _ _ => ?_
  cases hcase : s.operations[s.index]'hs.index with
  | produce =>
    refine (sat_true (hP.produce s.inner)).bind ?_
    rintro ⟨inner, r⟩ -
    rcases r with e | x | f
    · exact ⟨l, ⟨hs.cap_pos, hs.holds, hs.index, hs.progress⟩, rfl, by simp⟩
    · obtain ⟨b, hb1, hb2⟩ := hs.holds.enqueue x hl
      have hok : Ok cap { s with inner := inner, buffer := b } (l ++ [x]) n := ⟨hs.cap_pos, hb2, hs.index, hs.progress⟩
      obtain ⟨ha, ha'⟩ := hok.advance
      simp only [hb1, ha, bind_ok, debugAssert_true, Option.isNone_none, pure_eq]
      exact ⟨_, ha', rfl, fun _ => .inl (by simp)⟩
    · exact ⟨l, ⟨hs.cap_pos, hs.holds, hs.index, hs.progress⟩, rfl, by simp⟩
  | slurp =>
    refine (sat_true (hP.slurp s.inner)).bind ?_
    rintro ⟨inner, r⟩ -
    rcases r with e | ⟨⟩
    · exact ⟨l, ⟨hs.cap_pos, hs.holds, hs.index, hs.progress⟩, rfl, by simp⟩
    · have hok : Ok cap { s with inner := inner } l n := ⟨hs.cap_pos, hs.holds, hs.index, hs.progress⟩
      obtain ⟨ha, ha'⟩ := hok.advance
      simp only [ha, bind_ok, pure_eq]
      exact ⟨_, ha', rfl, fun _ => .inr ⟨rfl, by rw [hop, hcase], rfl, rfl⟩⟩
  | considerProduced k =>
    refine (sat_true (hP.expose s.inner)).and_eq.bind ?_
    rintro ⟨inner, r⟩ ⟨-, hex⟩
    rcases r with e | xs | f
    · exact ⟨l, ⟨hs.cap_pos, hs.holds, hs.index, hs.progress⟩, rfl, by simp⟩
    · have hne : xs ≠ [] := by rintro rfl; exact hP.expose_ne _ _ hex
      have hxs : 0 < xs.length := List.length_pos_iff.mpr hne
      have hk := k.2
      have hsl : slice xs 0 (min xs.length k) = ok (xs.take (min xs.length k)) := by
        rw [slice_of_le (Nat.zero_le _) (by omega)]; simp
      obtain ⟨b, amount, hb1, hb2, hb3, hb4, hb5, -⟩ :=
        (Fixed.fifoLaw I cap).bulkEnqueue_call hs.holds (xs.take (min xs.length k))
      have hlt : (xs.take (min xs.length k)).length = min xs.length k := by simp
      have hapos : 0 < amount := by
        rcases Nat.eq_zero_or_pos amount with h0 | h0
        · rcases hb4 h0 with h | h
          · rw [h] at hlt; simp only [List.length_nil] at hlt; omega
          · omega
        · exact h0
      rw [List.take_take, Nat.min_eq_left (by omega)] at hb5
      simp only [bind_ok, hsl]
      rw [show (Fixed.queue I).bulkEnqueue s.buffer (xs.take (min xs.length k)) = _ from hb1]
      simp only [bind_ok]
      refine (sat_true (hP.consider inner amount)).bind ?_
      rintro ⟨inner2, r⟩ -
      have hok : Ok cap { s with inner := inner2, buffer := b } (l ++ xs.take amount) n :=
        ⟨hs.cap_pos, hb5, hs.index, hs.progress⟩
      obtain ⟨ha, ha'⟩ := hok.advance
      rcases r with e | ⟨⟩
      · exact ⟨_, hok, rfl, by simp⟩
      · simp only [ha, bind_ok, pure_eq]
        exact ⟨_, ha', rfl, fun _ => .inl (by simp only [List.length_append, List.length_take]; omega)⟩
    · exact ⟨l, ⟨hs.cap_pos, hs.holds, hs.index, hs.progress⟩, rfl, by simp⟩

theorem fillLoop_sat (debug : Bool) (hP : P.Returns) {s : ProducerScrambler σ I F E} {l : List I} {n : Nat}
    (hs : s.Ok cap l n) : (loop (fillBody debug P) s).Sat fun s' => ∃ l', s'.Ok cap l' n := by
  obtain ⟨d, op, hd⟩ := ahead hs.progress hs.index
  refine loop_sat (fun a b s => ∃ l, s.Ok cap l n ∧
      (s.last = none → a = cap - l.length + 1 ∧ ∃ op, s.operations[(s.index + b) % s.operations.length]? = some op ∧
        op ≠ .slurp) ∧ (s.last ≠ none → a = 0)) _ ?_ (a := if s.last = none then cap - l.length + 1 else 0) (b := d)
    ⟨l, hs, fun h => ⟨by simp [h], op, hd⟩, fun h => by simp [h]⟩
  rintro a b s ⟨l, hok, h1, h2⟩
  have hb := hok.holds.bound
  simp only [List.length_nil, Nat.add_zero] at hb
  by_cases hcond : (s.last.isNone && decide (s.buffer.len < s.buffer.capacity)) = true
  · have hcond' := hcond
    simp only [Bool.and_eq_true, Option.isNone_iff_eq_none, decide_eq_true_eq, hok.len, hok.capacity] at hcond'
    obtain ⟨hlast, hl⟩ := hcond'
    obtain ⟨ha, op, hop, hne⟩ := h1 hlast
    simp only [fillBody, hcond, ↓reduceIte, bind_eq]
    refine (perform_sat debug hP hok hl).bind ?_
    rintro ⟨s', r⟩ ⟨l', hok', hl', hprog⟩
    have hb' := hok'.holds.bound
    simp only [List.length_nil, Nat.add_zero] at hb'
    rcases r with e | _ | f
    · exact ⟨0, 0, .inl (by omega), l', ⟨hok'.cap_pos, hok'.holds, hok'.index, hok'.progress⟩, by simp, by simp⟩
    · rcases hprog rfl with hlt | ⟨rfl, hx1, hx2, hx3⟩
      · obtain ⟨d', op', hd'⟩ := ahead hok'.progress hok'.index
        exact ⟨cap - l'.length + 1, d', .inl (by omega), l', hok', fun _ => ⟨rfl, op', hd'⟩,
          fun h => absurd (hl'.trans hlast) h⟩
      · have hb0 : 0 < b := by
          rcases Nat.eq_zero_or_pos b with h0 | h0
          · subst h0
            rw [Nat.add_zero, Nat.mod_eq_of_lt hok.index, hx1] at hop
            cases hop; exact absurd rfl hne
          · exact h0
        refine ⟨a, b - 1, .inr ⟨rfl, by omega⟩, l', hok', fun _ => ⟨ha, op, ?_, hne⟩, fun h => absurd (hl'.trans hlast) h⟩
        rw [hx2, hx3, Nat.mod_add_mod, show s.index + 1 + (b - 1) = s.index + b by omega]
        exact hop
    · exact ⟨0, 0, .inl (by omega), l', ⟨hok'.cap_pos, hok'.holds, hok'.index, hok'.progress⟩, by simp, by simp⟩
  · simp only [fillBody, hcond, pure_eq]
    exact ⟨l, hok⟩

theorem fill_sat (debug : Bool) (hP : P.Returns) {s : ProducerScrambler σ I F E} {l : List I} {n : Nat}
    (hs : s.Ok cap l n) : (s.fillQueue debug P).Sat fun (s', _) => ∃ l', s'.Ok cap l' n := by
  simp only [fillQueue, bind_eq, pure_eq]
  refine (fillLoop_sat debug hP hs).bind ?_
  rintro s' ⟨l', hok⟩
  split
  · exact ⟨l', hok.cap_pos, hok.holds, hok.index, hok.progress⟩
  · exact ⟨l', hok⟩

theorem produce_sat (debug : Bool) (hP : P.Returns) {s : ProducerScrambler σ I F E} {l : List I} {n : Nat}
    (hs : s.Ok cap l n) : ((producerScrambler debug P).produce s).Sat fun (s', _) => ∃ l' n', s'.Ok cap l' n' := by
  simp only [producerScrambler, produce, bind_eq, pure_eq]
  refine (fill_sat debug hP hs).bind ?_
  rintro ⟨s', r⟩ ⟨l', hok⟩
  rcases r with _ | r
  · cases l' with
    | nil =>
      have := (Fixed.fifoLaw I cap).dequeue_empty _ _ _ hok.holds
      have : s'.buffer.dequeue = ok (s'.buffer, none) := this
      simp only [this, bind_ok, unwrap_none, bind_panic]
      trivial
    | cons x l' =>
      obtain ⟨b, hb1, hb2⟩ := hok.holds.dequeue
      simp only [hb1, bind_ok, unwrap_some]
      exact ⟨l', n - 1, hok.cap_pos, hb2, hok.index, hok.progress⟩
  · exact ⟨l', n, hok⟩

theorem slurp_sat (debug : Bool) (hP : P.Returns) {s : ProducerScrambler σ I F E} {l : List I} {n : Nat}
    (hs : s.Ok cap l n) : ((producerScrambler debug P).slurp s).Sat fun (s', _) => ∃ l' n', s'.Ok cap l' n' := by
  have hinner : ∀ s : ProducerScrambler σ I F E, ∀ l n, s.Ok cap l n →
      (slurpInner P s).Sat fun (s', _) => ∃ l' n', s'.Ok cap l' n' := by
    intro s l n hs
    simp only [slurpInner, bind_eq, pure_eq]
    refine (sat_true (hP.slurp s.inner)).bind ?_
    rintro ⟨inner, r⟩ -
    rcases r with e | ⟨⟩
    · by_cases h0 : s.buffer.len = 0
      · simp only [h0, ↓reduceIte]; exact ⟨l, n, hs.cap_pos, hs.holds, hs.index, hs.progress⟩
      · simp only [h0, ↓reduceIte]; exact ⟨l, n, hs.cap_pos, hs.holds, hs.index, hs.progress⟩
    · exact ⟨l, n, hs.cap_pos, hs.holds, hs.index, hs.progress⟩
  simp only [producerScrambler, slurp, bind_eq, pure_eq]
  refine (fill_sat debug hP hs).bind ?_
  rintro ⟨s', r⟩ ⟨l', hok⟩
  rcases r with _ | e | f
  · exact hinner _ _ _ hok
  · exact ⟨l', n, hok⟩
  · exact hinner _ l' n ⟨hok.cap_pos, hok.holds, hok.index, hok.progress⟩

theorem expose_sat (debug : Bool) (hP : P.Returns) {s : ProducerScrambler σ I F E} {l : List I} {n : Nat}
    (hs : s.Ok cap l n) : ((producerScrambler debug P).exposeItems s).Sat fun (s', r) =>
      ∃ l' n', s'.Ok cap l' n' ∧ ∀ xs, r = .ok (.inl xs) → xs.length ≤ n' := by
  simp only [producerScrambler, exposeItems, bind_eq, pure_eq]
  refine (fill_sat debug hP hs).bind ?_
  rintro ⟨s', r⟩ ⟨l', hok⟩
  rcases r with _ | e | f
  · by_cases hne : l' = []
    · subst hne
      have := (Fixed.fifoLaw I cap).exposeItems_empty _ _ _ hok.holds
      have : s'.buffer.exposeItems = ok (s'.buffer, none) := this
      simp only [this, bind_ok, unwrap_none, bind_panic]
      trivial
    · obtain ⟨b, m, hm0, hml, hb1, hb2⟩ := (Fixed.fifoLaw I cap).exposeItems _ _ _ _ hok.holds hne
      have hb1' : s'.buffer.exposeItems = ok (b, some (l'.take m)) := hb1
      simp only [hb1', bind_ok, unwrap_some]
      refine ⟨l', _, ⟨hok.cap_pos, hb2, hok.index, hok.progress⟩, ?_⟩
      intro xs hxs
      cases hxs
      simp only [List.length_take]; omega
  · exact ⟨l', n, hok, by simp [Except.map]⟩
  · exact ⟨l', n, hok, by simp [Except.map]⟩

theorem consider_ok (debug : Bool) {s : ProducerScrambler σ I F E} {l : List I} {n k : Nat} (hs : s.Ok cap l n)
    (hk : k ≤ n) : ∃ s', (producerScrambler debug P).considerProduced s k = ok (s', .ok ()) ∧
      s'.Ok cap (l.drop k) (n - k) := by
  obtain ⟨b, hb1, hb2⟩ := (Fixed.fifoLaw I cap).considerDequeued _ _ _ _ k hs.holds hk hs.cap_pos
  have hb1' : s.buffer.considerDequeued k = ok b := hb1
  exact ⟨{ s with buffer := b }, by simp [producerScrambler, considerProduced, hb1'], hs.cap_pos, hb2, hs.index, hs.progress⟩

theorem bulk_sat (debug : Bool) (hP : P.Returns) {s : ProducerScrambler σ I F E} {l : List I} {n : Nat}
    (hs : s.Ok cap l n) (buf : List I) : ((producerScrambler debug P).bulkProduce s buf).Sat fun (s', _) =>
      ∃ l' n', s'.Ok cap l' n' := by
  show (bulkProduceDefault (producerScrambler debug P).exposeItems (producerScrambler debug P).considerProduced s buf).Sat _
  simp only [bulkProduceDefault, bind_eq, pure_eq]
  refine (expose_sat debug hP hs).bind ?_
  rintro ⟨s', r⟩ ⟨l', n', hok, hxs⟩
  rcases r with e | xs | f
  · exact ⟨l', n', hok⟩
  · have := hxs xs rfl
    obtain ⟨s'', h1, h2⟩ := consider_ok (P := P) debug hok (k := min xs.length buf.length) (by omega)
    simp only [h1, bind_ok]
    exact ⟨_, _, h2⟩
  · exact ⟨l', n', hok⟩

/-- Along every history of calls. -/
theorem runs_ok (debug : Bool) (hP : P.Returns) {s₀ s : ProducerScrambler σ I F E} {handed shown : List I}
    {ended : Option (Except E F)} (h₀ : s₀.Ok cap [] 0)
    (h : ProducerRuns (producerScrambler debug P) s₀ handed s shown ended) :
    ∃ l n, s.Ok cap l n ∧ shown.length ≤ n := by
  induction h with
  | start => exact ⟨[], 0, h₀, by simp⟩
  | @call handed s shown op s' r _ hop hcall ih =>
    obtain ⟨l, n, hok, hn⟩ := ih
    have key : ((producerScrambler debug P).call s shown op).Sat (fun (s', r) => ∃ l n, s'.Ok cap l n ∧ r.shown.length ≤ n) := by
      cases op with
      | produce =>
        refine (produce_sat debug hP hok).bind ?_
        rintro ⟨s', e | x | f⟩ ⟨l', n', h⟩ <;> exact ⟨l', n', h, by simp⟩
      | slurp =>
        refine (slurp_sat debug hP hok).bind ?_
        rintro ⟨s', e | ⟨⟩⟩ ⟨l', n', h⟩ <;> exact ⟨l', n', h, by simp⟩
      | exposeItems =>
        refine (expose_sat debug hP hok).bind ?_
        rintro ⟨s', e | x | f⟩ ⟨l', n', h, h'⟩
        · exact ⟨l', n', h, by simp⟩
        · exact ⟨l', n', h, h' x rfl⟩
        · exact ⟨l', n', h, by simp⟩
      | considerProduced k =>
        obtain ⟨s'', h1, h2⟩ := consider_ok (P := P) debug hok (k := k) (Nat.le_trans hop.2 hn)
        simp only [BulkProducer.call, h1, bind_ok]
        exact ⟨_, _, h2, by simp only [List.length_drop]; omega⟩
      | bulkProduce buf =>
        refine (bulk_sat debug hP hok buf).bind ?_
        rintro ⟨s', e | x | f, _⟩ ⟨l', n', h⟩ <;> exact ⟨l', n', h, by simp⟩
    exact key.of_ok hcall

/-- Every method call ends. -/
theorem call_ends (debug : Bool) (hP : P.Returns) {s : ProducerScrambler σ I F E} {l shown : List I} {n : Nat}
    (hs : s.Ok cap l n) (hn : shown.length ≤ n) {op : ProducerOp I} (hop : op.Allowed shown) :
    (producerScrambler debug P).call s shown op ≠ diverge := by
  cases op with
  | produce =>
    refine ((produce_sat debug hP hs).bind (Q' := fun _ => True) ?_).ne_diverge
    rintro ⟨s', e | x | f⟩ _ <;> trivial
  | slurp =>
    refine ((slurp_sat debug hP hs).bind (Q' := fun _ => True) ?_).ne_diverge
    rintro ⟨s', e | ⟨⟩⟩ _ <;> trivial
  | exposeItems =>
    refine ((expose_sat debug hP hs).bind (Q' := fun _ => True) ?_).ne_diverge
    rintro ⟨s', e | x | f⟩ _ <;> trivial
  | considerProduced k =>
    obtain ⟨s'', h1, h2⟩ := consider_ok (P := P) debug hs (k := k) (Nat.le_trans hop.2 hn)
    simp [BulkProducer.call, h1]
  | bulkProduce buf =>
    refine ((bulk_sat debug hP hs buf).bind (Q' := fun _ => True) ?_).ne_diverge
    rintro ⟨s', e | x | f, _⟩ _ <;> trivial

end ProducerScrambler

namespace ConsumerScrambler

variable {C : BulkConsumer σ I F E} {cap : Nat}

theorem perform_sat (debug : Bool) (hC : C.Returns) {s : ConsumerScrambler σ I} {b slots : List I}
    (hs : s.Ok cap b slots) (hb : b ≠ []) :
    (s.performOperation debug C).Sat fun (s', r) => ∃ b', s'.Ok cap b' [] ∧
      (r = .ok () → b'.length < b.length ∨ (b' = b ∧ s.operations[s.index]? = some .flush ∧
        s'.operations = s.operations ∧ s'.index = (s.index + 1) % s.operations.length)) := by
  have hop : s.operations[s.index]? = some (s.operations[s.index]'hs.index) := List.getElem?_eq_getElem hs.index
  have hs := hs.hide
  simp only [performOperation, index_of_lt hs.index, bind_eq, bind_ok]
  refine (sat_debugAssert debug _).bind fun _ _ => ?_
  cases hcase : s.operations[s.index]'hs.index with
  | consume =>
    obtain ⟨x, b, rfl⟩ := List.exists_cons_of_ne_nil hb
    obtain ⟨q, hq1, hq2⟩ := hs.holds.dequeue
    simp only [hq1, bind_ok, unwrap_some]
    refine (sat_true (hC.consume s.inner x)).bind ?_
    rintro ⟨inner, r⟩ -
    have hok : Ok cap { s with inner := inner, buffer := q } b [] := ⟨hs.cap_pos, hq2, hs.index, hs.progress⟩
    obtain ⟨ha, ha'⟩ := hok.advance
    rcases r with e | ⟨⟩
    · exact ⟨b, hok, by simp⟩
    · simp only [ha, bind_ok, pure_eq]
      exact ⟨b, ha', fun _ => .inl (by simp)⟩
  | flush =>
    refine (sat_true (hC.flush s.inner)).bind ?_
    rintro ⟨inner, r⟩ -
    have hok : Ok cap { s with inner := inner } b [] := ⟨hs.cap_pos, hs.holds, hs.index, hs.progress⟩
    obtain ⟨ha, ha'⟩ := hok.advance
    rcases r with e | ⟨⟩
    · exact ⟨b, hok, by simp⟩
    · simp only [ha, bind_ok, pure_eq]
      exact ⟨b, ha', fun _ => .inr ⟨rfl, by rw [hop, hcase], rfl, rfl⟩⟩
  | consumeSlots n =>
    refine (sat_true (hC.expose s.inner)).and_eq.bind ?_
    rintro ⟨inner, r⟩ ⟨-, hex⟩
    rcases r with e | xs
    · exact ⟨b, ⟨hs.cap_pos, hs.holds, hs.index, hs.progress⟩, by simp⟩
    · have hne : xs ≠ [] := by rintro rfl; exact hC.expose_ne _ _ hex
      have hxs : 0 < xs.length := List.length_pos_iff.mpr hne
      have hn := n.2
      have hsl : slice xs 0 (min xs.length n) = ok (xs.take (min xs.length n)) := by
        rw [slice_of_le (Nat.zero_le _) (by omega)]; simp
      have hlt : (xs.take (min xs.length n)).length = min xs.length n := by simp
      obtain ⟨q, k, hq1, hq2, hq3, hq4, ⟨m, hq5, -⟩, -⟩ :=
        (Fixed.fifoLaw I cap).bulkDequeue_call hs.holds (xs.take (min xs.length n))
      have hkpos : 0 < k := by
        rcases Nat.eq_zero_or_pos k with h0 | h0
        · rcases hq4 h0 with h | h
          · rw [h] at hlt; simp only [List.length_nil] at hlt; omega
          · exact absurd h hb
        · exact h0
      simp only [bind_ok, hsl]
      rw [show (Fixed.queue I).bulkDequeue s.buffer (xs.take (min xs.length n)) = _ from hq1]
      simp only [bind_ok]
      refine (sat_true (hC.consumeSlots _ k)).bind ?_
      rintro ⟨inner2, r⟩ -
      have hok : Ok cap { s with inner := inner2, buffer := q } (b.drop k) [] :=
        ⟨hs.cap_pos, hq5.show (Nat.zero_le _), hs.index, hs.progress⟩
      obtain ⟨ha, ha'⟩ := hok.advance
      rcases r with e | ⟨⟩
      · exact ⟨_, hok, by simp⟩
      · simp only [ha, bind_ok, pure_eq]
        exact ⟨_, ha', fun _ => .inl (by simp only [List.length_drop]; omega)⟩

theorem drain_sat (debug : Bool) (hC : C.Returns) {s : ConsumerScrambler σ I} {b slots : List I}
    (hs : s.Ok cap b slots) :
    (s.drain debug C).Sat fun (s', r) => ∃ b', s'.Ok cap b' [] ∧ (r = .ok () → b' = []) := by
  obtain ⟨dist, op, hd⟩ := ahead hs.progress hs.index
  refine loop_sat (fun n m s => ∃ b, s.Ok cap b [] ∧ n = b.length ∧
      ∃ op, s.operations[(s.index + m) % s.operations.length]? = some op ∧ op ≠ .flush) _ ?_ (a := b.length) (b := dist)
    ⟨b, hs.hide, rfl, op, hd⟩
  rintro n m s ⟨b, hok, rfl, op, hop, hne⟩
  by_cases hb : b = []
  · subst hb
    have := hok.len
    simp only [List.length_nil] at this
    simp only [drainBody, this, gt_iff_lt, Nat.lt_irrefl, ↓reduceIte, pure_eq]
    exact ⟨[], hok, fun _ => rfl⟩
  · have hbl : 0 < b.length := List.length_pos_iff.mpr hb
    have hlen : s.buffer.len > 0 := by rw [hok.len]; exact hbl
    simp only [drainBody, hlen, ↓reduceIte, bind_eq]
    refine (perform_sat debug hC hok hb).bind ?_
    rintro ⟨s', e | ⟨⟩⟩ ⟨b', hok', hprog⟩
    · exact ⟨b', hok', by simp⟩
    · rcases hprog rfl with hlt | ⟨rfl, hx1, hx2, hx3⟩
      · obtain ⟨d', op', hd'⟩ := ahead hok'.progress hok'.index
        exact ⟨b'.length, d', .inl hlt, b', hok', rfl, op', hd'⟩
      · have hm : 0 < m := by
          rcases Nat.eq_zero_or_pos m with h0 | h0
          · subst h0
            rw [Nat.add_zero, Nat.mod_eq_of_lt hok.index, hx1] at hop
            cases hop; exact absurd rfl hne
          · exact h0
        refine ⟨b'.length, m - 1, .inr ⟨rfl, by omega⟩, b', hok', rfl, op, ?_, hne⟩
        rw [hx2, hx3, Nat.mod_add_mod, show s.index + 1 + (m - 1) = s.index + m by omega]
        exact hop

theorem close_sat (debug : Bool) (hC : C.Returns) {s : ConsumerScrambler σ I} {b slots : List I} (hs : s.Ok cap b slots)
    (f : F) : ((consumerScrambler debug C).close s f).Sat fun (s', _) => ∃ b', s'.Ok cap b' [] := by
  simp only [consumerScrambler, close, bind_eq, pure_eq]
  refine (drain_sat debug hC hs).bind ?_
  rintro ⟨s', e | ⟨⟩⟩ ⟨b', hok, _⟩
  · exact ⟨b', hok⟩
  · refine (sat_true (hC.close _ f)).bind ?_
    rintro ⟨inner, r⟩ -
    exact ⟨b', hok.cap_pos, hok.holds, hok.index, hok.progress⟩

theorem flush_sat (debug : Bool) (hC : C.Returns) {s : ConsumerScrambler σ I} {b slots : List I} (hs : s.Ok cap b slots) :
    ((consumerScrambler debug C).flush s).Sat fun (s', _) => ∃ b', s'.Ok cap b' [] := by
  simp only [consumerScrambler, flush, bind_eq, pure_eq]
  refine (drain_sat debug hC hs).bind ?_
  rintro ⟨s', e | ⟨⟩⟩ ⟨b', hok, _⟩
  · exact ⟨b', hok⟩
  · refine (sat_true (hC.flush _)).bind ?_
    rintro ⟨inner, r⟩ -
    exact ⟨b', hok.cap_pos, hok.holds, hok.index, hok.progress⟩

theorem consume_sat (debug : Bool) (hC : C.Returns) {s : ConsumerScrambler σ I} {b slots : List I} (hs : s.Ok cap b slots)
    (x : I) : ((consumerScrambler debug C).consume s x).Sat fun (s', _) => ∃ b', s'.Ok cap b' [] := by
  simp only [consumerScrambler, consume, bind_eq, pure_eq]
  have hbd := hs.holds.bound
  by_cases hl : b.length < cap
  · obtain ⟨q, h1, h2⟩ := (Fixed.fifoLaw I cap).enqueue _ _ _ _ x hs.holds hl
    have h1' : s.buffer.enqueue x = ok (q, none) := h1
    simp only [h1', bind_ok]
    exact ⟨_, hs.cap_pos, h2, hs.index, hs.progress⟩
  · have h1 := (Fixed.fifoLaw I cap).enqueue_full _ _ _ _ x hs.holds (by omega)
    have h1' : s.buffer.enqueue x = ok (s.buffer, some x) := h1
    simp only [h1', bind_ok]
    refine (drain_sat debug hC hs).bind ?_
    rintro ⟨s', e | ⟨⟩⟩ ⟨b', hok, hb'⟩
    · exact ⟨b', hok⟩
    · obtain rfl := hb' rfl
      obtain ⟨q, h3, h4⟩ := (Fixed.fifoLaw I cap).enqueue _ _ _ _ x hok.holds hok.cap_pos
      have h3' : s'.buffer.enqueue x = ok (q, none) := h3
      simp only [h3', bind_ok]
      refine (sat_debugAssert debug _).bind fun _ _ => ?_
      exact ⟨_, hok.cap_pos, h4, hok.index, hok.progress⟩

theorem expose_sat (debug : Bool) (hC : C.Returns) {s : ConsumerScrambler σ I} {b slots : List I} (hs : s.Ok cap b slots) :
    ((consumerScrambler debug C).exposeSlots s).Sat fun (s', r) => ∃ b' slots', s'.Ok cap b' slots' ∧
      ∀ sl, r = .ok sl → sl = slots' := by
  simp only [consumerScrambler, exposeSlots, bind_eq, pure_eq, hs.len, hs.capacity]
  by_cases hl : b.length < cap
  · obtain ⟨q, slots', h1, h2, h3⟩ := expose_buffer hs hl
    simp only [hl, ↓reduceIte, h2, bind_ok, unwrap_some]
    exact ⟨_, slots', h3, by rintro sl ⟨⟩; rfl⟩
  · simp only [hl, ↓reduceIte]
    refine (drain_sat debug hC hs).bind ?_
    rintro ⟨s', e | ⟨⟩⟩ ⟨b', hok, hb'⟩
    · exact ⟨b', [], hok, by simp⟩
    · obtain rfl := hb' rfl
      obtain ⟨q, slots', h2, h3, h4⟩ := expose_buffer hok hok.cap_pos
      simp only [h3, bind_ok, unwrap_some]
      exact ⟨_, slots', h4, by rintro sl ⟨⟩; rfl⟩

theorem consumeSlots_ok (debug : Bool) {s : ConsumerScrambler σ I} {b slots : List I} (hs : s.Ok cap b slots) {k : Nat}
    (hk : k ≤ slots.length) : ∃ s', (consumerScrambler debug C).consumeSlots s k = ok (s', .ok ()) ∧
      s'.Ok cap (b ++ slots.take k) (slots.drop k) := by
  obtain ⟨q, h1, h2⟩ := (Fixed.fifoLaw I cap).considerEnqueued _ _ _ _ k hs.holds hk
  have h1' : s.buffer.considerEnqueued k = ok q := h1
  exact ⟨{ s with buffer := q }, by simp [consumerScrambler, consumeSlots, h1'],
    hs.cap_pos, h2, hs.index, hs.progress⟩

theorem write_ok (debug : Bool) {s : ConsumerScrambler σ I} {b slots ws : List I} (hs : s.Ok cap b slots)
    (hw : ws.length ≤ slots.length) :
    Ok cap ((consumerScrambler debug C).writeSlots s ws) b (ws ++ slots.drop ws.length) :=
  ⟨hs.cap_pos, (Fixed.fifoLaw I cap).write _ _ _ _ ws hs.holds hw, hs.index, hs.progress⟩

theorem bulk_sat (debug : Bool) (hC : C.Returns) {s : ConsumerScrambler σ I} {b slots : List I} (hs : s.Ok cap b slots)
    (buf : List I) : ((consumerScrambler debug C).bulkConsume s buf).Sat fun (s', _) => ∃ b' slots', s'.Ok cap b' slots' := by
  show (bulkConsumeDefault (consumerScrambler debug C).exposeSlots (consumerScrambler debug C).writeSlots
    (consumerScrambler debug C).consumeSlots s buf).Sat _
  simp only [bulkConsumeDefault, bind_eq, pure_eq]
  refine (expose_sat debug hC hs).bind ?_
  rintro ⟨s', e | sl⟩ ⟨b', slots', hok, hsl⟩
  · exact ⟨b', slots', hok⟩
  · obtain rfl := hsl sl rfl
    have hlt : (buf.take (min sl.length buf.length)).length = min sl.length buf.length := by simp
    have hw := write_ok (C := C) debug hok (ws := buf.take (min sl.length buf.length)) (by omega)
    obtain ⟨s'', h1, h2⟩ := consumeSlots_ok (C := C) debug hw (k := min sl.length buf.length)
      (by simp only [List.length_append, hlt]; omega)
    simp only [h1, bind_ok]
    exact ⟨_, _, h2⟩

theorem runs_ok (debug : Bool) (hC : C.Returns) {s₀ s : ConsumerScrambler σ I} {taken slots : List I}
    {ended : Option (ConsumerEnd I F E)} (h₀ : s₀.Ok cap [] [])
    (h : ConsumerRuns (consumerScrambler debug C) s₀ taken s slots ended) :
    ∃ b sl, s.Ok cap b sl ∧ (slots ≠ [] → slots = sl) := by
  induction h with
  | start => exact ⟨[], [], h₀, by simp⟩
  | @call taken s slots op s' r _ hop hcall ih =>
    obtain ⟨b, sl, hok, hsl⟩ := ih
    have key : ((consumerScrambler debug C).call s slots op).Sat
        (fun (s', r) => ∃ b sl, s'.Ok cap b sl ∧ (r.slots ≠ [] → r.slots = sl)) := by
      cases op with
      | consume x =>
        refine (consume_sat debug hC hok x).bind ?_
        rintro ⟨s', e | ⟨⟩⟩ ⟨b', h⟩ <;> exact ⟨b', [], h, by simp⟩
      | flush =>
        refine (flush_sat debug hC hok).bind ?_
        rintro ⟨s', e | ⟨⟩⟩ ⟨b', h⟩ <;> exact ⟨b', [], h, by simp⟩
      | close f =>
        refine (close_sat debug hC hok f).bind ?_
        rintro ⟨s', e | ⟨⟩⟩ ⟨b', h⟩ <;> exact ⟨b', [], h, by simp⟩
      | exposeSlots =>
        refine (expose_sat debug hC hok).bind ?_
        rintro ⟨s', e | sl'⟩ ⟨b', slots', h, h'⟩
        · exact ⟨b', slots', h, by simp⟩
        · exact ⟨b', slots', h, fun _ => h' sl' rfl⟩
      | write ws =>
        by_cases hne : slots = []
        · subst hne
          have : ws = [] := by simpa [ConsumerOp.Allowed] using hop
          subst this
          exact ⟨b, _, write_ok (C := C) debug hok (ws := []) (by simp), by simp⟩
        · obtain rfl := hsl hne
          exact ⟨b, _, write_ok (C := C) debug hok hop, fun _ => rfl⟩
      | consumeSlots k =>
        obtain ⟨hne, hk⟩ := hop
        obtain rfl := hsl hne
        obtain ⟨s'', h1, h2⟩ := consumeSlots_ok (C := C) debug hok hk
        simp only [BulkConsumer.call, h1, bind_ok]
        exact ⟨_, _, h2, fun _ => rfl⟩
      | bulkConsume buf =>
        refine (bulk_sat debug hC hok buf).bind ?_
        rintro ⟨s', e | k⟩ ⟨b', slots', h⟩ <;> exact ⟨b', slots', h, by simp⟩
    exact key.of_ok hcall

theorem call_ends (debug : Bool) (hC : C.Returns) {s : ConsumerScrambler σ I} {b slots sl : List I} (hs : s.Ok cap b sl)
    (hsl : slots ≠ [] → slots = sl) {op : ConsumerOp I F} (hop : op.Allowed slots) :
    (consumerScrambler debug C).call s slots op ≠ diverge := by
  cases op with
  | consume x =>
    refine ((consume_sat debug hC hs x).bind (Q' := fun _ => True) ?_).ne_diverge
    rintro ⟨s', e | ⟨⟩⟩ _ <;> trivial
  | flush =>
    refine ((flush_sat debug hC hs).bind (Q' := fun _ => True) ?_).ne_diverge
    rintro ⟨s', e | ⟨⟩⟩ _ <;> trivial
  | close f =>
    refine ((close_sat debug hC hs f).bind (Q' := fun _ => True) ?_).ne_diverge
    rintro ⟨s', e | ⟨⟩⟩ _ <;> trivial
  | exposeSlots =>
    refine ((expose_sat debug hC hs).bind (Q' := fun _ => True) ?_).ne_diverge
    rintro ⟨s', e | sl'⟩ _ <;> trivial
  | write ws => simp [BulkConsumer.call]
  | consumeSlots k =>
    obtain ⟨hne, hk⟩ := hop
    obtain rfl := hsl hne
    obtain ⟨s'', h1, h2⟩ := consumeSlots_ok (C := C) debug hs hk
    simp [BulkConsumer.call, h1]
  | bulkConsume buf =>
    refine ((bulk_sat debug hC hs buf).bind (Q' := fun _ => True) ?_).ne_diverge
    rintro ⟨s', e | k⟩ _ <;> trivial

end ConsumerScrambler

end

end Verif
