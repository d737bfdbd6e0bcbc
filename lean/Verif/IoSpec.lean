import Verif.Spec
import Verif.Model.Io

/-!
# Specification of readers and writers

What the contracts of `AsyncRead`, `AsyncBufRead` and `AsyncWrite` promise, whatever amounts are transferred by each call.
-/

namespace Verif

open Outcome

/-- The sequence contains no error of kind `UnexpectedEof` (which the code under verification uses to recognise the end). -/
def Script.NoUnexpectedEof {I F : Type} (c : Script I F IoError) : Prop :=
  ∀ i e, c i = .error e → e.kind ≠ .unexpectedEof

/-- `R r c`: the reader in state `r` is going to deliver `c` (bytes, then the end of the stream or an error). `read` into a
non-empty buffer delivers any positive number of the next bytes that fit into the buffer, `0` at the end of the stream (and
only then), or the error if that is next. It does not change the length of the buffer, but may change all of its contents. -/
structure ReadsLaw {ρ : Type} (Rd : AsyncRead ρ) (R : ρ → Script UInt8 Unit IoError → Prop) : Prop where
  read : ∀ r c buf, R r c → buf ≠ [] → ∃ r' buf', buf'.length = buf.length ∧
    ((∃ k, 0 < k ∧ k ≤ buf.length ∧ Rd.read r buf = ok (r', .ok k, buf') ∧ c.StartsWith (buf'.take k) ∧
        R r' (c.drop k)) ∨
     (c 0 = .ok (.inr ()) ∧ Rd.read r buf = ok (r', .ok 0, buf')) ∨
     (∃ e, c 0 = .error e ∧ Rd.read r buf = ok (r', .error e, buf')))

/-- The reader in state `r` delivers `c`. -/
def Reads {ρ : Type} (Rd : AsyncRead ρ) (r : ρ) (c : Script UInt8 Unit IoError) : Prop := ∃ R, ReadsLaw Rd R ∧ R r c

/-- `R r c n`: in addition, the first `n` bytes of `c` are in the internal buffer that the last call of `fill_buf` returned.
`fill_buf` returns the next bytes, none at the end of the stream (and only then, and the stream is still at its end
afterwards). `consume(k)`, for `k` at most the number of bytes in the internal buffer, skips `k` bytes. -/
structure BufReadsLaw {ρ : Type} (Rd : AsyncBufRead ρ) (R : ρ → Script UInt8 Unit IoError → Nat → Prop) : Prop where
  read : ReadsLaw Rd.toAsyncRead (fun r c => ∃ n, R r c n)
  fillBuf : ∀ r c n, R r c n → ∃ r',
    (∃ xs, xs ≠ [] ∧ c.StartsWith xs ∧ Rd.fillBuf r = ok (r', .ok xs) ∧ R r' c xs.length) ∨
    (c 0 = .ok (.inr ()) ∧ Rd.fillBuf r = ok (r', .ok []) ∧ R r' c 0) ∨
    (∃ e, c 0 = .error e ∧ Rd.fillBuf r = ok (r', .error e))
  consume : ∀ r c n k, R r c n → k ≤ n → ∃ r', Rd.consume r k = ok r' ∧ R r' (c.drop k) (n - k)

/-- The buffered reader in state `r` delivers `c`. -/
def BufReads {ρ : Type} (Rd : AsyncBufRead ρ) (r : ρ) (c : Script UInt8 Unit IoError) : Prop :=
  ∃ R, BufReadsLaw Rd R ∧ ∃ n, R r c n

/-- How a writer may fail, depending on which bytes have been written to it so far: which errors writing, flushing and
closing may report, and whether writing may accept no bytes at all. -/
structure WriterFaults where
  write : List UInt8 → IoError → Prop
  stall : List UInt8 → Prop
  flush : List UInt8 → IoError → Prop
  close : List UInt8 → IoError → Prop

/-- `R w l`: exactly the bytes `l` have been written to the writer in state `w`, and all calls so far succeeded. `D w l f`: an
observer of the writer sees that the bytes `l` have been written, and whether it has been closed. `write` of a non-empty
buffer accepts any number of its first bytes. -/
structure WritesLaw {ω : Type} (W : AsyncWrite ω) (D : ω → List UInt8 → Option Unit → Prop) (X : WriterFaults)
    (R : ω → List UInt8 → Prop) : Prop where
  observe : ∀ w l, R w l → D w l none
  write : ∀ w l buf, R w l → buf ≠ [] → ∃ w',
    (∃ k, 0 < k ∧ k ≤ buf.length ∧ W.write w buf = ok (w', .ok k) ∧ R w' (l ++ buf.take k)) ∨
    (X.stall l ∧ W.write w buf = ok (w', .ok 0) ∧ D w' l none) ∨
    (∃ e, X.write l e ∧ W.write w buf = ok (w', .error e) ∧ D w' l none)
  flush : ∀ w l, R w l → ∃ w',
    (W.flush w = ok (w', .ok ()) ∧ R w' l) ∨
    (∃ e, X.flush l e ∧ W.flush w = ok (w', .error e) ∧ D w' l none)
  close : ∀ w l, R w l → ∃ w',
    (W.close w = ok (w', .ok ()) ∧ D w' l (some ())) ∨
    (∃ e, X.close l e ∧ W.close w = ok (w', .error e) ∧ D w' l none)

/-- The writer in state `w`, to which `l` has been written so far, respects the contract of `AsyncWrite`. -/
def Writes {ω : Type} (W : AsyncWrite ω) (D : ω → List UInt8 → Option Unit → Prop) (X : WriterFaults) (w : ω)
    (l : List UInt8) : Prop := ∃ R, WritesLaw W D X R ∧ R w l

/-- Writing fails after exactly the bytes `d` have been written: the writer reports an error or accepts no bytes. -/
def WriterFaults.writing (X : WriterFaults) (d : List UInt8) (e : IoError) : Prop :=
  X.write d e ∨ (X.stall d ∧ e.kind = .writeZero)

/-- The errors of a consumer that passes its items on to such a writer: some of the items offered have been written, and then
the writer failed. -/
def WriterFaults.faults (X : WriterFaults) : Faults UInt8 Unit IoError where
  during offered d e := d <+: offered ∧ (X.writing d e ∨ X.flush d e)
  exposing l d e := d <+: l ∧ (X.writing d e ∨ X.flush d e)
  closing l _ d e := d <+: l ∧ (X.writing d e ∨ X.flush d e ∨ (d = l ∧ X.close l e))

/-! ## Instrumentation

The adaptors are parametric in the reader or writer, so that every reader and writer can be replaced by one that also keeps a
record of the bytes that it has transferred. -/

/-- The same reader, also recording all bytes that it has delivered. -/
def AsyncRead.logged {ρ : Type} (Rd : AsyncRead ρ) : AsyncRead (ρ × List UInt8) where
  read := fun (r, log) buf => (Rd.read r buf).bind fun
    | (r, .ok n, buf) => ok ((r, log ++ buf.take n), .ok n, buf)
    | (r, .error e, buf) => ok ((r, log), .error e, buf)

/-- The reader does not change the lengths of buffers and never claims to have read more bytes than fit. -/
def AsyncRead.RespectsBuffers {ρ : Type} (Rd : AsyncRead ρ) : Prop :=
  ∀ r buf r' res buf', Rd.read r buf = ok (r', res, buf') → buf'.length = buf.length ∧ ∀ n, res = .ok n → n ≤ buf.length

/-- The same writer, also recording all bytes that it has accepted, and whether it has been closed. -/
def AsyncWrite.logged {ω : Type} (W : AsyncWrite ω) : AsyncWrite (ω × List UInt8 × Option Unit) where
  write := fun (w, log, closed) buf => (W.write w buf).bind fun
    | (w, .ok n) => ok ((w, log ++ buf.take n, closed), .ok n)
    | (w, .error e) => ok ((w, log, closed), .error e)
  flush := fun (w, log, closed) => (W.flush w).bind fun
    | (w, res) => ok ((w, log, closed), res)
  close := fun (w, log, closed) => (W.close w).bind fun
    | (w, .ok ()) => ok ((w, log, some ()), .ok ())
    | (w, .error e) => ok ((w, log, closed), .error e)

/-- The record of a writer that keeps one. -/
def logOf {ω : Type} (s : ω × List UInt8 × Option Unit) (l : List UInt8) (closed : Option Unit) : Prop :=
  s.2.1 = l ∧ s.2.2 = closed

/-- All methods of the writer return, and it never claims to have written more bytes than it was given. -/
structure AsyncWrite.Answers {ω : Type} (W : AsyncWrite ω) : Prop where
  write : ∀ w buf, ∃ w' res, W.write w buf = ok (w', res) ∧ ∀ n, res = .ok n → n ≤ buf.length
  flush : ∀ w, ∃ p, W.flush w = ok p
  close : ∀ w, ∃ p, W.close w = ok p

/-- A writer may fail in any way. -/
def WriterFaults.any : WriterFaults where
  write _ _ := True
  stall _ := True
  flush _ _ := True
  close _ _ := True

end Verif
