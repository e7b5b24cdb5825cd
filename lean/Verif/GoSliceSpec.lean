import Verif.Conc
import Verif.GoRaceSpec
/-!
# What it means that a call writes to its input
-/
set_option autoImplicit false
namespace Urn.GoLang

/-- `Parse(s, WithParsingMode(x), ...)` writes to the byte of `s` with index `j`: so it is in the model (`Conc.lean`). -/
def WritesAt (xs : List ParsingMode) (s : Bytes) (j : Nat) : Prop :=
  ∃ m c, newMachine (xs.map withParsingMode) = .ok m ∧ (j, c) ∈ ((m.parseP s.length).alone s).2.2

/-- It writes to `s`. -/
def Writes (xs : List ParsingMode) (s : Bytes) : Prop := ∃ j, WritesAt xs s j

/-- The byte of `b` with index `k` is also a byte of this slice, which has this length. -/
def Buf.Holds : Buf → (len : Nat) → (b : Buf) → (k : Nat) → Prop
  | .part a pre _ _, len, .part a' pre' _ _, k => a = a' ∧ pre.length ≤ pre'.length + k ∧ pre'.length + k < pre.length + len
  | _, _, _, _ => False

end Urn.GoLang
