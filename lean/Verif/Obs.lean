import Verif.Urn
import Verif.Spec
/-!
# Vocabulary of the property theorems

What a user of the package can observe, in terms of the model of the API only.
-/
set_option autoImplicit false
namespace Urn

/-- `Parse(s, WithParsingMode(mode))` returned the non-nil URN `u`. -/
def ParsesTo (mode : ParsingMode) (s : Bytes) (u : URN) : Prop :=
  ∃ r, parse s [withParsingMode mode] = .ok r ∧ r.urn = some u

/-- `Parse(s, WithParsingMode(mode))` returned some non-nil URN. -/
def Accepts (mode : ParsingMode) (s : Bytes) : Prop := ∃ u, ParsesTo mode s u

/-- `Parse(s, WithParsingMode(mode))` returned `nil` and, on the machine, the error `e`. -/
def RejectsWith (mode : ParsingMode) (s : Bytes) (e : Err) : Prop :=
  ∃ m r, newMachine [withParsingMode mode] = .ok m ∧ m.parse s = .ok r ∧ r.urn = none ∧ r.err = some e

/-- The three parsing modes that select a grammar. -/
def KnownMode (mode : ParsingMode) : Prop := mode = RFC2141Only ∨ mode = RFC7643Only ∨ mode = RFC8141Only

/-- A machine that a client can hold: made by `NewMachine`, then used in any way. -/
def Reachable (m : Machine) : Prop :=
  ∃ opts ops m0 outs, newMachine opts = .ok m0 ∧ m0.execAll ops = .ok (m, outs)

end Urn
