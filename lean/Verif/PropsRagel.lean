import Verif.RagelSim
import Verif.Obs
/-!
# C55: the generated parser does what the grammar says

`Grammar.parse` is the parser that `machine.go.rl` describes: the expressions of that file, read with the meaning that
the Ragel guide gives to the operators (`Ragel.lean`).  `Machine.parse` is the code in `machine.go`.
-/
set_option autoImplicit false
namespace Urn

/-- The parse of a machine that has just been given a known mode, whatever was done with it before: what it returns, the
error, and the buffer afterwards are what the grammar says (and if one of them panicked or did not end, so would the
other). -/
theorem C55_machine (m : Machine) (mode : ParsingMode) (h : KnownMode mode) (s : Bytes) :
    (do let r ← (m.withParsingMode mode).parse s; pure (r.urn, r.err, r.m.data)) =
      Grammar.parse (Grammar.instOf mode) mode s := by
  rcases h with rfl | rfl | rfl
  · exact Grammar.parse_both (m.withParsingMode RFC2141Only) .main rfl s
  · exact Grammar.parse_both (m.withParsingMode RFC7643Only) .scimOnly rfl s
  · exact Grammar.parse_both (m.withParsingMode RFC8141Only) .rfc8141Only rfl s

example := C55_machine {} RFC8141Only (Or.inr (Or.inr rfl)) (lit "urn:ab:c?+r")

/-- `Parse(s, WithParsingMode(mode))`. -/
theorem C55_parse (mode : ParsingMode) (h : KnownMode mode) (s : Bytes) :
    parse s [withParsingMode mode] =
      (do let (u, e, buffer) ← Grammar.parse (Grammar.instOf mode) mode s
          match e with
          | some _ => pure ⟨none, false, buffer⟩
          | none => pure ⟨u, true, buffer⟩) := by
  rw [← C55_machine { parsingModeSet := false } mode h s]
  have hm : newMachine [withParsingMode mode] = .ok (({ parsingModeSet := false } : Machine).withParsingMode mode) := by
    rcases h with rfl | rfl | rfl <;> rfl
  simp only [parse, hm]
  show (do let r ← (({ parsingModeSet := false } : Machine).withParsingMode mode).parse s
           match r.err with
           | some _ => pure ⟨none, false, r.m.data⟩
           | none => pure ⟨r.urn, true, r.m.data⟩ : Run ParseResult) = _
  cases (({ parsingModeSet := false } : Machine).withParsingMode mode).parse s with
  | ok r => rfl
  | panic p => rfl
  | diverge => rfl

example := C55_parse RFC7643Only (Or.inr (Or.inl rfl)) (lit "urn:ietf:params:scim:api:x")

/-- `Parse(s)` without options. -/
theorem C55_default (s : Bytes) :
    parse s [] =
      (do let (u, e, buffer) ← Grammar.parse .main RFC2141Only s
          match e with
          | some _ => pure ⟨none, false, buffer⟩
          | none => pure ⟨u, true, buffer⟩) :=
  C55_parse RFC2141Only (.inl rfl) s

/-- A machine whose mode is set to an unknown one goes on with the part of the grammar that it had. -/
theorem C55_unknown (m : Machine) (x y : ParsingMode) (hx : KnownMode x) (hy : ¬ KnownMode y) (s : Bytes) :
    (do let r ← ((m.withParsingMode x).withParsingMode y).parse s; pure (r.urn, r.err, r.m.data)) =
      Grammar.parse (Grammar.instOf x) y s := by
  simp only [KnownMode, not_or] at hy
  have e : (m.withParsingMode x).withParsingMode y =
      { m.withParsingMode x with parsingMode := y, parsingModeSet := true } := by
    show Machine.mk .. = _
    simp [Machine.withParsingMode, hy.1, hy.2.1, hy.2.2]
  rw [e]
  rcases hx with rfl | rfl | rfl
  · exact Grammar.parse_both { m.withParsingMode RFC2141Only with parsingMode := y, parsingModeSet := true } .main rfl s
  · exact Grammar.parse_both { m.withParsingMode RFC7643Only with parsingMode := y, parsingModeSet := true } .scimOnly rfl s
  · exact Grammar.parse_both { m.withParsingMode RFC8141Only with parsingMode := y, parsingModeSet := true } .rfc8141Only rfl s

example := C55_unknown {} RFC7643Only DefaultMode (Or.inr (Or.inl rfl)) (by unfold KnownMode; decide) (lit "urn:ietf:params:scim:api:x")

/-! What the grammar says of some texts: accepted with the pieces, or rejected with an error. -/

/-- The pieces of a result. -/
def Grammar.view (i : Grammar.Inst) (mode : ParsingMode) (s : String) : Option (Option (String × String) × Option Err) :=
  match Grammar.parse i mode (lit s) with
  | .ok (u, e, _) => some (u.map fun u => (String.ofList (u.ID.map fun c => Char.ofNat c.toNat),
      String.ofList (u.SS.map fun c => Char.ofNat c.toNat)), e)
  | _ => none

example : Grammar.view .main RFC2141Only "urn:a:b%41" = some (some ("a", "b%41"), none) := by decide +kernel
example : Grammar.view .main RFC2141Only "urn:urn:b" = some (none, some ⟨.noUrnWithinID, 7⟩) := by decide +kernel
example : Grammar.view .scimOnly RFC7643Only "urn:ietf:params:scim:api:x" =
    some (some ("ietf:params:scim", "api:x"), none) := by decide +kernel
example : Grammar.view .rfc8141Only RFC8141Only "urn:ab:c?+r" = some (some ("ab", "c"), none) := by decide +kernel
example : Grammar.view .rfc8141Only RFC8141Only "urn:urn-x:c" = some (none, some ⟨.informalID8141, 7⟩) := by decide +kernel

end Urn
